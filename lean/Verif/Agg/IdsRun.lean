import Verif.Agg.Ids
/-
The coroutines of the aggregator keep the identities of rows and objects, whatever is interleaved with them.
-/
namespace OpenNSA.Agg
open OpenNSA Py Coro

/-- The coroutine keeps `Ids` under interference, and returns a result with `Q`. -/
def Spec (cfg : Cfg) {α : Type} (p : Prog α) (w : World) (Q : α → World → Prop) : Prop :=
  Ids cfg w → ∀ w0, Keep w0 w → Safe (Ids cfg) Keep p w0 w (fun a v0 v => Ids cfg v ∧ Keep v0 v ∧ Keep w v ∧ Q a v)

variable {cfg : Cfg} {α β : Type}

theorem Spec.bind {p : Prog α} {f : α → Prog β} {w : World} {Q : α → World → Prop} {R : β → World → Prop} (hp : Spec cfg p w Q)
    (hf : ∀ a v, Keep w v → Ids cfg v → Q a v → Spec cfg (f a) v R) : Spec cfg (p >>= f) w R := by
  intro hi w0 hk
  refine Safe.bind' (Safe.mono (hp hi w0 hk) ?_)
  rintro a v0 v ⟨h1, h2, h3, h4⟩
  refine Safe.mono (hf a v h3 h1 h4 h1 v0 h2) ?_
  rintro b u0 u ⟨g1, g2, g3, g4⟩
  exact ⟨g1, g2, h3.trans g3, g4⟩

theorem Spec.pure {a : α} {w : World} {Q : α → World → Prop} (h : Ids cfg w → Q a w) : Spec cfg (Coro.pure a) w Q :=
  fun hi _ hk => ⟨hi, hk, .refl w, h hi⟩

theorem Spec.throw {e : Err} {w : World} {Q : α → World → Prop} : Spec cfg (Coro.throw e) w Q := fun hi _ hk => ⟨hi, hk⟩

theorem Spec.ofExcept {r : Except Err α} {w : World} {Q : α → World → Prop} (h : ∀ a, r = .ok a → Q a w) : Spec cfg (Coro.ofExcept r) w Q :=
  fun hi _ hk => Safe.ofExcept hi hk fun a ha => ⟨hi, hk, .refl w, h a ha⟩

theorem Spec.mono {p : Prog α} {w : World} {Q R : α → World → Prop} (hp : Spec cfg p w Q) (h : ∀ a v, Keep w v → Ids cfg v → Q a v → R a v) :
    Spec cfg p w R := fun hi w0 hk => Safe.mono (hp hi w0 hk) fun a _ v h' => ⟨h'.1, h'.2.1, h'.2.2.1, h a v h'.2.2.1 h'.1 h'.2.2.2⟩

theorem Spec.cmd {c : Cmd β} {w : World} {Q : β → World → Prop} (hg : ∀ v, Keep w v → Ids cfg v → c.Guard cfg v)
    (h : ∀ v b, Keep w v → Ids cfg v → Ids cfg (exec v c).1 → (exec v c).2 = .ok b → ∀ v', Keep (exec v c).1 v' → Ids cfg v' → Q b v') :
    Spec cfg (issue c) w Q := by
  intro hi w0 hk
  cases hc : c.isAsync with
  | false =>
    have he := hi.exec c (hg w (.refl w) hi)
    exact Safe.sync hc (fun b hb => ⟨he.1, hk.trans he.2, he.2, h w b (.refl w) hi he.1 hb _ (.refl _) he.1⟩) (fun e _ => ⟨he.1, hk.trans he.2⟩)
  | true =>
    refine Safe.async hc hi hk (fun w1 h1 h2 => h2.exec c (hg w1 h1 h2)) ?_ Keep.refl
    intro w1 b h1 h2 hb w2 h3 h4
    have he := h2.exec c (hg w1 h1 h2)
    exact ⟨h4, .refl _, (h1.trans he.2).trans h3, h w1 b h1 h2 he.1 hb w2 h3 h4⟩

/-- A command whose result does not matter. -/
theorem Spec.cmd' {c : Cmd β} {w : World} (hg : ∀ v, Keep w v → Ids cfg v → c.Guard cfg v) : Spec cfg (issue c) w (fun _ _ => True) :=
  Spec.cmd hg fun _ _ _ _ _ _ _ _ _ => trivial

/-- The object of a connection. -/
def Conn (w : World) (ref : Nat) : Prop := ∃ id, IsC w ref id
/-- The object of a segment. -/
def Seg (w : World) (ref : Nat) : Prop := ∃ id, IsS w ref id

theorem Conn.keep {w w' : World} (hk : Keep w w') {ref : Nat} (h : Conn w ref) : Conn w' ref := by
  obtain ⟨id, h⟩ := h; exact ⟨id, h.keep hk⟩
theorem Seg.keep {w w' : World} (hk : Keep w w') {ref : Nat} (h : Seg w ref) : Seg w' ref := by
  obtain ⟨id, h⟩ := h; exact ⟨id, h.keep hk⟩

theorem Ids.hasKey {w : World} (h : Ids cfg w) {ref : Nat} {id : Nat × Str × Str} (hc : IsC w ref id) : HasKey w id.1 := by
  obtain ⟨o, h1, h2, h3⟩ := hc
  obtain ⟨r, hr, hid⟩ := h.cobj ref o h1 h2
  exact ⟨r, hr, by rw [← h3, ← hid]; rfl⟩

theorem Ids.hasSKey {w : World} (h : Ids cfg w) {ref : Nat} {id : Nat × Nat × Str × Str × Nat} (hc : IsS w ref id) : HasKey w id.2.1 := by
  obtain ⟨o, h1, h2, h3⟩ := hc
  have := h.nfk ref o h1
  rw [← h3]; exact this

theorem Ids.owns {w : World} (hi : Ids cfg w) {ref : Nat} {conn : CRow} (h : IsC w ref conn.id) : Owns w conn.cid conn.requester := by
  obtain ⟨o', h1, h2, h3⟩ := h
  obtain ⟨r, hr, hid⟩ := hi.cobj ref o' h1 h2
  have := hid.trans h3
  simp only [CRow.id, Prod.mk.injEq] at this
  exact ⟨r, hr, this.2.1, this.2.2⟩

/-- Reading a connection object. -/
theorem Spec.getC {ref : Nat} {w : World} {id : Nat × Str × Str} (hc : IsC w ref id) :
    Spec cfg (issue (.getC ref)) w (fun row v => IsC v ref id ∧ row.id = id) := by
  refine Spec.cmd (fun _ _ _ => trivial) fun v row hk hi _ hb v' hk' hi' => ?_
  obtain ⟨o, h1, h2, h3⟩ := hc.keep hk
  simp only [exec, h1, Except.ok.injEq] at hb hk'
  subst hb
  exact ⟨IsC.keep hk' ⟨o, h1, h2, h3⟩, h3⟩

/-- Reading a segment object. -/
theorem Spec.getS {ref : Nat} {w : World} {id : Nat × Nat × Str × Str × Nat} (hc : IsS w ref id) :
    Spec cfg (issue (.getS ref)) w (fun row v => IsS v ref id ∧ row.id = id) := by
  refine Spec.cmd (fun _ _ _ => trivial) fun v row hk hi _ hb v' hk' hi' => ?_
  obtain ⟨o, h1, h2, h3⟩ := hc.keep hk
  simp only [exec, h1, Except.ok.injEq] at hb hk'
  subst hb
  exact ⟨IsS.keep hk' ⟨o, h1, h2, h3⟩, h3⟩

/-- Changing a connection object. -/
theorem Spec.setC {ref : Nat} {row : CRow} {w : World} {id : Nat × Str × Str} (hc : IsC w ref id) (hid : row.id = id) :
    Spec cfg (issue (.setC ref row)) w (fun _ _ => True) := by
  refine Spec.cmd' fun v hk _ o ho => ?_
  obtain ⟨o', h1, h2, h3⟩ := hc.keep hk
  obtain rfl := Option.some.inj (ho.symm.trans h1)
  have := hid.trans h3.symm
  simp only [CRow.id, Prod.mk.injEq] at this
  exact ⟨this.2.1, this.2.2, fun _ => this.1⟩

/-- Changing a segment object. -/
theorem Spec.setS {ref : Nat} {row : SRow} {w : World} {id : Nat × Nat × Str × Str × Nat} (hc : IsS w ref id) (hid : row.id = id) :
    Spec cfg (issue (.setS ref row)) w (fun _ _ => True) := by
  refine Spec.cmd' fun v hk _ o ho => ?_
  obtain ⟨o', h1, h2, h3⟩ := hc.keep hk
  obtain rfl := Option.some.inj (ho.symm.trans h1)
  have := hid.trans h3.symm
  simp only [SRow.id, Prod.mk.injEq] at this
  exact ⟨this.2.2.1, this.2.2.2.1, this.2.1, this.2.2.2.2, fun _ => this.1⟩

theorem Spec.getConnection (cid : Str) (w : World) :
    Spec cfg (getConnection cid) w (fun ref v => ∃ id, IsC v ref id ∧ id.2.1 = cid) := by
  unfold Agg.getConnection
  refine Spec.bind (Q := fun r v => ∀ ref, r = some ref → ∃ id, IsC v ref id ∧ id.2.1 = cid) (Spec.cmd (fun _ _ _ => trivial) ?_) ?_
  · intro v b hk hi _ hb v' hk' hi' ref hr
    simp only [exec, Except.ok.injEq] at hb hk'
    obtain ⟨o, h1, h2, h3⟩ := hi.ccache cid ref (hb.trans hr)
    exact ⟨o.row.id, IsC.keep hk' ⟨o, h1, h2, rfl⟩, h3⟩
  · intro r v hk hi hr
    cases r with
    | some ref => exact Spec.pure fun _ => hr ref rfl
    | none =>
      refine Spec.bind (Q := fun r v => ∀ ref, r = some ref → ∃ id, IsC v ref id ∧ id.2.1 = cid) (Spec.cmd (fun _ _ _ => trivial) ?_) ?_
      · intro v b hk hi _ hb v' hk' hi' ref hr
        subst hr
        simp only [exec] at hb hk'
        cases hf : v.conns.find? (fun r => r.cid = cid) with
        | none => rw [hf] at hb; simp at hb
        | some r =>
          rw [hf] at hb hk'
          simp only [Except.ok.injEq, Option.some.injEq] at hb hk'
          subst hb
          exact ⟨r.id, IsC.keep hk' ⟨⟨r, false⟩, by simp, rfl, rfl⟩, by simpa [CRow.id] using List.find?_some hf⟩
      · intro r v hk hi hr
        cases r with
        | none => exact Spec.throw
        | some ref =>
          obtain ⟨id, h1, h2⟩ := hr ref rfl
          refine Spec.bind (Spec.cmd' fun v hk hi => ?_) fun _ v hk _ _ => Spec.pure fun _ => ⟨id, h1.keep hk, h2⟩
          obtain ⟨o, g1, g2, g3⟩ := h1.keep hk
          exact ⟨o, g1, g2, by rw [← h2, ← g3]; rfl⟩

theorem Spec.getConnectionByKey (key : Nat) (w : World) : Spec cfg (getConnectionByKey key) w (fun ref v => Conn v ref) := by
  unfold Agg.getConnectionByKey
  refine Spec.bind (Spec.cmd' fun _ _ _ => trivial) fun r v _ _ _ => ?_
  cases r with
  | none => exact Spec.throw
  | some cid => exact (Spec.getConnection cid v).mono fun a v _ _ ⟨id, h, _⟩ => ⟨id, h⟩

theorem Spec.getSubConnection (prov cid : Str) (w : World) : Spec cfg (getSubConnection prov cid) w (fun ref v => Seg v ref) := by
  unfold Agg.getSubConnection
  refine Spec.bind (Q := fun r v => ∀ ref, r = some ref → Seg v ref) (Spec.cmd (fun _ _ _ => trivial) ?_) ?_
  · intro v b hk hi _ hb v' hk' hi' ref hr
    simp only [exec, Except.ok.injEq] at hb hk'
    obtain ⟨o, h1, h2, h3⟩ := hi.scache cid ref (hb.trans hr)
    exact ⟨o.row.id, IsS.keep hk' ⟨o, h1, h2, rfl⟩⟩
  · intro r v hk hi hr
    cases r with
    | some ref => exact Spec.pure fun _ => hr ref rfl
    | none =>
      refine Spec.bind (Q := fun r v => List.Forall₂ (Found v) [(prov, cid)] r) (Spec.cmd (fun _ _ _ => trivial) ?_) ?_
      · intro v b hk hi _ hb v' hk' hi'
        simp only [exec, Except.ok.injEq] at hb hk'
        subst hb
        exact (hi.findSubs [(prov, cid)]).2.2.imp fun _ _ h => h.keep hk'
      · intro r v hk hi hr
        cases hr with
        | @cons _ b _ rs hb hrs =>
          cases hrs
          cases b with
          | none => exact Spec.throw
          | some ref =>
            obtain ⟨id, h1, h2, h3⟩ := hb ref rfl
            refine Spec.bind (Spec.cmd' fun v hk hi => ?_) fun _ v hk _ _ => Spec.pure fun _ => ⟨id, h1.keep hk⟩
            obtain ⟨o, g1, g2, g3⟩ := h1.keep hk
            rw [← g3] at h2
            exact ⟨o, g1, g2, h2⟩

theorem Forall₂.keepF {w w' : World} (hk : Keep w w') {l : List (Str × Str)} {rs : List (Option Nat)} (h : List.Forall₂ (Found w) l rs) :
    List.Forall₂ (Found w') l rs := h.imp fun _ _ h => h.keep hk

/-- Objects found in the cache. -/
def Cached (w : World) (r : Option Nat) : Prop := ∀ ref, r = some ref → Seg w ref

theorem Cached.keep {w w' : World} (hk : Keep w w') {r : Option Nat} (h : Cached w r) : Cached w' r := fun ref hr => (h ref hr).keep hk

theorem Spec.lookupSubs (l : List (Str × Str)) : ∀ w, Spec cfg (lookupSubs l) w (fun rs v => rs.length = l.length ∧ ∀ r ∈ rs, Cached v r) := by
  induction l with
  | nil => intro w; exact Spec.pure fun _ => ⟨rfl, by simp⟩
  | cons x xs ih =>
    intro w
    unfold Agg.lookupSubs
    refine Spec.bind (Q := fun r v => Cached v r) (Spec.cmd (fun _ _ _ => trivial) ?_) fun r v hk hi hr => ?_
    · intro v b hk hi _ hb v' hk' hi' ref hr
      simp only [exec, Except.ok.injEq] at hb hk'
      obtain ⟨o, h1, h2, h3⟩ := hi.scache x.2 ref (hb.trans hr)
      exact ⟨o.row.id, IsS.keep hk' ⟨o, h1, h2, rfl⟩⟩
    · refine Spec.bind (ih v) fun rs v' hk' hi' hrs => Spec.pure fun _ => ⟨by simp [hrs.1], ?_⟩
      intro a ha
      rcases List.mem_cons.mp ha with rfl | ha
      · exact hr.keep hk'
      · exact hrs.2 a ha

theorem Spec.mergeSubs : ∀ (l : List (Str × Str)) (cs fs : List (Option Nat)) (w : World), (∀ r ∈ cs, Cached w r) →
    List.Forall₂ (Found w) (missingSubs l cs) fs → Spec cfg (mergeSubs l cs fs) w (fun rs v => ∀ r ∈ rs, Seg v r)
  | [], _, _, w, _, _ => by unfold Agg.mergeSubs; exact Spec.pure fun _ => by simp
  | _ :: _, [], _, w, _, _ => by unfold Agg.mergeSubs; exact Spec.pure fun _ => by simp
  | x :: xs, some r :: cs, fs, w, hc, hf => by
    unfold Agg.mergeSubs
    refine Spec.bind (Spec.mergeSubs xs cs fs w (fun r hr => hc r (by simp [hr])) (by simpa [missingSubs] using hf)) fun rs v hk hi hrs => Spec.pure fun _ => ?_
    intro a ha
    rcases List.mem_cons.mp ha with rfl | ha
    · exact (hc (some a) (by simp) a rfl).keep hk
    · exact hrs a ha
  | x :: xs, none :: cs, [], w, _, _ => by unfold Agg.mergeSubs; exact Spec.throw
  | x :: xs, none :: cs, none :: fs, w, _, _ => by unfold Agg.mergeSubs; exact Spec.throw
  | x :: xs, none :: cs, some r :: fs, w, hc, hf => by
    unfold Agg.mergeSubs
    simp only [missingSubs, List.forall₂_cons] at hf
    obtain ⟨id, h1, h2, h3⟩ := hf.1 r rfl
    refine Spec.bind (Spec.cmd' fun v hk hi => ?_) fun _ v hk hi _ => ?_
    · obtain ⟨o, g1, g2, g3⟩ := h1.keep hk
      exact ⟨o, g1, g2, by rw [← h2, ← g3]; rfl⟩
    · refine Spec.bind (Spec.mergeSubs xs cs fs v (fun r hr => (hc r (by simp [hr])).keep hk) (Forall₂.keepF hk hf.2)) fun rs v' hk' hi' hrs => Spec.pure fun _ => ?_
      intro a ha
      rcases List.mem_cons.mp ha with rfl | ha
      · exact ⟨id, (h1.keep hk).keep hk'⟩
      · exact hrs a ha

theorem Spec.getSubConnections (key : Nat) (w : World) : Spec cfg (getSubConnections key) w (fun rs v => ∀ r ∈ rs, Seg v r) := by
  unfold Agg.getSubConnections
  refine Spec.bind (Spec.cmd' fun _ _ _ => trivial) fun rows v _ _ _ => ?_
  refine Spec.bind (Spec.lookupSubs rows v) fun cs v _ _ hcs => ?_
  refine Spec.bind (Q := fun fs v => List.Forall₂ (Found v) (missingSubs rows cs) fs) ?_ fun fs v' hk _ hfs =>
    Spec.mergeSubs rows cs fs v' (fun r hr => (hcs.2 r hr).keep hk) hfs
  unfold findMissing
  split
  · rename_i he; rw [he]; exact Spec.pure fun _ => .nil
  · refine Spec.cmd (fun _ _ _ => trivial) ?_
    intro v b hk hi _ hb v' hk' hi'
    simp only [exec, Except.ok.injEq] at hb hk'
    subst hb
    exact Forall₂.keepF hk' (hi.findSubs _).2.2

theorem Spec.getSs (l : List Nat) : ∀ w, (∀ r ∈ l, Seg w r) → Spec cfg (getSs l) w (fun _ _ => True) := by
  induction l with
  | nil => intro w _; exact Spec.pure fun _ => trivial
  | cons r rs ih =>
    intro w h
    unfold Agg.getSs
    refine Spec.bind (Spec.cmd' fun _ _ _ => trivial) fun s v hk _ _ => ?_
    refine Spec.bind (ih v fun r hr => (h r (by simp [hr])).keep hk) fun _ _ _ _ _ => Spec.pure fun _ => trivial

theorem Spec.switchC {ref : Nat} {f : ConnStates → Option ConnStates} {w : World} (h : Conn w ref) :
    Spec cfg (switchC ref f) w (fun _ _ => True) := by
  obtain ⟨id, h⟩ := h
  unfold Agg.switchC
  refine Spec.bind (Spec.getC h) fun row v _ _ hr => ?_
  cases f row.st with
  | none => exact Spec.throw
  | some st =>
    refine Spec.bind (Spec.setC hr.1 (row := { row with st }) hr.2) fun _ v' hk' _ _ => ?_
    exact Spec.cmd' fun _ _ _ => trivial

theorem Spec.switchS {ref : Nat} {f : ConnStates → Option ConnStates} {w : World} (h : Seg w ref) :
    Spec cfg (switchS ref f) w (fun _ _ => True) := by
  obtain ⟨id, h⟩ := h
  unfold Agg.switchS
  refine Spec.bind (Spec.getS h) fun row v _ _ hr => ?_
  cases f row.st with
  | none => exact Spec.throw
  | some st =>
    refine Spec.bind (Spec.setS hr.1 (row := { row with st }) hr.2) fun _ v' hk' _ _ => ?_
    exact Spec.cmd' fun _ _ _ => trivial

/-! ### Requests -/

theorem Spec.sendReserves (conn : CRow) (start end_ : Option Time) : ∀ (ls : List Link) (idx : Nat) (last : Str) (w : World), HasKey w conn.key →
    Spec cfg (sendReserves cfg conn start end_ idx last ls) w (fun _ _ => True)
  | [], _, _, _, _ => Spec.pure fun _ => trivial
  | l :: ls, idx, last, w, h => by
    unfold Agg.sendReserves
    refine Spec.bind (Q := fun _ _ => True) (Spec.ofExcept fun _ _ => trivial) fun p v hk _ _ => ?_
    refine Spec.bind (Spec.cmd' fun _ _ _ => trivial) fun corr v' hk' _ _ => ?_
    refine Spec.bind (Spec.cmd' fun u hu _ => ((h.keep hk).keep hk').keep hu) fun _ v'' hk'' _ _ => ?_
    refine Spec.bind (Spec.cmd' fun _ _ _ => trivial) fun _ u hu _ _ => ?_
    exact Spec.sendReserves conn start end_ ls _ _ u ((((h.keep hk).keep hk').keep hk'').keep hu)

theorem Spec.sendTerminates (last : Str) : ∀ (l : List (Str × Str)) (w : World), Spec cfg (sendTerminates cfg last l) w (fun _ _ => True)
  | [], _ => Spec.pure fun _ => trivial
  | (sc, net) :: ls, w => by
    unfold Agg.sendTerminates
    refine Spec.bind (Q := fun _ _ => True) (Spec.ofExcept fun _ _ => trivial) fun p v hk _ _ => ?_
    refine Spec.bind (Spec.cmd' fun _ _ _ => trivial) fun corr v' hk' _ _ => ?_
    refine Spec.bind (Spec.cmd' fun _ _ _ => trivial) fun _ u hu _ _ => ?_
    exact Spec.sendTerminates last ls u

theorem Spec.reserveNew (h : Hdr) (c : Crit) (w : World) : Spec cfg (reserveNew cfg h c) w (fun _ _ => True) := by
  unfold Agg.reserveNew
  refine Spec.bind (Spec.cmd' fun _ _ _ => trivial) fun cid v _ _ _ => ?_
  refine Spec.bind (Spec.cmd' fun _ _ _ => trivial) fun ref v _ _ _ => ?_
  refine Spec.bind (Q := fun _ v => Conn v ref) (Spec.cmd (fun _ _ _ => trivial) ?_) fun _ v _ _ hc => ?_
  · intro v b _ hi _ hb v' hk' _
    obtain ⟨id, h⟩ := (hi.saveC ref).2.2 hb
    exact ⟨id, h.keep hk'⟩
  refine Spec.bind (Spec.switchC hc) fun _ v hk _ _ => ?_
  obtain ⟨id, hc⟩ := hc.keep hk
  refine Spec.bind (Spec.getC hc) fun conn v hk hi hr => ?_
  have hkey : HasKey v conn.key := by
    have := hi.hasKey hr.1
    rw [← hr.2] at this; exact this
  refine Spec.bind (Q := fun _ _ => True) (Spec.ofExcept fun _ _ => trivial) fun path v1 hk1 _ _ => ?_
  refine Spec.bind (Q := fun _ _ => True) (Spec.ofExcept fun _ _ => trivial) fun _ v2 hk2 _ _ => ?_
  refine Spec.bind (Spec.sendReserves conn c.start c.end_ path 0 [] v2 ((hkey.keep hk1).keep hk2)) fun last v3 hk3 _ _ => ?_
  refine Spec.bind (Spec.cmd' fun _ _ _ => trivial) fun results v4 hk4 _ _ => ?_
  split
  · exact Spec.pure fun _ => trivial
  · unfold reserveCleanup
    have hc4 : Conn v4 ref := ⟨id, (((hr.1.keep hk1).keep hk2).keep hk3).keep hk4⟩
    refine Spec.bind (Spec.switchC hc4) fun _ v5 hk5 _ _ => ?_
    refine Spec.bind (Spec.sendTerminates last _ v5) fun _ v6 hk6 _ _ => ?_
    refine Spec.bind (Spec.cmd' fun _ _ _ => trivial) fun _ v7 hk7 _ _ => ?_
    refine Spec.bind (Spec.switchC (((hc4.keep hk5).keep hk6).keep hk7)) fun _ v5 hk5 _ _ => ?_
    exact Spec.throw

theorem Spec.reserve (h : Hdr) (cid : Option Str) (c : Crit) (w : World) : Spec cfg (reserve cfg h cid c) w (fun _ _ => True) := by
  unfold Agg.reserve
  cases cid with
  | some i => exact Spec.bind (Spec.cmd' fun _ _ _ => trivial) fun _ _ _ _ _ => Spec.throw
  | none =>
    refine Spec.bind (Q := fun _ _ => True) (Spec.ofExcept fun _ _ => trivial) fun _ v2 _ _ _ => ?_
    exact Spec.reserveNew h c v2

theorem Spec.checkLive {ref : Nat} {w : World} : Spec cfg (checkLive ref) w (fun _ _ => True) := by
  unfold Agg.checkLive
  refine Spec.bind (Spec.cmd' fun _ _ _ => trivial) fun row _ _ _ _ => ?_
  split
  · exact Spec.throw
  · exact Spec.pure fun _ => trivial

theorem Spec.sendAll (op : Str → POp) : ∀ (l : List SRow) (w : World), Spec cfg (sendAll cfg op l) w (fun _ _ => True)
  | [], _ => Spec.pure fun _ => trivial
  | s :: ss, w => by
    unfold Agg.sendAll
    refine Spec.bind (Q := fun _ _ => True) (Spec.ofExcept fun _ _ => trivial) fun p v hk _ _ => ?_
    refine Spec.bind (Spec.cmd' fun _ _ _ => trivial) fun corr v' hk' _ _ => ?_
    refine Spec.bind (Spec.cmd' fun _ _ _ => trivial) fun _ u hu _ _ => ?_
    exact Spec.sendAll op ss u

theorem Spec.answer {cid action : Str} {subs : List SRow} {results : List (Except Err Str)} {w : World} :
    Spec cfg (answer cid action subs results) w (fun _ _ => True) := by
  unfold Agg.answer
  split
  · exact Spec.pure fun _ => trivial
  · exact Spec.throw

theorem Spec.abortLoop : ∀ (l done : List Nat) (w : World), (∀ r ∈ l, Seg w r) → Spec cfg (abortLoop cfg done l) w (fun _ _ => True)
  | [], done, w, _ => Spec.cmd' fun _ _ _ => trivial
  | r :: rs, done, w, h => by
    unfold Agg.abortLoop
    obtain ⟨id, hr⟩ := h r (by simp)
    refine Spec.bind (Spec.getS hr) fun row v hk _ hrow => ?_
    cases switchR row.st .aborting with
    | none => exact Spec.bind (Spec.cmd' fun _ _ _ => trivial) fun _ _ _ _ _ => Spec.throw
    | some st =>
      refine Spec.bind (Spec.setS hrow.1 (row := { row with st }) hrow.2) fun _ v1 hk1 _ _ => ?_
      cases cfg.provider row.src.network with
      | error e => exact Spec.bind (Spec.cmd' fun _ _ _ => trivial) fun _ _ _ _ _ => Spec.throw
      | ok p =>
        refine Spec.bind (Spec.cmd' fun _ _ _ => trivial) fun corr v2 hk2 _ _ => ?_
        refine Spec.bind (Spec.cmd' fun _ _ _ => trivial) fun _ v3 hk3 _ _ => ?_
        exact Spec.abortLoop rs _ v3 fun r' hr' => ((((h r' (by simp [hr'])).keep hk).keep hk1).keep hk2).keep hk3

theorem Spec.switchSubs (skip : SRow → Bool) (f : ConnStates → Option ConnStates) : ∀ (l done : List Nat) (w : World), (∀ r ∈ l, Seg w r) →
    Spec cfg (switchSubs skip f done l) w (fun _ _ => True)
  | [], done, w, _ => by
    unfold Agg.switchSubs
    split
    · exact Spec.pure fun _ => trivial
    · exact Spec.cmd' fun _ _ _ => trivial
  | r :: rs, done, w, h => by
    unfold Agg.switchSubs
    obtain ⟨id, hr⟩ := h r (by simp)
    refine Spec.bind (Spec.getS hr) fun row v hk _ hrow => ?_
    split
    · exact Spec.switchSubs skip f rs _ v fun r' hr' => (h r' (by simp [hr'])).keep hk
    · cases f row.st with
      | none => exact Spec.bind (Spec.cmd' fun _ _ _ => trivial) fun _ _ _ _ _ => Spec.throw
      | some st =>
        refine Spec.bind (Spec.setS hrow.1 (row := { row with st }) hrow.2) fun _ v1 hk1 _ _ => ?_
        exact Spec.switchSubs skip f rs _ v1 fun r' hr' => ((h r' (by simp [hr'])).keep hk).keep hk1

/-- The common beginning of the requests. -/
theorem Spec.opened {cid : Str} {f : ConnStates → Option ConnStates} {k : List Nat → Prog (Option Str)} (w : World)
    (hk : ∀ v refs, (∀ r ∈ refs, Seg v r) → Spec cfg (k refs) v (fun _ _ => True)) :
    Spec cfg (do
      let ref ← Agg.getConnection cid
      Agg.checkLive ref
      Agg.switchC ref f
      let conn ← issue (.getC ref)
      let refs ← Agg.getSubConnections conn.key
      k refs) w (fun _ _ => True) := by
  refine Spec.bind (Spec.getConnection cid w) fun ref v1 _ _ ⟨id, h1, _⟩ => ?_
  refine Spec.bind Spec.checkLive fun _ v2 hk2 _ _ => ?_
  refine Spec.bind (Spec.switchC ⟨id, h1.keep hk2⟩) fun _ v3 hk3 _ _ => ?_
  refine Spec.bind (Spec.cmd' fun _ _ _ => trivial) fun conn v4 hk4 _ _ => ?_
  exact Spec.bind (Spec.getSubConnections conn.key v4) fun refs v5 _ _ h => hk v5 refs h

theorem Spec.reserveCommit (cid : Str) (w : World) : Spec cfg (reserveCommit cfg cid) w (fun _ _ => True) := by
  refine Spec.opened w fun v refs h => ?_
  refine Spec.bind (Spec.getSs refs v h) fun subs v1 hk1 _ _ => ?_
  refine Spec.bind (Spec.sendAll _ subs v1) fun _ v2 hk2 _ _ => ?_
  exact Spec.bind (Spec.cmd' fun _ _ _ => trivial) fun _ _ _ _ _ => Spec.answer

theorem Spec.reserveAbort (cid : Str) (w : World) : Spec cfg (reserveAbort cfg cid) w (fun _ _ => True) := by
  refine Spec.opened w fun v refs h => ?_
  refine Spec.bind (Spec.abortLoop refs [] v h) fun subs v1 hk1 _ _ => ?_
  refine Spec.bind (Spec.cmd' fun _ _ _ => trivial) fun _ _ _ _ _ => ?_
  split
  · exact Spec.pure fun _ => trivial
  · exact Spec.throw

theorem Spec.provision (cid : Str) (w : World) : Spec cfg (provision cfg cid) w (fun _ _ => True) := by
  refine Spec.opened w fun v refs h => ?_
  refine Spec.bind (Spec.switchSubs _ _ refs [] v h) fun _ v0 hk0 _ _ => ?_
  refine Spec.bind (Spec.getSs refs v0 fun r hr => (h r hr).keep hk0) fun subs v1 hk1 _ _ => ?_
  refine Spec.bind (Spec.sendAll _ subs v1) fun _ v2 hk2 _ _ => ?_
  exact Spec.bind (Spec.cmd' fun _ _ _ => trivial) fun _ _ _ _ _ => Spec.answer

theorem Spec.release (cid : Str) (w : World) : Spec cfg (release cfg cid) w (fun _ _ => True) := by
  refine Spec.opened w fun v refs h => ?_
  refine Spec.bind (Spec.switchSubs _ _ refs [] v h) fun _ v0 hk0 _ _ => ?_
  refine Spec.bind (Spec.getSs refs v0 fun r hr => (h r hr).keep hk0) fun subs v1 hk1 _ _ => ?_
  refine Spec.bind (Spec.sendAll _ subs v1) fun _ v2 hk2 _ _ => ?_
  exact Spec.bind (Spec.cmd' fun _ _ _ => trivial) fun _ _ _ _ _ => Spec.answer

theorem Spec.terminate (cid : Str) (w : World) : Spec cfg (terminate cfg cid) w (fun _ _ => True) := by
  unfold Agg.terminate
  refine Spec.bind (Spec.getConnection cid w) fun ref v1 _ _ ⟨id, h1, _⟩ => ?_
  refine Spec.bind (Spec.getC h1) fun row v2 hk2 _ hr => ?_
  split
  · exact Spec.pure fun _ => trivial
  · unfold terminateLive
    refine Spec.bind (Spec.switchC ⟨id, hr.1⟩) fun _ v3 hk3 _ _ => ?_
    refine Spec.bind (Spec.cmd' fun _ _ _ => trivial) fun conn v4 hk4 _ _ => ?_
    refine Spec.bind (Spec.getSubConnections conn.key v4) fun refs v5 _ _ h => ?_
    refine Spec.bind (Spec.getSs refs v5 h) fun subs v1 hk1 _ _ => ?_
    refine Spec.bind (Spec.sendAll _ subs v1) fun _ v2 hk2 _ _ => ?_
    exact Spec.bind (Spec.cmd' fun _ _ _ => trivial) fun _ _ _ _ _ => Spec.answer

/-! ### Queries -/

theorem Spec.summaryLoop : ∀ (l : List CRow) (w : World), Spec cfg (summaryLoop l) w (fun infos _ => ∀ i ∈ infos, ∃ c ∈ l, i.cid = c.cid ∧ i.requester = c.requester)
  | [], w => Spec.pure fun _ => by simp
  | c :: cs, w => by
    unfold Agg.summaryLoop
    refine Spec.bind (Spec.getSubConnections c.key w) fun refs v _ _ h => ?_
    refine Spec.bind (Spec.getSs refs v h) fun subs v1 hk1 _ _ => ?_
    refine Spec.bind (Spec.cmd' fun _ _ _ => trivial) fun n v2 hk2 _ _ => ?_
    refine Spec.bind (Spec.summaryLoop cs v2) fun rest v3 hk3 _ hrest => Spec.pure fun _ => ?_
    intro i hi
    rcases List.mem_cons.mp hi with rfl | hi
    · exact ⟨c, by simp, rfl, rfl⟩
    · obtain ⟨c', h1, h2⟩ := hrest i hi
      exact ⟨c', by simp [h1], h2⟩

theorem Spec.querySummary (h : Hdr) (cids gids : List Str) (w : World) : Spec cfg (querySummary cfg h cids gids) w (fun _ _ => True) := by
  unfold Agg.querySummary
  simp only
  split
  · exact Spec.throw
  · refine Spec.bind (Q := fun rows v => ∀ r ∈ rows, Owns v r.cid r.requester ∧ (h.requester ∈ cfg.admins ∨ r.requester = h.requester))
      (Spec.cmd (fun _ _ _ => trivial) ?_) fun rows v _ _ hrows => ?_
    · intro v b _ _ _ hb v' hk' _ r hr
      simp only [exec, Except.ok.injEq] at hb hk'
      subst hb
      rw [List.mem_filter] at hr
      refine ⟨Owns.keep hk' ⟨r, hr.1, rfl, rfl⟩, ?_⟩
      by_cases ha : h.requester ∈ cfg.admins
      · exact Or.inl ha
      · simp only [if_neg ha, Bool.and_eq_true, Option.all_some, decide_eq_true_eq] at hr
        exact Or.inr hr.2.1
    · refine Spec.bind (Spec.summaryLoop rows v) fun infos v1 hk1 _ hinfos => ?_
      refine Spec.bind (Spec.cmd' fun u hu _ => ?_) fun _ _ _ _ _ => Spec.pure fun _ => trivial
      refine ⟨fun x hx => by simp [Out.dest] at hx, fun to_ corr infos' heq i hi => ?_, fun _ _ _ heq => by simp at heq⟩
      simp only [Out.querySummary.injEq] at heq
      obtain ⟨rfl, _, rfl⟩ := heq
      obtain ⟨c, h1, h2, h3⟩ := hinfos i hi
      rw [h2, h3]
      exact ⟨((hrows c h1).1.keep hk1).keep hu, (hrows c h1).2⟩

theorem Spec.sendQueries (cb : Str) : ∀ (l : List SRow) (w : World), Spec cfg (sendQueries cfg cb l) w (fun _ _ => True)
  | [], _ => Spec.pure fun _ => trivial
  | s :: ss, w => by
    unfold Agg.sendQueries
    refine Spec.bind (Q := fun _ _ => True) (Spec.ofExcept fun _ _ => trivial) fun p v hk _ _ => ?_
    refine Spec.bind (Spec.cmd' fun _ _ _ => trivial) fun corr v' hk' _ _ => ?_
    refine Spec.bind (Spec.cmd' fun _ _ _ => trivial) fun _ u hu _ _ => ?_
    refine Spec.bind (Spec.cmd' fun _ _ _ => trivial) fun _ u hu _ _ => ?_
    exact Spec.sendQueries cb ss u

theorem Spec.queryRecursive (h : Hdr) (cids gids : List Str) (w : World) : Spec cfg (queryRecursive cfg h cids gids) w (fun _ _ => True) := by
  unfold Agg.queryRecursive
  split
  · exact Spec.throw
  · split
    · exact Spec.throw
    · rename_i cid
      unfold queryOne
      refine Spec.bind (Spec.getConnection cid w) fun ref v1 _ _ ⟨id, h1, _⟩ => ?_
      refine Spec.bind (Spec.getC h1) fun row v2 hk2 _ hr => ?_
      refine Spec.bind (Spec.getSubConnections row.key v2) fun refs v3 hk3 _ hs => ?_
      refine Spec.bind (Spec.getSs refs v3 hs) fun subs v4 hk4 _ _ => ?_
      refine Spec.bind (Spec.cmd' fun u hu _ => ⟨id, ((hr.1.keep hk3).keep hk4).keep hu⟩) fun _ v5 _ _ _ => ?_
      refine Spec.bind (Spec.sendQueries _ subs v5) fun _ v6 _ _ _ => ?_
      refine Spec.bind (Spec.cmd' fun _ _ _ => trivial) fun _ _ _ _ _ => ?_
      split
      · exact Spec.pure fun _ => trivial
      · exact Spec.throw
    · exact Spec.throw

theorem Spec.queryRecursiveConfirmed (h : RHdr) (res : List Str) (w : World) : Spec cfg (queryRecursiveConfirmed h res) w (fun _ _ => True) := by
  unfold Agg.queryRecursiveConfirmed
  refine Spec.bind (Spec.cmd' fun _ _ _ => trivial) fun r v _ _ _ => ?_
  have hstore : ∀ cb v, Spec cfg (storeQuery h.corr cb res) v (fun _ _ => True) := by
    intro cb v
    unfold storeQuery
    refine Spec.bind (Spec.cmd' fun _ _ _ => trivial) fun _ v1 _ _ _ => ?_
    refine Spec.bind (Q := fun r v => ∀ q, r = some q → Conn v q.conn) (Spec.cmd (fun _ _ _ => trivial) ?_) fun r v2 _ _ hq => ?_
    · intro v b _ hi _ hb v' hk' _ q hq
      simp only [exec, Except.ok.injEq] at hb hk'
      have := dget_some_mem (hb.trans hq)
      obtain ⟨id, h⟩ := hi.qfk _ this
      exact ⟨id, h.keep hk'⟩
    · cases r with
      | none => exact Spec.throw
      | some q =>
        refine Spec.bind (Spec.cmd' fun _ _ _ => trivial) fun scr v3 hk3 _ _ => ?_
        split
        · unfold answerQuery
          refine Spec.bind (Spec.cmd' fun _ _ _ => trivial) fun _ v4 hk4 _ _ => ?_
          refine Spec.bind (Spec.cmd' fun _ _ _ => trivial) fun conn v5 hk5 _ _ => ?_
          refine Spec.bind (Spec.getSubConnections conn.key v5) fun refs v6 hk6 _ hs => ?_
          refine Spec.bind (Spec.getSs refs v6 hs) fun subs v7 hk7 _ _ => ?_
          refine Spec.bind (Q := fun _ _ => True) (Spec.ofExcept fun _ _ => trivial) fun dps v8 hk8 _ _ => ?_
          obtain ⟨id, hc⟩ := (((((hq q rfl).keep hk3).keep hk4).keep hk5).keep hk6).keep (hk7.trans hk8)
          refine Spec.bind (Spec.getC hc) fun conn v9 _ _ hr => ?_
          refine Spec.bind (Spec.cmd' fun _ _ _ => trivial) fun n v10 hk10 _ _ => ?_
          refine Spec.bind (Spec.cmd' fun u hu hi => ?_) fun _ _ _ _ _ => Spec.pure fun _ => trivial
          refine ⟨fun x hx => by simp [Out.dest] at hx, fun _ _ _ heq => by simp at heq, fun _ _ _ heq => ?_⟩
          simp only [Out.queryRecursive.injEq] at heq
          obtain ⟨_, _, rfl⟩ := heq
          have := hr.1
          rw [← hr.2] at this
          exact hi.owns ((this.keep hk10).keep hu)
        · exact Spec.pure fun _ => trivial
  split
  · exact Spec.pure fun _ => trivial
  · exact Spec.pure fun _ => trivial
  · exact hstore _ _

/-! ### Replies -/

theorem Spec.family (skey : Nat) (w : World) : Spec cfg (family skey) w (fun f v => Conn v f.1 ∧ ∀ r ∈ f.2, Seg v r) := by
  unfold Agg.family
  refine Spec.bind (Spec.getConnectionByKey skey w) fun ref v1 _ _ hc => ?_
  refine Spec.bind (Spec.cmd' fun _ _ _ => trivial) fun conn v2 hk2 _ _ => ?_
  refine Spec.bind (Spec.getSubConnections conn.key v2) fun refs v3 hk3 _ hs => ?_
  exact Spec.pure fun _ => ⟨(hc.keep hk2).keep hk3, hs⟩

/-- A message about the connection of an object may be sent to its requester. -/
theorem Ids.outOk {w : World} (hi : Ids cfg w) {ref : Nat} {conn : CRow} (h : IsC w ref conn.id) {o : Out} (ho : o.dest = some (conn.cid, conn.requester)) :
    OutOk cfg w o := by
  refine ⟨fun x hx => ?_, fun _ _ _ heq => by rw [heq] at ho; simp [Out.dest] at ho, fun _ _ _ heq => by rw [heq] at ho; simp [Out.dest] at ho⟩
  obtain rfl := Option.some.inj (ho.symm.trans hx)
  exact hi.owns h

/-- Read the object and tell the requester. -/
theorem Spec.tell {ref : Nat} {conn : CRow} {o : Out} {w : World} (h : IsC w ref conn.id) (ho : o.dest = some (conn.cid, conn.requester)) :
    Spec cfg (issue (.emit o) >>= fun _ => Coro.pure (none : Option Str)) w (fun _ _ => True) :=
  Spec.bind (Spec.cmd' fun _ hu hi => hi.outOk (h.keep hu) ho) fun _ _ _ _ _ => Spec.pure fun _ => trivial

theorem Spec.takeResv (h : RHdr) (w : World) : Spec cfg (takeResv h) w (fun r v => HasKey v r.skey) := by
  unfold Agg.takeResv
  refine Spec.bind (Q := fun r v => ∀ x, r = some x → HasKey v x.skey) (Spec.cmd (fun _ _ _ => trivial) ?_) fun r v _ _ hr => ?_
  · intro v b _ hi _ hb v' hk' _ x hx
    simp only [exec, Except.ok.injEq] at hb hk'
    exact (hi.rfk _ (dget_some_mem (hb.trans hx))).keep hk'
  · cases r with
    | none => exact Spec.throw
    | some r =>
      simp only
      split
      · exact Spec.throw
      · exact Spec.bind (Spec.cmd' fun _ _ _ => trivial) fun _ v1 hk1 _ _ => Spec.pure fun _ => (hr r rfl).keep hk1

theorem Spec.confirmUp {skey ref : Nat} {refs : List Nat} {w : World} (hc : Conn w ref) (hs : ∀ r ∈ refs, Seg w r) :
    Spec cfg (confirmUp skey ref refs) w (fun _ _ => True) := by
  unfold Agg.confirmUp
  refine Spec.bind (Spec.cmd' fun _ _ _ => trivial) fun n v1 hk1 _ _ => ?_
  split
  · exact Spec.pure fun _ => trivial
  · refine Spec.bind (Spec.getSs refs v1 fun r hr => (hs r hr).keep hk1) fun subs v2 hk2 _ _ => ?_
    refine Spec.bind (Spec.cmd' fun _ _ _ => trivial) fun conn v3 hk3 _ _ => ?_
    split
    · have hc3 := ((hc.keep hk1).keep hk2).keep hk3
      refine Spec.bind (Spec.switchC hc3) fun _ v4 hk4 _ _ => ?_
      obtain ⟨id, hc4⟩ := hc3.keep hk4
      refine Spec.bind (Spec.getC hc4) fun conn v5 _ _ hr => ?_
      exact Spec.tell (conn := conn) (hr.2 ▸ hr.1) rfl
    · exact Spec.pure fun _ => trivial

theorem confirmLabels_id (conn : CRow) (order n : Nat) (c : Crit) : (confirmLabels conn order n c).id = conn.id := by
  unfold confirmLabels
  simp only
  split <;> split <;> rfl

theorem Spec.reserveConfirmed (h : RHdr) (cid : Str) (c : Crit) (w : World) : Spec cfg (reserveConfirmed h cid c) w (fun _ _ => True) := by
  unfold Agg.reserveConfirmed
  refine Spec.bind (Spec.takeResv h w) fun r v hk _ hr => ?_
  unfold confirmOk
  refine Spec.bind (Spec.cmd' fun u hu _ => hr.keep hu) fun sref v1 hk1 _ _ => ?_
  refine Spec.bind (Spec.cmd' fun _ _ _ => trivial) fun _ v2 hk2 _ _ => ?_
  refine Spec.bind (Spec.family r.skey v2) fun f v3 hk3 _ hf => ?_
  obtain ⟨⟨id, hc⟩, hs⟩ := hf
  refine Spec.bind (Spec.getC hc) fun conn v4 hk4 _ hr4 => ?_
  refine Spec.bind (Spec.setC hr4.1 ((confirmLabels_id ..).trans hr4.2)) fun _ v5 hk5 _ _ => ?_
  refine Spec.bind (Spec.cmd' fun _ _ _ => trivial) fun _ v6 hk6 _ _ => ?_
  exact Spec.confirmUp ⟨id, (hr4.1.keep hk5).keep hk6⟩ fun r hr => (((hs r hr).keep hk4).keep hk5).keep hk6

theorem Spec.reserveFailed (h : RHdr) (w : World) : Spec cfg (reserveFailed h) w (fun _ _ => True) := by
  unfold Agg.reserveFailed
  refine Spec.bind (Spec.takeResv h w) fun r v hk _ hr => ?_
  refine Spec.bind (Spec.getConnectionByKey r.skey v) fun ref v1 hk1 _ hc => ?_
  refine Spec.bind (Q := fun _ _ => True) ?_ fun _ v2 hk2 _ _ => ?_
  · unfold markFailed
    refine Spec.bind (Spec.cmd' fun _ _ _ => trivial) fun conn v3 hk3 _ _ => ?_
    split
    · exact Spec.switchC (hc.keep hk3)
    · exact Spec.pure fun _ => trivial
  · obtain ⟨id, hc⟩ := hc.keep hk2
    refine Spec.bind (Spec.getC hc) fun conn v5 _ _ hr => ?_
    exact Spec.tell (conn := conn) (hr.2 ▸ hr.1) rfl

theorem Spec.confirmAll (skey : Nat) {there : ConnStates → Bool} {f : ConnStates → Option ConnStates} {msg : Str → Str → Out} (w : World)
    (hm : ∀ to_ cid, (msg to_ cid).dest = some (cid, to_)) : Spec cfg (confirmAll skey there f msg) w (fun _ _ => True) := by
  unfold Agg.confirmAll
  refine Spec.bind (Spec.family skey w) fun fam v1 hk1 _ hf => ?_
  refine Spec.bind (Spec.getSs fam.2 v1 hf.2) fun subs v2 hk2 _ _ => ?_
  refine Spec.bind (Spec.cmd' fun _ _ _ => trivial) fun conn v3 hk3 _ _ => ?_
  split
  · have hc3 := (hf.1.keep hk2).keep hk3
    refine Spec.bind (Spec.switchC hc3) fun _ v4 hk4 _ _ => ?_
    obtain ⟨id, hc4⟩ := hc3.keep hk4
    refine Spec.bind (Spec.getC hc4) fun conn v5 _ _ hr => ?_
    exact Spec.tell (conn := conn) (hr.2 ▸ hr.1) (hm _ _)
  · exact Spec.pure fun _ => trivial

theorem Spec.confirmSet (h : RHdr) (cid : Str) {set : ConnStates → ConnStates} {there : ConnStates → Bool} {f : ConnStates → Option ConnStates}
    {msg : Str → Str → Out} (w : World) (hm : ∀ to_ cid, (msg to_ cid).dest = some (cid, to_)) :
    Spec cfg (confirmSet h cid set there f msg) w (fun _ _ => True) := by
  unfold Agg.confirmSet
  refine Spec.bind (Spec.getSubConnection h.prov cid w) fun sref v1 hk1 _ ⟨id, hs⟩ => ?_
  refine Spec.bind (Spec.getS hs) fun s v2 hk2 _ hr => ?_
  refine Spec.bind (Spec.setS hr.1 (row := { s with st := set s.st }) hr.2) fun _ v3 _ _ _ => ?_
  refine Spec.bind (Spec.cmd' fun _ _ _ => trivial) fun _ v4 _ _ _ => ?_
  exact Spec.confirmAll s.skey v4 hm

theorem Spec.confirmSwitch (h : RHdr) (cid : Str) {g : ConnStates → Option ConnStates} {there : ConnStates → Bool}
    {f : ConnStates → Option ConnStates} {msg : Str → Str → Out} (w : World) (hm : ∀ to_ cid, (msg to_ cid).dest = some (cid, to_)) :
    Spec cfg (confirmSwitch h cid g there f msg) w (fun _ _ => True) := by
  unfold Agg.confirmSwitch
  refine Spec.bind (Spec.getSubConnection h.prov cid w) fun sref v1 hk1 _ ⟨id, hs⟩ => ?_
  refine Spec.bind (Spec.getS hs) fun s v2 hk2 _ hr => ?_
  refine Spec.bind (Spec.switchS ⟨id, hr.1⟩) fun _ v4 _ _ _ => ?_
  exact Spec.confirmAll s.skey v4 hm

theorem Spec.reserveTimeout (h : RHdr) (cid : Str) (n : Nat) (w : World) : Spec cfg (reserveTimeout h cid n) w (fun _ _ => True) := by
  unfold Agg.reserveTimeout
  refine Spec.bind (Spec.getSubConnection h.prov cid w) fun sref v1 hk1 _ hs => ?_
  refine Spec.bind (Spec.switchS hs) fun _ v2 hk2 _ hr => ?_
  refine Spec.bind (Spec.cmd' fun _ _ _ => trivial) fun s v3 _ _ _ => ?_
  refine Spec.bind (Spec.family s.skey v3) fun fam v4 hk4 _ hf => ?_
  refine Spec.bind (Spec.getSs fam.2 v4 hf.2) fun subs v5 hk5 _ _ => ?_
  obtain ⟨id, hc⟩ := hf.1.keep hk5
  refine Spec.bind (Spec.getC hc) fun conn v5 _ _ hr => ?_
  split
  · exact Spec.pure fun _ => trivial
  · split
    · exact Spec.tell (conn := conn) (hr.2 ▸ hr.1) rfl
    · exact Spec.pure fun _ => trivial

theorem Spec.dataPlane (h : RHdr) (cid : Str) (a : Bool) (n : Int) (c : Bool) (w : World) :
    Spec cfg (dataPlaneStateChange h cid a n c) w (fun _ _ => True) := by
  unfold Agg.dataPlaneStateChange
  refine Spec.bind (Spec.getSubConnection h.prov cid w) fun sref v1 hk1 _ ⟨id, hs⟩ => ?_
  refine Spec.bind (Spec.getS hs) fun s v2 hk2 _ hr => ?_
  refine Spec.bind (Spec.setS hr.1 (row := { s with dpActive := a, dpVersion := some n, dpCons := some c }) hr.2) fun _ v3 _ _ _ => ?_
  refine Spec.bind (Spec.cmd' fun _ _ _ => trivial) fun _ v4 _ _ _ => ?_
  refine Spec.bind (Spec.family s.skey v4) fun fam v4 hk4 _ hf => ?_
  refine Spec.bind (Spec.getSs fam.2 v4 hf.2) fun subs v5 hk5 _ _ => ?_
  obtain ⟨id, hc⟩ := hf.1.keep hk5
  refine Spec.bind (Spec.getC hc) fun conn v5 _ _ hr => ?_
  exact Spec.tell (conn := conn) (hr.2 ▸ hr.1) rfl

theorem Spec.errorEvent (h : RHdr) (cid : Str) (n : Nat) (w : World) : Spec cfg (errorEvent h cid n) w (fun _ _ => True) := by
  unfold Agg.errorEvent
  refine Spec.bind (Spec.getSubConnection h.prov cid w) fun sref v1 hk1 _ _ => ?_
  refine Spec.bind (Spec.cmd' fun _ _ _ => trivial) fun s v4 _ _ _ => ?_
  refine Spec.bind (Spec.family s.skey v4) fun fam v4 hk4 _ hf => ?_
  obtain ⟨id, hc⟩ := hf.1
  refine Spec.bind (Spec.getC hc) fun conn v5 _ _ hr => ?_
  split
  · exact Spec.tell (conn := conn) (hr.2 ▸ hr.1) rfl
  · exact Spec.throw

theorem Spec.msg (m : Msg) (w : World) : Spec cfg (m.prog cfg) w (fun _ _ => True) := by
  cases m with
  | reserve h cid c => exact Spec.reserve h cid c w
  | commit h cid => exact Spec.reserveCommit cid w
  | abort h cid => exact Spec.reserveAbort cid w
  | provision h cid => exact Spec.provision cid w
  | release h cid => exact Spec.release cid w
  | terminate h cid => exact Spec.terminate cid w
  | querySummary h cids gids => exact Spec.querySummary h cids gids w
  | queryRecursive h cids gids => exact Spec.queryRecursive h cids gids w
  | reserveConfirmed h cid c => exact Spec.reserveConfirmed h cid c w
  | reserveFailed h => exact Spec.reserveFailed h w
  | commitConfirmed h cid => unfold Msg.prog Agg.reserveCommitConfirmed; exact Spec.confirmSet (msg := Out.reserveCommitConfirmed) h cid w fun _ _ => rfl
  | abortConfirmed h cid => unfold Msg.prog Agg.reserveAbortConfirmed; exact Spec.confirmSet (msg := Out.reserveAbortConfirmed) h cid w fun _ _ => rfl
  | provisionConfirmed h cid => exact Spec.confirmSwitch (msg := Out.provisionConfirmed) h cid w fun _ _ => rfl
  | releaseConfirmed h cid => exact Spec.confirmSwitch (msg := Out.releaseConfirmed) h cid w fun _ _ => rfl
  | terminateConfirmed h cid => unfold Msg.prog Agg.terminateConfirmed; exact Spec.confirmSet (msg := Out.terminateConfirmed) h cid w fun _ _ => rfl
  | timeout h cid n => exact Spec.reserveTimeout h cid n w
  | dataPlane h cid a v c => exact Spec.dataPlane h cid a v c w
  | errorEvent h cid n => exact Spec.errorEvent h cid n w
  | queryConfirmed h res => exact Spec.queryRecursiveConfirmed h res w

theorem Ids.orc (w : World) (o : Oracle) (hi : Ids cfg w) : Ids cfg { w with orc := o } :=
  (hi.self (w' := { w with orc := o }) rfl rfl rfl rfl rfl rfl rfl rfl rfl rfl rfl).1

theorem Spec.safe (m : Msg) (w : World) (hi : Ids cfg w) : Safe (Ids cfg) Keep (m.prog cfg) w w (Post (I := Ids cfg) (K := Keep)) :=
  Safe.mono (Spec.msg m w hi w (.refl w)) fun _ _ _ h => ⟨h.1, h.2.1⟩

theorem Reach.idsSys {s : Sys} (h : Reach cfg s) : SafeSys (Ids cfg) Keep s := by
  refine h.safeSys (I := Ids cfg) (K := Keep) Keep.refl (fun _ _ _ => Keep.trans) ?_ Ids.orc (fun _ _ => .frame rfl rfl rfl rfl) ?_ Spec.safe
  · constructor <;> simp [World.init, dget]
  · intro w hi
    exact ⟨hi.ckeys, hi.ckeyb, hi.ccids, hi.skeys, hi.skeyb, by simp [World.restart], by simp [World.restart], by simp [World.restart, dget],
      by simp [World.restart, dget], hi.sfk, by simp [World.restart], by simp [World.restart], by simp [World.restart], hi.out⟩

/-- The invariant holds in every state that can be reached, however the handlers are interleaved. -/
theorem Reach.ids {s : Sys} (h : Reach cfg s) : Ids cfg s.w := h.idsSys.1

/-- No scheduling step changes an identity. -/
theorem Reach.keep {s : Sys} (h : Reach cfg s) (o : Oracle) (ch : Conc.Choice Msg) : Keep s.w (sysStep cfg s o ch).w :=
  (h.idsSys.step Keep.refl (fun _ _ _ => Keep.trans) Ids.orc (fun _ _ => .frame rfl rfl rfl rfl) Spec.safe o ch).2

end OpenNSA.Agg
