import Verif.Agg.OwnLogic
/- The coroutines of the aggregator, as handlers of messages about the connection and about others. -/
namespace OpenNSA.Agg
open OpenNSA Py Coro

variable {M : Mark} {cfg : Cfg} {b : Bool} {α β : Type}

theorem Tm.getConnection (cid : Str) (w : World) (hn : b = false → cid ≠ M.cid) :
    Tm b cfg M (getConnection cid) w (fun ref v => ConnF b M v ref) := by
  unfold Agg.getConnection
  refine Tm.bind (Q := fun r v => ∀ ref, r = some ref → ConnF b M v ref) (Tm.cmd (fun _ _ _ => fits_of trivial trivial trivial) ?_) ?_
  · intro v r hk hi _ hb ref hr
    simp only [exec, Except.ok.injEq] at hb
    obtain ⟨o, h1, h2, h3⟩ := hi.1.ccache cid ref (hb.trans hr)
    exact ConnF.ofCid hi.1 hi.2 ⟨o, h1, h2, rfl⟩ fun hb => by rw [← h3] at hn; exact hn hb
  · intro r v hk hi hr
    cases r with
    | some ref => exact Tm.pure fun _ => hr ref rfl
    | none =>
      refine Tm.bind (Q := fun r v => ∀ ref, r = some ref → ∃ id, IsC v ref id ∧ id.2.1 = cid) (Tm.cmd (fun _ _ _ => fits_of trivial trivial trivial) ?_) ?_
      · intro v r hk hi _ hb ref hr
        subst hr
        simp only [exec] at hb ⊢
        cases hf : v.conns.find? (fun r => r.cid = cid) with
        | none => rw [hf] at hb; simp at hb
        | some r =>
          rw [hf] at hb
          simp only [Except.ok.injEq, Option.some.injEq] at hb
          subst hb
          exact ⟨r.id, ⟨⟨r, false⟩, by simp, rfl, rfl⟩, by simpa [CRow.id] using List.find?_some hf⟩
      · intro r v hk hi hr
        cases r with
        | none => exact Tm.throw
        | some ref =>
          obtain ⟨id, h1, h2⟩ := hr ref rfl
          refine Tm.bind (Tm.cmd' fun v hk hi => ?_) fun _ v hk _ _ => Tm.pure fun hi => ConnF.ofCid hi.1 hi.2 (h1.keep hk) fun hb => h2 ▸ hn hb
          obtain ⟨o, g1, g2, g3⟩ := h1.keep hk
          exact fits_split ⟨o, g1, g2, by rw [← h2, ← g3]; rfl⟩ trivial hn

theorem Tm.getConnectionByKey (key : Nat) (w : World) (hn : b = false → key ≠ M.key) : Tm b cfg M (getConnectionByKey key) w (fun ref v => ConnF b M v ref) := by
  unfold Agg.getConnectionByKey
  refine Tm.bind (Q := fun r _ => b = false → ∀ c, r = some c → c ≠ M.cid) (Tm.cmd (fun _ _ _ => fits_of trivial trivial trivial) ?_) fun r v _ _ hr => ?_
  · intro v r hk hi _ hb hf c hc
    subst hc
    simp only [exec, Except.ok.injEq, Option.map_eq_some_iff] at hb
    obtain ⟨r, h1, rfl⟩ := hb
    have h2 : r.key = key := by simpa using List.find?_some h1
    exact fun he => hn hf (h2 ▸ (row_key hi.1 hi.2 (List.mem_of_find?_eq_some h1)).mpr he)
  · cases r with
    | none => exact Tm.throw
    | some cid => exact Tm.getConnection cid v fun hb => hr hb cid rfl

theorem cached_seg {v : World} (hi : Inv2 cfg M v) {cid : Str} {ref : Nat} (h : dget v.scache cid = some ref) (hn : b = false → cid ∉ M.segs) : SegF b M v ref := by
  obtain ⟨o, h1, h2, h3⟩ := hi.1.scache cid ref h
  refine SegF.ofCid hi.2 ⟨o, h1, h2, rfl⟩ fun hb => ?_
  show o.row.cid ∉ _
  rw [h3]; exact hn hb

theorem Tm.getSubConnection (prov cid : Str) (w : World) (hn : b = false → cid ∉ M.segs) : Tm b cfg M (getSubConnection prov cid) w (fun ref v => SegF b M v ref) := by
  unfold Agg.getSubConnection
  refine Tm.bind (Q := fun r v => ∀ ref, r = some ref → SegF b M v ref) (Tm.cmd (fun _ _ _ => fits_of trivial trivial trivial) ?_) ?_
  · intro v r hk hi _ hb ref hr
    simp only [exec, Except.ok.injEq] at hb
    exact cached_seg hi (hb.trans hr) hn
  · intro r v hk hi hr
    cases r with
    | some ref => exact Tm.pure fun _ => hr ref rfl
    | none =>
      refine Tm.bind (Q := fun r v => List.Forall₂ (Found v) [(prov, cid)] r) (Tm.cmd (fun _ _ _ => fits_of trivial trivial trivial) ?_) ?_
      · intro v r hk hi _ hb
        simp only [exec, Except.ok.injEq] at hb ⊢
        subst hb
        exact (hi.1.findSubs [(prov, cid)]).2.2
      · intro r v hk hi hr
        cases hr with
        | @cons _ x _ rs hb hrs =>
          cases hrs
          cases x with
          | none => exact Tm.throw
          | some ref =>
            obtain ⟨id, h1, h2, h3⟩ := hb ref rfl
            refine Tm.bind (Tm.cmd' fun v hk hi => ?_) fun _ v hk _ _ => Tm.pure fun hi => SegF.ofCid hi.2 (h1.keep hk) fun hb => h2 ▸ hn hb
            obtain ⟨o, g1, g2, g3⟩ := h1.keep hk
            rw [← g3] at h2
            exact fits_split ⟨o, g1, g2, h2⟩ trivial hn

/-- Objects found in the cache. -/
def CachedF (b : Bool) (M : Mark) (w : World) (r : Option Nat) : Prop := ∀ ref, r = some ref → SegF b M w ref

theorem CachedF.keep {w w' : World} (hk : Keep w w') {r : Option Nat} (h : CachedF b M w r) : CachedF b M w' r := fun ref hr => (h ref hr).keep hk

theorem Tm.lookupSubs (l : List (Str × Str)) (hn : b = false → ∀ x ∈ l, x.2 ∉ M.segs) : ∀ w, Tm b cfg M (lookupSubs l) w (fun rs v => ∀ r ∈ rs, CachedF b M v r) := by
  induction l with
  | nil => intro w; exact Tm.pure fun _ => by simp
  | cons x xs ih =>
    intro w
    unfold Agg.lookupSubs
    refine Tm.bind (Q := fun r v => CachedF b M v r) (Tm.cmd (fun _ _ _ => fits_of trivial trivial trivial) ?_) fun r v hk hi hr => ?_
    · intro v r hk hi _ hb ref hr
      simp only [exec, Except.ok.injEq] at hb
      exact cached_seg hi (hb.trans hr) fun hb => hn hb x (by simp)
    · refine Tm.bind (ih (fun hb x hx => hn hb x (by simp [hx])) v) fun rs v' hk' hi' hrs => Tm.pure fun _ => ?_
      intro a ha
      rcases List.mem_cons.mp ha with rfl | ha
      · exact hr.keep hk'
      · exact hrs a ha

theorem Tm.mergeSubs : ∀ (l : List (Str × Str)) (cs fs : List (Option Nat)) (w : World), (b = false → ∀ x ∈ l, x.2 ∉ M.segs) → (∀ r ∈ cs, CachedF b M w r) →
    List.Forall₂ (Found w) (missingSubs l cs) fs → Tm b cfg M (mergeSubs l cs fs) w (fun rs v => ∀ r ∈ rs, SegF b M v r)
  | [], _, _, w, _, _, _ => by unfold Agg.mergeSubs; exact Tm.pure fun _ => by simp
  | _ :: _, [], _, w, _, _, _ => by unfold Agg.mergeSubs; exact Tm.pure fun _ => by simp
  | x :: xs, some r :: cs, fs, w, hn, hc, hf => by
    unfold Agg.mergeSubs
    refine Tm.bind (Tm.mergeSubs xs cs fs w (fun hb x hx => hn hb x (by simp [hx])) (fun r hr => hc r (by simp [hr])) (by simpa [missingSubs] using hf)) fun rs v hk hi hrs => Tm.pure fun _ => ?_
    intro a ha
    rcases List.mem_cons.mp ha with rfl | ha
    · exact (hc (some a) (by simp) a rfl).keep hk
    · exact hrs a ha
  | x :: xs, none :: cs, [], w, _, _, _ => by unfold Agg.mergeSubs; exact Tm.throw
  | x :: xs, none :: cs, none :: fs, w, _, _, _ => by unfold Agg.mergeSubs; exact Tm.throw
  | x :: xs, none :: cs, some r :: fs, w, hn, hc, hf => by
    unfold Agg.mergeSubs
    simp only [missingSubs, List.forall₂_cons] at hf
    obtain ⟨id, h1, h2, h3⟩ := hf.1 r rfl
    refine Tm.bind (Tm.cmd' fun v hk hi => ?_) fun _ v hk hi _ => ?_
    · obtain ⟨o, g1, g2, g3⟩ := h1.keep hk
      exact fits_split ⟨o, g1, g2, by rw [← h2, ← g3]; rfl⟩ trivial fun hb => hn hb x (by simp)
    · refine Tm.bind (Tm.mergeSubs xs cs fs v (fun hb x hx => hn hb x (by simp [hx])) (fun r hr => (hc r (by simp [hr])).keep hk) (Forall₂.keepF hk hf.2)) fun rs v' hk' hi' hrs => Tm.pure fun hi => ?_
      intro a ha
      rcases List.mem_cons.mp ha with rfl | ha
      · exact SegF.ofCid hi.2 ((h1.keep hk).keep hk') fun hb => h2 ▸ hn hb x (by simp)
      · exact hrs a ha

theorem Tm.getSubConnections (key : Nat) (w : World) (hn : b = false → key ≠ M.key) : Tm b cfg M (getSubConnections key) w (fun rs v => ∀ r ∈ rs, SegF b M v r) := by
  unfold Agg.getSubConnections
  refine Tm.bind (Q := fun rows _ => b = false → ∀ x ∈ rows, x.2 ∉ M.segs) (Tm.cmd (fun _ _ _ => fits_of trivial trivial trivial) ?_) fun rows v _ _ hrows => ?_
  · intro v r hk hi _ hr hb x hx
    simp only [exec, Except.ok.injEq] at hr
    subst hr
    obtain ⟨s, hs, rfl⟩ := List.mem_map.mp hx
    rw [List.mem_filter] at hs
    have h2 : s.skey = key := by simpa using hs.2
    exact fun he => hn hb (h2 ▸ (hi.2.subs s hs.1).mpr he)
  refine Tm.bind (Tm.lookupSubs rows hrows v) fun cs v _ _ hcs => ?_
  refine Tm.bind (Q := fun fs v => List.Forall₂ (Found v) (missingSubs rows cs) fs) ?_ fun fs v' hk _ hfs =>
    Tm.mergeSubs rows cs fs v' hrows (fun r hr => (hcs r hr).keep hk) hfs
  unfold findMissing
  split
  · rename_i he; rw [he]; exact Tm.pure fun _ => .nil
  · refine Tm.cmd (fun _ _ _ => fits_of trivial trivial trivial) ?_
    intro v r hk hi _ hb
    simp only [exec, Except.ok.injEq] at hb ⊢
    subst hb
    exact (hi.1.findSubs _).2.2

theorem Tm.getSs (l : List Nat) : ∀ w, Tm b cfg M (getSs l) w (fun _ _ => True) := by
  induction l with
  | nil => intro w; exact Tm.pure fun _ => trivial
  | cons r rs ih =>
    intro w
    unfold Agg.getSs
    refine Tm.bind tfree fun s v hk _ _ => ?_
    refine Tm.bind (ih v) fun _ _ _ _ _ => Tm.pure fun _ => trivial

theorem Tm.switchC {ref : Nat} {f : ConnStates → Option ConnStates} {w : World} (h : ConnF b M w ref) :
    Tm b cfg M (switchC ref f) w (fun _ _ => True) := by
  unfold Agg.switchC
  refine Tm.bind (Tm.getCF h) fun row v hk _ hr => ?_
  cases f row.st with
  | none => exact Tm.throw
  | some st =>
    refine Tm.bind (Tm.setC (row := { row with st }) hr.1 fun hb => (hr.2 hb).1) fun _ v' hk' _ _ => ?_
    exact Tm.saveC ((h.keep hk).keep hk')

theorem Tm.switchS {ref : Nat} {f : ConnStates → Option ConnStates} {w : World} (h : SegF b M w ref) :
    Tm b cfg M (switchS ref f) w (fun _ _ => True) := by
  unfold Agg.switchS
  refine Tm.bind (Tm.getSF h) fun row v hk _ hr => ?_
  cases f row.st with
  | none => exact Tm.throw
  | some st =>
    refine Tm.bind (Tm.setS (row := { row with st }) hr.1 fun hb => (hr.2 hb).1) fun _ v' hk' _ _ => ?_
    exact Tm.saveS ((h.keep hk).keep hk')

/-! ### Requests -/

theorem Tm.sendReserves (conn : CRow) (start end_ : Option Time) (hn : conn.key ≠ M.key) : ∀ (ls : List Link) (idx : Nat) (last : Str) (w : World), HasKey w conn.key →
    Tm false cfg M (sendReserves cfg conn start end_ idx last ls) w (fun _ _ => True)
  | [], _, _, _, _ => Tm.pure fun _ => trivial
  | l :: ls, idx, last, w, h => by
    unfold Agg.sendReserves
    refine Tm.bind Tm.ofExcept fun p v hk _ _ => ?_
    refine Tm.bind tfree fun corr v' hk' _ _ => ?_
    refine Tm.bind (Tm.cmd' fun u hu _ => ⟨((h.keep hk).keep hk').keep hu, hn⟩) fun _ v'' hk'' _ _ => ?_
    refine Tm.bind tfree fun _ u hu _ _ => ?_
    exact Tm.sendReserves conn start end_ hn ls _ _ u ((((h.keep hk).keep hk').keep hk'').keep hu)

theorem Tm.sendTerminates (last : Str) : ∀ (l : List (Str × Str)) (w : World), Tm b cfg M (sendTerminates cfg last l) w (fun _ _ => True)
  | [], _ => Tm.pure fun _ => trivial
  | (sc, net) :: ls, w => by
    unfold Agg.sendTerminates
    refine Tm.bind Tm.ofExcept fun p v hk _ _ => ?_
    refine Tm.bind tfree fun corr v' hk' _ _ => ?_
    refine Tm.bind tfree fun _ u hu _ _ => ?_
    exact Tm.sendTerminates last ls u

/-- A new row is not that of the connection: if its id were, saving would fail. -/
theorem Tm.create {row : CRow} {k : Nat → Prog β} {w : World}
    (hk : ∀ ref v, ConnF false M v ref → Tm false cfg M (k ref) v (fun _ _ => True)) :
    Tm false cfg M (issue (.newC row) >>= fun ref => issue (.saveC ref) >>= fun _ => k ref) w (fun _ _ => True) := by
  intro _ _ v hv _ hiv hsv
  refine ⟨⟨trivial, trivial⟩, ?_⟩
  have hn : (exec v (.newC row)).1.cheap[v.cheap.length]? = some ⟨row, true⟩ := by simp [exec]
  intro u hu hun hiu hsu
  have hobj : ∀ o, u.cheap[v.cheap.length]? = some o → o.row.cid = M.cid → o.isNew = true := by
    intro o ho hc
    obtain ⟨o', g1, g2, g3, _⟩ := hu.cobj _ _ hn
    obtain rfl := Option.some.inj (ho.symm.trans g1)
    obtain ⟨o'', e1, e2, _⟩ := hun _ _ hn rfl (g2.symm.trans hc)
    obtain rfl := Option.some.inj (ho.symm.trans e1)
    exact e2
  have hfit : (Cmd.saveC v.cheap.length).Fits false cfg M u := by
    refine ⟨trivial, ?_⟩
    intro o ho hh
    obtain ⟨r, hr, hid⟩ := hiu.cobj _ o ho hh.1
    simp only [CRow.id, Prod.mk.injEq] at hid
    have := hobj o ho (by rw [← hid.2.1]; exact (row_key hiu hsu hr).mp (hid.1.trans hh.2))
    rw [hh.1] at this; simp at this
  refine ⟨hfit, ?_⟩
  have he := hiu.exec _ hfit.1
  have hs := (hsu.exec hiu _ hfit).1
  cases hr : (exec u (.saveC v.cheap.length)).2 with
  | error e => trivial
  | ok _ =>
    show Tame false cfg M (k v.cheap.length) _ _
    refine hk _ _ ?_ he.1 hs
    obtain ⟨id, h⟩ := (hiu.saveC v.cheap.length).2.2 hr
    refine ConnF.ofCid he.1 hs h fun _ hc => ?_
    obtain ⟨o0, g1, g2, _⟩ := hu.cobj _ _ hn
    obtain ⟨o1, f1, f2, _⟩ := he.2.cobj _ _ g1
    obtain ⟨o2, e1, _, e3⟩ := h
    obtain rfl := Option.some.inj (f1.symm.trans e1)
    have hc0 : o0.row.cid = M.cid := by rw [← f2, ← hc, ← e3]; rfl
    have hnew := hobj o0 g1 hc0
    obtain ⟨r, hr', hid⟩ := hsu.row
    simp only [CRow.id, Prod.mk.injEq] at hid
    simp only [exec, World.saveC, g1, hnew, if_true] at hr
    rw [if_pos] at hr
    · simp at hr
    · rw [Bool.or_eq_true, List.any_eq_true]
      exact Or.inl ⟨r, hr', by rw [decide_eq_true_eq, hid.2.1, hc0]⟩

theorem Tm.reserveNew (h : Hdr) (c : Crit) (w : World) : Tm false cfg M (reserveNew cfg h c) w (fun _ _ => True) := by
  unfold Agg.reserveNew
  refine Tm.bind tfree fun cid v _ _ _ => ?_
  refine Tm.create fun ref v hc => ?_
  refine Tm.bind (Tm.switchC hc) fun _ v hk _ _ => ?_
  replace hc := hc.keep hk
  refine Tm.bind (Tm.getCF hc) fun conn v0 hk0 hi hr => ?_
  have hkey : HasKey v0 conn.key := hi.1.hasKey hr.1
  refine Tm.bind Tm.ofExcept fun path v1 hk1 _ _ => ?_
  refine Tm.bind Tm.ofExcept fun _ v2 hk2 _ _ => ?_
  refine Tm.bind (Tm.sendReserves conn c.start c.end_ (hr.2 rfl).1 path 0 [] v2 ((hkey.keep hk1).keep hk2)) fun last v3 hk3 _ _ => ?_
  refine Tm.bind tfree fun results v4 hk4 _ _ => ?_
  split
  · exact Tm.pure fun _ => trivial
  · unfold reserveCleanup
    have hc4 : ConnF false M v4 ref := ((((hc.keep hk0).keep hk1).keep hk2).keep hk3).keep hk4
    refine Tm.bind (Tm.switchC hc4) fun _ v5 hk5 _ _ => ?_
    refine Tm.bind (Tm.sendTerminates last _ v5) fun _ v6 hk6 _ _ => ?_
    refine Tm.bind tfree fun _ v7 hk7 _ _ => ?_
    refine Tm.bind (Tm.switchC (((hc4.keep hk5).keep hk6).keep hk7)) fun _ v5 hk5 _ _ => ?_
    exact Tm.throw

theorem Tm.reserve (h : Hdr) (cid : Option Str) (c : Crit) (w : World) : Tm false cfg M (reserve cfg h cid c) w (fun _ _ => True) := by
  unfold Agg.reserve
  cases cid with
  | some i => exact Tm.bind tfree fun _ _ _ _ _ => Tm.throw
  | none =>
    refine Tm.bind Tm.ofExcept fun _ v2 _ _ _ => ?_
    exact Tm.reserveNew h c v2

theorem Tm.checkLive {ref : Nat} {w : World} : Tm b cfg M (checkLive ref) w (fun _ _ => True) := by
  unfold Agg.checkLive
  refine Tm.bind tfree fun row _ _ _ _ => ?_
  split
  · exact Tm.throw
  · exact Tm.pure fun _ => trivial

theorem Tm.sendAll (op : Str → POp) : ∀ (l : List SRow) (w : World), Tm b cfg M (sendAll cfg op l) w (fun _ _ => True)
  | [], _ => Tm.pure fun _ => trivial
  | s :: ss, w => by
    unfold Agg.sendAll
    refine Tm.bind Tm.ofExcept fun p v hk _ _ => ?_
    refine Tm.bind tfree fun corr v' hk' _ _ => ?_
    refine Tm.bind tfree fun _ u hu _ _ => ?_
    exact Tm.sendAll op ss u

theorem Tm.answer {cid action : Str} {subs : List SRow} {results : List (Except Err Str)} {w : World} :
    Tm b cfg M (answer cid action subs results) w (fun _ _ => True) := by
  unfold Agg.answer
  split
  · exact Tm.pure fun _ => trivial
  · exact Tm.throw

theorem Tm.abortLoop : ∀ (l done : List Nat) (w : World), (∀ r ∈ done, SegF b M w r) → (∀ r ∈ l, SegF b M w r) →
    Tm b cfg M (abortLoop cfg done l) w (fun _ _ => True)
  | [], done, w, hd, _ => Tm.saveSs hd
  | r :: rs, done, w, hd, h => by
    unfold Agg.abortLoop
    refine Tm.bind (Tm.getSF (h r (by simp))) fun row v hk _ hrow => ?_
    have hd1 := fun x hx => (hd x hx).keep hk
    cases switchR row.st .aborting with
    | none => exact Tm.bind (Tm.saveSs hd1) fun _ _ _ _ _ => Tm.throw
    | some st =>
      refine Tm.bind (Tm.setS (row := { row with st }) hrow.1 fun hb => (hrow.2 hb).1) fun _ v1 hk1 _ _ => ?_
      have hd2 : ∀ x ∈ done ++ [r], SegF b M v1 x := by
        intro x hx
        rcases List.mem_append.mp hx with hx | hx
        · exact (hd1 x hx).keep hk1
        · rw [List.mem_singleton.mp hx]; exact ((h r (by simp)).keep hk).keep hk1
      cases cfg.provider row.src.network with
      | error e => exact Tm.bind (Tm.saveSs hd2) fun _ _ _ _ _ => Tm.throw
      | ok p =>
        refine Tm.bind tfree fun corr v2 hk2 _ _ => ?_
        refine Tm.bind tfree fun _ v3 hk3 _ _ => ?_
        exact Tm.abortLoop rs _ v3 (fun x hx => ((hd2 x hx).keep hk2).keep hk3)
          fun r' hr' => ((((h r' (by simp [hr'])).keep hk).keep hk1).keep hk2).keep hk3

theorem Tm.switchSubs (skip : SRow → Bool) (f : ConnStates → Option ConnStates) : ∀ (l done : List Nat) (w : World), (∀ r ∈ done, SegF b M w r) →
    (∀ r ∈ l, SegF b M w r) → Tm b cfg M (switchSubs skip f done l) w (fun _ _ => True)
  | [], done, w, hd, _ => by
    unfold Agg.switchSubs
    split
    · exact Tm.pure fun _ => trivial
    · exact Tm.saveSs hd
  | r :: rs, done, w, hd, h => by
    unfold Agg.switchSubs
    refine Tm.bind (Tm.getSF (h r (by simp))) fun row v hk _ hrow => ?_
    have hd1 := fun x hx => (hd x hx).keep hk
    split
    · exact Tm.switchSubs skip f rs _ v hd1 fun r' hr' => (h r' (by simp [hr'])).keep hk
    · cases f row.st with
      | none => exact Tm.bind (Tm.saveSs hd1) fun _ _ _ _ _ => Tm.throw
      | some st =>
        refine Tm.bind (Tm.setS (row := { row with st }) hrow.1 fun hb => (hrow.2 hb).1) fun _ v1 hk1 _ _ => ?_
        refine Tm.switchSubs skip f rs _ v1 (fun x hx => ?_) fun r' hr' => ((h r' (by simp [hr'])).keep hk).keep hk1
        rcases List.mem_append.mp hx with hx | hx
        · exact (hd1 x hx).keep hk1
        · rw [List.mem_singleton.mp hx]; exact ((h r (by simp)).keep hk).keep hk1

/-- The common beginning of the requests. -/
theorem Tm.opened {cid : Str} {f : ConnStates → Option ConnStates} {k : List Nat → Prog (Option Str)} (w : World) (hn : b = false → cid ≠ M.cid)
    (hk : ∀ v refs, (∀ r ∈ refs, SegF b M v r) → Tm b cfg M (k refs) v (fun _ _ => True)) :
    Tm b cfg M (do
      let ref ← Agg.getConnection cid
      Agg.checkLive ref
      Agg.switchC ref f
      let conn ← issue (.getC ref)
      let refs ← Agg.getSubConnections conn.key
      k refs) w (fun _ _ => True) := by
  refine Tm.bind (Tm.getConnection cid w hn) fun ref v1 _ _ h1 => ?_
  refine Tm.bind Tm.checkLive fun _ v2 hk2 _ _ => ?_
  refine Tm.bind (Tm.switchC (h1.keep hk2)) fun _ v3 hk3 _ _ => ?_
  refine Tm.bind (Tm.getCF ((h1.keep hk2).keep hk3)) fun conn v4 hk4 _ hr => ?_
  exact Tm.bind (Tm.getSubConnections conn.key v4 fun hb => (hr.2 hb).1) fun refs v5 _ _ h => hk v5 refs h

theorem Tm.reserveCommit (cid : Str) (w : World) (hn : b = false → cid ≠ M.cid) : Tm b cfg M (reserveCommit cfg cid) w (fun _ _ => True) := by
  refine Tm.opened w hn fun v refs h => ?_
  refine Tm.bind (Tm.getSs refs v) fun subs v1 hk1 _ _ => ?_
  refine Tm.bind (Tm.sendAll _ subs v1) fun _ v2 hk2 _ _ => ?_
  exact Tm.bind tfree fun _ _ _ _ _ => Tm.answer

theorem Tm.reserveAbort (cid : Str) (w : World) (hn : b = false → cid ≠ M.cid) : Tm b cfg M (reserveAbort cfg cid) w (fun _ _ => True) := by
  refine Tm.opened w hn fun v refs h => ?_
  refine Tm.bind (Tm.abortLoop refs [] v (by simp) h) fun subs v1 hk1 _ _ => ?_
  refine Tm.bind tfree fun _ _ _ _ _ => ?_
  split
  · exact Tm.pure fun _ => trivial
  · exact Tm.throw

theorem Tm.provision (cid : Str) (w : World) (hn : b = false → cid ≠ M.cid) : Tm b cfg M (provision cfg cid) w (fun _ _ => True) := by
  refine Tm.opened w hn fun v refs h => ?_
  refine Tm.bind (Tm.switchSubs _ _ refs [] v (by simp) h) fun _ v0 hk0 _ _ => ?_
  refine Tm.bind (Tm.getSs refs v0) fun subs v1 hk1 _ _ => ?_
  refine Tm.bind (Tm.sendAll _ subs v1) fun _ v2 hk2 _ _ => ?_
  exact Tm.bind tfree fun _ _ _ _ _ => Tm.answer

theorem Tm.release (cid : Str) (w : World) (hn : b = false → cid ≠ M.cid) : Tm b cfg M (release cfg cid) w (fun _ _ => True) := by
  refine Tm.opened w hn fun v refs h => ?_
  refine Tm.bind (Tm.switchSubs _ _ refs [] v (by simp) h) fun _ v0 hk0 _ _ => ?_
  refine Tm.bind (Tm.getSs refs v0) fun subs v1 hk1 _ _ => ?_
  refine Tm.bind (Tm.sendAll _ subs v1) fun _ v2 hk2 _ _ => ?_
  exact Tm.bind tfree fun _ _ _ _ _ => Tm.answer

theorem Tm.terminate (cid : Str) (w : World) (hn : b = false → cid ≠ M.cid) : Tm b cfg M (terminate cfg cid) w (fun _ _ => True) := by
  unfold Agg.terminate
  refine Tm.bind (Tm.getConnection cid w hn) fun ref v1 _ _ h1 => ?_
  refine Tm.bind tfree fun row v2 hk2 _ hr => ?_
  split
  · exact Tm.pure fun _ => trivial
  · unfold terminateLive
    refine Tm.bind (Tm.switchC (h1.keep hk2)) fun _ v3 hk3 _ _ => ?_
    refine Tm.bind (Tm.getCF ((h1.keep hk2).keep hk3)) fun conn v4 hk4 _ hr => ?_
    refine Tm.bind (Tm.getSubConnections conn.key v4 fun hb => (hr.2 hb).1) fun refs v5 _ _ h => ?_
    refine Tm.bind (Tm.getSs refs v5) fun subs v1 hk1 _ _ => ?_
    refine Tm.bind (Tm.sendAll _ subs v1) fun _ v2 hk2 _ _ => ?_
    exact Tm.bind tfree fun _ _ _ _ _ => Tm.answer

/-! ### Queries -/

theorem Tm.summaryLoop : ∀ (l : List CRow) (w : World), (∀ c ∈ l, c.key ≠ M.key) →
    Tm false cfg M (summaryLoop l) w (fun infos _ => ∀ i ∈ infos, ∃ c ∈ l, i.cid = c.cid ∧ i.requester = c.requester)
  | [], w, _ => Tm.pure fun _ => by simp
  | c :: cs, w, hn => by
    unfold Agg.summaryLoop
    refine Tm.bind (Tm.getSubConnections c.key w fun _ => hn c (by simp)) fun refs v _ _ h => ?_
    refine Tm.bind (Tm.getSs refs v) fun subs v1 hk1 _ _ => ?_
    refine Tm.bind tfree fun n v2 hk2 _ _ => ?_
    refine Tm.bind (Tm.summaryLoop cs v2 fun c hc => hn c (by simp [hc])) fun rest v3 hk3 _ hrest => Tm.pure fun _ => ?_
    intro i hi
    rcases List.mem_cons.mp hi with rfl | hi
    · exact ⟨c, by simp, rfl, rfl⟩
    · obtain ⟨c', h1, h2⟩ := hrest i hi
      exact ⟨c', by simp [h1], h2⟩

/-- The query does not select the connection. -/
def Spares (cfg : Cfg) (M : Mark) (h : Hdr) (cids : List Str) : Prop := (cids ≠ [] ∧ M.cid ∉ cids) ∨ (h.requester ∉ cfg.admins ∧ h.requester ≠ M.req)

theorem Tm.querySummary (h : Hdr) (cids gids : List Str) (w : World) (hn : Spares cfg M h cids) : Tm false cfg M (querySummary cfg h cids gids) w (fun _ _ => True) := by
  unfold Agg.querySummary
  simp only
  split
  · exact Tm.throw
  · refine Tm.bind (Q := fun rows v => ∀ r ∈ rows, r.key ≠ M.key ∧ Owns v r.cid r.requester ∧ (h.requester ∈ cfg.admins ∨ r.requester = h.requester))
      (Tm.cmd (fun _ _ _ => fits_of trivial trivial trivial) ?_) fun rows v _ _ hrows => ?_
    · intro v r _ hi _ hb r hr
      simp only [exec, Except.ok.injEq] at hb ⊢
      subst hb
      rw [List.mem_filter] at hr
      refine ⟨fun he => ?_, ⟨r, hr.1, rfl, rfl⟩, ?_⟩
      · obtain ⟨r0, h0, hid⟩ := hi.2.row
        simp only [CRow.id, Prod.mk.injEq] at hid
        obtain rfl := nodup_map_inj hi.1.ckeys hr.1 h0 (he.trans hid.1.symm)
        rcases hn with ⟨g1, g2⟩ | ⟨g1, g2⟩
        · have h2 := hr.2
          rw [Bool.and_eq_true] at h2
          have := h2.2
          simp [g1, hid.2.1, g2] at this
        · have h2 := hr.2
          rw [Bool.and_eq_true] at h2
          have := h2.1
          simp [g1, hid.2.2] at this
          exact g2 this.symm
      · by_cases ha : h.requester ∈ cfg.admins
        · exact Or.inl ha
        · simp only [if_neg ha, Bool.and_eq_true, Option.all_some, decide_eq_true_eq] at hr
          exact Or.inr hr.2.1
    · refine Tm.bind (Tm.summaryLoop rows v fun r hr => (hrows r hr).1) fun infos v1 hk1 _ hinfos => ?_
      refine Tm.bind (Tm.cmd' fun u hu _ => ⟨?_, by simp [Cmd.Away, Out.about]⟩) fun _ _ _ _ _ => Tm.pure fun _ => trivial
      refine ⟨fun x hx => by simp [Out.dest] at hx, fun to_ corr infos' heq i hi => ?_, fun _ _ _ heq => by simp at heq⟩
      simp only [Out.querySummary.injEq] at heq
      obtain ⟨rfl, _, rfl⟩ := heq
      obtain ⟨c, h1, h2, h3⟩ := hinfos i hi
      rw [h2, h3]
      exact ⟨((hrows c h1).2.1.keep hk1).keep hu, (hrows c h1).2.2⟩

theorem Tm.sendQueries (cb : Str) : ∀ (l : List SRow) (w : World), Tm b cfg M (sendQueries cfg cb l) w (fun _ _ => True)
  | [], _ => Tm.pure fun _ => trivial
  | s :: ss, w => by
    unfold Agg.sendQueries
    refine Tm.bind Tm.ofExcept fun p v hk _ _ => ?_
    refine Tm.bind tfree fun corr v' hk' _ _ => ?_
    refine Tm.bind tfree fun _ u hu _ _ => ?_
    refine Tm.bind tfree fun _ u hu _ _ => ?_
    exact Tm.sendQueries cb ss u

theorem Tm.queryRecursive (h : Hdr) (cids gids : List Str) (w : World) (hn : M.cid ∉ cids) : Tm false cfg M (queryRecursive cfg h cids gids) w (fun _ _ => True) := by
  unfold Agg.queryRecursive
  split
  · exact Tm.throw
  · split
    · exact Tm.throw
    · rename_i cid
      unfold queryOne
      refine Tm.bind (Tm.getConnection cid w fun _ he => hn (by simp [he])) fun ref v1 _ _ h1 => ?_
      refine Tm.bind (Tm.getCF h1) fun row v2 hk2 _ hr => ?_
      refine Tm.bind (Tm.getSubConnections row.key v2 fun hb => (hr.2 hb).1) fun refs v3 hk3 _ hs => ?_
      refine Tm.bind (Tm.getSs refs v3) fun subs v4 hk4 _ _ => ?_
      refine Tm.bind (Tm.cmd' fun u hu _ => ?_) fun _ v5 _ _ _ => ?_
      · have hc := ((hr.1.keep hk3).keep hk4).keep hu
        exact ⟨⟨_, hc⟩, fun id hid => by rw [hid.unique hc]; exact (hr.2 rfl).1⟩
      refine Tm.bind (Tm.sendQueries _ subs v5) fun _ v6 _ _ _ => ?_
      refine Tm.bind tfree fun _ _ _ _ _ => ?_
      split
      · exact Tm.pure fun _ => trivial
      · exact Tm.throw
    · exact Tm.throw

theorem Tm.queryRecursiveConfirmed (h : RHdr) (res : List Str) (w : World) : Tm false cfg M (queryRecursiveConfirmed h res) w (fun _ _ => True) := by
  unfold Agg.queryRecursiveConfirmed
  refine Tm.bind tfree fun r v _ _ _ => ?_
  have hstore : ∀ cb v, Tm false cfg M (storeQuery h.corr cb res) v (fun _ _ => True) := by
    intro cb v
    unfold storeQuery
    refine Tm.bind tfree fun _ v1 _ _ _ => ?_
    refine Tm.bind (Q := fun r v => ∀ q, r = some q → ConnF false M v q.conn) (Tm.cmd (fun _ _ _ => fits_of trivial trivial trivial) ?_) fun r v2 _ _ hq => ?_
    · intro v r _ hi _ hb q hq
      simp only [exec, Except.ok.injEq] at hb ⊢
      have := dget_some_mem (hb.trans hq)
      obtain ⟨id, h⟩ := hi.1.qfk _ this
      exact ConnF.ofKey hi.1 hi.2 h fun _ => hi.2.qreqs _ this id h
    · cases r with
      | none => exact Tm.throw
      | some q =>
        refine Tm.bind tfree fun scr v3 hk3 _ _ => ?_
        split
        · unfold answerQuery
          refine Tm.bind tfree fun _ v4 hk4 _ _ => ?_
          refine Tm.bind (Tm.getCF (((hq q rfl).keep hk3).keep hk4)) fun conn v5 hk5 _ hr => ?_
          refine Tm.bind (Tm.getSubConnections conn.key v5 fun hb => (hr.2 hb).1) fun refs v6 hk6 _ hs => ?_
          refine Tm.bind (Tm.getSs refs v6) fun subs v7 hk7 _ _ => ?_
          refine Tm.bind Tm.ofExcept fun dps v8 hk8 _ _ => ?_
          have hc := (((((hq q rfl).keep hk3).keep hk4).keep hk5).keep hk6).keep (hk7.trans hk8)
          refine Tm.bind (Tm.getCF hc) fun conn v9 _ _ hr => ?_
          refine Tm.bind tfree fun n v10 hk10 _ _ => ?_
          refine Tm.bind (Tm.cmd' fun u hu hi => ⟨?_, by simp [Cmd.Away, Out.about]⟩) fun _ _ _ _ _ => Tm.pure fun _ => trivial
          refine ⟨fun x hx => by simp [Out.dest] at hx, fun _ _ _ heq => by simp at heq, fun _ _ _ heq => ?_⟩
          simp only [Out.queryRecursive.injEq] at heq
          obtain ⟨_, _, rfl⟩ := heq
          exact hi.1.owns ((hr.1.keep hk10).keep hu)
        · exact Tm.pure fun _ => trivial
  split
  · exact Tm.pure fun _ => trivial
  · exact Tm.pure fun _ => trivial
  · exact hstore _ _

/-! ### Replies -/

theorem Tm.family (skey : Nat) (w : World) (hn : b = false → skey ≠ M.key) : Tm b cfg M (family skey) w (fun f v => ConnF b M v f.1 ∧ ∀ r ∈ f.2, SegF b M v r) := by
  unfold Agg.family
  refine Tm.bind (Tm.getConnectionByKey skey w hn) fun ref v1 _ _ hc => ?_
  refine Tm.bind (Tm.getCF hc) fun conn v2 hk2 _ hr => ?_
  refine Tm.bind (Tm.getSubConnections conn.key v2 fun hb => (hr.2 hb).1) fun refs v3 hk3 _ hs => ?_
  exact Tm.pure fun _ => ⟨(hc.keep hk2).keep hk3, hs⟩

/-- Read the object and tell the requester. -/
theorem Tm.tell {ref : Nat} {conn : CRow} {o : Out} {w : World} (h : IsC w ref conn.id) (hn : b = false → conn.cid ≠ M.cid)
    (ho : o.dest = some (conn.cid, conn.requester)) (ha : o.about = some conn.cid) :
    Tm b cfg M (issue (.emit o) >>= fun _ => Coro.pure (none : Option Str)) w (fun _ _ => True) :=
  Tm.bind (Tm.cmd' fun _ hu hi => fits_split (hi.1.outOk (h.keep hu) ho) trivial fun hb he => hn hb (Option.some.inj (ha.symm.trans he)))
    fun _ _ _ _ _ => Tm.pure fun _ => trivial

theorem Tm.takeResv (h : RHdr) (w : World) : Tm b cfg M (takeResv h) w (fun r v => HasKey v r.skey ∧ r.skey ≠ M.key) := by
  unfold Agg.takeResv
  refine Tm.bind (Q := fun r v => ∀ x, r = some x → HasKey v x.skey ∧ x.skey ≠ M.key) (Tm.cmd (fun _ _ _ => fits_of trivial trivial trivial) ?_) fun r v _ _ hr => ?_
  · intro v r _ hi _ hb x hx
    simp only [exec, Except.ok.injEq] at hb ⊢
    have := dget_some_mem (hb.trans hx)
    exact ⟨hi.1.rfk _ this, hi.2.resv _ this⟩
  · cases r with
    | none => exact Tm.throw
    | some r =>
      simp only
      split
      · exact Tm.throw
      · exact Tm.bind tfree fun _ v1 hk1 _ _ => Tm.pure fun _ => ⟨(hr r rfl).1.keep hk1, (hr r rfl).2⟩

theorem Tm.confirmUp {skey ref : Nat} {refs : List Nat} {w : World} (hc : ConnF b M w ref) :
    Tm b cfg M (confirmUp skey ref refs) w (fun _ _ => True) := by
  unfold Agg.confirmUp
  refine Tm.bind tfree fun n v1 hk1 _ _ => ?_
  split
  · exact Tm.pure fun _ => trivial
  · refine Tm.bind (Tm.getSs refs v1) fun subs v2 hk2 _ _ => ?_
    refine Tm.bind tfree fun conn v3 hk3 _ _ => ?_
    split
    · have hc3 := ((hc.keep hk1).keep hk2).keep hk3
      refine Tm.bind (Tm.switchC hc3) fun _ v4 hk4 _ _ => ?_
      refine Tm.bind (Tm.getCF (hc3.keep hk4)) fun conn v5 _ _ hr => ?_
      exact Tm.tell (conn := conn) hr.1 (fun hb => (hr.2 hb).2) rfl rfl
    · exact Tm.pure fun _ => trivial

/-- A segment object of another connection, stored or not. -/
def NotOwn (M : Mark) (w : World) (ref : Nat) : Prop := ∃ o, w.sheap[ref]? = some o ∧ o.row.skey ≠ M.key

theorem NotOwn.keep {w w' : World} (hk : Keep w w') {ref : Nat} (h : NotOwn M w ref) : NotOwn M w' ref := by
  obtain ⟨o, h1, h2⟩ := h
  obtain ⟨o', g1, _, _, g2, _⟩ := hk.sobj ref o h1
  exact ⟨o', g1, by rw [g2]; exact h2⟩

theorem Tm.reserveConfirmed (h : RHdr) (cid : Str) (c : Crit) (w : World) (hn : cid ∉ M.segs) : Tm false cfg M (reserveConfirmed h cid c) w (fun _ _ => True) := by
  unfold Agg.reserveConfirmed
  refine Tm.bind (Tm.takeResv h w) fun r v hk _ hr => ?_
  unfold confirmOk
  refine Tm.bind (Q := fun sref v => NotOwn M v sref) (Tm.cmd (fun u hu _ => ⟨hr.1.keep hu, hr.2, hn⟩) ?_) fun sref v1 hk1 _ hsr => ?_
  · intro v s _ _ _ hb
    simp only [exec, Except.ok.injEq] at hb ⊢
    subst hb
    exact ⟨⟨newSub r cid c, true⟩, by simp, hr.2⟩
  refine Tm.bind (Tm.cmd' fun u hu hi => ⟨trivial, fun o ho => ?_⟩) fun _ v2 hk2 _ _ => ?_
  · obtain ⟨o', g1, g2⟩ := hsr.keep hu
    obtain rfl := Option.some.inj (ho.symm.trans g1)
    exact g2
  refine Tm.bind (Tm.family r.skey v2 fun _ => hr.2) fun f v3 hk3 _ hf => ?_
  obtain ⟨hc, hs⟩ := hf
  refine Tm.bind (Tm.getCF hc) fun conn v4 hk4 _ hr4 => ?_
  refine Tm.bind (Tm.setC (row := confirmLabels conn _ _ c) (by rw [confirmLabels_id]; exact hr4.1) fun hb => ?_) fun _ v5 hk5 _ _ => ?_
  · have := confirmLabels_id conn r.order f.2.length c
    simp only [CRow.id, Prod.mk.injEq] at this
    rw [this.1]; exact (hr4.2 hb).1
  refine Tm.bind (Tm.saveC ((hc.keep hk4).keep hk5)) fun _ v6 hk6 _ _ => ?_
  exact Tm.confirmUp (((hc.keep hk4).keep hk5).keep hk6)

theorem Tm.reserveFailed (h : RHdr) (w : World) : Tm b cfg M (reserveFailed h) w (fun _ _ => True) := by
  unfold Agg.reserveFailed
  refine Tm.bind (Tm.takeResv h w) fun r v hk _ hr => ?_
  refine Tm.bind (Tm.getConnectionByKey r.skey v fun _ => hr.2) fun ref v1 hk1 _ hc => ?_
  refine Tm.bind (Q := fun _ _ => True) ?_ fun _ v2 hk2 _ _ => ?_
  · unfold markFailed
    refine Tm.bind tfree fun conn v3 hk3 _ _ => ?_
    split
    · exact Tm.switchC (hc.keep hk3)
    · exact Tm.pure fun _ => trivial
  · refine Tm.bind (Tm.getCF (hc.keep hk2)) fun conn v5 _ _ hr => ?_
    exact Tm.tell (conn := conn) hr.1 (fun hb => (hr.2 hb).2) rfl rfl

theorem Tm.confirmAll (skey : Nat) {there : ConnStates → Bool} {f : ConnStates → Option ConnStates} {msg : Str → Str → Out} (w : World)
    (hn : b = false → skey ≠ M.key) (hm : ∀ to_ cid, (msg to_ cid).dest = some (cid, to_) ∧ (msg to_ cid).about = some cid) :
    Tm b cfg M (confirmAll skey there f msg) w (fun _ _ => True) := by
  unfold Agg.confirmAll
  refine Tm.bind (Tm.family skey w hn) fun fam v1 hk1 _ hf => ?_
  refine Tm.bind (Tm.getSs fam.2 v1) fun subs v2 hk2 _ _ => ?_
  refine Tm.bind tfree fun conn v3 hk3 _ _ => ?_
  split
  · have hc3 := (hf.1.keep hk2).keep hk3
    refine Tm.bind (Tm.switchC hc3) fun _ v4 hk4 _ _ => ?_
    refine Tm.bind (Tm.getCF (hc3.keep hk4)) fun conn v5 _ _ hr => ?_
    exact Tm.tell (conn := conn) hr.1 (fun hb => (hr.2 hb).2) (hm _ _).1 (hm _ _).2
  · exact Tm.pure fun _ => trivial

theorem Tm.confirmSet (h : RHdr) (cid : Str) {set : ConnStates → ConnStates} {there : ConnStates → Bool} {f : ConnStates → Option ConnStates}
    {msg : Str → Str → Out} (w : World) (hn : b = false → cid ∉ M.segs) (hm : ∀ to_ cid, (msg to_ cid).dest = some (cid, to_) ∧ (msg to_ cid).about = some cid) :
    Tm b cfg M (confirmSet h cid set there f msg) w (fun _ _ => True) := by
  unfold Agg.confirmSet
  refine Tm.bind (Tm.getSubConnection h.prov cid w hn) fun sref v1 hk1 _ hs => ?_
  refine Tm.bind (Tm.getSF hs) fun s v2 hk2 _ hr => ?_
  refine Tm.bind (Tm.setS (row := { s with st := set s.st }) hr.1 fun hb => (hr.2 hb).1) fun _ v3 hk3 _ _ => ?_
  refine Tm.bind (Tm.saveS ((hs.keep hk2).keep hk3)) fun _ v4 _ _ _ => ?_
  exact Tm.confirmAll s.skey v4 (fun hb => (hr.2 hb).1) hm

theorem Tm.confirmSwitch (h : RHdr) (cid : Str) {g : ConnStates → Option ConnStates} {there : ConnStates → Bool}
    {f : ConnStates → Option ConnStates} {msg : Str → Str → Out} (w : World) (hn : b = false → cid ∉ M.segs)
    (hm : ∀ to_ cid, (msg to_ cid).dest = some (cid, to_) ∧ (msg to_ cid).about = some cid) :
    Tm b cfg M (confirmSwitch h cid g there f msg) w (fun _ _ => True) := by
  unfold Agg.confirmSwitch
  refine Tm.bind (Tm.getSubConnection h.prov cid w hn) fun sref v1 hk1 _ hs => ?_
  refine Tm.bind (Tm.getSF hs) fun s v2 hk2 _ hr => ?_
  refine Tm.bind (Tm.switchS (hs.keep hk2)) fun _ v4 _ _ _ => ?_
  exact Tm.confirmAll s.skey v4 (fun hb => (hr.2 hb).1) hm

theorem Tm.reserveTimeout (h : RHdr) (cid : Str) (n : Nat) (w : World) (hn : b = false → cid ∉ M.segs) : Tm b cfg M (reserveTimeout h cid n) w (fun _ _ => True) := by
  unfold Agg.reserveTimeout
  refine Tm.bind (Tm.getSubConnection h.prov cid w hn) fun sref v1 hk1 _ hs => ?_
  refine Tm.bind (Tm.switchS hs) fun _ v2 hk2 _ hr => ?_
  refine Tm.bind (Tm.getSF (hs.keep hk2)) fun s v3 _ _ hs => ?_
  refine Tm.bind (Tm.family s.skey v3 fun hb => (hs.2 hb).1) fun fam v4 hk4 _ hf => ?_
  refine Tm.bind (Tm.getSs fam.2 v4) fun subs v5 hk5 _ _ => ?_
  refine Tm.bind (Tm.getCF (hf.1.keep hk5)) fun conn v5 _ _ hr => ?_
  split
  · exact Tm.pure fun _ => trivial
  · split
    · exact Tm.tell (conn := conn) hr.1 (fun hb => (hr.2 hb).2) rfl rfl
    · exact Tm.pure fun _ => trivial

theorem Tm.dataPlane (h : RHdr) (cid : Str) (a : Bool) (n : Int) (c : Bool) (w : World) (hn : b = false → cid ∉ M.segs) :
    Tm b cfg M (dataPlaneStateChange h cid a n c) w (fun _ _ => True) := by
  unfold Agg.dataPlaneStateChange
  refine Tm.bind (Tm.getSubConnection h.prov cid w hn) fun sref v1 hk1 _ hs => ?_
  refine Tm.bind (Tm.getSF hs) fun s v2 hk2 _ hr => ?_
  refine Tm.bind (Tm.setS (row := { s with dpActive := a, dpVersion := some n, dpCons := some c }) hr.1 fun hb => (hr.2 hb).1) fun _ v3 hk3 _ _ => ?_
  refine Tm.bind (Tm.saveS ((hs.keep hk2).keep hk3)) fun _ v4 _ _ _ => ?_
  refine Tm.bind (Tm.family s.skey v4 fun hb => (hr.2 hb).1) fun fam v4 hk4 _ hf => ?_
  refine Tm.bind (Tm.getSs fam.2 v4) fun subs v5 hk5 _ _ => ?_
  refine Tm.bind (Tm.getCF (hf.1.keep hk5)) fun conn v5 _ _ hr => ?_
  exact Tm.tell (conn := conn) hr.1 (fun hb => (hr.2 hb).2) rfl rfl

theorem Tm.errorEvent (h : RHdr) (cid : Str) (n : Nat) (w : World) (hn : b = false → cid ∉ M.segs) : Tm b cfg M (errorEvent h cid n) w (fun _ _ => True) := by
  unfold Agg.errorEvent
  refine Tm.bind (Tm.getSubConnection h.prov cid w hn) fun sref v1 hk1 _ hs => ?_
  refine Tm.bind (Tm.getSF hs) fun s v4 _ _ hr => ?_
  refine Tm.bind (Tm.family s.skey v4 fun hb => (hr.2 hb).1) fun fam v4 hk4 _ hf => ?_
  refine Tm.bind (Tm.getCF hf.1) fun conn v5 _ _ hr => ?_
  split
  · exact Tm.tell (conn := conn) hr.1 (fun hb => (hr.2 hb).2) rfl rfl
  · exact Tm.throw

/-- The message is about the connection, or about one of its segments. -/
def Msg.mine (M : Mark) : Msg → Prop
  | .commit _ c => c = M.cid
  | .abort _ c => c = M.cid
  | .provision _ c => c = M.cid
  | .release _ c => c = M.cid
  | .terminate _ c => c = M.cid
  | .commitConfirmed _ c => c ∈ M.segs
  | .abortConfirmed _ c => c ∈ M.segs
  | .provisionConfirmed _ c => c ∈ M.segs
  | .releaseConfirmed _ c => c ∈ M.segs
  | .terminateConfirmed _ c => c ∈ M.segs
  | .timeout _ c _ => c ∈ M.segs
  | .dataPlane _ c _ _ _ => c ∈ M.segs
  | .errorEvent _ c _ => c ∈ M.segs
  | _ => False

/-- The message is not about the connection or its segments: a query does not select it, and a segment is not given one of their ids. -/
def Msg.other (cfg : Cfg) (M : Mark) : Msg → Prop
  | .reserve _ _ _ => True
  | .commit _ c => c ≠ M.cid
  | .abort _ c => c ≠ M.cid
  | .provision _ c => c ≠ M.cid
  | .release _ c => c ≠ M.cid
  | .terminate _ c => c ≠ M.cid
  | .querySummary h cids _ => Spares cfg M h cids
  | .queryRecursive _ cids _ => M.cid ∉ cids
  | .reserveConfirmed _ c _ => c ∉ M.segs
  | .reserveFailed _ => True
  | .commitConfirmed _ c => c ∉ M.segs
  | .abortConfirmed _ c => c ∉ M.segs
  | .provisionConfirmed _ c => c ∉ M.segs
  | .releaseConfirmed _ c => c ∉ M.segs
  | .terminateConfirmed _ c => c ∉ M.segs
  | .timeout _ c _ => c ∉ M.segs
  | .dataPlane _ c _ _ _ => c ∉ M.segs
  | .errorEvent _ c _ => c ∉ M.segs
  | .queryConfirmed _ _ => True

/-- Handlers of messages about others. -/
theorem Tm.other (m : Msg) (w : World) (h : m.other cfg M) : Tm false cfg M (m.prog cfg) w (fun _ _ => True) := by
  cases m with
  | reserve hd cid c => exact Tm.reserve hd cid c w
  | commit _ cid => exact Tm.reserveCommit cid w fun _ => h
  | abort _ cid => exact Tm.reserveAbort cid w fun _ => h
  | provision _ cid => exact Tm.provision cid w fun _ => h
  | release _ cid => exact Tm.release cid w fun _ => h
  | terminate _ cid => exact Tm.terminate cid w fun _ => h
  | querySummary hd cids gids => exact Tm.querySummary hd cids gids w h
  | queryRecursive hd cids gids => exact Tm.queryRecursive hd cids gids w h
  | reserveConfirmed hd cid c => exact Tm.reserveConfirmed hd cid c w h
  | reserveFailed hd => exact Tm.reserveFailed hd w
  | commitConfirmed hd cid => unfold Msg.prog Agg.reserveCommitConfirmed; exact Tm.confirmSet (msg := Out.reserveCommitConfirmed) hd cid w (fun _ => h) fun _ _ => ⟨rfl, rfl⟩
  | abortConfirmed hd cid => unfold Msg.prog Agg.reserveAbortConfirmed; exact Tm.confirmSet (msg := Out.reserveAbortConfirmed) hd cid w (fun _ => h) fun _ _ => ⟨rfl, rfl⟩
  | provisionConfirmed hd cid => exact Tm.confirmSwitch (msg := Out.provisionConfirmed) hd cid w (fun _ => h) fun _ _ => ⟨rfl, rfl⟩
  | releaseConfirmed hd cid => exact Tm.confirmSwitch (msg := Out.releaseConfirmed) hd cid w (fun _ => h) fun _ _ => ⟨rfl, rfl⟩
  | terminateConfirmed hd cid => unfold Msg.prog Agg.terminateConfirmed; exact Tm.confirmSet (msg := Out.terminateConfirmed) hd cid w (fun _ => h) fun _ _ => ⟨rfl, rfl⟩
  | timeout hd cid n => exact Tm.reserveTimeout hd cid n w fun _ => h
  | dataPlane hd cid a v c => exact Tm.dataPlane hd cid a v c w fun _ => h
  | errorEvent hd cid n => exact Tm.errorEvent hd cid n w fun _ => h
  | queryConfirmed hd res => exact Tm.queryRecursiveConfirmed hd res w

/-- Handlers of messages about the connection. -/
theorem Tm.mine (m : Msg) (w : World) (h : m.mine M) : Tm true cfg M (m.prog cfg) w (fun _ _ => True) := by
  cases m with
  | reserve hd cid c => exact h.elim
  | commit _ cid => exact Tm.reserveCommit cid w nofun
  | abort _ cid => exact Tm.reserveAbort cid w nofun
  | provision _ cid => exact Tm.provision cid w nofun
  | release _ cid => exact Tm.release cid w nofun
  | terminate _ cid => exact Tm.terminate cid w nofun
  | querySummary hd cids gids => exact h.elim
  | queryRecursive hd cids gids => exact h.elim
  | reserveConfirmed hd cid c => exact h.elim
  | reserveFailed hd => exact h.elim
  | commitConfirmed hd cid => unfold Msg.prog Agg.reserveCommitConfirmed; exact Tm.confirmSet (msg := Out.reserveCommitConfirmed) hd cid w nofun fun _ _ => ⟨rfl, rfl⟩
  | abortConfirmed hd cid => unfold Msg.prog Agg.reserveAbortConfirmed; exact Tm.confirmSet (msg := Out.reserveAbortConfirmed) hd cid w nofun fun _ _ => ⟨rfl, rfl⟩
  | provisionConfirmed hd cid => exact Tm.confirmSwitch (msg := Out.provisionConfirmed) hd cid w nofun fun _ _ => ⟨rfl, rfl⟩
  | releaseConfirmed hd cid => exact Tm.confirmSwitch (msg := Out.releaseConfirmed) hd cid w nofun fun _ _ => ⟨rfl, rfl⟩
  | terminateConfirmed hd cid => unfold Msg.prog Agg.terminateConfirmed; exact Tm.confirmSet (msg := Out.terminateConfirmed) hd cid w nofun fun _ _ => ⟨rfl, rfl⟩
  | timeout hd cid n => exact Tm.reserveTimeout hd cid n w nofun
  | dataPlane hd cid a v c => exact Tm.dataPlane hd cid a v c w nofun
  | errorEvent hd cid n => exact Tm.errorEvent hd cid n w nofun
  | queryConfirmed hd res => exact h.elim

end OpenNSA.Agg
