import Verif.Agg.OwnMir
/- What a handler of a message about the connection does among others, it does alone. -/
namespace OpenNSA.Agg
open OpenNSA Py Coro

variable {M : Mark} {cfg : Cfg} {P : Prs} {α β : Type}

theorem Ref.same {a : α} : Ref cfg M P (Coro.pure a) (Coro.pure a) (fun _ a b => a = b) := Ref.pure rfl

theorem Ref.getConnection : Ref cfg M P (getConnection M.cid) (getConnection M.cid) (fun P' i j => (i, j) ∈ P'.A) := by
  unfold Agg.getConnection
  refine Ref.bind Ref.cachedC fun a b P1 _ h1 => ?_
  rcases h1 with ⟨rfl, rfl⟩ | ⟨i, j, rfl, rfl, h1⟩
  · refine Ref.bind Ref.findConn fun a b P2 _ h2 => ?_
    rcases h2 with ⟨rfl, rfl⟩ | ⟨i, j, rfl, rfl, h2⟩
    · exact Ref.throw
    · exact Ref.bind (Ref.cacheC h2) fun _ _ P3 h3 _ => Ref.pure (h3.A _ h2)
  · exact Ref.pure h1

theorem Ref.getConnectionByKey : Ref cfg M P (getConnectionByKey M.key) (getConnectionByKey M.key) (fun P' i j => (i, j) ∈ P'.A) := by
  unfold Agg.getConnectionByKey
  refine Ref.bind Ref.findConnByKey fun a b P1 _ h1 => ?_
  obtain ⟨rfl, h1⟩ := h1
  cases a with
  | none => exact Ref.throw
  | some c =>
    rw [h1 c rfl]
    exact Ref.getConnection

theorem Ref.getSubConnection (prov : Str) {cid : Str} (hc : cid ∈ M.segs) :
    Ref cfg M P (getSubConnection prov cid) (getSubConnection prov cid) (fun P' i j => (i, j) ∈ P'.B) := by
  unfold Agg.getSubConnection
  refine Ref.bind (Ref.cachedS hc) fun a b P1 _ h1 => ?_
  rcases h1 with ⟨rfl, rfl⟩ | ⟨i, j, rfl, rfl, h1⟩
  · refine Ref.bind (Ref.findSubs (by simpa using hc)) fun a b P2 _ h2 => ?_
    cases h2 with
    | nil => exact Ref.throw
    | cons hx hxs =>
      cases hxs with
      | cons _ _ =>
        rcases hx with ⟨rfl, rfl⟩ | ⟨i, j, rfl, rfl, hx⟩ <;> exact Ref.throw
      | nil =>
        rcases hx with ⟨rfl, rfl⟩ | ⟨i, j, rfl, rfl, hx⟩
        · exact Ref.throw
        · exact Ref.bind (Ref.cacheS hx) fun _ _ P3 h3 _ => Ref.pure (h3.B _ hx)
  · exact Ref.pure h1

/-- Related lists of segment objects. -/
abbrev Segs (P : Prs) (is js : List Nat) : Prop := List.Forall₂ (fun i j => (i, j) ∈ P.B) is js

theorem Segs.mono {P P' : Prs} (h : P.Le P') {is js : List Nat} (hs : Segs P is js) : Segs P' is js := hs.imp fun _ _ hp => h.B _ hp

theorem optRels_mono {P P' : Prs} (h : P.Le P') {is js : List (Option Nat)} (hs : List.Forall₂ (OptRel P.B) is js) : List.Forall₂ (OptRel P'.B) is js :=
  hs.imp fun _ _ hp => hp.mono h.B

theorem Ref.lookupSubs : ∀ (l : List (Str × Str)) (P : Prs), (∀ x ∈ l, x.2 ∈ M.segs) →
    Ref cfg M P (lookupSubs l) (lookupSubs l) (fun P' a b => List.Forall₂ (OptRel P'.B) a b)
  | [], _, _ => Ref.pure .nil
  | x :: xs, P, h => by
    unfold Agg.lookupSubs
    refine Ref.bind (Ref.cachedS (h x (by simp))) fun a b P1 _ h1 => ?_
    exact Ref.bind (Ref.lookupSubs xs P1 fun y hy => h y (by simp [hy])) fun as bs P2 h2 hs => Ref.pure (.cons (h1.mono h2.B) hs)

theorem missing_eq {A : List (Nat × Nat)} : ∀ (l : List (Str × Str)) {cs ds : List (Option Nat)}, List.Forall₂ (OptRel A) cs ds → missingSubs l cs = missingSubs l ds
  | [], _, _, h => by cases h <;> simp [missingSubs]
  | x :: xs, _, _, .nil => rfl
  | x :: xs, _, _, .cons hx hxs => by
    rcases hx with ⟨rfl, rfl⟩ | ⟨i, j, rfl, rfl, _⟩ <;> simp only [missingSubs, missing_eq xs hxs]

theorem Ref.findMissing {l : List (Str × Str)} (hl : ∀ x ∈ l, x.2 ∈ M.segs) :
    Ref cfg M P (findMissing l) (findMissing l) (fun P' a b => List.Forall₂ (OptRel P'.B) a b) := by
  unfold Agg.findMissing
  split
  · exact Ref.pure .nil
  · exact Ref.findSubs hl

theorem missing_mem : ∀ (l : List (Str × Str)) (cs : List (Option Nat)), ∀ x ∈ missingSubs l cs, x ∈ l
  | [], cs, x, h => by cases cs <;> simp [missingSubs] at h
  | _ :: _, [], x, h => by simp [missingSubs] at h
  | y :: ys, none :: cs, x, h => by
    rcases List.mem_cons.mp h with rfl | h
    · simp
    · exact List.mem_cons_of_mem _ (missing_mem ys cs x h)
  | y :: ys, some r :: cs, x, h => List.mem_cons_of_mem _ (missing_mem ys cs x h)

theorem Ref.mergeSubs : ∀ (l : List (Str × Str)) (cs ds fs gs : List (Option Nat)) (P : Prs), List.Forall₂ (OptRel P.B) cs ds → List.Forall₂ (OptRel P.B) fs gs →
    Ref cfg M P (mergeSubs l cs fs) (mergeSubs l ds gs) (fun P' a b => Segs P' a b)
  | [], cs, ds, fs, gs, P, hc, hf => by
    cases hc <;> (simp only [Agg.mergeSubs]; exact Ref.pure .nil)
  | x :: xs, _, _, fs, gs, P, .nil, hf => by simp only [Agg.mergeSubs]; exact Ref.pure .nil
  | x :: xs, _, _, fs, gs, P, .cons (l₁ := cs) (l₂ := ds) hc hcs, hf => by
    rcases hc with ⟨rfl, rfl⟩ | ⟨i, j, rfl, rfl, hij⟩
    · cases hf with
      | nil => simp only [Agg.mergeSubs]; exact Ref.throw
      | @cons _ _ fs gs hx hxs =>
        rcases hx with ⟨rfl, rfl⟩ | ⟨i, j, rfl, rfl, hij⟩
        · simp only [Agg.mergeSubs]; exact Ref.throw
        · simp only [Agg.mergeSubs]
          refine Ref.bind (Ref.cacheS hij) fun _ _ P1 h1 _ => ?_
          refine Ref.bind (Ref.mergeSubs xs cs ds fs gs P1 (optRels_mono h1 hcs) (optRels_mono h1 hxs)) fun a b P2 h2 hs => Ref.pure ?_
          exact .cons (h2.B _ (h1.B _ hij)) hs
    · simp only [Agg.mergeSubs]
      refine Ref.bind (Ref.mergeSubs xs cs ds fs gs P hcs hf) fun a b P2 h2 hs => Ref.pure ?_
      exact .cons (h2.B _ hij) hs

theorem Ref.getSubConnections : Ref cfg M P (getSubConnections M.key) (getSubConnections M.key) (fun P' a b => Segs P' a b) := by
  unfold Agg.getSubConnections
  refine Ref.bind Ref.selectSubs fun rows _ P1 _ h1 => ?_
  obtain ⟨rfl, h1⟩ := h1
  refine Ref.bind (Ref.lookupSubs rows P1 h1) fun cs ds P2 _ h2 => ?_
  rw [← missing_eq rows h2]
  exact Ref.bind (Ref.findMissing fun x hx => h1 x (missing_mem rows cs x hx)) fun fs gs P3 h3 hf => Ref.mergeSubs rows cs ds fs gs P3 (optRels_mono h3 h2) hf

theorem Ref.getSs : ∀ (is js : List Nat) (P : Prs), Segs P is js → Ref cfg M P (getSs is) (getSs js) (fun _ a b => a = b)
  | _, _, _, .nil => Ref.same
  | _, _, P, .cons (l₁ := is) (l₂ := js) h hs => by
    have hs : Segs P is js := hs
    simp only [Agg.getSs]
    refine Ref.bind (Ref.getS h) fun a b P1 h1 hab => ?_
    obtain ⟨rfl, _⟩ := hab
    refine Ref.bind (Ref.getSs is js P1 (hs.mono h1)) fun as bs P2 _ hss => ?_
    subst hss
    exact Ref.same

theorem Ref.switchC {i j : Nat} {f : ConnStates → Option ConnStates} (h : (i, j) ∈ P.A) : Ref cfg M P (switchC i f) (switchC j f) (fun _ _ _ => True) := by
  unfold Agg.switchC
  refine Ref.bind (Ref.getC h) fun row b P1 h1 hab => ?_
  obtain ⟨rfl, hk, _⟩ := hab
  cases f row.st with
  | none => exact Ref.throw
  | some st => exact Ref.bind (Ref.setC (row := { row with st }) (h1.A _ h) hk) fun _ _ P2 h2 _ => Ref.saveC (h2.A _ (h1.A _ h))

theorem Ref.switchS {i j : Nat} {f : ConnStates → Option ConnStates} (h : (i, j) ∈ P.B) : Ref cfg M P (switchS i f) (switchS j f) (fun _ _ _ => True) := by
  unfold Agg.switchS
  refine Ref.bind (Ref.getS h) fun row b P1 h1 hab => ?_
  obtain ⟨rfl, hk, _⟩ := hab
  cases f row.st with
  | none => exact Ref.throw
  | some st => exact Ref.bind (Ref.setS (row := { row with st }) (h1.B _ h) hk) fun _ _ P2 h2 _ => Ref.saveS (h2.B _ (h1.B _ h))

/-! ### Requests -/

theorem Ref.checkLive {i j : Nat} (h : (i, j) ∈ P.A) : Ref cfg M P (checkLive i) (checkLive j) (fun _ _ _ => True) := by
  unfold Agg.checkLive
  refine Ref.bind (Ref.getC h) fun row b P1 h1 hab => ?_
  obtain ⟨rfl, _⟩ := hab
  split
  · exact Ref.throw
  · exact Ref.pure trivial

theorem Ref.sendAll (op : Str → POp) : ∀ (l : List SRow) (P : Prs), Ref cfg M P (sendAll cfg op l) (sendAll cfg op l) (fun _ _ _ => True)
  | [], _ => Ref.pure trivial
  | s :: ss, P => by
    unfold Agg.sendAll
    refine Ref.bind (Ref.ofExcept _) fun p q P1 _ he => ?_
    subst he
    refine Ref.bind Ref.newCorr fun c d P2 _ he => ?_
    subst he
    exact Ref.bind Ref.send fun _ _ P3 _ _ => Ref.sendAll op ss P3

theorem Ref.answer {cid action : Str} {subs : List SRow} {results : List (Except Err Str)} :
    Ref cfg M P (answer cid action subs results) (answer cid action subs results) (fun _ a b => a = b) := by
  unfold Agg.answer
  split
  · exact Ref.same
  · exact Ref.throw

theorem Segs.snoc {is js : List Nat} {i j : Nat} (hs : Segs P is js) (h : (i, j) ∈ P.B) : Segs P (is ++ [i]) (js ++ [j]) := by
  induction hs with
  | nil => exact .cons h .nil
  | cons hx _ ih => exact .cons hx ih

theorem Ref.abortLoop : ∀ (is js done done' : List Nat) (P : Prs), Segs P is js → Segs P done done' →
    Ref cfg M P (abortLoop cfg done is) (abortLoop cfg done' js) (fun _ _ _ => True)
  | _, _, done, done', P, .nil, hd => Ref.saveSs hd
  | _, _, done, done', P, .cons (a := i) (b := j) (l₁ := is) (l₂ := js) h hs, hd => by
    have hs : Segs P is js := hs
    simp only [Agg.abortLoop]
    refine Ref.bind (Ref.getS h) fun row b P1 h1 hab => ?_
    obtain ⟨rfl, hk, _⟩ := hab
    cases switchR row.st .aborting with
    | none => exact Ref.bind (Ref.saveSs (hd.mono h1)) fun _ _ _ _ _ => Ref.throw
    | some st =>
      refine Ref.bind (Ref.setS (row := { row with st }) (h1.B _ h) hk) fun _ _ P2 h2 _ => ?_
      have hd2 : Segs P2 (done ++ [i]) (done' ++ [j]) := Segs.snoc ((hd.mono h1).mono h2) (h2.B _ (h1.B _ h))
      cases cfg.provider row.src.network with
      | error e => exact Ref.bind (Ref.saveSs hd2) fun _ _ _ _ _ => Ref.throw
      | ok p =>
        refine Ref.bind Ref.newCorr fun c d P3 h3 he => ?_
        subst he
        refine Ref.bind Ref.send fun _ _ P4 h4 _ => ?_
        exact Ref.abortLoop is js _ _ P4 ((((hs.mono h1).mono h2).mono h3).mono h4) ((hd2.mono h3).mono h4)

theorem Segs.nil_iff {is js : List Nat} (h : Segs P is js) : is = [] ↔ js = [] := by cases h <;> simp

theorem Ref.switchSubs (skip : SRow → Bool) (f : ConnStates → Option ConnStates) : ∀ (is js done done' : List Nat) (P : Prs), Segs P is js → Segs P done done' →
    Ref cfg M P (switchSubs skip f done is) (switchSubs skip f done' js) (fun _ _ _ => True)
  | _, _, done, done', P, .nil, hd => by
    simp only [Agg.switchSubs, hd.nil_iff]
    split
    · exact Ref.pure trivial
    · exact Ref.saveSs hd
  | _, _, done, done', P, .cons (a := i) (b := j) (l₁ := is) (l₂ := js) h hs, hd => by
    have hs : Segs P is js := hs
    simp only [Agg.switchSubs]
    refine Ref.bind (Ref.getS h) fun row b P1 h1 hab => ?_
    obtain ⟨rfl, hk, _⟩ := hab
    split
    · exact Ref.switchSubs skip f is js _ _ P1 (hs.mono h1) (hd.mono h1)
    · cases f row.st with
      | none => exact Ref.bind (Ref.saveSs (hd.mono h1)) fun _ _ _ _ _ => Ref.throw
      | some st =>
        refine Ref.bind (Ref.setS (row := { row with st }) (h1.B _ h) hk) fun _ _ P2 h2 _ => ?_
        exact Ref.switchSubs skip f is js _ _ P2 ((hs.mono h1).mono h2) (Segs.snoc ((hd.mono h1).mono h2) (h2.B _ (h1.B _ h)))

theorem Ref.opened {f : ConnStates → Option ConnStates} {k : List Nat → Prog (Option Str)}
    (hk : ∀ P' is js, Segs P' is js → Ref cfg M P' (k is) (k js) (fun _ a b => a = b)) :
    Ref cfg M P (do
      let ref ← Agg.getConnection M.cid
      Agg.checkLive ref
      Agg.switchC ref f
      let conn ← issue (.getC ref)
      let refs ← Agg.getSubConnections conn.key
      k refs) (do
      let ref ← Agg.getConnection M.cid
      Agg.checkLive ref
      Agg.switchC ref f
      let conn ← issue (.getC ref)
      let refs ← Agg.getSubConnections conn.key
      k refs) (fun _ a b => a = b) := by
  refine Ref.bind Ref.getConnection fun i j P1 _ h => ?_
  refine Ref.bind (Ref.checkLive h) fun _ _ P2 h2 _ => ?_
  refine Ref.bind (Ref.switchC (h2.A _ h)) fun _ _ P3 h3 _ => ?_
  refine Ref.bind (Ref.getC (h3.A _ (h2.A _ h))) fun conn b P4 _ hab => ?_
  obtain ⟨rfl, hk', _⟩ := hab
  rw [hk']
  exact Ref.bind Ref.getSubConnections fun is js P5 _ hs => hk P5 is js hs

/-- The common end of the requests. -/
theorem Ref.finish {is js : List Nat} {op : Str → POp} {cid action : Str} (hs : Segs P is js) :
    Ref cfg M P (do
      let subs ← Agg.getSs is
      Agg.sendAll cfg op subs
      let results ← issue (.acks subs.length)
      Agg.answer cid action subs results) (do
      let subs ← Agg.getSs js
      Agg.sendAll cfg op subs
      let results ← issue (.acks subs.length)
      Agg.answer cid action subs results) (fun _ a b => a = b) := by
  refine Ref.bind (Ref.getSs is js P hs) fun subs _ P1 _ he => ?_
  subst he
  refine Ref.bind (Ref.sendAll op subs P1) fun _ _ P2 _ _ => ?_
  refine Ref.bind Ref.acks fun r _ P3 _ he => ?_
  subst he
  exact Ref.answer

theorem Ref.reserveCommit : Ref cfg M P (reserveCommit cfg M.cid) (reserveCommit cfg M.cid) (fun _ a b => a = b) :=
  Ref.opened fun _ _ _ hs => Ref.finish hs

theorem Ref.reserveAbort : Ref cfg M P (reserveAbort cfg M.cid) (reserveAbort cfg M.cid) (fun _ a b => a = b) := by
  refine Ref.opened fun P1 is js hs => ?_
  refine Ref.bind (Ref.abortLoop is js [] [] P1 hs .nil) fun _ _ P2 _ _ => ?_
  rw [hs.length_eq]
  refine Ref.bind Ref.acks fun r _ P3 _ he => ?_
  subst he
  split
  · exact Ref.same
  · exact Ref.throw

theorem Ref.provision : Ref cfg M P (provision cfg M.cid) (provision cfg M.cid) (fun _ a b => a = b) := by
  refine Ref.opened fun P1 is js hs => ?_
  refine Ref.bind (Ref.switchSubs _ _ is js [] [] P1 hs .nil) fun _ _ P2 h2 _ => ?_
  exact Ref.finish (hs.mono h2)

theorem Ref.release : Ref cfg M P (release cfg M.cid) (release cfg M.cid) (fun _ a b => a = b) := by
  refine Ref.opened fun P1 is js hs => ?_
  refine Ref.bind (Ref.switchSubs _ _ is js [] [] P1 hs .nil) fun _ _ P2 h2 _ => ?_
  exact Ref.finish (hs.mono h2)

theorem Ref.terminate : Ref cfg M P (terminate cfg M.cid) (terminate cfg M.cid) (fun _ a b => a = b) := by
  unfold Agg.terminate
  refine Ref.bind Ref.getConnection fun i j P1 _ h => ?_
  refine Ref.bind (Ref.getC h) fun row b P2 h2 hab => ?_
  obtain ⟨rfl, _⟩ := hab
  split
  · exact Ref.same
  · unfold terminateLive
    refine Ref.bind (Ref.switchC (h2.A _ h)) fun _ _ P3 h3 _ => ?_
    refine Ref.bind (Ref.getC (h3.A _ (h2.A _ h))) fun conn b P4 _ hab => ?_
    obtain ⟨rfl, hk', _⟩ := hab
    rw [hk']
    exact Ref.bind Ref.getSubConnections fun is js P5 _ hs => Ref.finish hs

/-! ### Replies -/

theorem Ref.family : Ref cfg M P (family M.key) (family M.key) (fun P' a b => (a.1, b.1) ∈ P'.A ∧ Segs P' a.2 b.2) := by
  unfold Agg.family
  refine Ref.bind Ref.getConnectionByKey fun i j P1 _ h => ?_
  refine Ref.bind (Ref.getC h) fun row b P2 h2 hab => ?_
  obtain ⟨rfl, hk, _⟩ := hab
  rw [hk]
  exact Ref.bind Ref.getSubConnections fun is js P3 h3 hs => Ref.pure ⟨h3.A _ (h2.A _ h), hs⟩

theorem Ref.tell {o : Out} : Ref cfg M P (issue (.emit o) >>= fun _ => Coro.pure (none : Option Str)) (issue (.emit o) >>= fun _ => Coro.pure (none : Option Str)) (fun _ a b => a = b) :=
  Ref.bind Ref.emit fun _ _ _ _ _ => Ref.same

theorem Ref.confirmAll {there : ConnStates → Bool} {f : ConnStates → Option ConnStates} {msg : Str → Str → Out} :
    Ref cfg M P (confirmAll M.key there f msg) (confirmAll M.key there f msg) (fun _ a b => a = b) := by
  unfold Agg.confirmAll
  refine Ref.bind Ref.family fun a b P1 _ h1 => ?_
  refine Ref.bind (Ref.getSs _ _ P1 h1.2) fun subs _ P2 h2 he => ?_
  subst he
  refine Ref.bind (Ref.getC (h2.A _ h1.1)) fun row _ P3 h3 hab => ?_
  obtain ⟨rfl, _⟩ := hab
  split
  · refine Ref.bind (Ref.switchC (h3.A _ (h2.A _ h1.1))) fun _ _ P4 h4 _ => ?_
    refine Ref.bind (Ref.getC (h4.A _ (h3.A _ (h2.A _ h1.1)))) fun conn _ P5 _ hab => ?_
    obtain ⟨rfl, _⟩ := hab
    exact Ref.tell
  · exact Ref.same

theorem Ref.confirmSet (h : RHdr) {cid : Str} (hc : cid ∈ M.segs) {set : ConnStates → ConnStates} {there : ConnStates → Bool} {f : ConnStates → Option ConnStates}
    {msg : Str → Str → Out} : Ref cfg M P (confirmSet h cid set there f msg) (confirmSet h cid set there f msg) (fun _ a b => a = b) := by
  unfold Agg.confirmSet
  refine Ref.bind (Ref.getSubConnection h.prov hc) fun i j P1 _ hs => ?_
  refine Ref.bind (Ref.getS hs) fun s _ P2 h2 hab => ?_
  obtain ⟨rfl, hk, _⟩ := hab
  refine Ref.bind (Ref.setS (row := { s with st := set s.st }) (h2.B _ hs) hk) fun _ _ P3 h3 _ => ?_
  refine Ref.bind (Ref.saveS (h3.B _ (h2.B _ hs))) fun _ _ P4 _ _ => ?_
  rw [hk]
  exact Ref.confirmAll

theorem Ref.confirmSwitch (h : RHdr) {cid : Str} (hc : cid ∈ M.segs) {g : ConnStates → Option ConnStates} {there : ConnStates → Bool} {f : ConnStates → Option ConnStates}
    {msg : Str → Str → Out} : Ref cfg M P (confirmSwitch h cid g there f msg) (confirmSwitch h cid g there f msg) (fun _ a b => a = b) := by
  unfold Agg.confirmSwitch
  refine Ref.bind (Ref.getSubConnection h.prov hc) fun i j P1 _ hs => ?_
  refine Ref.bind (Ref.getS hs) fun s _ P2 h2 hab => ?_
  obtain ⟨rfl, hk, _⟩ := hab
  refine Ref.bind (Ref.switchS (h2.B _ hs)) fun _ _ P3 h3 _ => ?_
  rw [hk]
  exact Ref.confirmAll

theorem Ref.reserveTimeout (h : RHdr) {cid : Str} (hc : cid ∈ M.segs) (n : Nat) : Ref cfg M P (reserveTimeout h cid n) (reserveTimeout h cid n) (fun _ a b => a = b) := by
  unfold Agg.reserveTimeout
  refine Ref.bind (Ref.getSubConnection h.prov hc) fun i j P1 _ hs => ?_
  refine Ref.bind (Ref.switchS hs) fun _ _ P2 h2 _ => ?_
  refine Ref.bind (Ref.getS (h2.B _ hs)) fun s _ P3 h3 hab => ?_
  obtain ⟨rfl, hk, _⟩ := hab
  rw [hk]
  refine Ref.bind Ref.family fun a b P4 _ h4 => ?_
  refine Ref.bind (Ref.getSs _ _ P4 h4.2) fun subs _ P5 h5 he => ?_
  subst he
  refine Ref.bind (Ref.getC (h5.A _ h4.1)) fun row _ P6 h6 hab => ?_
  obtain ⟨rfl, _⟩ := hab
  split
  · exact Ref.same
  · split
    · exact Ref.tell
    · exact Ref.same

theorem Ref.dataPlane (h : RHdr) {cid : Str} (hc : cid ∈ M.segs) (a : Bool) (n : Int) (c : Bool) :
    Ref cfg M P (dataPlaneStateChange h cid a n c) (dataPlaneStateChange h cid a n c) (fun _ a b => a = b) := by
  unfold Agg.dataPlaneStateChange
  refine Ref.bind (Ref.getSubConnection h.prov hc) fun i j P1 _ hs => ?_
  refine Ref.bind (Ref.getS hs) fun s _ P2 h2 hab => ?_
  obtain ⟨rfl, hk, _⟩ := hab
  refine Ref.bind (Ref.setS (row := { s with dpActive := a, dpVersion := some n, dpCons := some c }) (h2.B _ hs) hk) fun _ _ P3 h3 _ => ?_
  refine Ref.bind (Ref.saveS (h3.B _ (h2.B _ hs))) fun _ _ P4 _ _ => ?_
  rw [hk]
  refine Ref.bind Ref.family fun a b P4 _ h4 => ?_
  refine Ref.bind (Ref.getSs _ _ P4 h4.2) fun subs _ P5 h5 he => ?_
  subst he
  refine Ref.bind (Ref.getC (h5.A _ h4.1)) fun row _ P6 h6 hab => ?_
  obtain ⟨rfl, _⟩ := hab
  exact Ref.tell

theorem Ref.errorEvent (h : RHdr) {cid : Str} (hc : cid ∈ M.segs) (n : Nat) : Ref cfg M P (errorEvent h cid n) (errorEvent h cid n) (fun _ a b => a = b) := by
  unfold Agg.errorEvent
  refine Ref.bind (Ref.getSubConnection h.prov hc) fun i j P1 _ hs => ?_
  refine Ref.bind (Ref.getS hs) fun s _ P2 h2 hab => ?_
  obtain ⟨rfl, hk, _⟩ := hab
  rw [hk]
  refine Ref.bind Ref.family fun a b P4 _ h4 => ?_
  refine Ref.bind (Ref.getC h4.1) fun row _ P6 h6 hab => ?_
  obtain ⟨rfl, _⟩ := hab
  rw [h4.2.length_eq]
  split
  · exact Ref.tell
  · exact Ref.throw

/-- Handlers of messages about the connection do among others what they do alone. -/
theorem Ref.mine (m : Msg) (h : m.mine M) (P : Prs) : Ref cfg M P (m.prog cfg) (m.prog cfg) (fun _ a b => a = b) := by
  cases m with
  | reserve hd cid c => exact h.elim
  | commit _ cid => obtain rfl : cid = M.cid := h; exact Ref.reserveCommit
  | abort _ cid => obtain rfl : cid = M.cid := h; exact Ref.reserveAbort
  | provision _ cid => obtain rfl : cid = M.cid := h; exact Ref.provision
  | release _ cid => obtain rfl : cid = M.cid := h; exact Ref.release
  | terminate _ cid => obtain rfl : cid = M.cid := h; exact Ref.terminate
  | querySummary hd cids gids => exact h.elim
  | queryRecursive hd cids gids => exact h.elim
  | reserveConfirmed hd cid c => exact h.elim
  | reserveFailed hd => exact h.elim
  | commitConfirmed hd cid => unfold Msg.prog Agg.reserveCommitConfirmed; exact Ref.confirmSet hd h
  | abortConfirmed hd cid => unfold Msg.prog Agg.reserveAbortConfirmed; exact Ref.confirmSet hd h
  | provisionConfirmed hd cid => exact Ref.confirmSwitch hd h
  | releaseConfirmed hd cid => exact Ref.confirmSwitch hd h
  | terminateConfirmed hd cid => unfold Msg.prog Agg.terminateConfirmed; exact Ref.confirmSet hd h
  | timeout hd cid n => exact Ref.reserveTimeout hd h n
  | dataPlane hd cid a v c => exact Ref.dataPlane hd h a v c
  | errorEvent hd cid n => exact Ref.errorEvent hd h n
  | queryConfirmed hd res => exact h.elim

end OpenNSA.Agg
