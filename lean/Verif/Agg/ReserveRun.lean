import Verif.Agg.Run
import Verif.Agg.Spec
/- What a reservation request does when it is handled to completion. -/
namespace OpenNSA.Agg
open OpenNSA Py Coro

/-- The entries made in `reservations` for a list of reserve calls. -/
def resvEntries (conn : CRow) : Nat → List PCall → List (Str × Resv)
  | _, [] => []
  | i, c :: cs =>
    match c.op with
    | .reserve _ src dst _ _ _ => (c.corr, ⟨c.prov, conn.key, i, src.network, src.port, dst.network, dst.port⟩) :: resvEntries conn (i + 1) cs
    | _ => resvEntries conn (i + 1) cs

/-- A reserve call for a link, addressed to the provider of its source network. -/
structure CallFor (cfg : Cfg) (conn : CRow) (start end_ : Option Time) (c : PCall) (l : Link) : Prop where
  op : c.op = .reserve conn.cid l.src l.dst start end_ conn.bw
  prov : cfg.provider l.src.network = .ok (c.handle, c.prov)

/-- Several `dset`s. -/
def dsets {κ ν : Type} [DecidableEq κ] (d : List (κ × ν)) (l : List (κ × ν)) : List (κ × ν) :=
  l.foldl (fun d e => dset d e.1 e.2) d

/-- All links have a provider. -/
def provided (cfg : Cfg) (ls : List Link) : Bool :=
  ls.all fun l => match cfg.provider l.src.network with | .ok _ => true | .error _ => false

/-- The next `n` ids of a list of ids drawn (the empty id when the list has run out). -/
def draws : Nat → List Str → List Str
  | 0, _ => []
  | n + 1, l => l.headD [] :: draws n l.tail

theorem draws_eq_take : ∀ (n : Nat) (l : List Str), n ≤ l.length → draws n l = l.take n
  | 0, _, _ => by simp [draws]
  | n + 1, [], h => by simp at h
  | n + 1, x :: l, h => by
    simp only [draws, List.headD_cons, List.tail_cons, List.take_succ_cons]
    rw [draws_eq_take n l (by simpa using h)]

/-- The requests that were sent: those of an initial part of the links, all of them if the loop was completed. -/
theorem sendReserves_run (cfg : Cfg) (conn : CRow) (start end_ : Option Time) (ls : List Link) :
    ∀ (idx : Nat) (last : Str) (w : World), ∃ (calls : List PCall) (pre : List Link) (orc : Oracle) (r : Except Err Str),
      (sendReserves cfg conn start end_ idx last ls).run machine w
        = ({ w with sent := w.sent ++ calls, resv := dsets w.resv (resvEntries conn idx calls), orc }, r) ∧
      orc.acks = w.orc.acks ∧ pre <+: ls ∧ List.Forall₂ (CallFor cfg conn start end_) calls pre ∧
      calls.map (·.corr) = draws calls.length w.orc.corrs ∧
      (match r with
        | .ok u => pre = ls ∧ u = ((calls.map (·.prov)).getLast?).getD last
        | .error _ => provided cfg ls = false) := by
  induction ls with
  | nil =>
    intro idx last w
    exact ⟨[], [], w.orc, .ok last, by simp [sendReserves, resvEntries, dsets], rfl, List.nil_prefix, .nil, rfl, rfl, rfl⟩
  | cons l ls ih =>
    intro idx last w
    rcases hp : cfg.provider l.src.network with e | p
    · refine ⟨[], [], w.orc, .error e, ?_, rfl, List.nil_prefix, .nil, rfl, ?_⟩
      · simp [sendReserves, hp, resvEntries, dsets]
      · simp [provided, hp]
    · obtain ⟨p1, p2⟩ := p
      let orc1 : Oracle := { w.orc with corrs := w.orc.corrs.tail }
      let corr : Str := w.orc.corrs.headD []
      let call : PCall := ⟨p1, p2, corr, .reserve conn.cid l.src l.dst start end_ conn.bw⟩
      let w1 : World := { w with orc := orc1,
                                 resv := dset w.resv corr ⟨p2, conn.key, idx, l.src.network, l.src.port, l.dst.network, l.dst.port⟩,
                                 sent := w.sent ++ [call] }
      obtain ⟨calls, pre, orc, r, hrun, hacks, hpre, hf, hcorr, hr⟩ := ih (idx + 1) p2 w1
      refine ⟨call :: calls, l :: pre, orc, r, ?_, hacks, ?_, ?_, ?_, ?_⟩
      · have : (sendReserves cfg conn start end_ idx last (l :: ls)).run machine w
            = (sendReserves cfg conn start end_ (idx + 1) p2 ls).run machine w1 := by
          simp only [sendReserves, run_bind', run_ofExcept, hp, andThen_ok, run_issue, machine_exec]
          simp only [exec_newCorr, andThen_ok, run_bind', run_issue, machine_exec]
          simp only [exec, andThen_ok, run_bind', run_issue, machine_exec, w1, corr, call, orc1]
        rw [this, hrun]
        simp [w1, resvEntries, dsets, call]
      · simpa using hpre
      · exact .cons ⟨rfl, hp⟩ hf
      · simp only [List.map_cons, List.length_cons, draws, hcorr]; rfl
      · cases r with
        | error e => simpa [provided, hp] using hr
        | ok u =>
          obtain ⟨h1, h2⟩ := hr
          refine ⟨by rw [h1], ?_⟩
          rw [h2]
          cases calls with
          | nil => rfl
          | cons c cs => simp [List.getLast?_cons]

/-! ### Pieces -/

theorem acks_run (n : Nat) : ∀ w : World, ∃ orc : Oracle, w.acks n = ({ w with orc }, w.orc.outcomes n) := by
  induction n with
  | zero => intro w; exact ⟨w.orc, by simp [Oracle.outcomes, World.acks]⟩
  | succ n ih =>
    intro w
    cases ha : w.orc.acks with
    | nil =>
      obtain ⟨orc, h⟩ := ih w
      exact ⟨orc, by simp [World.acks, ha, h, Oracle.outcomes, List.replicate_succ]⟩
    | cons a as =>
      obtain ⟨orc, h⟩ := ih { w with orc := { w.orc with acks := as } }
      refine ⟨orc, ?_⟩
      simp only [World.acks, ha, h, Oracle.outcomes, List.cons_append, List.take_succ_cons]
      congr 2
      rw [List.take_append, List.take_append]
      congr 1
      simp only [List.take_replicate]
      congr 1
      omega

theorem outcomes_length (o : Oracle) (n : Nat) : (o.outcomes n).length = n := by
  simp [Oracle.outcomes]

/-- A terminate call for an accepted segment, made on the provider of its network. -/
structure TermFor (cfg : Cfg) (last : Str) (c : PCall) (a : Str × Str) : Prop where
  op : c.op = .terminate a.1
  handle : ∃ urn, cfg.provider a.2 = .ok (c.handle, urn)
  prov : c.prov = last

theorem sendTerminates_run (cfg : Cfg) (last : Str) (l : List (Str × Str)) :
    (∀ a ∈ l, ∃ p, cfg.provider a.2 = .ok p) → ∀ w : World, ∃ (calls : List PCall) (orc : Oracle),
      (sendTerminates cfg last l).run machine w = ({ w with sent := w.sent ++ calls, orc }, .ok ()) ∧
      List.Forall₂ (TermFor cfg last) calls l := by
  induction l with
  | nil => intro _ w; exact ⟨[], w.orc, by simp [sendTerminates], .nil⟩
  | cons a l ih =>
    intro hp w
    obtain ⟨p, hpa⟩ := hp a (by simp)
    let call : PCall := ⟨p.1, last, w.orc.corrs.headD [], .terminate a.1⟩
    let w1 : World := { w with sent := w.sent ++ [call], orc := { w.orc with corrs := w.orc.corrs.tail } }
    obtain ⟨calls, orc, hrun, hf⟩ := ih (fun b hb => hp b (by simp [hb])) w1
    refine ⟨call :: calls, orc, ?_, .cons ⟨rfl, ⟨p.2, hpa⟩, rfl⟩ hf⟩
    have : (sendTerminates cfg last (a :: l)).run machine w = (sendTerminates cfg last l).run machine w1 := by
      simp only [sendTerminates, run_bind', run_ofExcept, hpa, andThen_ok, run_issue, machine_exec, exec_newCorr]
      simp only [exec, andThen_ok, w1, call]
    rw [this, hrun]
    simp [w1]

theorem setCRow_append {rows : List CRow} {row row' : CRow} (hk : ∀ r ∈ rows, r.key ≠ row'.key) (h : row.key = row'.key) :
    setCRow (rows ++ [row]) row' = rows ++ [row'] := by
  unfold setCRow
  rw [List.map_append]
  congr 1
  · conv => rhs; rw [← List.map_id rows]
    exact List.map_congr_left fun r hr => by simp [hk r hr]
  · simp [h]

/-- The row of a connection being reserved. -/
def checkingRow (cid : Str) (h : Hdr) (c : Crit) (key : Nat) : CRow :=
  { newConn cid h c with key, st := ⟨.checking, .released, .created⟩ }

/-- The world after the new connection has been stored and is being checked. -/
def storedWorld (w : World) (row : CRow) (orc : Oracle) : World :=
  { w with conns := w.conns ++ [row], cheap := w.cheap ++ [⟨row, false⟩], ckey := w.ckey + 1, orc }

/-- All ways a reservation request that passed admission can end; `row` is the connection stored. -/
inductive ReserveOutcome (cfg : Cfg) (h : Hdr) (c : Crit) (w : World) : World → Except Err (Option Str) → Prop
  /-- Not stored. -/
  | db {x orc} : ReserveOutcome cfg h c w { w with cheap := w.cheap ++ [x], orc } (.error .db)
  /-- Nothing requested. -/
  | nothing {row orc e} (hrow : row = checkingRow (w.orc.cids.headD []) h c w.ckey)
      (he : choosePath cfg c.src c.dst = .error e ∨ ∃ path, choosePath cfg c.src c.dst = .ok path ∧ checkProviders cfg path = .error e)
      (hnew : ∀ r ∈ w.conns, r.cid ≠ row.cid) :
      ReserveOutcome cfg h c w (storedWorld w row orc) (.error e)
  /-- Stopped while sending, because there is no provider for one of the (local) networks. -/
  | stopped {row orc calls path pre e} (hrow : row = checkingRow (w.orc.cids.headD []) h c w.ckey)
      (hpath : choosePath cfg c.src c.dst = .ok path) (hchk : checkProviders cfg path = .ok ()) (hpre : pre <+: path) (hprov : provided cfg path = false)
      (hcalls : List.Forall₂ (CallFor cfg row c.start c.end_) calls pre)
      (hcorr : calls.map (·.corr) = draws calls.length w.orc.corrs) (hnew : ∀ r ∈ w.conns, r.cid ≠ row.cid) :
      ReserveOutcome cfg h c w
        { storedWorld w row orc with sent := w.sent ++ calls, resv := dsets w.resv (resvEntries row 0 calls) } (.error e)
  /-- Accepted by all providers. -/
  | acked {row orc calls path} (hrow : row = checkingRow (w.orc.cids.headD []) h c w.ckey)
      (hpath : choosePath cfg c.src c.dst = .ok path) (hcalls : List.Forall₂ (CallFor cfg row c.start c.end_) calls path)
      (hres : allOk (w.orc.outcomes path.length) = true)
      (hcorr : calls.map (·.corr) = draws calls.length w.orc.corrs) (hnew : ∀ r ∈ w.conns, r.cid ≠ row.cid) :
      ReserveOutcome cfg h c w
        { storedWorld w row orc with sent := w.sent ++ calls, resv := dsets w.resv (resvEntries row 0 calls) } (.ok (some row.cid))
  /-- Refused by some provider. -/
  | refused {row orc calls path results terms} (hrow : row = checkingRow (w.orc.cids.headD []) h c w.ckey)
      (hpath : choosePath cfg c.src c.dst = .ok path) (hcalls : List.Forall₂ (CallFor cfg row c.start c.end_) calls path)
      (hresults : results = w.orc.outcomes path.length) (hres : allOk results = false)
      (hterm : List.Forall₂ (TermFor cfg (((calls.map (·.prov)).getLast?).getD [])) terms (accepted results path))
      (hcorr : calls.map (·.corr) = draws calls.length w.orc.corrs) (hnew : ∀ r ∈ w.conns, r.cid ≠ row.cid) :
      ReserveOutcome cfg h c w
        { storedWorld w { row with st := ⟨.checking, .released, .terminated⟩ } orc with
          sent := w.sent ++ calls ++ terms, resv := dsets w.resv (resvEntries row 0 calls) }
        (.error (aggException tReservations results (path.map (·.src.network)) true))

theorem accepted_mem : ∀ (results : List (Except Err Str)) (path : List Link) (a : Str × Str),
    a ∈ accepted results path → ∃ l ∈ path, a.2 = l.src.network
  | [], _, a, h => by simp [accepted] at h
  | .ok _ :: _, [], a, h => by simp [accepted] at h
  | .error _ :: _, [], a, h => by simp [accepted] at h
  | .ok sc :: rs, l :: ls, a, h => by
    simp only [accepted, List.mem_cons] at h
    rcases h with h | h
    · exact ⟨l, by simp, by rw [h]⟩
    · obtain ⟨l', hl, he⟩ := accepted_mem rs ls a h
      exact ⟨l', by simp [hl], he⟩
  | .error _ :: rs, l :: ls, a, h => by
    simp only [accepted] at h
    obtain ⟨l', hl, he⟩ := accepted_mem rs ls a h
    exact ⟨l', by simp [hl], he⟩

theorem forall₂_right_exists {α β : Type} {R : α → β → Prop} {l : List α} {m : List β} (h : List.Forall₂ R l m) :
    ∀ b ∈ m, ∃ a ∈ l, R a b := by
  induction h with
  | nil => simp
  | cons hab _ ih =>
    intro b hb
    rcases List.mem_cons.mp hb with rfl | hb
    · exact ⟨_, by simp, hab⟩
    · obtain ⟨a, ha, hr⟩ := ih b hb
      exact ⟨a, by simp [ha], hr⟩

theorem reserveNew_outcome (cfg : Cfg) (h : Hdr) (c : Crit) (w : World) (hk : ∀ r ∈ w.conns, r.key < w.ckey) :
    ReserveOutcome cfg h c w ((reserveNew cfg h c).run machine w).1 ((reserveNew cfg h c).run machine w).2 := by
  let cid : Str := w.orc.cids.headD []
  let orc1 : Oracle := { w.orc with cids := w.orc.cids.tail }
  let row : CRow := checkingRow cid h c w.ckey
  let w0 : World := { w with orc := orc1, cheap := w.cheap ++ [⟨newConn cid h c, true⟩] }
  have h0 : (reserveNew cfg h c).run machine w = andThen machine (fun _ => do
        switchC w.cheap.length (switchR · .checking)
        let conn ← issue (.getC w.cheap.length)
        let path ← ofExcept (choosePath cfg c.src c.dst)
        ofExcept (checkProviders cfg path)
        let last ← sendReserves cfg conn c.start c.end_ 0 [] path
        let results ← issue (.acks path.length)
        if allOk results then Coro.pure (some cid) else reserveCleanup cfg w.cheap.length last path results)
        (w0.saveC w.cheap.length) := by
    simp only [reserveNew, run_bind', run_issue, machine_exec, exec_newCid, andThen_ok, exec_newC, exec_saveC]
    rfl
  have hg0 : w0.cheap[w.cheap.length]? = some ⟨newConn cid h c, true⟩ := by simp [w0]
  by_cases hdb : (w.conns.any (fun r => r.cid = cid) || badTimes c.start c.end_) = true
  · have : w0.saveC w.cheap.length = (w0, .error .db) := (saveC_new hg0).trans (if_pos hdb)
    rw [h0, this]
    exact .db
  · have hnew : ∀ r ∈ w.conns, r.cid ≠ row.cid := by
      intro r hr he
      apply hdb
      rw [Bool.or_eq_true]
      exact Or.inl (List.any_eq_true.mpr ⟨r, hr, decide_eq_true (show r.cid = cid from he)⟩)
    let row0 : CRow := { newConn cid h c with key := w.ckey }
    let w1 : World := { w0 with conns := w.conns ++ [row0], cheap := w.cheap ++ [⟨row0, false⟩], ckey := w.ckey + 1 }
    have hs : w0.saveC w.cheap.length = (w1, .ok ()) := by
      refine ((saveC_new hg0).trans (if_neg hdb)).trans ?_
      simp [w1, w0, row0]
    have hg1 : w1.cheap[w.cheap.length]? = some ⟨row0, false⟩ := by simp [w1]
    have hk' : ∀ r ∈ w.conns, r.key ≠ row.key := fun r hr => Nat.ne_of_lt (hk r hr)
    have hsw : (switchC w.cheap.length (switchR · .checking)).run machine w1 = (storedWorld w row orc1, .ok ()) := by
      rw [switchC_run _ hg1]
      have : setCRow w1.conns row = w.conns ++ [row] := setCRow_append hk' rfl
      simp [row0, newConn, ConnStates.fresh, switchR, reserveTransitions, storedWorld, w1, w0, row, checkingRow] at this ⊢
      exact this
    have hg2 : (storedWorld w row orc1).cheap[w.cheap.length]? = some ⟨row, false⟩ := by simp [storedWorld]
    rw [h0, hs]
    simp only [andThen_ok, run_bind', hsw, run_issue, machine_exec, exec_getC hg2, run_ofExcept]
    rcases hpath : choosePath cfg c.src c.dst with e | path
    · exact .nothing rfl (Or.inl hpath) hnew
    · simp only [andThen_ok, run_bind', run_ofExcept]
      rcases hchk : checkProviders cfg path with e | u
      · exact .nothing rfl (Or.inr ⟨path, hpath, hchk⟩) hnew
      · simp only [andThen_ok, run_bind']
        obtain ⟨calls, pre, orc2, r, hrun, hora, hpre, hf, hcorr, hr⟩ := sendReserves_run cfg row c.start c.end_ path 0 [] (storedWorld w row orc1)
        rw [hrun]
        cases r with
        | error e => exact .stopped (orc := orc2) rfl hpath hchk hpre hr hf hcorr hnew
        | ok last =>
          obtain ⟨rfl, rfl⟩ := hr
          let w2 : World := { storedWorld w row orc2 with sent := w.sent ++ calls, resv := dsets w.resv (resvEntries row 0 calls) }
          obtain ⟨orc3, hacks⟩ := acks_run pre.length w2
          obtain ⟨results, hresults⟩ : ∃ results, results = w.orc.outcomes pre.length := ⟨_, rfl⟩
          rw [show w2.orc.outcomes pre.length = results by simp only [hresults, Oracle.outcomes, w2, storedWorld, hora, orc1]] at hacks
          let w3 : World := { w2 with orc := orc3 }
          have hg3 : w3.cheap[w.cheap.length]? = some ⟨row, false⟩ := hg2
          simp only [andThen_ok, run_bind', run_issue, machine_exec, exec_acks]
          let K : List (Except Err Str) → Prog (Option Str) := fun rs => if allOk rs = true then Coro.pure (some cid) else
            reserveCleanup cfg w.cheap.length (((calls.map (·.prov)).getLast?).getD []) pre rs
          change ReserveOutcome cfg h c w (Coro.run machine (K (w2.acks pre.length).2) (w2.acks pre.length).1).1
            (Coro.run machine (K (w2.acks pre.length).2) (w2.acks pre.length).1).2
          rw [hacks]
          change ReserveOutcome cfg h c w (Coro.run machine (K results) w3).1 (Coro.run machine (K results) w3).2
          by_cases hall : allOk results = true
          · rw [show K results = Coro.pure (some cid) from if_pos hall]
            exact .acked (orc := orc3) rfl hpath hf (hresults ▸ hall) hcorr hnew
          · rw [show K results = reserveCleanup cfg w.cheap.length (((calls.map (·.prov)).getLast?).getD []) pre results from if_neg hall]
            let row4 : CRow := { row with st := ⟨.checking, .released, .terminating⟩ }
            let w4 : World := { w3 with conns := w.conns ++ [row4], cheap := w.cheap ++ [⟨row4, false⟩] }
            have hsw4 : (switchC w.cheap.length (switchL · .terminating)).run machine w3 = (w4, .ok ()) := by
              rw [switchC_run _ hg3]
              have := setCRow_append (row := row) (row' := row4) hk' rfl
              simp [row, checkingRow, switchL, lifecycleTransitions, w4, w3, w2, storedWorld, row4] at this ⊢
              exact this
            have hp4 : ∀ a ∈ accepted results pre, ∃ p, cfg.provider a.2 = .ok p := by
              intro a ha
              obtain ⟨l, hl, he⟩ := accepted_mem _ _ _ ha
              obtain ⟨cl, _, hcl⟩ := forall₂_right_exists hf l hl
              exact ⟨_, he ▸ hcl.prov⟩
            obtain ⟨terms, orc5, hrun5, hf5⟩ := sendTerminates_run cfg (((calls.map (·.prov)).getLast?).getD []) _ hp4 w4
            let w5 : World := { w4 with sent := w4.sent ++ terms, orc := orc5 }
            obtain ⟨orc6, hacks6⟩ := acks_run (accepted results pre).length w5
            let w6 : World := { w5 with orc := orc6 }
            have hg6 : w6.cheap[w.cheap.length]? = some ⟨row4, false⟩ := by simp [w6, w5, w4]
            let row7 : CRow := { row with st := ⟨.checking, .released, .terminated⟩ }
            let w7 : World := { w6 with conns := w.conns ++ [row7], cheap := w.cheap ++ [⟨row7, false⟩] }
            have hsw7 : (switchC w.cheap.length (switchL · .terminated)).run machine w6 = (w7, .ok ()) := by
              rw [switchC_run _ hg6]
              have := setCRow_append (row := row4) (row' := row7) hk' rfl
              simp [row4, row, checkingRow, switchL, lifecycleTransitions, w7, w6, w5, w4, w3, w2, storedWorld, row7] at this ⊢
              exact this
            have hfin : (reserveCleanup cfg w.cheap.length (((calls.map (·.prov)).getLast?).getD []) pre results).run machine w3
                = (w7, .error (aggException tReservations results (pre.map (·.src.network)) true)) := by
              have h6 : w5.acks (accepted results pre).length = (w6, _) := hacks6
              have h5 : (sendTerminates cfg (((calls.map (·.prov)).getLast?).getD []) (accepted results pre)).run machine w4 = (w5, .ok ()) := hrun5
              simp only [reserveCleanup, run_bind', hsw4, andThen_ok, h5, run_issue, machine_exec, exec_acks, h6, hsw7, run_throw]
            have := ReserveOutcome.refused (w := w) (cfg := cfg) (h := h) (c := c) (row := row) (orc := orc6) (calls := calls) (path := pre)
              (results := results) (terms := terms) rfl hpath hf hresults (by simpa using hall) hf5 hcorr hnew
            rw [hfin]
            exact this

end OpenNSA.Agg
