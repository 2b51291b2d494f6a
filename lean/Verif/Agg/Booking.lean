import Verif.Agg.Life
/- The reservation of one connection in executions handling one message after the other. -/
namespace OpenNSA.Agg
open OpenNSA Py Coro

variable {w w' : World} {key : Nat} {cid req : Str} {st : ConnStates} {segs : List (Str × Str × ConnStates)} {outs : List Out}

/-- The answers to reservation requests that are outstanding for the connection: correlation id and provider. -/
def World.due (w : World) (key : Nat) : List (Str × Str) := (w.resv.filter fun e => decide (e.2.skey = key)).map fun e => (e.1, e.2.prov)

theorem due_keys (h : (dkeys w.resv).Nodup) (key : Nat) : (w.due key).Nodup := by
  refine List.Nodup.of_map Prod.fst ?_
  unfold World.due
  rw [List.map_map]
  exact h.sublist (List.Sublist.map _ List.filter_sublist)

theorem due_ddel (h : (dkeys w.resv).Nodup) {corr : Str} {r : Resv} (hm : (corr, r) ∈ w.resv) (he : w'.resv = ddel w.resv corr) :
    w'.due key = (w.due key).erase (corr, r.prov) := by
  rw [(due_keys h key).erase_eq_filter]
  unfold World.due
  rw [he, ddel, List.filter_map, List.filter_filter, List.filter_filter]
  congr 1
  refine List.filter_congr fun e hem => ?_
  have hiff : e.1 = corr ↔ (e.1, e.2.prov) = (corr, r.prov) := by
    constructor
    · intro hc
      have : e = (corr, r) := nodup_map_inj h hem hm hc
      rw [this]
    · intro hc; exact (Prod.mk.inj hc).1
  simp only [Function.comp, bne, Bool.and_comm]
  by_cases hc : e.1 = corr
  · have h2 := hiff.mp hc
    simp [hc, ← h2]
  · have h2 := fun h => hc (hiff.mpr h)
    simp [hc]

theorem due_other {corr : Str} (hf : ∀ e ∈ w.resv, e.1 = corr → e.2.skey ≠ key) (he : w'.resv = ddel w.resv corr) : w'.due key = w.due key := by
  unfold World.due
  rw [he, ddel, List.filter_filter]
  congr 1
  refine List.filter_congr fun e hem => ?_
  by_cases hk : e.2.skey = key
  · have : e.1 ≠ corr := fun hc => hf e hem hc hk
    simp [hk, this]
  · simp [hk]

theorem due_entries {cfg : Cfg} {row : CRow} {start end_ : Option Time} {calls : List PCall} {ls : List Link}
    (h : List.Forall₂ (CallFor cfg row start end_) calls ls) : ∀ i, (resvEntries row i calls).map (fun e => (e.1, e.2.prov)) = calls.map fun c => (c.corr, c.prov) := by
  induction h with
  | nil => intro i; rfl
  | cons hc _ ih => intro i; simp [resvEntries, hc.op, ih]

theorem choosePath_ne {cfg : Cfg} {src dst : STP} {path : List Link} (h : choosePath cfg src dst = .ok path) : path ≠ [] := by
  have hcross : ∀ {remote prev : STP} {hops : List (Str × Str)} {ls : List Link}, crossConnects cfg remote prev hops = .ok ls → ls ≠ [] := by
    intro remote prev hops ls h
    cases hops with
    | nil => simp only [crossConnects, Except.ok.injEq] at h; subst h; simp
    | cons x rest =>
      unfold crossConnects at h
      repeat' split at h
      all_goals first
        | (cases h; done)
        | (simp only [Except.ok.injEq] at h; subst h; simp)
  unfold choosePath aggregatePath at h
  repeat' split at h
  all_goals first
    | (cases h; done)
    | exact hcross h
    | (simp only [Except.ok.injEq] at h; subst h; simp)

/-- An accepted reservation request. -/
theorem reserve_at {cfg : Cfg} {ms : List Msg} (hw : Runs cfg ms w) {o : Oracle} {h : Hdr} {c : Crit} {i : Option Str}
    (hok : (Agg.step cfg w o (.reserve h none c)).2 = .ok i) (hf : (Agg.step cfg w o (.reserve h none c)).1.freshIds) :
    ∃ cid path calls, i = some cid ∧ (∀ row ∈ w.conns, row.cid ≠ cid) ∧ choosePath cfg c.src c.dst = .ok path ∧ path ≠ [] ∧
      (Agg.step cfg w o (.reserve h none c)).1.sent = w.sent ++ calls ∧
      List.Forall₂ (fun (call : PCall) (l : Link) => call.op = .reserve cid l.src l.dst c.start c.end_ c.bw ∧
        cfg.provider l.src.network = .ok (call.handle, call.prov)) calls path ∧
      At (Agg.step cfg w o (.reserve h none c)).1 w.ckey cid h.requester ⟨.checking, .released, .created⟩ [] [] ∧
      (Agg.step cfg w o (.reserve h none c)).1.due w.ckey = calls.map fun c => (c.corr, c.prov) := by
  obtain ⟨_, he⟩ := step_eff (cfg := cfg) hw.good o (.reserve h none c) trivial
  rw [hok] at he
  have hfw := freshIds_of_prefix (step_sent (cfg := cfg) hw.good o (.reserve h none c) trivial) hf
  have hb := (hw.books hfw).orc o
  cases he with
  | nothing _ hr => obtain ⟨e, he⟩ := hr; cases he
  | @made row calls terms path pre hkey hnew hreq hst _ _ _ hcalls _ _ hs hok' =>
    obtain ⟨h1, h2, h3, h4, h5, h6⟩ := hok' i rfl
    subst h3 h5
    have hres := made_resv hb hcalls hf hs.sent hs.resv
    have hnosub : ∀ s ∈ w.subs, s.skey ≠ w.ckey := by
      intro s hs hk
      obtain ⟨r, hr, hrk⟩ := hw.good.sfk s hs
      have := hw.good.ckeyb r hr
      omega
    have hknown := (hw.conn_inv (fun _ _ _ _ => True) (fun _ _ _ _ _ => trivial) (fun _ _ _ _ _ _ _ _ _ _ => trivial)).2
    refine ⟨row.cid, _, calls, h1, hnew, h2, choosePath_ne h2, by rw [hs.sent]; simp, hcalls.imp fun call l hc => ⟨by rw [hc.op, h6], hc.prov⟩, ⟨⟨row, ?_, hkey, rfl, hreq, ?_⟩, ?_, ?_⟩, ?_⟩
    · rw [hs.conns]; simp
    · rcases hrow : row.st with ⟨a, b, d⟩
      rw [hrow] at hst h4
      simp only at hst h4
      rw [hst.1, hst.2, h4]
    · rw [World.segments, hs.subs]
      simp only [List.map_eq_nil_iff, List.filter_eq_nil_iff, decide_eq_true_eq]
      exact hnosub
    · rw [World.told, hs.outbox]
      simp only [List.filter_eq_nil_iff, Bool.and_eq_true, decide_eq_true_eq]
      rintro x hx ⟨ha, _⟩
      obtain ⟨r, hr, hrc⟩ := hknown x hx _ ha
      exact hnew r hr hrc
    · unfold World.due
      rw [hres, List.filter_append, List.map_append]
      have e1 : List.filter (fun e => decide (e.2.skey = w.ckey)) w.resv = [] := by
        rw [List.filter_eq_nil_iff]
        intro e he
        obtain ⟨r, hr, hrk, _⟩ := hb.call e he
        have := hw.good.ckeyb r hr
        simp; omega
      have e2 : List.filter (fun e => decide (e.2.skey = w.ckey)) (resvEntries row 0 calls) = resvEntries row 0 calls := by
        rw [List.filter_eq_self]
        intro e he
        simp [resvEntries_skey _ _ _ e he, hkey]
      show List.map _ (List.filter _ w.resv) ++ _ = _
      rw [e1, e2, due_entries hcalls]; rfl

theorem foreign_due (hg : Good w) (hb : Books w) (hlt : key < w.ckey) {cfg : Cfg} {m : Msg} {r : Except Err (Option Str)} (hf : Foreign w key cid m)
    (hfr : w'.freshIds) (he : Eff cfg w w' r m) : w'.due key = w.due key := by
  have hsame : w'.resv = w.resv → w'.due key = w.due key := fun h => by unfold World.due; rw [h]
  have hdel : ∀ {corr : Str} {r : Resv}, dget w.resv corr = some r → r.skey ≠ key → w'.resv = ddel w.resv corr → w'.due key = w.due key := by
    intro corr r hd hne he
    refine due_other (fun e hem hc => ?_) he
    have := dget_of_mem_nodup hb.keys (k := e.1) (v := e.2) hem
    rw [hc, hd] at this
    rw [← Option.some.inj this]
    exact hne
  by_cases h1 : ∃ h cid c, m = .reserve h cid c
  · obtain ⟨h, cid, c, rfl⟩ := h1
    cases he with
    | nothing h => exact hsame h.resv
    | made hkey _ _ _ _ _ _ hcalls _ _ h =>
      have := made_resv hb hcalls hfr h.sent h.resv
      unfold World.due
      have hnil : ∀ (r : CRow) l, r.key = w.ckey → (resvEntries r 0 l).filter (fun e => decide (e.2.skey = key)) = [] := fun r l hkey => List.filter_eq_nil_iff.mpr fun e he => by
        rw [resvEntries_skey _ _ _ e he, hkey]
        simp; omega
      rw [this, List.filter_append, List.map_append, hnil _ _ hkey, List.map_nil, List.append_nil]
  by_cases h2 : ∃ h cid c, m = .reserveConfirmed h cid c
  · obtain ⟨h, cid, c, rfl⟩ := h2
    cases he with
    | unknown _ h => exact hsame h.resv
    | other _ _ h => exact hsame h.resv
    | stored hd _ hw _ _ _ _ h => exact hdel hd (hf _ hd) (by rw [h.resv, hw]; rfl)
    | told hd _ hw _ _ _ _ _ h => exact hdel hd (hf _ hd) (by rw [h.resv, hw]; rfl)
  by_cases h3 : ∃ h, m = .reserveFailed h
  · obtain ⟨h, rfl⟩ := h3
    cases he with
    | unknown _ h => exact hsame h.resv
    | other _ _ h => exact hsame h.resv
    | late hd _ _ _ _ h => exact hdel hd (hf _ hd) h.resv
    | told hd _ _ _ _ h => exact hdel hd (hf _ hd) h.resv
  exact hsame (eff_calm hg he (fun h i c hm => h1 ⟨h, i, c, hm⟩) (fun h i c hm => h2 ⟨h, i, c, hm⟩) (fun h hm => h3 ⟨h, hm⟩)).resv

/-- The states of a segment that has been reserved. -/
def heldStates : ConnStates := ⟨.held, .released, .created⟩

/-- A segment is confirmed. -/
theorem At.confirm (h : At w key cid req st segs outs) (hg : Good w) (hb : Books w) (hck : st.r = .checking) (hheld : ∀ x ∈ segs, x.2.2.r = .held)
    {hdr : RHdr} {scid : Str} {c : Crit} (hm : (hdr.corr, hdr.prov) ∈ w.due key) (he : ConfirmEff hdr scid c w w') :
    w'.due key = (w.due key).erase (hdr.corr, hdr.prov) ∧
    if (w.due key).erase (hdr.corr, hdr.prov) = [] then
      ∃ src dst start end_ bw, At w' key cid req { st with r := .held } (segs ++ [(scid, hdr.prov, heldStates)])
        (outs ++ [.reserveConfirmed req cid src dst start end_ bw])
    else At w' key cid req st (segs ++ [(scid, hdr.prov, heldStates)]) outs := by
  obtain ⟨e, hem, hee⟩ := List.mem_map.mp hm
  simp only [List.mem_filter, decide_eq_true_eq] at hem
  obtain ⟨he1, he2⟩ := Prod.mk.inj hee
  have hget := dget_of_mem_nodup hb.keys (k := e.1) (v := e.2) hem.1
  rw [he1] at hget
  obtain ⟨row, hrow, hrk, hrc, hrq, hrs⟩ := h.row
  have hdue : w'.resv = ddel w.resv hdr.corr → w'.due key = (w.due key).erase (hdr.corr, hdr.prov) := by
    intro h
    rw [← he2]
    exact due_ddel hb.keys (by rw [← he1]; exact hem.1) h
  have hnil : (∀ e ∈ ddel w.resv hdr.corr, e.2.skey ≠ key) ↔ (w.due key).erase (hdr.corr, hdr.prov) = [] := by
    rw [← he2, ← due_ddel (w' := { w with resv := ddel w.resv hdr.corr }) hb.keys (by rw [← he1]; exact hem.1) rfl]
    unfold World.due
    rw [List.map_eq_nil_iff, List.filter_eq_nil_iff]
    simp
  have hsegs : ((w.subs ++ [segRow w e.2 scid c]).filter fun s => decide (s.skey = key)).map SRow.brief = segs ++ [(scid, hdr.prov, heldStates)] := by
    rw [List.filter_append, List.map_append, ← h.segs]
    congr 1
    simp [segRow, newSub, hem.2, SRow.brief, heldStates, he2]
  cases he with
  | unknown hd _ => rw [hget] at hd; cases hd
  | other hd hp _ =>
    rw [hget] at hd
    exact absurd he2.symm (by rw [Option.some.inj hd]; exact hp)
  | @stored r w1 row1 row' hd _ hw hr hk hrow' hq hs =>
    rw [hget] at hd
    obtain rfl := Option.some.inj hd
    subst hw
    have hrr : row1 = row := nodup_map_inj hg.ckeys hr hrow (by rw [hk, hem.2, hrk])
    subst hrr
    obtain ⟨f1, f2, f3, f4⟩ := confirmLabels_frame row1 e.2.order ((storedSeg w hdr.corr e.2 scid c).segments row1.key).length c
    refine ⟨hdue hs.resv, ?_⟩
    rw [if_neg]
    · refine ⟨⟨row', ?_, by rw [hrow']; exact f1.trans hrk, by rw [hrow']; exact f2.trans hrc, by rw [hrow']; exact f4.trans hrq,
        by rw [hrow']; exact f3.trans hrs⟩, ?_, ?_⟩
      · rw [hs.conns]
        exact (mem_setCRow (row' := row') hg.ckeys hrow (by rw [hrow']; exact f1) _).mpr (Or.inl rfl)
      · rw [← hsegs, World.segments, hs.subs]; rfl
      · rw [← h.outs, World.told, hs.outbox]; rfl
    · rw [← hnil]
      intro hall
      rcases hq with ⟨e', h1, h2⟩ | ⟨s, h1, h2⟩ | h1
      · exact hall e' h1 (h2.trans hrk)
      · have h3 : s.brief ∈ ((storedSeg w hdr.corr e.2 scid c).segments row1.key).map SRow.brief := List.mem_map_of_mem h1
        rw [hrk] at h3
        have h4 : ((storedSeg w hdr.corr e.2 scid c).segments key).map SRow.brief = segs ++ [(scid, hdr.prov, heldStates)] := hsegs
        rw [h4] at h3
        rcases List.mem_append.mp h3 with h3 | h3
        · exact h2 (hheld _ h3)
        · rw [List.mem_singleton] at h3
          have h5 : s.st = heldStates := congrArg (fun x : Str × Str × ConnStates => x.2.2) h3
          exact h2 (by rw [h5]; rfl)
      · exact h1 (by rw [hrs]; exact hck)
  | @told r w1 row1 row' hd _ hw hr hk hrow' hc hq hs =>
    rw [hget] at hd
    obtain rfl := Option.some.inj hd
    subst hw
    have hrr : row1 = row := nodup_map_inj hg.ckeys hr hrow (by rw [hk, hem.2, hrk])
    subst hrr
    obtain ⟨f1, f2, f3, f4⟩ := confirmLabels_frame row1 e.2.order ((storedSeg w hdr.corr e.2 scid c).segments row1.key).length c
    have g1 : row'.key = row1.key := by rw [hrow']; exact f1
    have g2 : row'.cid = row1.cid := by rw [hrow']; exact f2
    have g4 : row'.requester = row1.requester := by rw [hrow']; exact f4
    refine ⟨hdue hs.resv, ?_⟩
    rw [if_pos]
    · refine ⟨row'.src, row'.dst, row'.start, row'.end_, row'.bw, ⟨{ row' with st := { row1.st with r := .held } }, ?_, g1.trans hrk, g2.trans hrc, g4.trans hrq,
        by rw [hrs]⟩, ?_, ?_⟩
      · rw [hs.conns]
        exact (mem_setCRow (row' := { row' with st := { row1.st with r := .held } }) hg.ckeys hrow g1 _).mpr (Or.inl rfl)
      · rw [← hsegs, World.segments, hs.subs]; rfl
      · rw [World.told_append (w := w) hs.outbox, h.outs, g2, hrc, g4, hrq]
        simp [Out.about, Out.isNote]
    · rw [← hnil]
      intro e' h1
      rw [← hrk]
      exact hq.1 e' h1

/-- What happens after a reservation request for the connection with key `key` and id `cid`: the providers confirm the segments asked for, in any
order, each once (`todo`: correlation id and provider), among other messages not about the connection, and notifications. The process is not
restarted meanwhile. -/
inductive Booking (cfg : Cfg) (key : Nat) (cid : Str) (todo : List (Str × Str)) (w : World) : List (Str × Str) → World → Prop
  | start : Booking cfg key cid todo w todo w
  | other {rest v} (h : Booking cfg key cid todo w rest v) (o : Oracle) (m : Msg) (hn : NewSeg v m) (hf : Foreign v key cid m) :
      Booking cfg key cid todo w rest (Agg.step cfg v o m).1
  | confirm {rest v} (h : Booking cfg key cid todo w rest v) (o : Oracle) (hdr : RHdr) (scid : Str) (c : Crit)
      (hn : NewSeg v (.reserveConfirmed hdr scid c)) (hm : (hdr.corr, hdr.prov) ∈ rest) :
      Booking cfg key cid todo w (rest.erase (hdr.corr, hdr.prov)) (Agg.step cfg v o (.reserveConfirmed hdr scid c)).1

theorem Booking.runs {cfg : Cfg} {todo rest : List (Str × Str)} {ms : List Msg} (hw : Runs cfg ms w) (h : Booking cfg key cid todo w rest w') :
    ∃ l, Runs cfg (ms ++ l) w' := by
  induction h with
  | start => exact ⟨[], by simpa using hw⟩
  | other _ o m hn _ ih => obtain ⟨l, ih⟩ := ih; exact ⟨l ++ [m], by rw [← List.append_assoc]; exact ih.step o m hn⟩
  | confirm _ o hdr scid c hn _ ih => obtain ⟨l, ih⟩ := ih; exact ⟨l ++ [_], by rw [← List.append_assoc]; exact ih.step o _ hn⟩

/-- The course of a reservation. -/
theorem Booking.at {cfg : Cfg} {todo rest : List (Str × Str)} {ms : List Msg} (hw : Runs cfg ms w) (ha : At w key cid req ⟨.checking, .released, .created⟩ [] [])
    (hdue : w.due key = todo) (hne : todo ≠ []) (h : Booking cfg key cid todo w rest w') (hf : w'.freshIds) :
    w'.due key = rest ∧ ∃ segs, (∀ x ∈ segs, x.2.2 = heldStates) ∧ segs.length + rest.length = todo.length ∧
    if rest = [] then ∃ src dst start end_ bw, At w' key cid req heldStates segs [.reserveConfirmed req cid src dst start end_ bw]
    else At w' key cid req ⟨.checking, .released, .created⟩ segs [] := by
  induction h with
  | start => exact ⟨hdue, [], by simp, by simp, by rw [if_neg hne]; exact ha⟩
  | @other rest v hc o m hn hfor ih =>
    obtain ⟨l, hv⟩ := hc.runs hw
    have hfv := freshIds_of_prefix (step_sent (cfg := cfg) hv.good o m hn) hf
    obtain ⟨i1, segs, i2, i3, i4⟩ := ih hfv
    have hg' := hv.good.frame o v.notif v.outbox v.sent v.qcalls
    have heff := (step_eff (cfg := cfg) hv.good o m hn).2
    have hrow : ∃ row ∈ v.conns, row.key = key := by
      split at i4
      · obtain ⟨_, _, _, _, _, i4⟩ := i4; obtain ⟨r, h1, h2, _⟩ := i4.row; exact ⟨r, h1, h2⟩
      · obtain ⟨r, h1, h2, _⟩ := i4.row; exact ⟨r, h1, h2⟩
    have hlt : key < v.ckey := by obtain ⟨r, h1, rfl⟩ := hrow; exact hv.good.ckeyb r h1
    refine ⟨(foreign_due (w := { v with orc := o }) hg' ((hv.books hfv).orc o) hlt hfor hf heff).trans i1, segs, i2, i3, ?_⟩
    split at i4
    · rename_i hr
      obtain ⟨a, b, c, d, e, i4⟩ := i4
      rw [if_pos hr]
      exact ⟨a, b, c, d, e, foreign_eff (i4.orc o) hg' hfor heff⟩
    · rename_i hr
      rw [if_neg hr]
      exact foreign_eff (i4.orc o) hg' hfor heff
  | @confirm rest v hc o hdr scid c hn hm ih =>
    obtain ⟨l, hv⟩ := hc.runs hw
    have hfv := freshIds_of_prefix (step_sent (cfg := cfg) hv.good o _ hn) hf
    obtain ⟨i1, segs, i2, i3, i4⟩ := ih hfv
    have hg' := hv.good.frame o v.notif v.outbox v.sent v.qcalls
    rw [if_neg (List.ne_nil_of_mem hm)] at i4
    have hd' : World.due { v with orc := o } key = rest := i1
    obtain ⟨j1, j2⟩ := (i4.orc o).confirm hg' ((hv.books hfv).orc o) rfl (fun x hx => by rw [i2 x hx]; rfl) (hdr := hdr) (by rw [hd']; exact hm)
      (step_eff (cfg := cfg) hv.good o (.reserveConfirmed hdr scid c) hn).2
    rw [hd'] at j1 j2
    refine ⟨j1, segs ++ [(scid, hdr.prov, heldStates)], ?_, ?_, ?_⟩
    · intro x hx
      rcases List.mem_append.mp hx with hx | hx
      · exact i2 x hx
      · rw [List.mem_singleton.mp hx]
    · rw [List.length_append, List.length_singleton, List.length_erase_of_mem hm]
      have := List.length_pos_of_mem hm
      omega
    · exact j2

end OpenNSA.Agg
