import Verif.Agg.OwnSys
import Verif.Agg.PropsLife
/- The life of one connection among others. -/
namespace OpenNSA.Agg
open OpenNSA Py Coro

/-- Notifications about segments, as in `Foreign`. -/
def Msg.isNote : Msg → Prop
  | .dataPlane .. => True
  | .errorEvent .. => True
  | _ => False

/-- A series of requests for the connection, and the confirmations by its segments: after a request, the segments in `todo` (id and provider)
confirm it in any order, each once, before the next one; notifications come at any time. The lists are those of the requests, and of the segments
still to confirm the last one. Nothing is requested after termination. -/
inductive Story (cid : Str) (todo : List (Str × Str)) : List Kind → List (Str × Str) → List Msg → Prop
  | start : Story cid todo [] [] []
  | note {ks rest ms} (h : Story cid todo ks rest ms) (m : Msg) (hm : m.isNote) : Story cid todo ks rest (ms ++ [m])
  | request {ks ms} (h : Story cid todo ks [] ms) (hl : Kind.terminate ∉ ks) (k : Kind) (hdr : Hdr) : Story cid todo (ks ++ [k]) todo (ms ++ [k.request hdr cid])
  | reply {ks k rest ms} (h : Story cid todo (ks ++ [k]) rest ms) (hdr : RHdr) (scid : Str) (hm : (scid, hdr.prov) ∈ rest) :
      Story cid todo (ks ++ [k]) (rest.erase (scid, hdr.prov)) (ms ++ [k.reply hdr scid])

/-- The states after a series of requests. -/
def gone (ks : List Kind) (st : ConnStates) : ConnStates := ks.foldl (fun s k => k.after s) st

theorem gone_snoc (ks : List Kind) (k : Kind) (st : ConnStates) : gone (ks ++ [k]) st = k.after (gone ks st) := by simp [gone]

theorem gone_live {ks : List Kind} (h : Kind.terminate ∉ ks) {st : ConnStates} (hl : st.l ≠ .terminated) : (gone ks st).l ≠ .terminated := by
  induction ks generalizing st with
  | nil => exact hl
  | cons k ks ih =>
    refine ih (fun hk => h (by simp [hk])) ?_
    cases k <;> first | exact hl | exact absurd (by simp) h

/-- No request is refused. -/
def Accepted (cfg : Cfg) (cid : Str) (w : World) (tr : List (Oracle × Msg)) : Prop :=
  ∀ x ∈ (tr.map Prod.snd).zip (runAnswers cfg w tr), (∃ (k : Kind) (h : Hdr), x.1 = k.request h cid) → ∃ i, x.2 = .ok i

theorem Accepted.snoc {cfg : Cfg} {cid : Str} {w : World} {tr : List (Oracle × Msg)} {o : Oracle} {m : Msg} (h : Accepted cfg cid w (tr ++ [(o, m)])) :
    Accepted cfg cid w tr ∧ ((∃ (k : Kind) (h : Hdr), m = k.request h cid) → ∃ i, (step cfg (runMsgs cfg w tr) o m).2 = .ok i) := by
  unfold Accepted at h
  rw [List.map_append, runAnswers_snoc, List.zip_append (by rw [List.length_map, runAnswers_length])] at h
  exact ⟨fun x hx => h x (List.mem_append_left _ hx), fun hm => h (m, _) (by simp) hm⟩

variable {cfg : Cfg} {key : Nat} {cid req : Str} {st : ConnStates} {segs : List (Str × Str × ConnStates)} {outs : List Out}

/-- The connection and its segments agree, having gone through the requests. -/
abbrev Settled (key : Nat) (cid req : Str) (st : ConnStates) (segs : List (Str × Str × ConnStates)) (outs : List Out) (ks : List Kind) (w : World) : Prop :=
  At w key cid req (gone ks st) (segs.map fun x => (x.1, x.2.1, gone ks st)) (outs ++ ks.map fun k => k.answer req cid)

/-- During the story. -/
theorem Story.run {w : World} (hg : Good w) (ha : At w key cid req st segs outs) (hl : st.l ≠ .terminated) (hne : segs ≠ []) (huni : ∀ x ∈ segs, x.2.2 = st)
    {ks : List Kind} {rest : List (Str × Str)} {ms : List Msg} (hst : Story cid (segs.map fun x => (x.1, x.2.1)) ks rest ms) :
    ∀ tr : List (Oracle × Msg), tr.map Prod.snd = ms → Accepted cfg cid w tr → Good (runMsgs cfg w tr) ∧
      ((rest = [] ∧ Settled key cid req st segs outs ks (runMsgs cfg w tr)) ∨
        ∃ ks' k v o h i, ks = ks' ++ [k] ∧ rest ≠ [] ∧ Kind.terminate ∉ ks' ∧ Good v ∧ Settled key cid req st segs outs ks' v ∧ (step cfg v o (k.request h cid)).2 = .ok i ∧
          Course cfg k key cid (segs.map fun x => (x.1, x.2.1)) (step cfg v o (k.request h cid)).1 rest (runMsgs cfg w tr)) := by
  have hsnoc : ∀ {tr : List (Oracle × Msg)} {ms : List Msg} {m : Msg}, tr.map Prod.snd = ms ++ [m] → ∃ tr' o, tr = tr' ++ [(o, m)] ∧ tr'.map Prod.snd = ms := by
    intro tr ms m h
    obtain ⟨a, b, rfl, h1, h2⟩ := List.map_eq_append_iff.mp h
    obtain ⟨⟨o, m'⟩, rfl, hm⟩ := List.map_eq_singleton_iff.mp h2
    exact ⟨a, o, by rw [← hm], h1⟩
  induction hst with
  | start =>
    intro tr htr _
    obtain rfl : tr = [] := by simpa using htr
    refine ⟨hg, Or.inl ⟨rfl, ?_⟩⟩
    have : (segs.map fun x => (x.1, x.2.1, st)) = segs := by
      conv => rhs; rw [← List.map_id segs]
      refine List.map_congr_left fun x hx => ?_
      rw [← huni x hx]; rfl
    simp only [Settled, gone, List.foldl_nil, List.map_nil, List.append_nil, this]
    exact ha
  | @note ks rest ms hs m hm ih =>
    intro tr htr hacc
    obtain ⟨tr', o, rfl, htr'⟩ := hsnoc htr
    obtain ⟨h1, h2⟩ := ih tr' htr' hacc.snoc.1
    have hn : NewSeg (runMsgs cfg w tr') m := by cases m <;> trivial
    have hf : Foreign (runMsgs cfg w tr') key cid m := by cases m <;> first | exact hm.elim | trivial
    rw [runMsgs_snoc]
    have he := step_eff (cfg := cfg) h1 o m hn
    refine ⟨he.1, ?_⟩
    rcases h2 with ⟨g1, g2⟩ | ⟨ks', k, v, o', h, i, g1, g2, g3, g4, g5, g6, g7⟩
    · exact Or.inl ⟨g1, foreign_eff (At.orc g2 o) (h1.frame o _ _ _ _) hf he.2⟩
    · exact Or.inr ⟨ks', k, v, o', h, i, g1, g2, g3, g4, g5, g6, g7.other o m hn hf⟩
  | @request ks ms hs hlk k hdr ih =>
    intro tr htr hacc
    obtain ⟨tr', o, rfl, htr'⟩ := hsnoc htr
    obtain ⟨h1, h2⟩ := ih tr' htr' hacc.snoc.1
    obtain ⟨i, hi⟩ := hacc.snoc.2 ⟨k, hdr, rfl⟩
    have hn : NewSeg (runMsgs cfg w tr') (k.request hdr cid) := by cases k <;> trivial
    rw [runMsgs_snoc]
    refine ⟨(step_eff h1 o _ hn).1, Or.inr ?_⟩
    rcases h2 with ⟨_, g2⟩ | ⟨_, _, _, _, _, _, _, g2, _⟩
    · exact ⟨ks, k, _, o, hdr, i, rfl, by simpa using hne, hlk, h1, g2, hi, .start⟩
    · exact absurd rfl g2
  | @reply ks k rest ms hs hdr scid hm ih =>
    intro tr htr hacc
    obtain ⟨tr', o, rfl, htr'⟩ := hsnoc htr
    obtain ⟨h1, h2⟩ := ih tr' htr' hacc.snoc.1
    rw [runMsgs_snoc]
    refine ⟨(step_eff h1 o _ (newSeg_reply _ _ _ _)).1, ?_⟩
    rcases h2 with ⟨g1, _⟩ | ⟨ks', k', v, o', h, i, g1, g2, g3, g4, g5, g6, g7⟩
    · rw [g1] at hm; simp at hm
    · obtain ⟨rfl, hk⟩ := List.append_inj' g1 rfl
      obtain rfl : k = k' := by simpa using hk
      have hc := g7.reply o hdr scid hm
      by_cases hr : rest.erase (scid, hdr.prov) = []
      · refine Or.inl ⟨hr, ?_⟩
        rw [hr] at hc
        obtain ⟨_, _, h3⟩ := op_at (cfg := cfg) g4 g5 (gone_live g3 hl) (by simpa using hne) (by
          intro x hx
          obtain ⟨y, _, rfl⟩ := List.mem_map.mp hx
          rfl) k o' h g6 (rest := []) (by rw [List.map_map]; exact hc)
        have := h3 rfl
        simp only [Settled, gone_snoc, List.map_append, List.map_cons, List.map_nil, ← List.append_assoc]
        rw [List.map_map] at this
        exact this
      · exact Or.inr ⟨ks, k, v, o', h, i, rfl, hr, g3, g4, g5, g6, hc⟩

/-- What the requester has been told, and the states in the end. -/
theorem Story.ends {w : World} (hg : Good w) (ha : At w key cid req st segs outs) (hl : st.l ≠ .terminated) (hne : segs ≠ []) (huni : ∀ x ∈ segs, x.2.2 = st)
    {ks : List Kind} {rest : List (Str × Str)} {tr : List (Oracle × Msg)} (hst : Story cid (segs.map fun x => (x.1, x.2.1)) ks rest (tr.map Prod.snd))
    (hacc : Accepted cfg cid w tr) :
    (runMsgs cfg w tr).told cid = outs ++ ((if rest = [] then ks else ks.dropLast).map fun k => k.answer req cid) ∧
      (rest = [] → Settled key cid req st segs outs ks (runMsgs cfg w tr)) := by
  obtain ⟨_, h2⟩ := hst.run hg ha hl hne huni tr rfl hacc
  rcases h2 with ⟨rfl, g2⟩ | ⟨ks', k, v, o', h, i, rfl, g2, g3, g4, g5, g6, g7⟩
  · exact ⟨by rw [if_pos rfl]; exact g2.outs, fun _ => g2⟩
  · refine ⟨?_, fun h => absurd h g2⟩
    obtain ⟨_, h3, _⟩ := op_at (cfg := cfg) g4 g5 (gone_live g3 hl) (by simpa using hne) (by
      intro x hx
      obtain ⟨y, _, rfl⟩ := List.mem_map.mp hx
      rfl) k o' h g6 (rest := rest) (by rw [List.map_map]; exact g7)
    rw [h3, if_neg g2, if_neg g2]
    simp

variable {M : Mark}

/-- The objects standing for the connection and its segments have the contents of the rows. -/
structure Current (M : Mark) (w : World) : Prop where
  conn : ∀ ref, dget w.ccache M.cid = some ref → ∃ row ∈ w.conns, w.cheap[ref]? = some ⟨row, false⟩
  segs : ∀ c ∈ M.segs, ∀ ref, dget w.scache c = some ref → ∃ row ∈ w.subs, w.sheap[ref]? = some ⟨row, false⟩

theorem dget_filter_some {κ ν : Type} [DecidableEq κ] {d : List (κ × ν)} {p : κ → Prop} [DecidablePred p] {k : κ} {v : ν}
    (h : dget (d.filter fun e => decide (p e.1)) k = some v) : p k := by
  have := dget_some_mem h
  rw [List.mem_filter] at this
  simpa using this.2

/-- The connection alone is coherent. -/
theorem Good.alone {w : World} (hi : Inv2 cfg M w) (hc : Current M w) (hn : ((w.segments M.key).map (·.cid)).Nodup) : Good (w.alone M) := by
  refine ⟨?_, ?_, ?_, ?_, ?_, hn, ?_, ?_, ?_, nofun, nofun⟩
  · exact hi.1.ckeys.sublist (List.Sublist.map _ List.filter_sublist)
  · exact fun r hr => hi.1.ckeyb r (List.mem_filter.mp hr).1
  · exact hi.1.ccids.sublist (List.Sublist.map _ List.filter_sublist)
  · exact hi.1.skeys.sublist (List.Sublist.map _ List.filter_sublist)
  · exact fun s hs => hi.1.skeyb s (List.mem_filter.mp hs).1
  · intro cid ref h
    have hcid : cid = M.cid := dget_filter_some (p := fun k => k = M.cid) h
    subst hcid
    have h' : dget w.ccache M.cid = some ref := by
      rw [← dget_filter (d := w.ccache) (p := fun k => k = M.cid) rfl]; exact h
    obtain ⟨row, h1, h2⟩ := hc.conn ref h'
    obtain ⟨o, g1, _, g3⟩ := hi.1.ccache _ _ h'
    obtain rfl := Option.some.inj (h2.symm.trans g1)
    refine ⟨row, h2, List.mem_filter.mpr ⟨h1, ?_⟩, g3⟩
    rw [decide_eq_true_eq]
    exact (row_key hi.1 hi.2 h1).mpr g3
  · intro cid ref h
    have hcid : cid ∈ M.segs := dget_filter_some (p := fun k => k ∈ M.segs) h
    have h' : dget w.scache cid = some ref := by
      rw [← dget_filter (d := w.scache) (p := fun k => k ∈ M.segs) hcid]; exact h
    obtain ⟨row, h1, h2⟩ := hc.segs cid hcid ref h'
    obtain ⟨o, g1, _, g3⟩ := hi.1.scache _ _ h'
    obtain rfl := Option.some.inj (h2.symm.trans g1)
    refine ⟨row, h2, List.mem_filter.mpr ⟨h1, ?_⟩, g3⟩
    rw [decide_eq_true_eq]
    refine (hi.2.subs row h1).mpr ?_
    have : row.cid = cid := g3
    rw [this]; exact hcid
  · intro s hs
    obtain ⟨h1, h2⟩ := List.mem_filter.mp hs
    obtain ⟨r, hr, hid⟩ := hi.2.row
    simp only [CRow.id, Prod.mk.injEq] at hid
    refine ⟨r, List.mem_filter.mpr ⟨hr, by rw [decide_eq_true_eq]; exact hid.1⟩, ?_⟩
    rw [hid.1]; exact (by simpa using h2 : s.skey = M.key).symm

end OpenNSA.Agg
