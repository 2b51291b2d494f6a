import Verif.Agg.PropsForged
/- C36: reserve timeouts of several segments. -/
namespace OpenNSA.Agg
open OpenNSA Py Coro

theorem switchR_timeout (s : ConnStates) : switchR s .timeout = if s.r = .held then some { s with r := .timeout } else none := by
  rcases s with ⟨r, p, l⟩
  cases r <;> simp [switchR, reserveTransitions]

theorem length_one {α : Type} {l : List α} (hn : l.Nodup) {a : α} (ha : a ∈ l) (h : ∀ x ∈ l, x = a) : l.length = 1 := by
  match l, hn, ha, h with
  | [x], _, _, _ => rfl
  | x :: y :: t, hn, _, h =>
    rw [h x (by simp), h y (by simp)] at hn
    simp at hn

/-- The segments of the connection that have timed out. -/
def World.timedOut (w : World) (key : Nat) : List SRow := w.subs.filter fun s => s.skey = key ∧ s.st.r = .timeout

theorem timedOut_eq (w : World) (key : Nat) : (w.segments key).filter (fun s => s.st.r = .timeout) = w.timedOut key := by
  unfold World.segments World.timedOut
  rw [List.filter_filter]
  refine List.filter_congr fun x _ => ?_
  by_cases h1 : x.skey = key <;> by_cases h2 : x.st.r = .timeout <;> simp [h1, h2]

/-- A segment that is held times out: the requester is told if and only if no other segment of the connection has timed out and the
reservation has not failed. -/
theorem C36_announced_partial {cfg : Cfg} {ms : List Msg} {w : World} (h : Runs cfg ms w) (o : Oracle) (hh : RHdr) (n : Nat) {s : SRow} {row : CRow}
    (hs : s ∈ w.subs) (hp : s.prov = hh.prov) (hheld : s.st.r = .held) (hr : row ∈ w.conns) (hk : row.key = s.skey) :
    (Agg.step cfg w o (.timeout hh s.cid n)).1.subs = setSRow w.subs { s with st := { s.st with r := .timeout } } ∧
    (Agg.step cfg w o (.timeout hh s.cid n)).1.outbox = w.outbox ++
      if w.timedOut row.key = [] ∧ row.st.r ≠ .failed then [.reserveTimeout row.requester row.cid n] else [] := by
  have he := (step_eff (cfg := cfg) h.good o (.timeout hh s.cid n) trivial).2
  have hg := h.good
  let s1 : SRow := { s with st := { s.st with r := .timeout } }
  have hmem := mem_setSRow (row' := s1) hg.skeys hs rfl
  have hone : (World.timedOut { w with orc := o, subs := setSRow w.subs s1 } row.key).length = 1 ↔ w.timedOut row.key = [] := by
    have hin : s1 ∈ World.timedOut { w with orc := o, subs := setSRow w.subs s1 } row.key :=
      List.mem_filter.mpr ⟨(hmem s1).mpr (Or.inl rfl), by simp [s1, hk]⟩
    constructor
    · intro hl
      obtain ⟨a, ha⟩ := List.length_eq_one_iff.mp hl
      rw [ha, List.mem_singleton] at hin
      unfold World.timedOut
      rw [List.filter_eq_nil_iff]
      intro x hx hxt
      have hxt' : x.skey = row.key ∧ x.st.r = .timeout := by simpa using hxt
      have hxs : x ≠ s := by rintro rfl; rw [hheld] at hxt'; cases hxt'.2
      have : x ∈ World.timedOut { w with orc := o, subs := setSRow w.subs s1 } row.key :=
        List.mem_filter.mpr ⟨(hmem x).mpr (Or.inr ⟨hx, hxs⟩), hxt⟩
      rw [ha, List.mem_singleton, ← hin] at this
      exact hxs (nodup_map_inj hg.skeys hx hs (by rw [this]))
    · intro hnil
      refine length_one ?_ hin ?_
      · have : ((setSRow w.subs s1).map (·.key)).Nodup := by rw [map_setSRow (row' := s1) (·.key) hg.skeys hs rfl rfl]; exact hg.skeys
        exact this.of_map.filter _
      · intro x hx
        obtain ⟨hx1, hx2⟩ := List.mem_filter.mp hx
        rcases (hmem x).mp hx1 with rfl | ⟨hx3, _⟩
        · rfl
        · exact absurd (show x ∈ w.timedOut row.key from List.mem_filter.mpr ⟨hx3, hx2⟩) (by rw [hnil]; simp)
  have same : ∀ {s' row' st}, s' ∈ w.subs → s'.cid = s.cid → switchR s'.st .timeout = some st → row' ∈ w.conns → row'.key = s'.skey →
      s' = s ∧ row' = row ∧ st = { s.st with r := .timeout } := by
    intro s' row' st h1 h2 h3 h4 h5
    obtain rfl := nodup_map_inj hg.scids h1 hs h2
    refine ⟨rfl, nodup_map_inj hg.ckeys h4 hr (h5.trans hk.symm), ?_⟩
    rw [switchR_timeout, if_pos hheld] at h3
    exact (Option.some.inj h3).symm
  cases he with
  | unknown hu _ => exact absurd hp (hu s hs rfl)
  | @refused s' hs' hc' hset _ =>
    obtain rfl := nodup_map_inj hg.scids hs' hs hc'
    rw [switchR_timeout, if_pos hheld] at hset
    cases hset
  | @done s' row' st hs' hc hset hr' hk' hsame hq =>
    obtain ⟨rfl, rfl, rfl⟩ := same hs' hc hset hr' hk'
    refine ⟨hsame.subs, ?_⟩
    rw [timedOut_eq] at hq
    rw [hsame.outbox, if_neg, List.append_nil]
    · rfl
    · rintro ⟨h1, h2⟩
      rcases hq with hq | hq
      · exact h2 hq
      · exact hq (hone.mpr h1)
  | @told s' row' st hs' hc hset hr' hk' hn hq hsame =>
    obtain ⟨rfl, rfl, rfl⟩ := same hs' hc hset hr' hk'
    refine ⟨hsame.subs, ?_⟩
    rw [timedOut_eq] at hq
    rw [hsame.outbox, if_pos ⟨hone.mp hq, hn⟩]

/-- Any timeout message about a segment of a connection of which a segment has timed out already: nothing is announced. -/
theorem timeout_again {cfg : Cfg} {w : World} (hg : Good w) (o : Oracle) (hh : RHdr) (cid : Str) (n : Nat) {t : SRow} (ht : t ∈ w.subs)
    (htt : t.st.r = .timeout) (hs : ∀ s ∈ w.subs, s.cid = cid → s.skey = t.skey) :
    (Agg.step cfg w o (.timeout hh cid n)).1.outbox = w.outbox ∧ t ∈ (Agg.step cfg w o (.timeout hh cid n)).1.subs ∧
    (Agg.step cfg w o (.timeout hh cid n)).1.subs.map (fun s => (s.cid, s.skey)) = w.subs.map fun s => (s.cid, s.skey) := by
  have he := (step_eff (cfg := cfg) hg o (.timeout hh cid n) trivial).2
  have keep : ∀ {s' st}, s' ∈ w.subs → switchR s'.st .timeout = some st → t ∈ setSRow w.subs { s' with st } ∧
      (setSRow w.subs { s' with st }).map (fun s => (s.cid, s.skey)) = w.subs.map fun s => (s.cid, s.skey) := by
    intro s' st hs' hset
    refine ⟨(mem_setSRow (row' := { s' with st }) hg.skeys hs' rfl t).mpr (Or.inr ⟨ht, ?_⟩), map_setSRow _ hg.skeys hs' rfl rfl⟩
    rintro rfl
    rw [switchR_timeout, htt] at hset
    simp at hset
  cases he with
  | unknown _ h => exact ⟨h.outbox, by rw [h.subs]; exact ht, by rw [h.subs]⟩
  | refused _ _ _ h => exact ⟨h.outbox, by rw [h.subs]; exact ht, by rw [h.subs]⟩
  | @done s' row' st hs' hc hset hr' hk' hsame hq =>
    have := keep hs' hset
    refine ⟨hsame.outbox, ?_, ?_⟩
    · rw [hsame.subs]; exact this.1
    · rw [hsame.subs]; exact this.2
  | @told s' row' st hs' hc hset hr' hk' hn hq hsame =>
    exfalso
    obtain ⟨a, ha⟩ := List.length_eq_one_iff.mp hq
    have h1 : t ∈ [a] := by
      rw [← ha]
      exact List.mem_filter.mpr ⟨List.mem_filter.mpr ⟨(keep hs' hset).1, by simpa using (hs s' hs' hc).symm.trans hk'.symm⟩, by simpa using htt⟩
    have h2 : ({ s' with st } : SRow) ∈ [a] := by
      rw [← ha]
      refine List.mem_filter.mpr ⟨List.mem_filter.mpr ⟨(mem_setSRow (row' := { s' with st }) hg.skeys hs' rfl _).mpr (Or.inl rfl), by simpa using hk'.symm⟩, ?_⟩
      rw [switchR_timeout] at hset
      split at hset
      · simp [← Option.some.inj hset]
      · cases hset
    rw [List.mem_singleton] at h1 h2
    have hts : t = s' := nodup_map_inj hg.skeys ht hs' (by rw [h1, ← h2])
    rw [← hts, switchR_timeout, htt] at hset
    simp at hset

/-- Timeout messages, in any order. -/
def timeoutMsgs (l : List (Oracle × RHdr × Str × Nat)) : List (Oracle × Msg) := l.map fun x => (x.1, .timeout x.2.1 x.2.2.1 x.2.2.2)

theorem timeouts_after {cfg : Cfg} : ∀ (l : List (Oracle × RHdr × Str × Nat)) {w : World}, Good w → ∀ {t : SRow}, t ∈ w.subs → t.st.r = .timeout →
    (∀ x ∈ l, ∀ s ∈ w.subs, s.cid = x.2.2.1 → s.skey = t.skey) → (runMsgs cfg w (timeoutMsgs l)).outbox = w.outbox
  | [], _, _, _, _, _, _ => rfl
  | x :: l, w, hg, t, ht, htt, hs => by
    obtain ⟨h1, h2, h3⟩ := timeout_again (cfg := cfg) hg x.1 x.2.1 x.2.2.1 x.2.2.2 ht htt (hs x (by simp))
    have ih := timeouts_after (cfg := cfg) l (step_eff (cfg := cfg) hg x.1 (.timeout x.2.1 x.2.2.1 x.2.2.2) trivial).1 h2 htt (by
      intro y hy s hsm hc
      have : (s.cid, s.skey) ∈ w.subs.map fun s => (s.cid, s.skey) := by rw [← h3]; exact List.mem_map.mpr ⟨s, hsm, rfl⟩
      obtain ⟨s0, hs0, he⟩ := List.mem_map.mp this
      simp only [Prod.mk.injEq] at he
      rw [← he.2]
      exact hs y (by simp [hy]) s0 hs0 (he.1.trans hc))
    exact ih.trans h1

/-- Segments of a connection time out one after the other, in any order: the requester is told exactly once. -/
theorem C36_once_partial {cfg : Cfg} {ms : List Msg} {w : World} (h : Runs cfg ms w) (o : Oracle) (hh : RHdr) (n : Nat) {s : SRow} {row : CRow}
    (hs : s ∈ w.subs) (hp : s.prov = hh.prov) (hheld : s.st.r = .held) (hr : row ∈ w.conns) (hk : row.key = s.skey) (hf : row.st.r ≠ .failed)
    (hnone : ∀ s' ∈ w.subs, s'.skey = row.key → s'.st.r ≠ .timeout) (l : List (Oracle × RHdr × Str × Nat))
    (hl : ∀ x ∈ l, ∃ s' ∈ w.subs, s'.cid = x.2.2.1 ∧ s'.skey = row.key) :
    (runMsgs cfg w (timeoutMsgs ((o, hh, s.cid, n) :: l))).outbox = w.outbox ++ [.reserveTimeout row.requester row.cid n] := by
  have hnil : w.timedOut row.key = [] := by
    unfold World.timedOut
    rw [List.filter_eq_nil_iff]
    intro x hx
    simpa using hnone x hx
  obtain ⟨h1, h2⟩ := C36_announced_partial (cfg := cfg) h o hh n hs hp hheld hr hk
  rw [if_pos ⟨hnil, hf⟩] at h2
  let s1 : SRow := { s with st := { s.st with r := .timeout } }
  have hs1 : s1 ∈ (Agg.step cfg w o (.timeout hh s.cid n)).1.subs := by
    rw [h1]
    exact (mem_setSRow (row' := s1) h.good.skeys hs rfl s1).mpr (Or.inl rfl)
  refine (timeouts_after (cfg := cfg) l (step_eff (cfg := cfg) h.good o (.timeout hh s.cid n) trivial).1 hs1 rfl ?_).trans h2
  intro x hx s' hs' hc
  obtain ⟨s0, hs0, hc0, hk0⟩ := hl x hx
  have : (s'.cid, s'.skey) ∈ w.subs.map fun s => (s.cid, s.skey) := by
    rw [← map_setSRow (row' := s1) (fun s => (s.cid, s.skey)) h.good.skeys hs rfl rfl, ← h1]
    exact List.mem_map.mpr ⟨s', hs', rfl⟩
  obtain ⟨s2, hs2, he⟩ := List.mem_map.mp this
  simp only [Prod.mk.injEq] at he
  obtain rfl := nodup_map_inj h.good.scids hs0 hs2 (hc0.trans (hc.symm.trans he.1.symm))
  show s'.skey = s.skey
  rw [← he.2, hk0, hk]

/-- Both segments of a connection time out, the second one first; a third message is a repetition. -/
example : let w := runMsgs Ex.cfg .init Ex.held
    (∃ s ∈ w.subs, s.cid = ['s', '2'] ∧ s.prov = ['m'] ∧ s.st.r = .held ∧ s.skey = 1) ∧
    (∃ r ∈ w.conns, r.key = 1 ∧ r.st.r = .held ∧ ∀ s' ∈ w.subs, s'.skey = r.key → s'.st.r ≠ .timeout) ∧
    newSegs Ex.cfg .init Ex.held = true ∧
    (runMsgs Ex.cfg w (timeoutMsgs [(Ex.nil, ⟨['m'], []⟩, ['s', '2'], 4), (Ex.nil, ⟨['m'], []⟩, ['s', '1'], 5), (Ex.nil, ⟨['m'], []⟩, ['s', '2'], 6)])).outbox
      = w.outbox ++ [.reserveTimeout ['u'] ['c', '1'] 4] := by decide +kernel

/-- The timeout of a connection's reservation. -/
def Out.isTimeout (cid : Str) : Out → Bool
  | .reserveTimeout _ c _ => c = cid
  | _ => false

/-- With other messages in between the requester can be told twice: a provider confirms a commit nobody asked for after its segment
has timed out, then the other segment times out. -/
theorem C36_twice_fails : ¬ ∀ w : World, SReach Ex.cfg w → ∀ cid, (w.outbox.filter (Out.isTimeout cid)).length ≤ 1 := fun h =>
  absurd (h (runMsgs Ex.cfg .init (Ex.held ++ [(Ex.nil, .timeout ⟨['m'], []⟩ ['s', '1'] 4), (Ex.nil, .commitConfirmed ⟨['m'], []⟩ ['s', '1']),
    (Ex.nil, .timeout ⟨['m'], []⟩ ['s', '2'] 5)])) (SReach.init.msgs _) ['c', '1']) (by decide +kernel)

end OpenNSA.Agg
