import Verif.Joint.Examples
/-
C87: the segments of a confirmed connection fit together.
-/
namespace OpenNSA.Joint
open Py

namespace Ex
open Agg.Ex (vlan)

/-- An earlier connection within network B takes the first labels there; then a connection from A to B is reserved. -/
def crossing : List Ev :=
  [.msg { cids := [['c', '0']], corrs := [['0']], acks := [.ok ['s', '0']] } (.reserve Agg.Ex.hdr none ⟨mid2, dst, some 100, some 200, 50⟩)] ++
  at_ 1 [(({ ids := [['s', '0']] } : Backend.Oracle), .start (hdr '0') (.reserve none mid2 dst (some 100) (some 200)))] ++ ends 1 0 ++
  [.msg {} (.reserveConfirmed ⟨['m'], ['0']⟩ ['s', '0'] ⟨⟨['B'], ['b', 'a'], vlan 10 10⟩, ⟨['B'], ['b', 'c'], vlan 20 20⟩, some 100, some 200, 50⟩)] ++
  [.msg (draws '1' '2') (.reserve Agg.Ex.hdr none ⟨src, dst, some 100, some 200, 50⟩)] ++
  at_ 0 [(({ ids := [['s', '1']] } : Backend.Oracle), .start (hdr '1') (.reserve none src mid1 (some 100) (some 200)))] ++ ends 0 0 ++
  at_ 1 [(({ ids := [['s', '2']] } : Backend.Oracle), .start (hdr '2') (.reserve none mid2 dst (some 100) (some 200)))] ++ ends 1 2 ++
  [.msg {} (.reserveConfirmed ⟨['m'], ['1']⟩ ['s', '1'] ⟨⟨['A'], ['x'], vlan 1 1⟩, ⟨['A'], ['a', 'b'], vlan 10 10⟩, some 100, some 200, 50⟩)]

/-- The second confirmation. -/
def confirmB' : Agg.Msg :=
  .reserveConfirmed ⟨['m'], ['2']⟩ ['s', '2'] ⟨⟨['B'], ['b', 'a'], vlan 11 11⟩, ⟨['B'], ['b', 'c'], vlan 21 21⟩, some 100, some 200, 50⟩
end Ex

/-- The segments of a connection fit together: where one ends and the next begins, between two backends, both have stored the same label. -/
def Fit (sys : Sys) (w : Agg.World) (f : Scheds) (cid : Str) : Prop :=
  ∀ row ∈ w.conns, row.cid = cid → ∀ s ∈ w.subs, ∀ t ∈ w.subs, s.skey = row.key → t.skey = row.key → t.order = s.order + 1 →
    ∀ pa pb, (w.asked cid)[s.order]? = some pa → (w.asked cid)[t.order]? = some pb → ∀ a b, sys.site pa.handle = some a → sys.site pb.handle = some b →
      ∀ ra ∈ (a.at (f pa.handle)).rows, ∀ rb ∈ (b.at (f pb.handle)).rows, ra.cid = s.cid → rb.cid = t.cid → ra.dstLabel = rb.srcLabel

/-- The label leaves one choice. -/
def Only (l : Option Label) (t : Str) (n : Int) : Prop := ∃ x, l = some x ∧ x.type_ = t ∧ ∀ k, x.has k → k = n

/-- The second call begins where the first ends, with one and the same choice of a label. -/
def MeetAt (pa pb : Agg.PCall) : Prop := ∃ cid src dst start end_ bw cid' src' dst' start' end_' bw' t n,
  pa.op = .reserve cid src dst start end_ bw ∧ pb.op = .reserve cid' src' dst' start' end_' bw' ∧ Only dst.label t n ∧ Only src'.label t n

theorem Only.wanted {l : Option Label} {t : Str} {n : Int} (h : Only l t n) {v : Option Backend.LabelVal} (hw : Backend.Wanted l v) : v = some (t, n) := by
  obtain ⟨x, rfl, rfl, hx⟩ := h
  obtain ⟨k, rfl, hk⟩ := hw
  rw [hx k hk]

theorem Holds.dstOnly {sys : Sys} {cfg : Backend.Cfg} {pc : Agg.PCall} {r : Backend.Row} (h : Holds sys cfg pc r) {cid : Str} {src dst : STP}
    {start end_ : Option Time} {bw : Int} (hop : pc.op = .reserve cid src dst start end_ bw) {t : Str} {n : Int} (ho : Only dst.label t n) :
    r.dstLabel = some (t, n) := by
  obtain ⟨_, _, _, _, hop', _, _, _, _, _, _, hsw, hns⟩ := h
  rw [hop] at hop'
  cases hop'
  by_cases hs : Backend.Swaps cfg src dst
  · exact ho.wanted (hsw hs).2
  · obtain ⟨h1, h2⟩ := hns hs
    rw [← h1]
    obtain ⟨x, hx, rest⟩ := ho
    unfold Backend.WantedBoth at h2
    rw [hx] at h2
    split at h2
    · exact Only.wanted ⟨x, rfl, rest⟩ h2
    · simp_all
    · rename_i h3
      rw [← h3] at h2
      exact Only.wanted ⟨x, rfl, rest⟩ h2.2

theorem Holds.srcOnly {sys : Sys} {cfg : Backend.Cfg} {pc : Agg.PCall} {r : Backend.Row} (h : Holds sys cfg pc r) {cid : Str} {src dst : STP}
    {start end_ : Option Time} {bw : Int} (hop : pc.op = .reserve cid src dst start end_ bw) {t : Str} {n : Int} (ho : Only src.label t n) :
    r.srcLabel = some (t, n) := by
  obtain ⟨_, _, _, _, hop', _, _, _, _, _, _, hsw, hns⟩ := h
  rw [hop] at hop'
  cases hop'
  by_cases hs : Backend.Swaps cfg src dst
  · exact ho.wanted (hsw hs).1
  · obtain ⟨h1, h2⟩ := hns hs
    obtain ⟨x, hx, rest⟩ := ho
    unfold Backend.WantedBoth at h2
    rw [hx] at h2
    split at h2
    · simp_all
    · rename_i h3 _
      rw [← h3] at h2
      exact Only.wanted ⟨x, rfl, rest⟩ h2
    · rename_i h3 _
      rw [← h3] at h2
      exact Only.wanted ⟨x, rfl, rest⟩ h2.1

/-- C87 where it holds: if the calls leave one choice at each demarcation point, the segments fit together at any time. -/
theorem C87_fit_partial {sys : Sys} {ms : List Agg.Msg} {w : Agg.World} {f : Scheds} (h : Runs sys ms w f) (hf : w.freshIds) (ht : Texts sys f)
    (cid : Str) (hm : ∀ i pa pb, (w.asked cid)[i]? = some pa → (w.asked cid)[i + 1]? = some pb → MeetAt pa pb) : Fit sys w f cid := by
  intro row hr hcid s hs t htm hsk htk hord pa pb hpa hpb a b ha hb ra hra rb hrb hca hcb
  have key : ∀ u ∈ w.subs, u.skey = row.key → ∀ pc, (w.asked cid)[u.order]? = some pc → ∀ site, sys.site pc.handle = some site →
      ∀ r ∈ (site.at (f pc.handle)).rows, r.cid = u.cid → Holds sys site.cfg pc r := by
    intro u hu huk pc hpc site hsite r hrr hrc
    obtain ⟨row3, hr3, hk3, pc3, hpc3, _, hbound⟩ := h.tied hf ht u hu
    have e2 : row3 = row := Agg.nodup_map_inj h.agg.good.ckeys hr3 hr (hk3.trans huk)
    rw [e2, hcid, hpc] at hpc3
    simp only [Option.some.injEq] at hpc3
    subst hpc3
    obtain ⟨r', hr', hbd⟩ := hbound site hsite
    have : r = r' := row_unique (ht _ _ hsite) hrr hr' (hrc.trans hbd.cid.symm)
    subst this
    exact holds_of h.called hf (List.mem_filter.mp (List.mem_of_getElem? hpc)).1 hbd.reserved
  have hA := key s hs hsk pa hpa a ha ra hra hca
  have hB := key t htm htk pb hpb b hb rb hrb hcb
  obtain ⟨_, _, _, _, _, _, _, _, _, _, _, _, tt, n, ho1, ho2, hl1, hl2⟩ := hm s.order pa pb hpa (by rw [← hord]; exact hpb)
  rw [hA.dstOnly ho1 hl1, hB.srcOnly ho2 hl2]

namespace Ex
open Agg.Ex (vlan)

/-- The same networks, with one VLAN between them. -/
def cfg1 : Agg.Cfg := { Agg.Ex.cfg with
  ports := [(['A'], [(['x'], ⟨vlan 1 9, none, none⟩), (['a', 'b'], ⟨vlan 10 10, some ['B'], some ['b', 'a']⟩)]),
            (['B'], [(['b', 'a'], ⟨vlan 10 10, some ['A'], some ['a', 'b']⟩), (['b', 'c'], ⟨vlan 20 29, none, none⟩)])] }
def sites1 : List (Nat × Site) :=
  [(0, { siteA with cfg := { siteA.cfg with ports := [(['x'], ⟨vlan 1 9, [], false⟩), (['a', 'b'], ⟨vlan 10 10, [], false⟩)] } }),
   (1, { siteB with cfg := { siteB.cfg with ports := [(['b', 'a'], ⟨vlan 10 10, [], false⟩), (['b', 'c'], ⟨vlan 20 29, [], false⟩)] } })]

def narrow : List Ev :=
  [.msg (draws '1' '2') (.reserve Agg.Ex.hdr none ⟨src, dst, some 100, some 200, 50⟩)] ++
  at_ 0 [(({ ids := [['s', '1']] } : Backend.Oracle), .start (hdr '1') (.reserve none src ⟨['A'], ['a', 'b'], vlan 10 10⟩ (some 100) (some 200)))] ++ ends 0 0 ++
  at_ 1 [(({ ids := [['s', '2']] } : Backend.Oracle), .start (hdr '2') (.reserve none ⟨['B'], ['b', 'a'], vlan 10 10⟩ dst (some 100) (some 200)))] ++ ends 1 0 ++
  [.msg {} (.reserveConfirmed ⟨['m'], ['1']⟩ ['s', '1'] ⟨⟨['A'], ['x'], vlan 1 1⟩, ⟨['A'], ['a', 'b'], vlan 10 10⟩, some 100, some 200, 50⟩), .msg {} confirmB]

theorem only10 : Only (vlan 10 10) ['v'] 10 := by
  refine ⟨_, rfl, rfl, fun k hk => ?_⟩
  simp only [Label.has, InRanges, List.mem_singleton] at hk
  obtain ⟨r, rfl, h1, h2⟩ := hk
  simp only at h1 h2
  omega

end Ex

example : let d := after Ex.cfg1 .init (fun _ => []) Ex.narrow
    (∃ ms, Runs (sysOf Ex.cfg1 Ex.sites1) ms d.1 d.2) ∧ d.1.freshIds ∧ Texts (sysOf Ex.cfg1 Ex.sites1) d.2 ∧
    (∀ i pa pb, (d.1.asked ['c', '1'])[i]? = some pa → (d.1.asked ['c', '1'])[i + 1]? = some pb → MeetAt pa pb) ∧
    d.1.subs.map (fun s => (s.order, s.cid)) = [(0, ['s', '1']), (1, ['s', '2'])] := by
  refine ⟨runs_after _ .init (by decide +kernel), by unfold Agg.World.freshIds; decide +kernel,
    texts_after (cands := ["1-9".toList, "10".toList, "20-29".toList]) (by decide +kernel), ?_, by decide +kernel⟩
  have h : ((after Ex.cfg1 .init (fun _ => []) Ex.narrow).1.asked ['c', '1']).map (·.op) =
      [.reserve ['c', '1'] Ex.src ⟨['A'], ['a', 'b'], Agg.Ex.vlan 10 10⟩ (some 100) (some 200) 50,
       .reserve ['c', '1'] ⟨['B'], ['b', 'a'], Agg.Ex.vlan 10 10⟩ Ex.dst (some 100) (some 200) 50] := by decide +kernel
  intro i pa pb ha hb
  have ha' := congrArg (·.map (·.op)) ha
  have hb' := congrArg (·.map (·.op)) hb
  simp only [← List.getElem?_map, h, Option.map_some] at ha' hb'
  match i with
  | 0 =>
    simp only [List.getElem?_cons_zero, List.getElem?_cons_succ, Option.some.injEq] at ha' hb'
    exact ⟨_, _, _, _, _, _, _, _, _, _, _, _, _, _, ha'.symm, hb'.symm, Ex.only10, Ex.only10⟩
  | i + 1 => simp at hb'

/-- C87 does not hold: two backends choose different labels for the two sides of the same demarcation point, and the requester is told that the connection
is reserved (an earlier connection within network B has the label that A chooses; aggregator.py:300-345, 392-409, 913-915, genericbackend.py:287-308). -/
theorem C87_fit_fails : ¬ ∀ (sys : Sys) (ms : List Agg.Msg) (w : Agg.World) (f : Scheds), Runs sys ms w f → ∀ (o : Agg.Oracle) (m : Agg.Msg), Agg.NewSeg w m →
    Genuine sys w f m → (Agg.step sys.agg w o m).1.freshIds → Texts sys f → ∀ (to_ cid : Str) (src dst : STP) (start end_ : Option Time) (bw : Int),
    .reserveConfirmed to_ cid src dst start end_ bw ∈ (Agg.step sys.agg w o m).1.outbox.drop w.outbox.length →
    Fit sys (Agg.step sys.agg w o m).1 f cid := by
  intro h
  obtain ⟨ms, hr⟩ := Ex.runs (es := Ex.crossing) (by decide +kernel)
  have hx := h (sysOf Agg.Ex.cfg Ex.sites) ms _ _ hr {} Ex.confirmB' (by decide +kernel) (genuineB_sound (by decide +kernel))
    (by unfold Agg.World.freshIds; decide +kernel) (Ex.texts (by decide +kernel)) ['u'] ['c', '1'] ⟨['A'], ['x'], Agg.Ex.vlan 1 1⟩
    ⟨['B'], ['b', 'c'], Agg.Ex.vlan 21 21⟩ (some 100) (some 200) 50 (by decide +kernel)
  have hy : ∃ row ∈ (Agg.step Agg.Ex.cfg (Ex.done Ex.crossing).1 {} Ex.confirmB').1.conns, row.cid = ['c', '1'] ∧
      ∃ s ∈ (Agg.step Agg.Ex.cfg (Ex.done Ex.crossing).1 {} Ex.confirmB').1.subs, ∃ t ∈ (Agg.step Agg.Ex.cfg (Ex.done Ex.crossing).1 {} Ex.confirmB').1.subs,
        s.skey = row.key ∧ t.skey = row.key ∧ s.order = 0 ∧ t.order = 1 ∧ s.cid = ['s', '1'] ∧ t.cid = ['s', '2'] := by decide +kernel
  obtain ⟨row, hrow, hc, s, hs, t, ht, hsk, htk, hso, hto, hsc, htc⟩ := hy
  have hz := hx row hrow hc s hs t ht hsk htk (by rw [hso, hto])
  rw [hso, hto, hsc, htc] at hz
  have hp : (((Agg.step Agg.Ex.cfg (Ex.done Ex.crossing).1 {} Ex.confirmB').1.asked ['c', '1']).map (·.handle))[0]? = some 0 ∧
      (((Agg.step Agg.Ex.cfg (Ex.done Ex.crossing).1 {} Ex.confirmB').1.asked ['c', '1']).map (·.handle))[1]? = some 1 := by decide +kernel
  simp only [List.getElem?_map, Option.map_eq_some_iff] at hp
  obtain ⟨⟨pa, hpa, ha⟩, pb, hpb, hb⟩ := hp
  have hq := hz pa pb hpa hpb Ex.siteA Ex.siteB (by rw [ha]; rfl) (by rw [hb]; rfl)
  rw [ha, hb] at hq
  have hw : ∃ ra ∈ (Ex.siteA.at ((Ex.done Ex.crossing).2 0)).rows, ∃ rb ∈ (Ex.siteB.at ((Ex.done Ex.crossing).2 1)).rows,
      ra.cid = ['s', '1'] ∧ rb.cid = ['s', '2'] ∧ ra.dstLabel ≠ rb.srcLabel := by decide +kernel
  obtain ⟨ra, hra, rb, hrb, h1, h2, h3⟩ := hw
  exact h3 (hq ra hra rb hrb h1 h2)

/-- The two sides of the demarcation point are ports that the configuration connects. -/
example : Ex.mid1 = ⟨['A'], ['a', 'b'], Agg.Ex.vlan 10 19⟩ ∧ Ex.mid2 = ⟨['B'], ['b', 'a'], Agg.Ex.vlan 10 19⟩ ∧
    Agg.choosePath Agg.Ex.cfg Ex.src Ex.dst = .ok [⟨Ex.src, Ex.mid1⟩, ⟨Ex.mid2, Ex.dst⟩] := by decide +kernel

end OpenNSA.Joint
