import Verif.Agg.Booking
/- C93: a connection goes through its life, in executions handling one message after the other. -/
namespace OpenNSA.Agg
open OpenNSA Py Coro

/-- The switch of the connection when the request arrives. -/
def Kind.begin : Kind → ConnStates → Option ConnStates
  | .commit, s => switchR s .committing
  | .abort, s => switchR s .aborting
  | .provision, s => switchP s .provisioning
  | .release, s => switchP s .releasing
  | .terminate, s => switchL s .terminating

/-- The switch of the segments when the request arrives. -/
def Kind.prepare : Kind → ConnStates → Option ConnStates
  | .commit, _ => none
  | .abort, s => switchR s .aborting
  | .provision, s => switchP s .provisioning
  | .release, s => switchP s .releasing
  | .terminate, _ => none

theorem Eff.request {cfg : Cfg} {w w' : World} {r : Except Err (Option Str)} {k : Kind} {h : Hdr} {cid : Str} (he : Eff cfg w w' r (k.request h cid)) :
    ReqEff cfg cid k.begin k.prepare k.op w w' r := by
  cases k <;> exact he

theorem Kind.begin_finish {k : Kind} {s s' : ConnStates} (h : k.begin s = some s') : k.reached s' = false ∧ k.finish s' = some (k.after s) := by
  cases k <;> simp only [Kind.begin] at h <;> simp only [Kind.reached, Kind.finish, Kind.after]
  · obtain ⟨h1, h2, h3, h4⟩ := switchR_r h
    cases s'; simp only at h1 h3 h4; subst h1 h3 h4; simp [switchR, reserveTransitions]
  · obtain ⟨h1, h2, h3, h4⟩ := switchR_r h
    cases s'; simp only at h1 h3 h4; subst h1 h3 h4; simp [switchR, reserveTransitions]
  · obtain ⟨h1, h2, h3, h4⟩ := switchP_p h
    cases s'; simp only at h1 h3 h4; subst h1 h3 h4; simp [switchP, provisionTransitions]
  · obtain ⟨h1, h2, h3, h4⟩ := switchP_p h
    cases s'; simp only at h1 h3 h4; subst h1 h3 h4; simp [switchP, provisionTransitions]
  · obtain ⟨h1, h2, h3, h4⟩ := switchL_l h
    cases s'; simp only at h1 h3 h4; subst h1 h3 h4; simp [switchL, lifecycleTransitions]

theorem Kind.prepare_move {k : Kind} {s s' : ConnStates} (h : k.begin s = some s') (hl : s.l ≠ .terminated) :
    k.reached ((k.prepare s).getD s) = false ∧ k.move ((k.prepare s).getD s) = some (k.after s) := by
  cases k
  · obtain ⟨_, h2, _⟩ := switchR_r h
    refine ⟨?_, rfl⟩
    simp only [Kind.prepare, Option.getD_none, Kind.reached]
    refine decide_eq_false fun hr => ?_
    rw [hr] at h2
    simp [reserveTransitions] at h2
  · have hb := Kind.begin_finish h
    simp only [Kind.begin] at h
    simp only [Kind.prepare, h, Option.getD_some]
    refine ⟨hb.1, ?_⟩
    obtain ⟨h1, _, h3, h4⟩ := switchR_r h
    simp [Kind.move, Kind.after, h3, h4]
  · have hb := Kind.begin_finish h
    simp only [Kind.begin] at h
    simp only [Kind.prepare, h, Option.getD_some]
    exact hb
  · have hb := Kind.begin_finish h
    simp only [Kind.begin] at h
    simp only [Kind.prepare, h, Option.getD_some]
    exact hb
  · exact ⟨decide_eq_false hl, rfl⟩

/-- The ids and providers of the segments of a connection. -/
def World.parties (w : World) (key : Nat) : List (Str × Str) := (w.segments key).map fun s => (s.cid, s.prov)

theorem op_at {cfg : Cfg} {w w' : World} {key : Nat} {cid req : Str} {st : ConnStates} {segs : List (Str × Str × ConnStates)} {outs : List Out} (hg : Good w)
    (ha : At w key cid req st segs outs) (hl : st.l ≠ .terminated) (hne : segs ≠ []) (huni : ∀ x ∈ segs, x.2.2 = st) (k : Kind) (o : Oracle) (h : Hdr)
    {i : Option Str} (hok : (Agg.step cfg w o (k.request h cid)).2 = .ok i) {rest : List (Str × Str)}
    (hc : Course cfg k key cid (segs.map fun x => (x.1, x.2.1)) (Agg.step cfg w o (k.request h cid)).1 rest w') :
    (∃ calls, (Agg.step cfg w o (k.request h cid)).1.sent = w.sent ++ calls ∧
      List.Forall₂ (fun (c : PCall) (x : Str × Str × ConnStates) => c.op = k.op x.1 ∧ c.prov = x.2.1) calls segs) ∧
    w'.told cid = outs ++ (if rest = [] then [k.answer req cid] else []) ∧
    (rest = [] → At w' key cid req (k.after st) (segs.map fun x => (x.1, x.2.1, k.after st)) (outs ++ [k.answer req cid])) := by
  have hn : NewSeg w (k.request h cid) := by cases k <;> trivial
  obtain ⟨g1, he⟩ := step_eff (cfg := cfg) hg o (k.request h cid) hn
  rw [hok] at he
  obtain ⟨st1, hb, ha1, calls, hcalls⟩ := (ha.orc o).request (hg.frame o _ _ _ _) hl he.request
  obtain ⟨f1, f2⟩ := Kind.begin_finish hb
  have hc' : Course cfg k key cid ((segs.map fun x => (x.1, x.2.1, (k.prepare x.2.2).getD x.2.2)).map fun x => (x.1, x.2.1))
      (Agg.step cfg w o (k.request h cid)).1 rest w' := by
    rw [List.map_map]; exact hc
  obtain ⟨_, _, h3⟩ := Course.at g1 ha1 (by simpa using hne) (by
    intro x hx
    obtain ⟨y, hy, rfl⟩ := List.mem_map.mp hx
    obtain ⟨p1, p2⟩ := Kind.prepare_move hb hl
    rw [huni y hy]
    exact ⟨p1, by rw [p2]; rfl⟩) f1 f2 hc'
  refine ⟨⟨calls, hcalls⟩, ?_, ?_⟩
  · rw [h3.outs]; split <;> simp
  · intro hrest
    subst hrest
    simp only [if_true] at h3
    have : replied k (segs.map fun x => (x.1, x.2.1, (k.prepare x.2.2).getD x.2.2)) [] = segs.map fun x => (x.1, x.2.1, k.after st) := by
      unfold replied
      rw [List.map_map]
      refine List.map_congr_left fun x hx => ?_
      obtain ⟨p1, p2⟩ := Kind.prepare_move hb hl
      simp [huni x hx, p2]
    rw [this] at h3
    exact h3

theorem at_self {w : World} {row : CRow} (hr : row ∈ w.conns) :
    At w row.key row.cid row.requester row.st ((w.segments row.key).map SRow.brief) (w.told row.cid) :=
  ⟨⟨row, hr, rfl, rfl, rfl, rfl⟩, rfl, rfl⟩

/-- With messages handled one after the other: if a connection and its segments agree in their states and a request for the connection is answered
positively, then every segment has been asked exactly once; whatever order the segments confirm in, and whatever else happens meanwhile, the
requester is sent no answer before the last segment has confirmed, and then exactly one, the confirmation; the connection and its segments then
agree again, having gone through the request. -/
theorem C93_operation {cfg : Cfg} {ms : List Msg} {w w' : World} (hw : Runs cfg ms w) {row : CRow} (hr : row ∈ w.conns) (hl : row.st.l ≠ .terminated)
    (hne : w.segments row.key ≠ []) (huni : ∀ s ∈ w.segments row.key, s.st = row.st) (k : Kind) (o : Oracle) (h : Hdr) {i : Option Str}
    (hok : (Agg.step cfg w o (k.request h row.cid)).2 = .ok i) {rest : List (Str × Str)}
    (hc : Course cfg k row.key row.cid (w.parties row.key) (Agg.step cfg w o (k.request h row.cid)).1 rest w') :
    (∃ calls, (Agg.step cfg w o (k.request h row.cid)).1.sent = w.sent ++ calls ∧
      List.Forall₂ (fun (c : PCall) (s : SRow) => c.op = k.op s.cid ∧ c.prov = s.prov) calls (w.segments row.key)) ∧
    w'.told row.cid = w.told row.cid ++ (if rest = [] then [k.answer row.requester row.cid] else []) ∧
    (rest = [] → (∃ row' ∈ w'.conns, row'.key = row.key ∧ row'.cid = row.cid ∧ row'.requester = row.requester ∧ row'.st = k.after row.st) ∧
      w'.parties row.key = w.parties row.key ∧ ∀ s ∈ w'.segments row.key, s.st = k.after row.st) := by
  obtain ⟨⟨calls, h1, h2⟩, h3, h4⟩ := op_at hw.good (at_self hr) hl (by simpa using hne) (by
    intro x hx
    obtain ⟨s, hs, rfl⟩ := List.mem_map.mp hx
    exact huni s hs) k o h hok (rest := rest) (w' := w') (by rw [List.map_map]; exact hc)
  refine ⟨⟨calls, h1, by rw [List.forall₂_map_right_iff] at h2; exact h2⟩, h3, fun hrest => ?_⟩
  have h5 := h4 hrest
  refine ⟨h5.row, ?_, ?_⟩
  · have := congrArg (List.map fun x : Str × Str × ConnStates => (x.1, x.2.1)) h5.segs
    simp only [List.map_map] at this
    exact this
  · intro s hs
    have : s.brief ∈ (w'.segments row.key).map SRow.brief := List.mem_map.mpr ⟨s, hs, rfl⟩
    rw [h5.segs, List.mem_map] at this
    obtain ⟨x, _, hx⟩ := this
    have := congrArg (fun x : Str × Str × ConnStates => x.2.2) hx
    exact this.symm

/-- A series of requests for the connection, each answered positively and confirmed by every segment before the next one. -/
inductive Lives (cfg : Cfg) (key : Nat) (cid : Str) (w : World) : List Kind → World → Prop
  | start : Lives cfg key cid w [] w
  | op {ks v v'} (h : Lives cfg key cid w ks v) (hl : ∀ row ∈ v.conns, row.cid = cid → row.st.l ≠ .terminated) (k : Kind) (o : Oracle) (hdr : Hdr)
      {i : Option Str} (hok : (Agg.step cfg v o (k.request hdr cid)).2 = .ok i)
      (hc : Course cfg k key cid (v.parties key) (Agg.step cfg v o (k.request hdr cid)).1 [] v') : Lives cfg key cid w (ks ++ [k]) v'

/-- With messages handled one after the other: a connection that agrees with its segments goes through any series of accepted requests, the requester
being sent exactly the confirmations of the requests, in their order; in the end the connection and its segments have gone through all of them. -/
theorem C93_life {cfg : Cfg} {ms : List Msg} {w w' : World} (hw : Runs cfg ms w) {row : CRow} (hr : row ∈ w.conns) (hne : w.segments row.key ≠ [])
    (huni : ∀ s ∈ w.segments row.key, s.st = row.st) {ks : List Kind} (h : Lives cfg row.key row.cid w ks w') :
    w'.told row.cid = w.told row.cid ++ ks.map (fun k => k.answer row.requester row.cid) ∧
    (∃ row' ∈ w'.conns, row'.key = row.key ∧ row'.cid = row.cid ∧ row'.requester = row.requester ∧ row'.st = ks.foldl (fun s k => k.after s) row.st) ∧
    w'.parties row.key = w.parties row.key ∧ ∀ s ∈ w'.segments row.key, s.st = ks.foldl (fun s k => k.after s) row.st := by
  suffices ∃ l, Runs cfg (ms ++ l) w' ∧ (w'.told row.cid = w.told row.cid ++ ks.map (fun k => k.answer row.requester row.cid) ∧
    (∃ row' ∈ w'.conns, row'.key = row.key ∧ row'.cid = row.cid ∧ row'.requester = row.requester ∧ row'.st = ks.foldl (fun s k => k.after s) row.st) ∧
    w'.parties row.key = w.parties row.key ∧ ∀ s ∈ w'.segments row.key, s.st = ks.foldl (fun s k => k.after s) row.st) from this.choose_spec.2
  induction h with
  | start => exact ⟨[], by simpa using hw, by simp, ⟨row, hr, rfl, rfl, rfl, rfl⟩, rfl, huni⟩
  | @op ks v v' _ hl k o hdr i hok hc ih =>
    obtain ⟨l, hv, i1, ⟨r, j1, j2, j3, j4, j5⟩, i3, i4⟩ := ih
    have hv1 : Runs cfg (ms ++ (l ++ [k.request hdr row.cid])) (Agg.step cfg v o (k.request hdr row.cid)).1 := by
      rw [← List.append_assoc]; exact hv.step o _ (by cases k <;> trivial)
    obtain ⟨l', hv2⟩ := hc.runs hv1
    have hpne : v.segments r.key ≠ [] := by
      rw [j2]
      intro h
      have : w.parties row.key = [] := by rw [← i3, World.parties, h]; rfl
      exact hne (by simpa [World.parties] using this)
    obtain ⟨_, h2, h3⟩ := C93_operation hv j1 (hl r j1 j3) hpne (by rw [j2, j5]; exact i4) k o hdr (by rw [j3]; exact hok) (w' := v') (rest := [])
      (by rw [j2, j3]; exact hc)
    obtain ⟨⟨r', k1, k2, k3, k4, k5⟩, h4, h5⟩ := h3 rfl
    rw [j2] at h4 h5
    refine ⟨l ++ [k.request hdr row.cid] ++ l', by simpa using hv2, ?_, ⟨r', k1, k2.trans j2, k3.trans j3, k4.trans j4, ?_⟩, h4.trans i3, ?_⟩
    · rw [← j3, h2, j3, i1, j4]; simp
    · rw [k5, j5, List.foldl_append]; rfl
    · intro s hs
      rw [List.foldl_append, h5 s hs, j5]; rfl

theorem Course.reply' {cfg : Cfg} {k : Kind} {key : Nat} {cid : Str} {todo rest rest' : List (Str × Str)} {w v : World} (h : Course cfg k key cid todo w rest v)
    (o : Oracle) (hdr : RHdr) (scid : Str) (hm : (scid, hdr.prov) ∈ rest ∧ rest.erase (scid, hdr.prov) = rest') :
    Course cfg k key cid todo w rest' (Agg.step cfg v o (k.reply hdr scid)).1 := hm.2 ▸ h.reply o hdr scid hm.1

theorem Booking.confirm' {cfg : Cfg} {key : Nat} {cid : Str} {todo rest rest' : List (Str × Str)} {w v : World} (h : Booking cfg key cid todo w rest v)
    (o : Oracle) (hdr : RHdr) (scid : Str) (c : Crit) (hn : NewSeg v (.reserveConfirmed hdr scid c))
    (hm : (hdr.corr, hdr.prov) ∈ rest ∧ rest.erase (hdr.corr, hdr.prov) = rest') :
    Booking cfg key cid todo w rest' (Agg.step cfg v o (.reserveConfirmed hdr scid c)).1 := hm.2 ▸ h.confirm o hdr scid c hn hm.1

namespace Ex
def w1 : World := (Agg.step cfg .init o (.reserve hdr none crit2)).1
def w2 : World := (Agg.step cfg (Agg.step cfg w1 nil confB).1 nil confA).1
def w3 : World := (Agg.step cfg w2 o (.commit hdr ['c', '1'])).1
/-- The second segment confirms first, the data plane of the other one comes up too early, the process is restarted in between. -/
def w4 : World :=
  (Agg.step cfg (Agg.step cfg (Agg.step cfg w3 nil (.commitConfirmed ⟨['m'], []⟩ ['s', '2'])).1 nil (.dataPlane ⟨['m'], []⟩ ['s', '1'] true 1 true)).1.restart
    nil (.commitConfirmed ⟨['m'], []⟩ ['s', '1'])).1
def w5 : World := (Agg.step cfg w4 o (.terminate hdr ['c', '1'])).1
def w6 : World := (Agg.step cfg (Agg.step cfg w5 nil (.terminateConfirmed ⟨['m'], []⟩ ['s', '2'])).1 nil (.terminateConfirmed ⟨['m'], []⟩ ['s', '1'])).1

theorem committed : Course cfg .commit 1 ['c', '1'] (w2.parties 1) w3 [] w4 :=
  have h1 : Course cfg .commit 1 ['c', '1'] (w2.parties 1) w3 _ _ := .reply' (rest := w2.parties 1) (rest' := [(['s', '1'], ['m'])]) .start nil ⟨['m'], []⟩ ['s', '2'] (by decide +kernel)
  have h2 := (h1.other nil (.dataPlane ⟨['m'], []⟩ ['s', '1'] true 1 true) trivial trivial).restart
  .reply' h2 nil ⟨['m'], []⟩ ['s', '1'] (by decide +kernel)

theorem terminated : Course cfg .terminate 1 ['c', '1'] (w4.parties 1) w5 [] w6 :=
  have h1 : Course cfg .terminate 1 ['c', '1'] (w4.parties 1) w5 _ _ := .reply' (rest := w4.parties 1) (rest' := [(['s', '1'], ['m'])]) .start nil ⟨['m'], []⟩ ['s', '2'] (by decide +kernel)
  .reply' h1 nil ⟨['m'], []⟩ ['s', '1'] (by decide +kernel)

theorem booked : Booking cfg 1 ['c', '1'] ((w1.sent.drop 0).map fun c => (c.corr, c.prov)) w1 [] w2 :=
  have h1 : Booking cfg 1 ['c', '1'] ((w1.sent.drop 0).map fun c => (c.corr, c.prov)) w1 [(['1'], ['m'])] (Agg.step cfg w1 nil confB).1 :=
    .confirm' .start nil ⟨['m'], ['2']⟩ ['s', '2'] segB (by decide +kernel) (by decide +kernel)
  .confirm' h1 nil ⟨['m'], ['1']⟩ ['s', '1'] segA (by decide +kernel) (by decide +kernel)
end Ex

/-- Two segments are held, the commit is accepted; see `Ex.committed`. -/
example : newSegs Ex.cfg .init [Ex.reserve2, (Ex.nil, Ex.confB), (Ex.nil, Ex.confA)] = true ∧
    (Ex.w2.conns.map fun r => (r.key, r.cid, r.st)) = [(1, ['c', '1'], heldStates)] ∧ (Ex.w2.segments 1).map (·.st) = [heldStates, heldStates] ∧
    (Agg.step Ex.cfg Ex.w2 Ex.o (Kind.commit.request Ex.hdr ['c', '1'])).2 = .ok (some ['c', '1']) ∧
    Ex.w4.told ['c', '1'] = Ex.w2.told ['c', '1'] ++ [.reserveCommitConfirmed ['u'] ['c', '1']] := by decide +kernel

/-- With messages handled one after the other: an accepted reservation request makes a new connection, for which every link of a chosen path has
been asked for exactly once, of the link's provider, with the times and bandwidth requested. Whatever order the segments are confirmed in, and
whatever else happens meanwhile, the requester is sent no answer before the last one is, and then exactly one, the confirmation; the connection
and its segments, one for each link, are then held. -/
theorem C93_reservation {cfg : Cfg} {ms : List Msg} {w : World} (hw : Runs cfg ms w) (o : Oracle) (h : Hdr) (c : Crit) {i : Option Str}
    (hok : (Agg.step cfg w o (.reserve h none c)).2 = .ok i) (hf : (Agg.step cfg w o (.reserve h none c)).1.freshIds) :
    ∃ cid path calls, i = some cid ∧ (∀ row ∈ w.conns, row.cid ≠ cid) ∧ choosePath cfg c.src c.dst = .ok path ∧
      (Agg.step cfg w o (.reserve h none c)).1.sent = w.sent ++ calls ∧
      List.Forall₂ (fun (call : PCall) (l : Link) => call.op = .reserve cid l.src l.dst c.start c.end_ c.bw ∧
        cfg.provider l.src.network = .ok (call.handle, call.prov)) calls path ∧
      ∀ rest w', Booking cfg w.ckey cid (calls.map fun c => (c.corr, c.prov)) (Agg.step cfg w o (.reserve h none c)).1 rest w' → w'.freshIds →
        (rest ≠ [] → w'.told cid = []) ∧
        (rest = [] → (∃ src dst start end_ bw, w'.told cid = [.reserveConfirmed h.requester cid src dst start end_ bw]) ∧
          (∃ row ∈ w'.conns, row.key = w.ckey ∧ row.cid = cid ∧ row.requester = h.requester ∧ row.st = ⟨.held, .released, .created⟩) ∧
          (w'.segments w.ckey).length = path.length ∧ path ≠ [] ∧ ∀ s ∈ w'.segments w.ckey, s.st = ⟨.held, .released, .created⟩) := by
  obtain ⟨cid, path, calls, h1, h2, h3, h4, h5, h6, h7, h8⟩ := reserve_at hw hok hf
  refine ⟨cid, path, calls, h1, h2, h3, h5, h6, fun rest w' hbk hf' => ?_⟩
  have hlen : calls.length = path.length := h6.length_eq
  have hne : calls.map (fun c => (c.corr, c.prov)) ≠ [] := by
    intro h
    rw [List.map_eq_nil_iff] at h
    rw [h] at hlen
    exact h4 (List.length_eq_zero_iff.mp hlen.symm)
  obtain ⟨_, segs, j1, j2, j3⟩ := Booking.at (hw.step o (.reserve h none c) trivial) h7 h8 hne hbk hf'
  constructor
  · intro hr
    rw [if_neg hr] at j3
    exact j3.outs
  · intro hr
    rw [if_pos hr] at j3
    obtain ⟨a, b, d, e, f, j3⟩ := j3
    refine ⟨⟨a, b, d, e, f, j3.outs⟩, j3.row, ?_, h4, ?_⟩
    · rw [hr, List.length_map] at j2
      have := congrArg List.length j3.segs
      rw [List.length_map] at this
      simp only [List.length_nil] at j2
      omega
    · intro s hs
      have : s.brief ∈ segs := by rw [← j3.segs]; exact List.mem_map.mpr ⟨s, hs, rfl⟩
      exact j1 _ this

namespace Ex
def v1 : World := (Agg.step cfg .init o (.reserve hdr none crit)).1
end Ex

/-- Three segments at two providers, confirmed in the order second, third, first. -/
example : (Agg.step Ex.cfg .init Ex.o (.reserve Ex.hdr none Ex.crit)).2 = .ok (some ['c', '1']) ∧
    ∃ w', Booking Ex.cfg 1 ['c', '1'] (Ex.v1.sent.map fun c => (c.corr, c.prov)) Ex.v1 [] w' ∧ (w'.sent.map (·.corr)).Nodup ∧
      w'.told ['c', '1'] = [.reserveConfirmed ['u'] ['c', '1'] ⟨['A'], ['x'], Ex.vlan 3 3⟩ Ex.dst (some 100) (some 200) 50] :=
  have h1 : Booking Ex.cfg 1 ['c', '1'] (Ex.v1.sent.map fun c => (c.corr, c.prov)) Ex.v1 [(['1'], ['m']), (['3'], ['r'])] _ :=
    .confirm' .start Ex.nil ⟨['m'], ['2']⟩ ['s', '2'] Ex.segB (by decide +kernel) (by decide +kernel)
  have h2 : Booking Ex.cfg 1 ['c', '1'] (Ex.v1.sent.map fun c => (c.corr, c.prov)) Ex.v1 [(['1'], ['m'])] _ :=
    .confirm' h1 Ex.nil ⟨['r'], ['3']⟩ ['s', '3'] Ex.segB (by decide +kernel) (by decide +kernel)
  have h3 : Booking Ex.cfg 1 ['c', '1'] (Ex.v1.sent.map fun c => (c.corr, c.prov)) Ex.v1 [] _ :=
    .confirm' h2 Ex.nil ⟨['m'], ['1']⟩ ['s', '1'] Ex.segA (by decide +kernel) (by decide +kernel)
  ⟨by decide +kernel, _, h3, by decide +kernel, by decide +kernel⟩

/-- With messages handled one after the other: the requester of a connection that is reserved, confirmed by all providers, and then led through any
series of accepted requests has been sent exactly the confirmation of the reservation and then those of the requests, in their order. -/
theorem C93_connection {cfg : Cfg} {ms : List Msg} {w v w' : World} (hw : Runs cfg ms w) (o : Oracle) (h : Hdr) (c : Crit) {cid : Str}
    (hok : (Agg.step cfg w o (.reserve h none c)).2 = .ok (some cid)) (hf : v.freshIds)
    (hbk : Booking cfg w.ckey cid (((Agg.step cfg w o (.reserve h none c)).1.sent.drop w.sent.length).map fun c => (c.corr, c.prov))
      (Agg.step cfg w o (.reserve h none c)).1 [] v)
    {ks : List Kind} (hl : Lives cfg w.ckey cid v ks w') :
    (∃ src dst start end_ bw, w'.told cid = .reserveConfirmed h.requester cid src dst start end_ bw :: ks.map fun k => k.answer h.requester cid) ∧
    (∃ row ∈ w'.conns, row.key = w.ckey ∧ row.cid = cid ∧ row.requester = h.requester ∧ row.st = ks.foldl (fun s k => k.after s) ⟨.held, .released, .created⟩) ∧
    ∀ s ∈ w'.segments w.ckey, s.st = ks.foldl (fun s k => k.after s) ⟨.held, .released, .created⟩ := by
  obtain ⟨l, hv⟩ := hbk.runs (hw.step o (.reserve h none c) trivial)
  have hf1 : (Agg.step cfg w o (.reserve h none c)).1.freshIds := by
    clear hl hv
    generalize hrest : ([] : List (Str × Str)) = rest at hbk
    clear hrest
    have hg := (step_eff (cfg := cfg) hw.good o (.reserve h none c) trivial).1
    have hrun := hw.step o (.reserve h none c) trivial
    generalize (Agg.step cfg w o (.reserve h none c)).1 = w1 at *
    induction hbk with
    | start => exact hf
    | @other rest v hb o m hn _ ih => exact ih (freshIds_of_prefix (step_sent (cfg := cfg) (hb.runs hrun).choose_spec.good o m hn) hf)
    | @confirm rest v hb o hdr scid c hn _ ih => exact ih (freshIds_of_prefix (step_sent (cfg := cfg) (hb.runs hrun).choose_spec.good o _ hn) hf)
  obtain ⟨cid', path, calls, h1, _, _, h5, _, h7⟩ := C93_reservation hw o h c hok hf1
  obtain rfl := Option.some.inj h1
  have hcalls : (Agg.step cfg w o (.reserve h none c)).1.sent.drop w.sent.length = calls := by rw [h5]; simp
  rw [hcalls] at hbk
  obtain ⟨⟨a, b, d, e, f, j1⟩, ⟨row, k1, k2, k3, k4, k5⟩, j2, j3, j4⟩ := (h7 [] v hbk hf).2 rfl
  rw [← k2, ← k3] at hl
  obtain ⟨m1, ⟨r, n1, n2, n3, n4, n5⟩, _, m3⟩ := C93_life hv k1 (by
    rw [k2]
    intro h
    rw [h] at j2
    exact j3 (List.length_eq_zero_iff.mp j2.symm)) (by rw [k2, k5]; exact j4) hl
  rw [k3, k4, j1] at m1
  rw [k5, k2] at m3
  exact ⟨⟨a, b, d, e, f, m1⟩, ⟨r, n1, n2.trans k2, n3.trans k3, n4.trans k4, by rw [n5, k5]⟩, m3⟩

/-- Reserved, committed, terminated. -/
example : Booking Ex.cfg World.init.ckey ['c', '1'] ((Ex.w1.sent.drop 0).map fun c => (c.corr, c.prov)) Ex.w1 [] Ex.w2 ∧ (Ex.w2.sent.map (·.corr)).Nodup ∧
    Lives Ex.cfg World.init.ckey ['c', '1'] Ex.w2 [.commit, .terminate] Ex.w6 ∧ Ex.w6.told ['c', '1'] =
      [.reserveConfirmed ['u'] ['c', '1'] ⟨['A'], ['x'], Ex.vlan 3 3⟩ ⟨['B'], ['w'], Ex.vlan 1 9⟩ (some 100) (some 200) 50,
       .reserveCommitConfirmed ['u'] ['c', '1'], .terminateConfirmed ['u'] ['c', '1']] :=
  ⟨Ex.booked, by decide +kernel,
   .op (v := Ex.w4) (.op (ks := []) (v := Ex.w2) .start (by decide +kernel) .commit Ex.o Ex.hdr (i := some ['c', '1']) (by decide +kernel) Ex.committed)
      (by decide +kernel) .terminate Ex.o Ex.hdr (i := some ['c', '1']) (by decide +kernel) Ex.terminated, by decide +kernel⟩

/-- C93 does not hold across a restart during the reservation: the requests made are remembered in memory only (aggregator.py:74), so all providers confirm
their segments, but the confirmations are not recognized and the requester is never told. -/
theorem C93_restart_fails : ¬ ∀ (cfg : Cfg) (o : Oracle) (h : Hdr) (c : Crit) (cid : Str) (l : List (Oracle × Msg)),
    (Agg.step cfg .init o (.reserve h none c)).2 = .ok (some cid) → newSegs cfg (Agg.step cfg .init o (.reserve h none c)).1.restart l = true →
    (∀ call ∈ (Agg.step cfg .init o (.reserve h none c)).1.sent, ∃ x ∈ l, ∃ scid crit, x.2 = .reserveConfirmed ⟨call.prov, call.corr⟩ scid crit) →
    (runMsgs cfg (Agg.step cfg .init o (.reserve h none c)).1.restart l).told cid ≠ [] := by
  intro hall
  refine hall Ex.cfg Ex.o Ex.hdr Ex.crit2 ['c', '1'] [(Ex.nil, Ex.confA), (Ex.nil, Ex.confB)] (by decide +kernel) (by decide +kernel) ?_ (by decide +kernel)
  have : ∀ call ∈ Ex.w1.sent, (call.prov = ['m'] ∧ call.corr = ['1']) ∨ (call.prov = ['m'] ∧ call.corr = ['2']) := by decide +kernel
  intro call hc
  rcases this call hc with ⟨h1, h2⟩ | ⟨h1, h2⟩
  · exact ⟨(Ex.nil, Ex.confA), by simp, ['s', '1'], Ex.segA, by rw [h1, h2]; rfl⟩
  · exact ⟨(Ex.nil, Ex.confB), by simp, ['s', '2'], Ex.segB, by rw [h1, h2]; rfl⟩

namespace Ex
/-- A recursive query and a commit after a restart: both look for the connection, the answer to the query's search is delivered last. -/
def queried : List (Oracle × Conc.Choice Msg) :=
  [(nil, .start (.queryRecursive hdr [['c', '1']] [])), (nil, .perform 0)] ++ startAll (o, .commit hdr ['c', '1']) 1 8 ++ [(o, .resume 0)] ++
  (List.replicate 8 [(o, .perform 0), (o, .resume 0)]).flatten
end Ex

/-- The messages whose handlers are started. -/
def startedMsgs (l : List (Oracle × Conc.Choice Msg)) : List Msg := l.filterMap fun x => match x.2 with | .start m => some m | _ => none

/-- C93 does not hold if a query is handled at the same time as a request, be it the only one: after a restart both load the connection from the
database, and the object of the query, which was read before the request changed the state, can end up in the cache (aggregator.py:98, `gotResult` stores
it whatever has been stored meanwhile). Here a commit is requested and accepted and both providers confirm it one after the other, but the second
confirmation raises InternalNSIError, since the cached object is not in state committing, and the requester is never told. -/
theorem C93_query_fails : ¬ ∀ (w : World) (l : List (Oracle × Conc.Choice Msg)) (m₁ m₂ : Msg) (h : Hdr) (cid : Str), SReach Ex.cfg w →
    startedMsgs l = [.queryRecursive h [cid] [], .commit h cid] → (runSys Ex.cfg { w := w.restart } l).tasks.length = 0 →
    (1, .ok (some cid)) ∈ (runSys Ex.cfg { w := w.restart } l).done →
    (∀ s ∈ w.subs, ∃ r, .commitConfirmed r s.cid ∈ [m₁, m₂] ∧ r.prov = s.prov) →
    (runMsgs Ex.cfg (runSys Ex.cfg { w := w.restart } l).w [(Ex.nil, m₁), (Ex.nil, m₂)]).told cid ≠ w.told cid := by
  intro hall
  refine hall (runMsgs Ex.cfg .init Ex.held) Ex.queried (.commitConfirmed ⟨['m'], []⟩ ['s', '1']) (.commitConfirmed ⟨['m'], []⟩ ['s', '2']) Ex.hdr ['c', '1']
    (SReach.init.msgs _) (by decide +kernel) (by decide +kernel) (by decide +kernel) ?_ (by decide +kernel)
  have : ∀ s ∈ (runMsgs Ex.cfg .init Ex.held).subs, s.prov = ['m'] ∧ (s.cid = ['s', '1'] ∨ s.cid = ['s', '2']) := by decide +kernel
  intro s hs
  obtain ⟨h1, h2 | h2⟩ := this s hs
  · exact ⟨⟨['m'], []⟩, by simp [h2], h1.symm⟩
  · exact ⟨⟨['m'], []⟩, by simp [h2], h1.symm⟩

end OpenNSA.Agg
