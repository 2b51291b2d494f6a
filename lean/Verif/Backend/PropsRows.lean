import Verif.Backend.ConcReqs
import Verif.Backend.PropsInter
import Verif.Backend.PropsReserve
/-
Stored connections, links and messages in every interleaving: C23, C74, C75.
-/
namespace OpenNSA.Backend
open OpenNSA Py Prog

/-- The requester may use both ports of the connection. -/
def MayUse (cfg : Cfg) (h : Hdr) (r : Row) : Prop :=
  ∃ sp dp, dget cfg.ports r.srcPort = some sp ∧ dget cfg.ports r.dstPort = some dp ∧
    isAuthorized sp.authz h.attrs h.ri = some true ∧ isAuthorized dp.authz h.attrs h.ri = some true

/-- The schedule has a request of this kind for the connection, by someone who may use its ports. -/
def Requested (cfg : Cfg) (s : List (Oracle × Choice)) (k : Kind) (r : Row) : Prop :=
  ∃ o h, (o, Choice.start h (k.req r.cid)) ∈ s ∧ MayUse cfg h r

/-- The schedule has the reservation request the connection was made for: with this correlation id, the requester, ports, times
and, if it gave one, id of the connection, acceptable, and with labels among those asked for. -/
def Reserved (cfg : Cfg) (s : List (Oracle × Choice)) (corr : Str) (r : Row) : Prop :=
  ∃ o h cid? src dst, (o, Choice.start h (.reserve cid? src dst r.start r.end_)) ∈ s ∧ h.corr = corr ∧ r.requester = h.requester ∧
    r.srcPort = src.port ∧ r.dstPort = dst.port ∧ (∀ c, cid? = some c → r.cid = c) ∧
    (∃ sp dp, Admissible cfg h src dst r.start r.end_ sp dp) ∧
    (Swaps cfg src dst → Wanted src.label r.srcLabel ∧ Wanted dst.label r.dstLabel) ∧
    (¬ Swaps cfg src dst → r.srcLabel = r.dstLabel ∧ WantedBoth src dst r.srcLabel)

/-- The labels of ports and reservation requests were parsed from text. -/
def TextSchedule (cfg : Cfg) (s : List (Oracle × Choice)) : Prop :=
  ∀ o h cid? src dst st en, (o, Choice.start h (.reserve cid? src dst st en)) ∈ s → TextLabels cfg src dst

theorem authorize_mayUse {cfg : Cfg} {h : Hdr} {r : Row} (ha : authorize cfg h r.srcPort r.dstPort = .ok ()) : MayUse cfg h r := by
  have hp : dmem cfg.ports r.srcPort = true ∧ dmem cfg.ports r.dstPort = true := by
    unfold authorize at ha
    split at ha
    · simp at ha
    · rename_i hn; simpa using hn
  rw [dmem_eq, dmem_eq] at hp
  obtain ⟨sp, hsp⟩ := Option.isSome_iff_exists.mp hp.1
  obtain ⟨dp, hdp⟩ := Option.isSome_iff_exists.mp hp.2
  exact ⟨sp, dp, hsp, hdp, (authorize_ok hsp hdp).mp ha⟩

theorem choosable_wanted {cfg : Cfg} {src dst : STP} (ht : TextLabels cfg src dst) {sl dl : Option LabelVal} (h : Choosable cfg src dst (sl, dl)) :
    (Swaps cfg src dst → Wanted src.label sl ∧ Wanted dst.label dl) ∧
    (¬ Swaps cfg src dst → sl = dl ∧ WantedBoth src dst sl) := by
  rcases h with ⟨h1, h2, h3, h4⟩ | ⟨h1, h2, cand, h3, h4⟩
  · exact ⟨fun _ => ⟨(mem_labelEnum ht.1).mp h3, (mem_labelEnum ht.2.1).mp h4⟩, fun hn => absurd ⟨h1, h2⟩ hn⟩
  · obtain ⟨k1, k2⟩ := labelCandidate_spec ht.1 ht.2.1 h3
    exact ⟨fun hs => absurd hs h1, fun _ => ⟨h2, (k2 _).mp ((mem_labelEnum k1).mp h4)⟩⟩

/-- What the schedule asks for. -/
def asked (cfg : Cfg) (s : List (Oracle × Choice)) : Asked where
  A := Requested cfg s
  B := Reserved cfg s
  sameA := by
    rintro k x y ⟨a1, a2, a3, a4, a5, a6, a7, a8, a9⟩ ⟨o, h, hm, sp, dp, hu⟩
    exact ⟨o, h, a1 ▸ hm, sp, dp, a4 ▸ a6 ▸ hu⟩
  sameB := by
    rintro c x y ⟨a1, a2, a3, a4, a5, a6, a7, a8, a9⟩ ⟨o, h, cid?, src, dst, hu⟩
    refine ⟨o, h, cid?, src, dst, ?_⟩
    rw [a1, a2, a4, a5, a6, a7, a8, a9]
    exact hu

theorem rows_asked (cfg : Cfg) {s u : List (Oracle × Choice)} (ht : TextSchedule cfg u) (hsu : ∀ x ∈ s, x ∈ u)
    {c : Conc} (hc : SafeSys (RowsI (asked cfg u)) RowsK RowsD c) :
    SafeSys (RowsI (asked cfg u)) RowsK RowsD (Conc.run cfg c s) ∧ RowsD c.w (Conc.run cfg c s).w := by
  refine rows_run hc ?_ ?_
  · rintro o h q hm k x rfl ha
    exact ⟨o, h, hsu _ hm, authorize_mayUse ha⟩
  · intro o h cid? src dst st en hm had sl dl hch cid hcid now
    have ht' := ht _ _ _ _ _ _ _ (hsu _ hm)
    exact ⟨o, h, cid?, src, dst, hsu _ hm, rfl, rfl, rfl, rfl, hcid, (C18_admission_exact cfg h src dst st en ht').mp had,
      choosable_wanted ht' hch⟩

theorem rows_inv (cfg : Cfg) (ids : List Str) (clk : Time) (s : List (Oracle × Choice)) (ht : TextSchedule cfg s) :
    RowsI (asked cfg s) (Conc.run cfg { w := World.init ids clk } s).w :=
  (rows_asked cfg ht (fun _ h => h) (init_safe ids clk)).1.1

/-- C23, in every interleaving of requests, scheduled calls, database, device and parent operations, with whatever failures and
restarts: a link is up only for a stored connection whose start time has come and for which commit and provision were requested,
by requesters who may use its ports. -/
theorem C23_interleaved (cfg : Cfg) (ids : List Str) (clk : Time) (s : List (Oracle × Choice)) (ht : TextSchedule cfg s) (cid : Str) :
    let w := (Conc.run cfg { w := World.init ids clk } s).w
    w.up cid → ∃ r ∈ w.rows, r.cid = cid ∧ (∀ t, r.start = some t → t ≤ w.clk) ∧
      Requested cfg s .commit r ∧ Requested cfg s .provision r := by
  intro w hu
  obtain ⟨r, h1, h2, h3⟩ := (rows_inv cfg ids clk s ht).links cid (by simpa [World.up] using hu)
  exact ⟨r, h1, h2, h3.start, h3.asked.2, h3.asked.1⟩

/-- C74: connection ids are unique. -/
theorem C74_unique (cfg : Cfg) (ids : List Str) (clk : Time) (s : List (Oracle × Choice)) (ht : TextSchedule cfg s) :
    ((Conc.run cfg { w := World.init ids clk } s).w.rows.map (·.cid)).Nodup :=
  (rows_inv cfg ids clk s ht).nodup

/-- C74: every stored connection was made for an acceptable reservation request, and has what that asked for. -/
theorem C74_origin (cfg : Cfg) (ids : List Str) (clk : Time) (s : List (Oracle × Choice)) (ht : TextSchedule cfg s) :
    ∀ r ∈ (Conc.run cfg { w := World.init ids clk } s).w.rows, ∃ corr, Reserved cfg s corr r :=
  fun r hr => ((rows_inv cfg ids clk s ht).rows r hr).born

/-- C74: a stored connection is there ever after, with the same id, requester, reservation time, ports, labels and times. -/
theorem C74_kept (cfg : Cfg) (ids : List Str) (clk : Time) (s s' : List (Oracle × Choice)) (ht : TextSchedule cfg (s ++ s')) :
    ∀ r ∈ (Conc.run cfg { w := World.init ids clk } s).w.rows, ∃ r' ∈ (Conc.run cfg { w := World.init ids clk } (s ++ s')).w.rows,
      r'.cid = r.cid ∧ r'.requester = r.requester ∧ r'.reserveTime = r.reserveTime ∧ r'.srcPort = r.srcPort ∧
      r'.srcLabel = r.srcLabel ∧ r'.dstPort = r.dstPort ∧ r'.dstLabel = r.dstLabel ∧ r'.start = r.start ∧ r'.end_ = r.end_ := by
  have h1 := rows_asked cfg ht (s := s) (fun x hx => by simp [hx]) (init_safe ids clk)
  have h2 := rows_asked cfg ht (s := s') (fun x hx => by simp [hx]) h1.1
  rw [Conc.run_append]
  exact h2.2.rows

/-- C74: committed means that commit was requested, provisioned that commit and provision were. -/
theorem C74_states (cfg : Cfg) (ids : List Str) (clk : Time) (s : List (Oracle × Choice)) (ht : TextSchedule cfg s) :
    ∀ r ∈ (Conc.run cfg { w := World.init ids clk } s).w.rows,
      (r.allocated = true → Requested cfg s .commit r) ∧
      (r.st.p = .provisioning ∨ r.st.p = .provisioned → Requested cfg s .commit r ∧ Requested cfg s .provision r) := by
  intro r hr
  have h := (rows_inv cfg ids clk s ht).rows r hr
  exact ⟨h.alloc, fun h0 => (h.prov h0).symm⟩

/-- C75: every message to the parent is about a stored connection, and a confirmation answers a request that was made by
someone entitled to: a reservation is confirmed with the stored labels and times and the correlation id of its request. -/
theorem C75_messages (cfg : Cfg) (ids : List Str) (clk : Time) (s : List (Oracle × Choice)) (ht : TextSchedule cfg s) (m : Msg) :
    let w := (Conc.run cfg { w := World.init ids clk } s).w
    m ∈ w.outbox → ∃ r ∈ w.rows, match m with
      | .reserveConfirmed corr cid sl dl st en =>
        r.cid = cid ∧ r.srcLabel = sl ∧ r.dstLabel = dl ∧ r.start = st ∧ r.end_ = en ∧ Reserved cfg s corr r
      | .reserveCommitConfirmed cid => r.cid = cid ∧ Requested cfg s .commit r
      | .reserveAbortConfirmed cid => r.cid = cid ∧ Requested cfg s .abort r
      | .provisionConfirmed cid => r.cid = cid ∧ Requested cfg s .provision r
      | .releaseConfirmed cid => r.cid = cid ∧ Requested cfg s .release r
      | .terminateConfirmed cid => r.cid = cid ∧ Requested cfg s .terminate r
      | .reserveTimeout cid _ => r.cid = cid
      | .activateFailed cid _ => r.cid = cid ∧ Requested cfg s .provision r
      | .deactivateFailed cid _ => r.cid = cid
      | .dataPlane cid _ up => r.cid = cid ∧ (up = true → Requested cfg s .provision r) := by
  intro w hm
  obtain ⟨r, h1, h2⟩ := (rows_inv cfg ids clk s ht).outbox m hm
  refine ⟨r, h1, ?_⟩
  cases m with
  | dataPlane cid n b =>
    cases b
    · exact ⟨h2, by simp⟩
    · exact ⟨h2.1, fun _ => h2.2⟩
  | _ => exact h2

namespace Ex

/-- The database, the parent and the device answer at once, six times. -/
def goes (n : Nat) : List (Oracle × Choice) := go n ++ go n ++ go n ++ go n ++ go n ++ go n

/-- Reserve, commit and provision `x`; restart; the start time comes. -/
def upTo : List (Oracle × Choice) :=
  [(ids 'x', .start hdr (.reserve none (stp 'a' 12 20) (stp 'b' 12 20) (some (sec 2000)) (some (sec 3000))))] ++ goes 0 ++ goes 1 ++
  [(o0, .start hdr (.commit ['x']))] ++ goes 2 ++ goes 3 ++ [(o0, .start hdr (.provision ['x']))] ++ goes 4 ++ goes 5 ++
  [(o0, .restart)] ++ goes 6 ++ [(o0, .wait 1500000000), (o0, .fire ['x'])] ++ goes 7

example : TextSchedule (cfg true) upTo := by
  intro o h cid? src dst st en hm
  simp [upTo, goes, go] at hm
  obtain ⟨_, _, _, rfl, rfl, _, _⟩ := hm
  exact textLabels true (by intro l hl; simp [stp] at hl; subst hl; exact fromText_12_20)
    (by intro l hl; simp [stp] at hl; subst hl; exact fromText_12_20)

/-- The link is up, the connection stored, and its three confirmations and the notification were sent. -/
example : (Conc.run (cfg true) { w := World.init [] (sec 1000) } upTo).w.up ['x'] ∧
    (Conc.run (cfg true) { w := World.init [] (sec 1000) } upTo).w.rows.map (·.cid) = [['x']] ∧
    (Conc.run (cfg true) { w := World.init [] (sec 1000) } upTo).w.outbox =
      [.reserveConfirmed ['k'] ['x'] (some (tVlan, 12)) (some (tVlan, 12)) (some (sec 2000)) (some (sec 3000)),
       .reserveCommitConfirmed ['x'], .provisionConfirmed ['x'], .dataPlane ['x'] 0 true] := by
  refine ⟨by decide +kernel, by decide +kernel, by decide +kernel⟩

end Ex
end OpenNSA.Backend
