import Verif.Agg.CausesRun
import Verif.Agg.PropsCounts
/-
C90: whatever the aggregator tells a requester was caused by what its providers (and requesters) told it before, in every interleaving of
the handlers, restarts of the process included. `T` is the list of the messages received so far, each with the state in which it was received.
Since the theorems hold at every moment of an execution, they hold at the moment the message is sent: the causes precede it.
-/
namespace OpenNSA.Agg
open OpenNSA Py Coro

variable {cfg : Cfg} {b : Bool} {T : List (Msg × World)} {s : Sys} {to_ cid : Str}

theorem mem_segCids {w : World} {key : Nat} {c : Str} : c ∈ segCids w key ↔ ∃ x ∈ w.subs, x.skey = key ∧ x.cid = c := by
  simp [segCids, and_assoc]

/-- The message is a reply or notification about a segment of the connection, and `conf` holds for all segments of the connection that
were stored when the message was received. -/
def Spurred (T : List (Msg × World)) (w : World) (cid : Str) (m : RHdr → Str → Msg) (conf : Str → Prop) : Prop :=
  ∃ row ∈ w.conns, row.cid = cid ∧ ∃ h, ∃ x ∈ w.subs, x.skey = row.key ∧ ∃ w0, (m h x.cid, w0) ∈ T ∧ ∀ y ∈ w0.subs, y.skey = row.key → conf y.cid

theorem Because.spurred {w : World} {m : RHdr → Str → Msg} {conf : Str → Prop}
    (h : Because T w cid (fun x seg => ∃ h, x = m h seg) fun _ => conf) : Spurred T w cid m conf := by
  obtain ⟨row, h1, h2, x, seg, w0, h3, ⟨hd, rfl⟩, h4, h5⟩ := h
  obtain ⟨y, g1, g2, rfl⟩ := mem_segCids.mp h4
  exact ⟨row, h1, h2, hd, y, g1, g2, w0, h3, fun z hz hk => h5 _ (mem_segCids.mpr ⟨z, hz, hk, rfl⟩)⟩

/-- provisionConfirmed: provision was requested, the confirmation of a segment arrived, and by then the provision of every stored segment
of the connection has been confirmed. -/
theorem C90_provision (h : Trace cfg b T s) (ho : .provisionConfirmed to_ cid ∈ s.w.outbox) : (∃ hd, Heard T (.provision hd cid)) ∧
    Spurred T s.w cid .provisionConfirmed fun c => ∃ hd, Heard T (.provisionConfirmed hd c) :=
  have := (h.causes fun _ h => h).1.2.out _ ho
  ⟨this.1, this.2.spurred⟩

/-- releaseConfirmed: release was requested, and the confirmation of a segment arrived. -/
theorem C90_release (h : Trace cfg b T s) (ho : .releaseConfirmed to_ cid ∈ s.w.outbox) : (∃ hd, Heard T (.release hd cid)) ∧
    Spurred T s.w cid .releaseConfirmed fun _ => True :=
  have := (h.causes fun _ h => h).1.2.out _ ho
  ⟨this.1, this.2.spurred⟩

/-- reserveCommitConfirmed: a commit (or an abort, see C30_mixed_fails) was requested, the commit of a segment was confirmed, and by then
every stored segment has answered. -/
theorem C90_commit (h : Trace cfg b T s) (ho : .reserveCommitConfirmed to_ cid ∈ s.w.outbox) : (∃ hd, Heard T (.commit hd cid) ∨ Heard T (.abort hd cid)) ∧
    Spurred T s.w cid .commitConfirmed fun c => ∃ hd, Heard T (.commitConfirmed hd c) ∨ Heard T (.abortConfirmed hd c) :=
  have := (h.causes fun _ h => h).1.2.out _ ho
  ⟨this.1, this.2.spurred⟩

/-- reserveAbortConfirmed: likewise. -/
theorem C90_abort (h : Trace cfg b T s) (ho : .reserveAbortConfirmed to_ cid ∈ s.w.outbox) : (∃ hd, Heard T (.commit hd cid) ∨ Heard T (.abort hd cid)) ∧
    Spurred T s.w cid .abortConfirmed fun c => ∃ hd, Heard T (.commitConfirmed hd c) ∨ Heard T (.abortConfirmed hd c) :=
  have := (h.causes fun _ h => h).1.2.out _ ho
  ⟨this.1, this.2.spurred⟩

/-- terminateConfirmed: the termination of a segment was confirmed, and by then that of every stored segment. -/
theorem C90_terminate (h : Trace cfg b T s) (ho : .terminateConfirmed to_ cid ∈ s.w.outbox) :
    Spurred T s.w cid .terminateConfirmed fun c => ∃ hd, Heard T (.terminateConfirmed hd c) :=
  ((h.causes fun _ h => h).1.2.out _ ho : Because _ _ _ _ _).spurred

/-- dataPlaneStateChange: a notification about a segment arrived; if the connection is said to be active, each stored segment has been said
to be active. -/
theorem C90_data_plane (h : Trace cfg b T s) {n : Nat} {dps : DPS} (ho : .dataPlane to_ cid n dps ∈ s.w.outbox) :
    ∃ a v c, Spurred T s.w cid (fun hd x => .dataPlane hd x a v c) fun x => dps.1 = true → ∃ hd v c, Heard T (.dataPlane hd x true v c) := by
  obtain ⟨row, h1, h2, x, seg, w0, h3, ⟨hd, a, v, c, rfl⟩, h4, h5⟩ := (h.causes fun _ h => h).1.2.out _ ho
  obtain ⟨y, g1, g2, rfl⟩ := mem_segCids.mp h4
  exact ⟨a, v, c, row, h1, h2, hd, y, g1, g2, w0, h3, fun z hz hk => h5 _ (mem_segCids.mpr ⟨z, hz, hk, rfl⟩)⟩

/-- reserveTimeout: a segment timed out. -/
theorem C90_timeout (h : Trace cfg b T s) {n : Nat} (ho : .reserveTimeout to_ cid n ∈ s.w.outbox) :
    Spurred T s.w cid (fun hd x => .timeout hd x n) fun _ => True :=
  ((h.causes fun _ h => h).1.2.out _ ho : Because _ _ _ _ _).spurred

/-- errorEvent: a segment reported the error. -/
theorem C90_error (h : Trace cfg b T s) {n : Nat} (ho : .errorEvent to_ cid n ∈ s.w.outbox) :
    Spurred T s.w cid (fun hd x => .errorEvent hd x n) fun _ => True :=
  ((h.causes fun _ h => h).1.2.out _ ho : Because _ _ _ _ _).spurred

/-- reserveFailed: a reserve call made for the connection was answered with a failure by the provider it was sent to. -/
theorem C90_failed (h : Trace cfg b T s) (ho : .reserveFailed to_ cid ∈ s.w.outbox) :
    ∃ hd, Heard T (.reserveFailed hd) ∧ ∃ c ∈ s.w.sent, c.reserves cid ∧ c.corr = hd.corr ∧ c.prov = hd.prov := by
  obtain ⟨hd, h1, c, h2, h3, h4, h5⟩ := (h.causes fun _ h => h).1.2.out _ ho
  exact ⟨hd, h1, c, h2, h5, h3, h4⟩

/-- reserveConfirmed: a reserve call made for the connection was confirmed by the provider it was sent to, and by then all reserve calls
made for the connection have been answered. Correlation ids must be unique for the latter. -/
theorem C90_reserved (h : Trace cfg b T s) {src dst : STP} {st en : Option Time} {bw : Int}
    (ho : .reserveConfirmed to_ cid src dst st en bw ∈ s.w.outbox) :
    ∃ hd seg crit w0, (Msg.reserveConfirmed hd seg crit, w0) ∈ T ∧ (∃ c ∈ s.w.sent, c.reserves cid ∧ c.corr = hd.corr ∧ c.prov = hd.prov) ∧
      (∃ row ∈ s.w.conns, row.cid = cid ∧ ∃ x ∈ s.w.subs, x.skey = row.key ∧ x.cid = seg) ∧
      ((s.w.sent.map (·.corr)).Nodup → ∀ c ∈ w0.sent, c.reserves cid → c.Answered T) := by
  obtain ⟨row, h1, h2, hd, seg, crit, w0, h3, h4, ⟨c, h5, h6, h7, h8⟩, h9⟩ := (h.causes fun _ h => h).1.2.out _ ho
  obtain ⟨y, g1, g2, rfl⟩ := mem_segCids.mp h4
  exact ⟨hd, _, crit, w0, h3, ⟨c, h5, h8, h6, h7⟩, ⟨row, h1, h2, y, g1, g2, rfl⟩, h9⟩

namespace Ex
/-- Messages one after the other, as a schedule. -/
def oneByOne (l : List (Oracle × Msg)) : List (Oracle × Conc.Choice Msg) := (l.zipIdx.map fun x => startAll x.1 x.2 14).flatten
/-- The life of a connection, with a data plane that came up. -/
def lives : List (Oracle × Conc.Choice Msg) := oneByOne (life.take 8 ++
  [(nil, .provisionConfirmed ⟨['m'], []⟩ ['s', '2']), (nil, .dataPlane ⟨['m'], []⟩ ['s', '1'] true 1 true),
   (nil, .dataPlane ⟨['m'], []⟩ ['s', '2'] true 1 true)] ++ life.drop 10)
/-- The connection times out and is aborted. -/
def aborts : List (Oracle × Conc.Choice Msg) := oneByOne (held ++
  [(nil, .timeout ⟨['m'], []⟩ ['s', '1'] 3), ({ o with corrs := [['8'], ['9']] }, .abort hdr ['c', '1']), (nil, .abortConfirmed ⟨['m'], []⟩ ['s', '1']),
   (nil, .abortConfirmed ⟨['m'], []⟩ ['s', '2'])])
/-- A segment fails. -/
def fails : List (Oracle × Conc.Choice Msg) := oneByOne [reserve2, (nil, .reserveFailed ⟨['m'], ['2']⟩)]
/-- Two connections with one segment each; an error in one of them. -/
def errs : List (Oracle × Conc.Choice Msg) := oneByOne (two ++ [(nil, .errorEvent ⟨['m'], []⟩ ['s', '2'] 4)])

theorem traced (l : List (Oracle × Conc.Choice Msg)) : ∃ T, Trace cfg true T (runSys cfg { w := .init } l) :=
  have ⟨T, _, h⟩ := (Hist.init (cfg := cfg) (restarts := true) |>.runs l).trace
  ⟨T, h⟩
end Ex

example : (∃ T, Trace Ex.cfg true T (runSys Ex.cfg { w := .init } Ex.lives)) ∧ (runSys Ex.cfg { w := .init } Ex.lives).w.outbox.tail =
    [.reserveCommitConfirmed ['u'] ['c', '1'], .provisionConfirmed ['u'] ['c', '1'], .dataPlane ['u'] ['c', '1'] 0 (false, 1, false),
     .dataPlane ['u'] ['c', '1'] 0 (true, 1, true), .releaseConfirmed ['u'] ['c', '1'], .provisionConfirmed ['u'] ['c', '1'],
     .terminateConfirmed ['u'] ['c', '1']] := ⟨Ex.traced _, by decide +kernel⟩
example : (∃ T, Trace Ex.cfg true T (runSys Ex.cfg { w := .init } Ex.aborts)) ∧ (runSys Ex.cfg { w := .init } Ex.aborts).w.outbox =
    [.reserveConfirmed ['u'] ['c', '1'] ⟨['A'], ['x'], Ex.vlan 3 3⟩ ⟨['B'], ['w'], Ex.vlan 7 7⟩ (some 100) (some 200) 50,
     .reserveTimeout ['u'] ['c', '1'] 3, .reserveAbortConfirmed ['u'] ['c', '1']] ∧
    ((runSys Ex.cfg { w := .init } Ex.aborts).w.sent.map (·.corr)).Nodup := ⟨Ex.traced _, by decide +kernel, by decide +kernel⟩
example : (∃ T, Trace Ex.cfg true T (runSys Ex.cfg { w := .init } Ex.fails)) ∧ (runSys Ex.cfg { w := .init } Ex.fails).w.outbox =
    [.reserveFailed ['u'] ['c', '1']] := ⟨Ex.traced _, by decide +kernel⟩
example : (∃ T, Trace Ex.cfg true T (runSys Ex.cfg { w := .init } Ex.errs)) ∧ (runSys Ex.cfg { w := .init } Ex.errs).w.outbox.tail.tail =
    [.errorEvent ['v'] ['c', '2'] 4] := ⟨Ex.traced _, by decide +kernel⟩

/-- C90 fails for terminateConfirmed: nobody need have requested the termination (aggregator.py:1090-1105 does not look at the state of the
connection). -/
theorem C90_unasked_terminate_fails : ¬ ∀ (T : List (Msg × World)) (s : Sys), Trace Ex.cfg true T s → ∀ to_ cid, .terminateConfirmed to_ cid ∈ s.w.outbox →
    ∃ hd, Heard T (.terminate hd cid) := by
  intro h
  let l := Ex.oneByOne (Ex.two ++ [(Ex.nil, .terminateConfirmed ⟨['m'], []⟩ ['s', '1'])])
  obtain ⟨T, h1, h2⟩ := (Hist.init (cfg := Ex.cfg) (restarts := true) |>.runs l).trace
  rw [List.nil_append] at h1
  obtain ⟨hd, w, hm⟩ := h T _ h2 ['u'] ['c', '1'] (by decide +kernel)
  have hm : (Msg.terminate hd ['c', '1']) ∈ T.map (·.1) := List.mem_map.mpr ⟨_, hm, rfl⟩
  rw [h1] at hm
  have : ∀ m ∈ l.flatMap fun x => Conc.Choice.msgs x.2, (match m with | .terminate _ _ => false | _ => true) = true := by decide +kernel
  simpa using this _ hm

/-- C90 has no converse for errors: an error that a provider reports for a segment of a connection with several segments is not passed on,
the handler raises NotImplementedError (aggregator.py:1219-1220). -/
theorem C90_error_lost_fails : ¬ ∀ (w : World) (o : Oracle) (n : Nat) (x : SRow), SReach Ex.cfg w → x ∈ w.subs →
    ∃ to_ cid, .errorEvent to_ cid n ∈ (Agg.step Ex.cfg w o (.errorEvent ⟨x.prov, []⟩ x.cid n)).1.outbox := by
  intro h
  have hx : ∃ x ∈ (runMsgs Ex.cfg .init Ex.held).subs, x.prov = ['m'] ∧ x.cid = ['s', '1'] := by decide +kernel
  obtain ⟨x, h1, h2, h3⟩ := hx
  obtain ⟨to_, cid, h4⟩ := h _ Ex.nil 7 x (SReach.init.msgs Ex.held) h1
  rw [h2, h3] at h4
  have : ∀ m ∈ (Agg.step Ex.cfg (runMsgs Ex.cfg .init Ex.held) Ex.nil (.errorEvent ⟨['m'], []⟩ ['s', '1'] 7)).1.outbox,
      (match m with | .errorEvent _ _ _ => false | _ => true) = true := by decide +kernel
  simpa using this _ h4

end OpenNSA.Agg
