import Verif.Agg.RecQueries
/- Executions in which each message is handled to completion before the next one and segment ids are unique: every state is good,
and every step has one of the effects described. -/
namespace OpenNSA.Agg
open OpenNSA Py Coro

/-- A provider confirming a reservation gives the segment an id that no stored segment has. -/
def NewSeg (w : World) : Msg → Prop
  | .reserveConfirmed h cid _ => ∀ r, dget w.resv h.corr = some r → h.prov = r.prov → ∀ s ∈ w.subs, s.cid ≠ cid
  | _ => True

/-- Executions with the messages handled so far: one message after the other, process restarts anywhere, providers answering
arbitrarily but not reusing segment ids. -/
inductive Runs (cfg : Cfg) : List Msg → World → Prop
  | init : Runs cfg [] .init
  | step {ms : List Msg} {w : World} (h : Runs cfg ms w) (o : Oracle) (m : Msg) (hn : NewSeg w m) : Runs cfg (ms ++ [m]) (Agg.step cfg w o m).1
  | restart {ms : List Msg} {w : World} (h : Runs cfg ms w) : Runs cfg ms w.restart

theorem Runs.sreach {cfg : Cfg} {ms : List Msg} {w : World} (h : Runs cfg ms w) : SReach cfg w := by
  induction h with
  | init => exact .init
  | step _ o m _ ih => exact ih.step o m
  | restart _ ih => exact ih.restart

/-- The effect of each message. -/
def Eff (cfg : Cfg) (w w' : World) (r : Except Err (Option Str)) : Msg → Prop
  | .reserve h _ c => ReserveEff cfg h c w w' r
  | .commit _ cid => ReqEff cfg cid (switchR · .committing) (fun _ => none) .commit w w' r
  | .abort _ cid => ReqEff cfg cid (switchR · .aborting) (switchR · .aborting) .abort w w' r
  | .provision _ cid => ReqEff cfg cid (switchP · .provisioning) (switchP · .provisioning) .provision w w' r
  | .release _ cid => ReqEff cfg cid (switchP · .releasing) (switchP · .releasing) .release w w' r
  | .terminate _ cid => ReqEff cfg cid (switchL · .terminating) (fun _ => none) .terminate w w' r
  | .querySummary h cids gids => SummaryEff cfg h cids gids w w' r
  | .queryRecursive h cids gids => AskEff cfg h cids gids w w' r
  | .reserveConfirmed h cid c => ConfirmEff h cid c w w'
  | .reserveFailed h => FailEff h w w'
  | .commitConfirmed h cid => ReplyEff h.prov cid (fun s => some { s with r := .start }) (fun s => s.r = .start) (switchR · .start) .reserveCommitConfirmed w w'
  | .abortConfirmed h cid => ReplyEff h.prov cid (fun s => some { s with r := .start }) (fun s => s.r = .start) (switchR · .start) .reserveAbortConfirmed w w'
  | .provisionConfirmed h cid => ReplyEff h.prov cid (switchP · .provisioned) (fun s => s.p = .provisioned) (switchP · .provisioned) .provisionConfirmed w w'
  | .releaseConfirmed h cid => ReplyEff h.prov cid (switchP · .released) (fun s => s.p = .released) (switchP · .released) .releaseConfirmed w w'
  | .terminateConfirmed h cid =>
    ReplyEff h.prov cid (fun s => some { s with l := .terminated }) (fun s => s.l = .terminated) (switchL · .terminated) .terminateConfirmed w w'
  | .timeout h cid n => TimeoutEff h.prov cid n w w'
  | .dataPlane h cid a v c => DataPlaneEff h.prov cid a v c w w'
  | .errorEvent h cid n => ErrorEff h.prov cid n w w'
  | .queryConfirmed h res => AnswerEff h res w w'

theorem step_eff {cfg : Cfg} {w : World} (hg : Good w) (o : Oracle) (m : Msg) (hn : NewSeg w m) :
    Good (Agg.step cfg w o m).1 ∧ Eff cfg { w with orc := o } (Agg.step cfg w o m).1 (Agg.step cfg w o m).2 m := by
  have hg' : Good { w with orc := o } := hg.frame o w.notif w.outbox w.sent w.qcalls
  cases m with
  | reserve h cid c => exact reserve_run hg' cfg h cid c
  | commit h cid => exact reserveCommit_run hg' cfg cid
  | abort h cid => exact reserveAbort_run hg' cfg cid
  | provision h cid => exact provision_run hg' cfg cid
  | release h cid => exact release_run hg' cfg cid
  | terminate h cid => exact terminate_run hg' cfg cid
  | querySummary h cids gids => exact querySummary_run hg' cfg h cids gids
  | queryRecursive h cids gids => exact queryRecursive_run hg' cfg h cids gids
  | reserveConfirmed h cid c => exact reserveConfirmed_run hg' h cid c hn
  | reserveFailed h => exact reserveFailed_run hg' h
  | commitConfirmed h cid => exact confirmSet_run hg' h cid (fun s => { s with r := .start }) (fun s => s.r = .start) (switchR · .start) .reserveCommitConfirmed
  | abortConfirmed h cid => exact confirmSet_run hg' h cid (fun s => { s with r := .start }) (fun s => s.r = .start) (switchR · .start) .reserveAbortConfirmed
  | provisionConfirmed h cid => exact confirmSwitch_run hg' h cid _ _ _ _
  | releaseConfirmed h cid => exact confirmSwitch_run hg' h cid _ _ _ _
  | terminateConfirmed h cid => exact confirmSet_run hg' h cid (fun s => { s with l := .terminated }) (fun s => s.l = .terminated) (switchL · .terminated) .terminateConfirmed
  | timeout h cid n => exact reserveTimeout_run hg' h cid n
  | dataPlane h cid a v c => exact dataPlane_run hg' h cid a v c
  | errorEvent h cid n => exact errorEvent_run hg' h cid n
  | queryConfirmed h res => exact queryConfirmed_run hg' h res

theorem init_good : Good World.init := by
  constructor <;> simp [World.init, dget]

theorem restart_good {w : World} (hg : Good w) : Good w.restart := by
  refine ⟨hg.ckeys, hg.ckeyb, hg.ccids, hg.skeys, hg.skeyb, hg.scids, ?_, ?_, hg.sfk, ?_, ?_⟩ <;> simp [World.restart, dget]

theorem Runs.good {cfg : Cfg} {ms : List Msg} {w : World} (h : Runs cfg ms w) : Good w := by
  induction h with
  | init => exact init_good
  | step _ o m hn ih => exact (step_eff ih o m hn).1
  | restart _ ih => exact restart_good ih

end OpenNSA.Agg
