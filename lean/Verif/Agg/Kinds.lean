import Verif.Agg.Spec
/- Which kinds of commands the handlers of the messages can issue. -/
namespace OpenNSA.Agg
open OpenNSA Py Coro

/-- Kinds of commands. `base`: database reads, saves of connections, changes of objects and caches, reading dictionaries, waiting
for providers. -/
inductive CKind
  | base | newS | saveS | popResv | addResv | sendReserve | sendOther | emitAbout | emitSummary | emitRecursive | notifId | addQReq
  | setQCall | popQuery
  deriving DecidableEq, Repr

def Cmd.kind {β : Type} : Cmd β → CKind
  | .newS _ => .newS
  | .saveS _ | .saveSs _ => .saveS
  | .popResv _ => .popResv
  | .addResv _ _ => .addResv
  | .send ⟨_, _, _, .reserve _ _ _ _ _ _⟩ => .sendReserve
  | .send _ => .sendOther
  | .emit (.querySummary _ _ _) => .emitSummary
  | .emit (.queryRecursive _ _ _) => .emitRecursive
  | .emit _ => .emitAbout
  | .notifId => .notifId
  | .addQReq _ _ => .addQReq
  | .setQCall _ _ _ => .setQCall
  | .popQuery _ => .popQuery
  | _ => .base

/-- Only commands of the given kinds. -/
def Uses (L : List CKind) {α : Type} (p : Prog α) : Prop := Issues (fun c => c.kind ∈ L) p

theorem Issues.mono {P P' : {β : Type} → Cmd β → Prop} (h : ∀ {β : Type} (c : Cmd β), P c → P' c) {α : Type} {p : Prog α} :
    Issues P p → Issues P' p := by
  induction p with
  | pure a => exact id
  | throw e => exact id
  | cmd c k ih => exact fun hp => ⟨h _ hp.1, fun r => ih r (hp.2 r)⟩

theorem Issues.bind {P : {β : Type} → Cmd β → Prop} {α β : Type} {p : Prog α} {f : α → Prog β} (hp : Issues P p)
    (hf : ∀ a, Issues P (f a)) : Issues P (p.bind f) := by
  induction p with
  | pure a => exact hf a
  | throw e => trivial
  | cmd c k ih => exact ⟨hp.1, fun r => ih r (hp.2 r)⟩

variable {L L' : List CKind} {α β : Type}

theorem Uses.mono {p : Prog α} (h : Uses L p) (hl : ∀ x ∈ L, x ∈ L') : Uses L' p := Issues.mono (fun _ h => hl _ h) h

theorem Uses.bind {p : Prog α} {f : α → Prog β} (hp : Uses L p) (hf : ∀ a, Uses L (f a)) : Uses L (p >>= f) := Issues.bind hp hf

theorem Uses.pure (a : α) : Uses L (Coro.pure a : Prog α) := trivial
theorem Uses.throw (e : Err) : Uses L (Coro.throw e : Prog α) := trivial
theorem Uses.issue {c : Cmd α} (h : c.kind ∈ L) : Uses L (Coro.issue c : Prog α) := ⟨h, fun r => by cases r <;> trivial⟩
theorem Uses.ofExcept (x : Except Err α) : Uses L (Coro.ofExcept x : Prog α) := by cases x <;> trivial

section
variable (hb : CKind.base ∈ L)
include hb

theorem Uses.getConnection (cid : Str) : Uses L (getConnection cid) := by
  refine .bind (.issue hb) fun a => ?_
  cases a with
  | some r => exact .pure _
  | none =>
    refine .bind (.issue hb) fun a => ?_
    cases a with
    | none => exact .throw _
    | some r => exact .bind (.issue hb) fun _ => .pure _

theorem Uses.getConnectionByKey (key : Nat) : Uses L (getConnectionByKey key) := by
  refine .bind (.issue hb) fun a => ?_
  cases a with
  | some r => exact .getConnection hb _
  | none => exact .throw _

theorem Uses.getSubConnection (prov cid : Str) : Uses L (getSubConnection prov cid) := by
  refine .bind (.issue hb) fun a => ?_
  cases a with
  | some r => exact .pure _
  | none =>
    refine .bind (.issue hb) fun a => ?_
    split
    · exact .bind (.issue hb) fun _ => .pure _
    · exact .throw _

theorem Uses.lookupSubs : ∀ l : List (Str × Str), Uses L (lookupSubs l)
  | [] => .pure _
  | _ :: xs => .bind (.issue hb) fun _ => .bind (Uses.lookupSubs xs) fun _ => .pure _

theorem Uses.mergeSubs : ∀ (l : List (Str × Str)) (cs fs : List (Option Nat)), Uses L (mergeSubs l cs fs)
  | [], cs, fs => by unfold Agg.mergeSubs; exact .pure _
  | x :: xs, [], fs => by unfold Agg.mergeSubs; exact .pure _
  | x :: xs, some r :: cs, fs => by unfold Agg.mergeSubs; exact .bind (Uses.mergeSubs xs cs fs) fun _ => .pure _
  | x :: xs, none :: cs, [] => by unfold Agg.mergeSubs; exact .throw _
  | x :: xs, none :: cs, none :: fs => by unfold Agg.mergeSubs; exact .throw _
  | x :: xs, none :: cs, some r :: fs => by
    unfold Agg.mergeSubs; exact .bind (.issue hb) fun _ => .bind (Uses.mergeSubs xs cs fs) fun _ => .pure _

theorem Uses.findMissing (l : List (Str × Str)) : Uses L (findMissing l) := by
  unfold Agg.findMissing
  split
  · exact .pure _
  · exact .issue hb

theorem Uses.getSubConnections (key : Nat) : Uses L (getSubConnections key) :=
  .bind (.issue hb) fun _ => .bind (.lookupSubs hb _) fun _ => .bind (.findMissing hb _) fun _ => .mergeSubs hb _ _ _

theorem Uses.getSs : ∀ l : List Nat, Uses L (getSs l)
  | [] => .pure _
  | _ :: xs => .bind (.issue hb) fun _ => .bind (Uses.getSs xs) fun _ => .pure _

theorem Uses.switchC (ref : Nat) (f : ConnStates → Option ConnStates) : Uses L (switchC ref f) := by
  refine .bind (.issue hb) fun a => ?_
  split
  · exact .throw _
  · exact .bind (.issue hb) fun _ => .issue hb

theorem Uses.switchS (hs : CKind.saveS ∈ L) (ref : Nat) (f : ConnStates → Option ConnStates) : Uses L (switchS ref f) := by
  refine .bind (.issue hb) fun a => ?_
  split
  · exact .throw _
  · exact .bind (.issue hb) fun _ => .issue hs

theorem Uses.checkLive (ref : Nat) : Uses L (checkLive ref) := by
  refine .bind (.issue hb) fun a => ?_
  split
  · exact .throw _
  · exact .pure _

theorem Uses.family (skey : Nat) : Uses L (family skey) :=
  .bind (.getConnectionByKey hb _) fun _ => .bind (.issue hb) fun _ => .bind (.getSubConnections hb _) fun _ => .pure _

theorem Uses.sendReserves (ha : CKind.addResv ∈ L) (hs : CKind.sendReserve ∈ L) (cfg : Cfg) (conn : CRow) (start end_ : Option Time) :
    ∀ (ls : List Link) (idx : Nat) (last : Str), Uses L (sendReserves cfg conn start end_ idx last ls)
  | [], _, _ => .pure _
  | _ :: ls, _, _ => .bind (.ofExcept _) fun _ => .bind (.issue hb) fun _ => .bind (.issue ha) fun _ => .bind (.issue hs) fun _ =>
      Uses.sendReserves ha hs cfg conn start end_ ls _ _

theorem Uses.sendTerminates (hs : CKind.sendOther ∈ L) (cfg : Cfg) (last : Str) : ∀ l : List (Str × Str), Uses L (sendTerminates cfg last l)
  | [] => .pure _
  | (_, _) :: ls => .bind (.ofExcept _) fun _ => .bind (.issue hb) fun _ => .bind (.issue hs) fun _ => Uses.sendTerminates hs cfg last ls

theorem Uses.reserveCleanup (hs : CKind.sendOther ∈ L) (cfg : Cfg) (ref : Nat) (last : Str) (path : List Link) (results : List (Except Err Str)) :
    Uses L (reserveCleanup cfg ref last path results) :=
  .bind (.switchC hb _ _) fun _ => .bind (.sendTerminates hb hs _ _ _) fun _ => .bind (.issue hb) fun _ => .bind (.switchC hb _ _) fun _ =>
    .throw _

theorem Uses.reserve (ha : CKind.addResv ∈ L) (hs : CKind.sendReserve ∈ L) (ho : CKind.sendOther ∈ L) (cfg : Cfg) (h : Hdr) (cid : Option Str)
    (c : Crit) : Uses L (reserve cfg h cid c) := by
  cases cid with
  | some i => exact .bind (.issue hb) fun _ => .throw _
  | none =>
    refine .bind (.ofExcept _) fun _ => .bind (.issue hb) fun _ => .bind (.issue hb) fun _ => .bind (.issue hb) fun _ =>
      .bind (.switchC hb _ _) fun _ => .bind (.issue hb) fun _ => .bind (.ofExcept _) fun _ => .bind (.ofExcept _) fun _ =>
      .bind (.sendReserves hb ha hs _ _ _ _ _ _ _) fun _ => .bind (.issue hb) fun _ => ?_
    split
    · exact .pure _
    · exact .reserveCleanup hb ho _ _ _ _ _

omit hb in
theorem Uses.answer (cid action : Str) (subs : List SRow) (results : List (Except Err Str)) : Uses L (answer cid action subs results) := by
  unfold Agg.answer
  split
  · exact .pure _
  · exact .throw _

theorem Uses.sendAll (hs : CKind.sendOther ∈ L) (cfg : Cfg) (op : Str → POp) (hop : ∀ h p c s, (Cmd.send ⟨h, p, c, op s⟩).kind = .sendOther) :
    ∀ l : List SRow, Uses L (sendAll cfg op l)
  | [] => .pure _
  | _ :: ls => .bind (.ofExcept _) fun _ => .bind (.issue hb) fun _ => .bind (.issue (by rw [hop]; exact hs)) fun _ => Uses.sendAll hs cfg op hop ls

theorem Uses.reserveCommit (hs : CKind.sendOther ∈ L) (cfg : Cfg) (cid : Str) : Uses L (reserveCommit cfg cid) :=
  .bind (.getConnection hb _) fun _ => .bind (.checkLive hb _) fun _ => .bind (.switchC hb _ _) fun _ => .bind (.issue hb) fun _ =>
  .bind (.getSubConnections hb _) fun _ => .bind (.getSs hb _) fun _ => .bind (.sendAll hb hs _ _ (fun _ _ _ _ => rfl) _) fun _ =>
  .bind (.issue hb) fun _ => .answer _ _ _ _

theorem Uses.abortLoop (hs : CKind.sendOther ∈ L) (hv : CKind.saveS ∈ L) (cfg : Cfg) : ∀ (l done : List Nat), Uses L (abortLoop cfg done l)
  | [], _ => .issue hv
  | _ :: rs, _ => by
    refine .bind (.issue hb) fun _ => ?_
    split
    · exact .bind (.issue hv) fun _ => .throw _
    · refine .bind (.issue hb) fun _ => ?_
      split
      · exact .bind (.issue hv) fun _ => .throw _
      · exact .bind (.issue hb) fun _ => .bind (.issue hs) fun _ => Uses.abortLoop hs hv cfg rs _

theorem Uses.reserveAbort (hs : CKind.sendOther ∈ L) (hv : CKind.saveS ∈ L) (cfg : Cfg) (cid : Str) : Uses L (reserveAbort cfg cid) := by
  refine .bind (.getConnection hb _) fun _ => .bind (.checkLive hb _) fun _ => .bind (.switchC hb _ _) fun _ => .bind (.issue hb) fun _ =>
    .bind (.getSubConnections hb _) fun _ => .bind (.abortLoop hb hs hv _ _ _) fun _ => .bind (.issue hb) fun _ => ?_
  split
  · exact .pure _
  · exact .throw _

theorem Uses.switchSubs (hv : CKind.saveS ∈ L) (skip : SRow → Bool) (f : ConnStates → Option ConnStates) : ∀ (l done : List Nat),
    Uses L (switchSubs skip f done l)
  | [], done => by
    unfold Agg.switchSubs
    split
    · exact .pure _
    · exact .issue hv
  | _ :: rs, _ => by
    refine .bind (.issue hb) fun _ => ?_
    split
    · exact Uses.switchSubs hv skip f rs _
    · split
      · exact .bind (.issue hv) fun _ => .throw _
      · exact .bind (.issue hb) fun _ => Uses.switchSubs hv skip f rs _

theorem Uses.provision (hs : CKind.sendOther ∈ L) (hv : CKind.saveS ∈ L) (cfg : Cfg) (cid : Str) : Uses L (provision cfg cid) :=
  .bind (.getConnection hb _) fun _ => .bind (.checkLive hb _) fun _ => .bind (.switchC hb _ _) fun _ => .bind (.issue hb) fun _ =>
  .bind (.getSubConnections hb _) fun _ => .bind (.switchSubs hb hv _ _ _ _) fun _ => .bind (.getSs hb _) fun _ =>
  .bind (.sendAll hb hs _ _ (fun _ _ _ _ => rfl) _) fun _ => .bind (.issue hb) fun _ => .answer _ _ _ _

theorem Uses.release (hs : CKind.sendOther ∈ L) (hv : CKind.saveS ∈ L) (cfg : Cfg) (cid : Str) : Uses L (release cfg cid) :=
  .bind (.getConnection hb _) fun _ => .bind (.checkLive hb _) fun _ => .bind (.switchC hb _ _) fun _ => .bind (.issue hb) fun _ =>
  .bind (.getSubConnections hb _) fun _ => .bind (.switchSubs hb hv _ _ _ _) fun _ => .bind (.getSs hb _) fun _ =>
  .bind (.sendAll hb hs _ _ (fun _ _ _ _ => rfl) _) fun _ => .bind (.issue hb) fun _ => .answer _ _ _ _

theorem Uses.terminate (hs : CKind.sendOther ∈ L) (cfg : Cfg) (cid : Str) : Uses L (terminate cfg cid) := by
  refine .bind (.getConnection hb _) fun _ => .bind (.issue hb) fun _ => ?_
  split
  · exact .pure _
  · exact .bind (.switchC hb _ _) fun _ => .bind (.issue hb) fun _ => .bind (.getSubConnections hb _) fun _ => .bind (.getSs hb _) fun _ =>
      .bind (.sendAll hb hs _ _ (fun _ _ _ _ => rfl) _) fun _ => .bind (.issue hb) fun _ => .answer _ _ _ _

theorem Uses.summaryLoop (hn : CKind.notifId ∈ L) : ∀ l : List CRow, Uses L (summaryLoop l)
  | [] => .pure _
  | _ :: cs => .bind (.getSubConnections hb _) fun _ => .bind (.getSs hb _) fun _ => .bind (.issue hn) fun _ =>
      .bind (Uses.summaryLoop hn cs) fun _ => .pure _

theorem Uses.querySummary (hn : CKind.notifId ∈ L) (he : CKind.emitSummary ∈ L) (cfg : Cfg) (h : Hdr) (cids gids : List Str) :
    Uses L (querySummary cfg h cids gids) := by
  unfold Agg.querySummary
  simp only
  split
  · exact .throw _
  · exact .bind (.issue hb) fun _ => .bind (.summaryLoop hb hn _) fun _ => .bind (.issue he) fun _ => .pure _

theorem Uses.sendQueries (hs : CKind.sendOther ∈ L) (hq : CKind.setQCall ∈ L) (cfg : Cfg) (cb : Str) : ∀ l : List SRow, Uses L (sendQueries cfg cb l)
  | [] => .pure _
  | _ :: ls => .bind (.ofExcept _) fun _ => .bind (.issue hb) fun _ => .bind (.issue hs) fun _ => .bind (.issue hq) fun _ =>
      Uses.sendQueries hs hq cfg cb ls

theorem Uses.queryRecursive (ha : CKind.addQReq ∈ L) (hs : CKind.sendOther ∈ L) (hq : CKind.setQCall ∈ L) (cfg : Cfg) (h : Hdr)
    (cids gids : List Str) : Uses L (queryRecursive cfg h cids gids) := by
  unfold Agg.queryRecursive
  split
  · exact .throw _
  · split
    · exact .throw _
    · refine .bind (.getConnection hb _) fun _ => .bind (.issue hb) fun _ => .bind (.getSubConnections hb _) fun _ => .bind (.getSs hb _) fun _ =>
        .bind (.issue ha) fun _ => .bind (.sendQueries hb hs hq _ _ _) fun _ => .bind (.issue hb) fun _ => ?_
      split
      · exact .pure _
      · exact .throw _
    · exact .throw _

theorem Uses.queryRecursiveConfirmed (hq : CKind.setQCall ∈ L) (hp : CKind.popQuery ∈ L) (hn : CKind.notifId ∈ L) (he : CKind.emitRecursive ∈ L)
    (h : RHdr) (res : List Str) : Uses L (queryRecursiveConfirmed h res) := by
  have hst : ∀ corr cb res, Uses L (storeQuery corr cb res) := by
    intro corr cb res
    refine .bind (.issue hq) fun _ => .bind (.issue hb) fun a => ?_
    cases a with
    | none => exact .throw _
    | some r =>
      refine .bind (.issue hb) fun _ => ?_
      split
      · exact .bind (.issue hp) fun _ => .bind (.issue hb) fun _ => .bind (.getSubConnections hb _) fun _ => .bind (.getSs hb _) fun _ =>
          .bind (.ofExcept _) fun _ => .bind (.issue hb) fun _ => .bind (.issue hn) fun _ => .bind (.issue he) fun _ => .pure _
      · exact .pure _
  refine .bind (.issue hb) fun a => ?_
  split
  · exact .pure _
  · exact .pure _
  · exact hst _ _ _

theorem Uses.takeResv (hp : CKind.popResv ∈ L) (h : RHdr) : Uses L (takeResv h) := by
  refine .bind (.issue hb) fun a => ?_
  cases a with
  | none => exact .throw _
  | some r =>
    simp only
    split
    · exact .throw _
    · exact .bind (.issue hp) fun _ => .pure _

theorem Uses.confirmUp (he : CKind.emitAbout ∈ L) (skey ref : Nat) (refs : List Nat) : Uses L (confirmUp skey ref refs) := by
  refine .bind (.issue hb) fun n => ?_
  split
  · exact .pure _
  · refine .bind (.getSs hb _) fun _ => .bind (.issue hb) fun _ => ?_
    split
    · exact .bind (.switchC hb _ _) fun _ => .bind (.issue hb) fun _ => .bind (.issue he) fun _ => .pure _
    · exact .pure _

theorem Uses.confirmOk (hn : CKind.newS ∈ L) (hv : CKind.saveS ∈ L) (he : CKind.emitAbout ∈ L) (r : Resv) (cid : Str) (c : Crit) :
    Uses L (confirmOk r cid c) :=
  .bind (.issue hn) fun _ => .bind (.issue hv) fun _ => .bind (.family hb _) fun _ => .bind (.issue hb) fun _ => .bind (.issue hb) fun _ =>
  .bind (.issue hb) fun _ => .confirmUp hb he _ _ _

theorem Uses.reserveConfirmed (hp : CKind.popResv ∈ L) (hn : CKind.newS ∈ L) (hv : CKind.saveS ∈ L) (he : CKind.emitAbout ∈ L) (h : RHdr)
    (cid : Str) (c : Crit) : Uses L (reserveConfirmed h cid c) :=
  .bind (.takeResv hb hp _) fun _ => .confirmOk hb hn hv he _ _ _

theorem Uses.markFailed (ref : Nat) : Uses L (markFailed ref) := by
  refine .bind (.issue hb) fun _ => ?_
  split
  · exact .switchC hb _ _
  · exact .pure _

theorem Uses.reserveFailed (hp : CKind.popResv ∈ L) (he : CKind.emitAbout ∈ L) (h : RHdr) : Uses L (reserveFailed h) :=
  .bind (.takeResv hb hp _) fun _ => .bind (.getConnectionByKey hb _) fun _ => .bind (.markFailed hb _) fun _ => .bind (.issue hb) fun _ =>
  .bind (.issue he) fun _ => .pure _

theorem Uses.confirmAll (he : CKind.emitAbout ∈ L) (skey : Nat) (there : ConnStates → Bool) (f : ConnStates → Option ConnStates)
    (msg : Str → Str → Out) (hm : ∀ a b, (Cmd.emit (msg a b)).kind = .emitAbout) : Uses L (confirmAll skey there f msg) := by
  refine .bind (.family hb _) fun _ => .bind (.getSs hb _) fun _ => .bind (.issue hb) fun _ => ?_
  split
  · exact .bind (.switchC hb _ _) fun _ => .bind (.issue hb) fun _ => .bind (.issue (by rw [hm]; exact he)) fun _ => .pure _
  · exact .pure _

theorem Uses.confirmSet (hv : CKind.saveS ∈ L) (he : CKind.emitAbout ∈ L) (h : RHdr) (cid : Str) (set : ConnStates → ConnStates)
    (there : ConnStates → Bool) (f : ConnStates → Option ConnStates) (msg : Str → Str → Out)
    (hm : ∀ a b, (Cmd.emit (msg a b)).kind = .emitAbout) : Uses L (confirmSet h cid set there f msg) :=
  .bind (.getSubConnection hb _ _) fun _ => .bind (.issue hb) fun _ => .bind (.issue hb) fun _ => .bind (.issue hv) fun _ =>
  .confirmAll hb he _ _ _ _ hm

theorem Uses.confirmSwitch (hv : CKind.saveS ∈ L) (he : CKind.emitAbout ∈ L) (h : RHdr) (cid : Str) (g : ConnStates → Option ConnStates)
    (there : ConnStates → Bool) (f : ConnStates → Option ConnStates) (msg : Str → Str → Out)
    (hm : ∀ a b, (Cmd.emit (msg a b)).kind = .emitAbout) : Uses L (confirmSwitch h cid g there f msg) :=
  .bind (.getSubConnection hb _ _) fun _ => .bind (.issue hb) fun _ => .bind (.switchS hb hv _ _) fun _ => .confirmAll hb he _ _ _ _ hm

theorem Uses.reserveTimeout (hv : CKind.saveS ∈ L) (he : CKind.emitAbout ∈ L) (h : RHdr) (cid : Str) (n : Nat) : Uses L (reserveTimeout h cid n) := by
  refine .bind (.getSubConnection hb _ _) fun _ => .bind (.switchS hb hv _ _) fun _ => .bind (.issue hb) fun _ => .bind (.family hb _) fun _ =>
    .bind (.getSs hb _) fun _ => .bind (.issue hb) fun _ => ?_
  split
  · exact .pure _
  · split
    · exact .bind (.issue he) fun _ => .pure _
    · exact .pure _

theorem Uses.dataPlane (hv : CKind.saveS ∈ L) (he : CKind.emitAbout ∈ L) (h : RHdr) (cid : Str) (a : Bool) (v : Int) (c : Bool) :
    Uses L (dataPlaneStateChange h cid a v c) :=
  .bind (.getSubConnection hb _ _) fun _ => .bind (.issue hb) fun _ => .bind (.issue hb) fun _ => .bind (.issue hv) fun _ =>
  .bind (.family hb _) fun _ => .bind (.getSs hb _) fun _ => .bind (.issue hb) fun _ => .bind (.issue he) fun _ => .pure _

theorem Uses.errorEvent (he : CKind.emitAbout ∈ L) (h : RHdr) (cid : Str) (n : Nat) : Uses L (errorEvent h cid n) := by
  refine .bind (.getSubConnection hb _ _) fun _ => .bind (.issue hb) fun _ => .bind (.family hb _) fun _ => .bind (.issue hb) fun _ => ?_
  split
  · exact .bind (.issue he) fun _ => .pure _
  · exact .throw _

end

/-- The kinds of commands used by the handler of a message. -/
def Msg.kinds : Msg → List CKind
  | .reserve _ _ _ => [.base, .addResv, .sendReserve, .sendOther]
  | .commit _ _ | .terminate _ _ => [.base, .sendOther]
  | .abort _ _ | .provision _ _ | .release _ _ => [.base, .sendOther, .saveS]
  | .querySummary _ _ _ => [.base, .notifId, .emitSummary]
  | .queryRecursive _ _ _ => [.base, .addQReq, .sendOther, .setQCall]
  | .reserveConfirmed _ _ _ => [.base, .popResv, .newS, .saveS, .emitAbout]
  | .reserveFailed _ => [.base, .popResv, .emitAbout]
  | .queryConfirmed _ _ => [.base, .setQCall, .popQuery, .notifId, .emitRecursive]
  | .errorEvent _ _ _ => [.base, .emitAbout]
  | _ => [.base, .saveS, .emitAbout]

theorem Msg.uses (cfg : Cfg) (m : Msg) : Uses m.kinds (m.prog cfg) := by
  cases m with
  | reserve h cid c => exact .reserve (by simp [Msg.kinds]) (by simp [Msg.kinds]) (by simp [Msg.kinds]) (by simp [Msg.kinds]) _ _ _ _
  | commit h cid => exact .reserveCommit (by simp [Msg.kinds]) (by simp [Msg.kinds]) _ _
  | abort h cid => exact .reserveAbort (by simp [Msg.kinds]) (by simp [Msg.kinds]) (by simp [Msg.kinds]) _ _
  | provision h cid => exact .provision (by simp [Msg.kinds]) (by simp [Msg.kinds]) (by simp [Msg.kinds]) _ _
  | release h cid => exact .release (by simp [Msg.kinds]) (by simp [Msg.kinds]) (by simp [Msg.kinds]) _ _
  | terminate h cid => exact .terminate (by simp [Msg.kinds]) (by simp [Msg.kinds]) _ _
  | querySummary h cids gids => exact .querySummary (by simp [Msg.kinds]) (by simp [Msg.kinds]) (by simp [Msg.kinds]) _ _ _ _
  | queryRecursive h cids gids => exact .queryRecursive (by simp [Msg.kinds]) (by simp [Msg.kinds]) (by simp [Msg.kinds]) (by simp [Msg.kinds]) _ _ _ _
  | reserveConfirmed h cid c => exact .reserveConfirmed (by simp [Msg.kinds]) (by simp [Msg.kinds]) (by simp [Msg.kinds]) (by simp [Msg.kinds]) (by simp [Msg.kinds]) _ _ _
  | reserveFailed h => exact .reserveFailed (by simp [Msg.kinds]) (by simp [Msg.kinds]) (by simp [Msg.kinds]) _
  | commitConfirmed h cid =>
    unfold Msg.prog Agg.reserveCommitConfirmed
    exact Uses.confirmSet (L := [.base, .saveS, .emitAbout]) (by simp) (by simp) (by simp) (msg := Out.reserveCommitConfirmed) _ _ _ _ _ fun _ _ => rfl
  | abortConfirmed h cid =>
    unfold Msg.prog Agg.reserveAbortConfirmed
    exact Uses.confirmSet (L := [.base, .saveS, .emitAbout]) (by simp) (by simp) (by simp) (msg := Out.reserveAbortConfirmed) _ _ _ _ _ fun _ _ => rfl
  | provisionConfirmed h cid => exact Uses.confirmSwitch (L := [.base, .saveS, .emitAbout]) (by simp) (by simp) (by simp) (msg := Out.provisionConfirmed) _ _ _ _ _ fun _ _ => rfl
  | releaseConfirmed h cid => exact Uses.confirmSwitch (L := [.base, .saveS, .emitAbout]) (by simp) (by simp) (by simp) (msg := Out.releaseConfirmed) _ _ _ _ _ fun _ _ => rfl
  | terminateConfirmed h cid =>
    unfold Msg.prog Agg.terminateConfirmed
    exact Uses.confirmSet (L := [.base, .saveS, .emitAbout]) (by simp) (by simp) (by simp) (msg := Out.terminateConfirmed) _ _ _ _ _ fun _ _ => rfl
  | timeout h cid n => exact .reserveTimeout (by simp [Msg.kinds]) (by simp [Msg.kinds]) (by simp [Msg.kinds]) _ _ _
  | dataPlane h cid a v c => exact .dataPlane (by simp [Msg.kinds]) (by simp [Msg.kinds]) (by simp [Msg.kinds]) _ _ _ _ _
  | errorEvent h cid n => exact .errorEvent (by simp [Msg.kinds]) (by simp [Msg.kinds]) _ _ _
  | queryConfirmed h res => exact .queryRecursiveConfirmed (by simp [Msg.kinds]) (by simp [Msg.kinds]) (by simp [Msg.kinds]) (by simp [Msg.kinds]) (by simp [Msg.kinds]) _ _

end OpenNSA.Agg
