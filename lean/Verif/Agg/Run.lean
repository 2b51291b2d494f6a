import Verif.Agg.Model
/- Execution of coroutines to completion: equations. -/
namespace OpenNSA

namespace Coro
variable {C : Type → Type} {ε W : Type} (m : Machine C ε W)

@[simp] theorem run_pure {α : Type} (a : α) (w : W) : (Coro.pure a : Coro C ε α).run m w = (w, .ok a) := rfl
@[simp] theorem run_pure' {α : Type} (a : α) (w : W) : (Pure.pure a : Coro C ε α).run m w = (w, .ok a) := rfl
@[simp] theorem run_throw {α : Type} (e : ε) (w : W) : (Coro.throw e : Coro C ε α).run m w = (w, .error e) := rfl

/-- Continue with the result of a run. -/
def andThen {α β : Type} (f : α → Coro C ε β) (r : W × Except ε α) : W × Except ε β :=
  match r.2 with
  | .ok a => (f a).run m r.1
  | .error e => (r.1, .error e)

@[simp] theorem andThen_ok {α β : Type} (f : α → Coro C ε β) (w : W) (a : α) :
    andThen m f (w, .ok a) = (f a).run m w := rfl
@[simp] theorem andThen_error {α β : Type} (f : α → Coro C ε β) (w : W) (e : ε) :
    andThen m f (w, .error e) = (w, .error e) := rfl

theorem run_bind {α β : Type} (p : Coro C ε α) (f : α → Coro C ε β) (w : W) :
    (p.bind f).run m w = andThen m f (p.run m w) := by
  induction p generalizing w with
  | pure a => rfl
  | throw e => rfl
  | cmd c k ih => simp only [Coro.bind, Coro.run]; exact ih _ _

@[simp] theorem run_bind' {α β : Type} (p : Coro C ε α) (f : α → Coro C ε β) (w : W) :
    (p >>= f).run m w = andThen m f (p.run m w) := run_bind m p f w

@[simp] theorem run_issue {β : Type} (c : C β) (w : W) : (Coro.issue c : Coro C ε β).run m w = m.exec w c := by
  unfold Coro.issue
  simp only [Coro.run]
  rcases h : m.exec w c with ⟨w', r⟩
  cases r <;> rfl

@[simp] theorem run_ofExcept {α : Type} (r : Except ε α) (w : W) : (Coro.ofExcept r : Coro C ε α).run m w = (w, r) := by
  cases r <;> rfl

end Coro

namespace Agg
open Coro

@[simp] theorem machine_exec {β : Type} (w : World) (c : Cmd β) : machine.exec w c = exec w c := rfl

/-- A generated correlation id. -/
theorem exec_newCorr (w : World) :
    exec w .newCorr = ({ w with orc := { w.orc with corrs := w.orc.corrs.tail } }, .ok (w.orc.corrs.headD [])) := by
  rcases w with ⟨_, _, _, _, _, _, _, _, _, _, _, _, _, _, ⟨_, corrs, _⟩⟩
  cases corrs <;> rfl

/-- A generated connection id. -/
theorem exec_newCid (w : World) :
    exec w .newCid = ({ w with orc := { w.orc with cids := w.orc.cids.tail } }, .ok (w.orc.cids.headD [])) := by
  rcases w with ⟨_, _, _, _, _, _, _, _, _, _, _, _, _, _, ⟨cids, _, _⟩⟩
  cases cids <;> rfl

/-! Effect of the commands. -/

@[simp] theorem exec_existsConn (w : World) (cid : Str) :
    exec w (.existsConn cid) = (w, .ok (w.conns.any fun r => r.cid = cid)) := rfl
@[simp] theorem exec_findConnByKey (w : World) (key : Nat) :
    exec w (.findConnByKey key) = (w, .ok ((w.conns.find? fun r => r.key = key).map (·.cid))) := rfl
@[simp] theorem exec_selectSubs (w : World) (key : Nat) :
    exec w (.selectSubs key) = (w, .ok ((w.subs.filter fun r => r.skey = key).map fun r => (r.prov, r.cid))) := rfl
@[simp] theorem exec_findSubs (w : World) (l : List (Str × Str)) :
    exec w (.findSubs l) = ((w.findSubs l).1, .ok (w.findSubs l).2) := rfl
@[simp] theorem exec_saveC (w : World) (ref : Nat) :
    exec w (.saveC ref) = w.saveC ref := rfl
@[simp] theorem exec_saveS (w : World) (ref : Nat) :
    exec w (.saveS ref) = w.saveS ref := rfl
@[simp] theorem exec_saveSs (w : World) (refs : List Nat) :
    exec w (.saveSs refs) = (w.saveSs refs, .ok ()) := rfl
@[simp] theorem exec_acks (w : World) (n : Nat) :
    exec w (.acks n) = ((w.acks n).1, .ok (w.acks n).2) := rfl
@[simp] theorem exec_newC (w : World) (row : CRow) :
    exec w (.newC row) = ({ w with cheap := w.cheap ++ [⟨row, true⟩] }, .ok w.cheap.length) := rfl
@[simp] theorem exec_newS (w : World) (row : SRow) :
    exec w (.newS row) = ({ w with sheap := w.sheap ++ [⟨row, true⟩] }, .ok w.sheap.length) := rfl
@[simp] theorem exec_cachedC (w : World) (cid : Str) :
    exec w (.cachedC cid) = (w, .ok (Py.dget w.ccache cid)) := rfl
@[simp] theorem exec_cacheC (w : World) (cid : Str) (ref : Nat) :
    exec w (.cacheC cid ref) = ({ w with ccache := Py.dset w.ccache cid ref }, .ok ()) := rfl
@[simp] theorem exec_cachedS (w : World) (cid : Str) :
    exec w (.cachedS cid) = (w, .ok (Py.dget w.scache cid)) := rfl
@[simp] theorem exec_cacheS (w : World) (cid : Str) (ref : Nat) :
    exec w (.cacheS cid ref) = ({ w with scache := Py.dset w.scache cid ref }, .ok ()) := rfl
@[simp] theorem exec_getResv (w : World) (corr : Str) :
    exec w (.getResv corr) = (w, .ok (Py.dget w.resv corr)) := rfl
@[simp] theorem exec_popResv (w : World) (corr : Str) :
    exec w (.popResv corr) = ({ w with resv := Py.ddel w.resv corr }, .ok ()) := rfl
@[simp] theorem exec_addResv (w : World) (corr : Str) (r : Resv) :
    exec w (.addResv corr r) = ({ w with resv := Py.dset w.resv corr r }, .ok ()) := rfl
@[simp] theorem exec_outstanding (w : World) (k : Nat) :
    exec w (.outstanding k) = (w, .ok ((w.resv.filter fun e => e.2.skey = k).length)) := rfl
@[simp] theorem exec_send (w : World) (c : PCall) :
    exec w (.send c) = ({ w with sent := w.sent ++ [c] }, .ok ()) := rfl
@[simp] theorem exec_emit (w : World) (o : Out) :
    exec w (.emit o) = ({ w with outbox := w.outbox ++ [o] }, .ok ()) := rfl
@[simp] theorem exec_notifId (w : World)  :
    exec w (.notifId) = ({ w with notif := w.notif + 1 }, .ok w.notif) := rfl
@[simp] theorem exec_addQReq (w : World) (corr : Str) (r : QReq) :
    exec w (.addQReq corr r) = ({ w with qreqs := Py.dset w.qreqs corr r }, .ok ()) := rfl
@[simp] theorem exec_getQReq (w : World) (corr : Str) :
    exec w (.getQReq corr) = (w, .ok (Py.dget w.qreqs corr)) := rfl
@[simp] theorem exec_getQCall (w : World) (corr : Str) :
    exec w (.getQCall corr) = (w, .ok (Py.dget w.qcalls corr)) := rfl
@[simp] theorem exec_setQCall (w : World) (corr cb : Str) (res : Option (List Str)) :
    exec w (.setQCall corr cb res) = ({ w with qcalls := Py.dset w.qcalls corr (cb, res) }, .ok ()) := rfl
@[simp] theorem exec_qResults (w : World) (cb : Str) :
    exec w (.qResults cb) = (w, .ok (w.qcalls.filterMap fun e => if e.2.1 = cb then e.2.2.bind List.head? else none)) := rfl
@[simp] theorem exec_popQuery (w : World) (cb : Str) :
    exec w (.popQuery cb) = ({ w with qreqs := Py.ddel w.qreqs cb, qcalls := w.qcalls.filter fun e => e.2.1 ≠ cb }, .ok ()) := rfl

theorem exec_getC {w : World} {ref : Nat} {o : Obj CRow} (h : w.cheap[ref]? = some o) :
    exec w (.getC ref) = (w, .ok o.row) := by simp [exec, h]
theorem exec_setC {w : World} {ref : Nat} {o : Obj CRow} (row : CRow) (h : w.cheap[ref]? = some o) :
    exec w (.setC ref row) = ({ w with cheap := w.cheap.set ref { o with row } }, .ok ()) := by simp [exec, h]
theorem exec_getS {w : World} {ref : Nat} {o : Obj SRow} (h : w.sheap[ref]? = some o) :
    exec w (.getS ref) = (w, .ok o.row) := by simp [exec, h]
theorem exec_setS {w : World} {ref : Nat} {o : Obj SRow} (row : SRow) (h : w.sheap[ref]? = some o) :
    exec w (.setS ref row) = ({ w with sheap := w.sheap.set ref { o with row } }, .ok ()) := by simp [exec, h]

theorem saveC_old {w : World} {ref : Nat} {row : CRow} (h : w.cheap[ref]? = some ⟨row, false⟩) :
    w.saveC ref = ({ w with conns := setCRow w.conns row }, .ok ()) := by simp [World.saveC, h]
theorem saveS_old {w : World} {ref : Nat} {row : SRow} (h : w.sheap[ref]? = some ⟨row, false⟩) :
    w.saveS ref = ({ w with subs := setSRow w.subs row }, .ok ()) := by simp [World.saveS, h]

theorem saveC_new {w : World} {ref : Nat} {row : CRow} (h : w.cheap[ref]? = some ⟨row, true⟩) :
    w.saveC ref = if (w.conns.any (fun r => r.cid = row.cid) || badTimes row.start row.end_) = true then (w, .error .db)
      else ({ w with conns := w.conns ++ [{ row with key := w.ckey }], cheap := w.cheap.set ref ⟨{ row with key := w.ckey }, false⟩,
                     ckey := w.ckey + 1 }, .ok ()) := by
  simp only [World.saveC, h, if_true]
theorem saveS_new {w : World} {ref : Nat} {row : SRow} (h : w.sheap[ref]? = some ⟨row, true⟩) :
    w.saveS ref = if (w.subs.any (fun r => r.prov = row.prov && r.cid = row.cid)) = true then (w, .error .db)
      else ({ w with subs := w.subs ++ [{ row with key := w.skey }], sheap := w.sheap.set ref ⟨{ row with key := w.skey }, false⟩,
                     skey := w.skey + 1 }, .ok ()) := by
  simp only [World.saveS, h, if_true]

/-- A switch of a stored connection. -/
theorem switchC_run {w : World} {ref : Nat} {row : CRow} (f : ConnStates → Option ConnStates)
    (h : w.cheap[ref]? = some ⟨row, false⟩) :
    (switchC ref f).run machine w = match f row.st with
      | none => (w, .error .internal)
      | some st => ({ w with cheap := w.cheap.set ref ⟨{ row with st }, false⟩, conns := setCRow w.conns { row with st } }, .ok ()) := by
  have hlt : ref < w.cheap.length := by
    rcases Nat.lt_or_ge ref w.cheap.length with h' | h'
    · exact h'
    · simp [List.getElem?_eq_none h'] at h
  simp only [switchC, run_bind', run_issue, machine_exec, exec_getC h, andThen_ok]
  cases hf : f row.st with
  | none => rfl
  | some st =>
    simp only [run_bind', run_issue, machine_exec, exec_setC _ h, andThen_ok, exec_saveC]
    rw [saveC_old (row := { row with st })]
    simp [hlt]

/-- A switch of a stored segment. -/
theorem switchS_run {w : World} {ref : Nat} {row : SRow} (f : ConnStates → Option ConnStates)
    (h : w.sheap[ref]? = some ⟨row, false⟩) :
    (switchS ref f).run machine w = match f row.st with
      | none => (w, .error .internal)
      | some st => ({ w with sheap := w.sheap.set ref ⟨{ row with st }, false⟩, subs := setSRow w.subs { row with st } }, .ok ()) := by
  have hlt : ref < w.sheap.length := by
    rcases Nat.lt_or_ge ref w.sheap.length with h' | h'
    · exact h'
    · simp [List.getElem?_eq_none h'] at h
  simp only [switchS, run_bind', run_issue, machine_exec, exec_getS h, andThen_ok]
  cases hf : f row.st with
  | none => rfl
  | some st =>
    simp only [run_bind', run_issue, machine_exec, exec_setS _ h, andThen_ok, exec_saveS]
    rw [saveS_old (row := { row with st })]
    simp [hlt]

end Agg
end OpenNSA
