import Verif.Agg.PropsForged
import Verif.Agg.Tokens
/- C31: each reply to a reservation request is accepted at most once, whatever else is being handled at the time. -/
namespace OpenNSA.Agg
open OpenNSA Py Coro

/-- Each entry of the table of reservations is made together with the request it belongs to: without suspension in between. -/
inductive Paired {α : Type} : Prog α → Prop
  | pure (a : α) : Paired (.pure a)
  | throw (e : Err) : Paired (.throw e)
  | cmd {β : Type} {c : Cmd β} {k : Except Err β → Prog α} (hc : c.kind ≠ .addResv) (h : ∀ r, Paired (k r)) : Paired (.cmd c k)
  | pair {corr : Str} {e : Resv} {call : PCall} {k k' : Except Err Unit → Prog α} (hk : k (.ok ()) = .cmd (.send call) k')
      (hc : call.corr = corr) (h : ∀ r, Paired (k' r)) : Paired (.cmd (.addResv corr e) k)

theorem Paired.bind {α β : Type} {p : Prog α} {f : α → Prog β} (hp : Paired p) (hf : ∀ a, Paired (f a)) : Paired (p.bind f) := by
  induction hp with
  | pure a => exact hf a
  | throw e => exact .throw e
  | cmd hc _ ih => exact .cmd hc ih
  | pair hk hc _ ih => exact .pair (by simp only [hk, Coro.bind]) hc ih

theorem Paired.of_uses {L : List CKind} {α : Type} {p : Prog α} (hl : CKind.addResv ∉ L) : Uses L p → Paired p := by
  induction p with
  | pure a => exact fun _ => .pure a
  | throw e => exact fun _ => .throw e
  | cmd c k ih => exact fun h => .cmd (fun hc => hl (hc ▸ h.1)) fun r => ih r (h.2 r)

theorem Paired.base {α : Type} {p : Prog α} (h : Uses [.base, .sendOther] p) : Paired p := .of_uses (by simp) h

theorem Paired.sendReserves (cfg : Cfg) (conn : CRow) (start end_ : Option Time) :
    ∀ (ls : List Link) (idx : Nat) (last : Str), Paired (sendReserves cfg conn start end_ idx last ls)
  | [], _, _ => .pure _
  | l :: ls, _, _ => by
    refine Paired.bind (.base (.ofExcept _)) fun p => Paired.bind (.base (.issue (by simp [Cmd.kind]))) fun corr => ?_
    refine .pair rfl rfl fun r => ?_
    cases r with
    | error e => exact .throw e
    | ok u => exact Paired.sendReserves cfg conn start end_ ls _ _

theorem Paired.reserve (cfg : Cfg) (h : Hdr) (cid : Option Str) (c : Crit) : Paired (reserve cfg h cid c) := by
  cases cid with
  | some i => exact .base (.bind (.issue (by simp [Cmd.kind])) fun _ => .throw _)
  | none =>
    refine Paired.bind (.base (.ofExcept _)) fun _ => Paired.bind (.base (.issue (by simp [Cmd.kind]))) fun _ =>
      Paired.bind (.base (.issue (by simp [Cmd.kind]))) fun _ => Paired.bind (.base (.issue (by simp [Cmd.kind]))) fun _ =>
      Paired.bind (.base (.switchC (by simp) _ _)) fun _ => Paired.bind (.base (.issue (by simp [Cmd.kind]))) fun _ =>
      Paired.bind (.base (.ofExcept _)) fun _ => Paired.bind (.base (.ofExcept _)) fun _ =>
      Paired.bind (.sendReserves _ _ _ _ _ _ _) fun _ => Paired.bind (.base (.issue (by simp [Cmd.kind]))) fun _ => ?_
    split
    · exact .pure _
    · exact .base (.reserveCleanup (by simp) (by simp) _ _ _ _ _)

theorem Msg.paired (cfg : Cfg) (m : Msg) : Paired (m.prog cfg) := by
  by_cases hm : CKind.addResv ∈ m.kinds
  · cases m <;> simp [Msg.kinds] at hm
    exact .reserve _ _ _ _
  · exact .of_uses hm (m.uses cfg)

/-- Requests are only added, and new entries of the table of reservations are those of new requests. -/
def Backed (w w' : World) : Prop :=
  ∃ calls, w'.sent = w.sent ++ calls ∧ ∀ e ∈ w'.resv, e ∈ w.resv ∨ e.1 ∈ calls.map (·.corr)

theorem Backed.of {w w' : World} (hs : w'.sent = w.sent) (hr : ∀ e ∈ w'.resv, e ∈ w.resv) : Backed w w' :=
  ⟨[], by simp [hs], fun e he => .inl (hr e he)⟩

theorem Backed.refl (w : World) : Backed w w := .of rfl fun _ h => h

theorem Backed.trans {w w' w'' : World} (h : Backed w w') (h' : Backed w' w'') : Backed w w'' := by
  obtain ⟨c, h1, h2⟩ := h
  obtain ⟨c', h3, h4⟩ := h'
  refine ⟨c ++ c', by rw [h3, h1, List.append_assoc], fun e he => ?_⟩
  rw [List.map_append, List.mem_append]
  rcases h4 e he with he | he
  · rcases h2 e he with he | he
    · exact .inl he
    · exact .inr (.inl he)
  · exact .inr (.inr he)

theorem Backed.exec {β : Type} (c : Cmd β) (w : World) (hc : c.kind ≠ .addResv) : Backed w (exec w c).1 := by
  by_cases hb : c.kind ∈ [CKind.base, .newS, .saveS]
  · have h := exec_base c w hb
    exact .of h.sent (by rw [h.resv]; exact fun _ h => h)
  · cases c with
    | send x => exact ⟨[x], rfl, fun e he => .inl he⟩
    | popResv corr => exact .of rfl fun e he => (mem_ddel_iff.mp he).2
    | addResv corr r => exact absurd rfl hc
    | emit o => exact .of rfl fun _ h => h
    | notifId => exact .of rfl fun _ h => h
    | addQReq _ _ => exact .of rfl fun _ h => h
    | setQCall _ _ _ => exact .of rfl fun _ h => h
    | popQuery _ => exact .of rfl fun _ h => h
    | _ => simp [Cmd.kind] at hb

theorem Backed.pair (w : World) (corr : Str) (r : Resv) (call : PCall) (hc : call.corr = corr) :
    Backed w { w with resv := dset w.resv corr r, sent := w.sent ++ [call] } := by
  refine ⟨[call], rfl, fun e he => ?_⟩
  rcases mem_dset_of he with he | he
  · exact .inr (by simp [he, hc])
  · exact .inl he

/-- The same for suspended coroutines. -/
def PairedTask : Susp Cmd Err (Option Str) → Prop
  | .waiting c k => c.kind ≠ .addResv ∧ ∀ r, Paired (k r)
  | .performed p => Paired p

theorem Paired.runSync {p : Prog (Option Str)} (id : Nat) (hp : Paired p) : ∀ s : Sys,
    Backed s.w (Conc.runSync machine id p s).w ∧ ((∀ t ∈ s.tasks, PairedTask t.2) → ∀ t ∈ (Conc.runSync machine id p s).tasks, PairedTask t.2) := by
  induction hp with
  | pure a => exact fun s => ⟨.refl _, fun h => h⟩
  | throw e => exact fun s => ⟨.refl _, fun h => h⟩
  | @cmd β c k hc h ih =>
    intro s
    simp only [Conc.runSync]
    by_cases ha : machine.isAsync c = true
    · rw [if_pos ha]
      refine ⟨.refl _, fun hs t ht => ?_⟩
      rcases List.mem_append.mp ht with ht | ht
      · exact hs t ht
      · rw [List.mem_singleton.mp ht]; exact ⟨hc, h⟩
    · rw [if_neg ha]
      exact ⟨(Backed.exec c s.w hc).trans (ih _ { s with w := (exec s.w c).1 }).1, (ih _ { s with w := (exec s.w c).1 }).2⟩
  | @pair corr e call k k' hk hc h ih =>
    intro s
    have h1 : machine.isAsync (Cmd.addResv corr e) = false := rfl
    have h2 : machine.isAsync (Cmd.send call) = false := rfl
    simp only [Conc.runSync, h1, machine_exec, exec_addResv, hk, h2, exec_send, Bool.false_eq_true, if_false]
    have := ih (.ok ()) { s with w := { s.w with resv := dset s.w.resv corr e, sent := s.w.sent ++ [call] } }
    exact ⟨(Backed.pair s.w corr e call hc).trans this.1, this.2⟩

theorem sysStep_backed {cfg : Cfg} {s : Sys} (hs : ∀ t ∈ s.tasks, PairedTask t.2) (o : Oracle) (ch : Conc.Choice Msg) :
    Backed s.w (sysStep cfg s o ch).w ∧ ∀ t ∈ (sysStep cfg s o ch).tasks, PairedTask t.2 := by
  have ho : Backed s.w { s.w with orc := o } := .of rfl fun _ h => h
  cases ch with
  | start q =>
    have := (Msg.paired cfg q).runSync s.next { s with w := { s.w with orc := o }, next := s.next + 1 }
    exact ⟨ho.trans this.1, this.2 hs⟩
  | perform n =>
    simp only [sysStep, Conc.step]
    cases hq : Conc.takeTask n s.tasks with
    | none => exact ⟨ho, hs⟩
    | some x =>
      obtain ⟨t, rest⟩ := x
      obtain ⟨hm1, hm2⟩ := takeTask_mem hq
      cases t with
      | performed p => exact ⟨ho, hs⟩
      | waiting c k =>
        have ht := hs _ hm1
        refine ⟨ho.trans (.exec c _ ht.1), fun t htm => ?_⟩
        rcases List.mem_append.mp htm with htm | htm
        · exact hs t (hm2 t htm)
        · rw [List.mem_singleton.mp htm]; exact ht.2 _
  | resume n =>
    simp only [sysStep, Conc.step]
    cases hq : Conc.takeTask n s.tasks with
    | none => exact ⟨ho, hs⟩
    | some x =>
      obtain ⟨t, rest⟩ := x
      obtain ⟨hm1, hm2⟩ := takeTask_mem hq
      cases t with
      | waiting c k => exact ⟨ho, hs⟩
      | performed p =>
        have := Paired.runSync n (hs _ hm1 : Paired p) { s with w := { s.w with orc := o }, tasks := rest }
        exact ⟨ho.trans this.1, this.2 fun t ht => hs t (hm2 t ht)⟩

theorem restart_backed (w : World) : Backed w w.restart := .of rfl fun _ h => by cases h

/-- What can follow on a state: messages at any time, any scheduling of the handlers, any answers of the providers, restarts. -/
inductive Follows (cfg : Cfg) (s : Sys) : Sys → Prop
  | refl : Follows cfg s s
  | step {s' : Sys} (h : Follows cfg s s') (o : Oracle) (ch : Conc.Choice Msg) : Follows cfg s (sysStep cfg s' o ch)
  | restart {s' : Sys} (h : Follows cfg s s') : Follows cfg s { w := s'.w.restart }

theorem Follows.runs {cfg : Cfg} {s s' : Sys} (h : Follows cfg s s') (l : List (Oracle × Conc.Choice Msg)) : Follows cfg s (runSys cfg s' l) := by
  induction l generalizing s' with
  | nil => exact h
  | cons x xs ih => exact ih (h.step _ _)

theorem Reach.paired {cfg : Cfg} {s : Sys} (h : Reach cfg s) : (∀ t ∈ s.tasks, PairedTask t.2) ∧ ∀ e ∈ s.w.resv, e.1 ∈ s.w.sent.map (·.corr) := by
  induction h with
  | init => exact ⟨by simp, fun e he => by cases he⟩
  | restart _ ih => exact ⟨by simp, fun e he => by cases he⟩
  | step _ o ch ih =>
    obtain ⟨⟨calls, h1, h2⟩, h3⟩ := sysStep_backed (cfg := cfg) ih.1 o ch
    refine ⟨h3, fun e he => ?_⟩
    rw [h1, List.map_append, List.mem_append]
    rcases h2 e he with he | he
    · exact .inl (ih.2 e he)
    · exact .inr he

theorem Follows.backed {cfg : Cfg} {s s' : Sys} (h : Follows cfg s s') (hs : ∀ t ∈ s.tasks, PairedTask t.2) :
    Backed s.w s'.w ∧ ∀ t ∈ s'.tasks, PairedTask t.2 := by
  induction h with
  | refl => exact ⟨.refl _, hs⟩
  | restart _ ih => exact ⟨ih.1.trans (restart_backed _), by simp⟩
  | step _ o ch ih =>
    have := sysStep_backed (cfg := cfg) ih.2 o ch
    exact ⟨ih.1.trans this.1, this.2⟩

/-- A correlation id that has been used and is not outstanding does not come back. -/
theorem Backed.spent {w w' : World} (h : Backed w w') {corr : Str} (hu : corr ∈ w.sent.map (·.corr)) (hd : dget w.resv corr = none)
    (hf : w'.freshIds) : dget w'.resv corr = none := by
  obtain ⟨calls, h1, h2⟩ := h
  cases hq : dget w'.resv corr with
  | none => rfl
  | some r =>
    exfalso
    rcases h2 _ (dget_some_mem hq) with hm | hm
    · exact dget_none.mp hd _ hm rfl
    · unfold World.freshIds at hf
      rw [h1, List.map_append, List.nodup_append] at hf
      exact hf.2.2 corr hu corr hm rfl

theorem Backed.used {w w' : World} (h : Backed w w') {corr : Str} (hu : corr ∈ w.sent.map (·.corr)) : corr ∈ w'.sent.map (·.corr) := by
  obtain ⟨calls, h1, _⟩ := h
  rw [h1, List.map_append]
  exact List.mem_append.mpr (.inl hu)

theorem Backed.fresh {w w' : World} (h : Backed w w') (hf : w'.freshIds) : w.freshIds := by
  obtain ⟨calls, h1, _⟩ := h
  unfold World.freshIds at hf ⊢
  rw [h1, List.map_append, List.nodup_append] at hf
  exact hf.1

/-- A reply to a reservation request that is accepted uses up the entry before anything else can happen. -/
theorem start_accepted {cfg : Cfg} {s : Sys} (hs : ∀ e ∈ s.w.resv, e.1 ∈ s.w.sent.map (·.corr)) (o : Oracle) {m : Msg} {h : RHdr}
    (hm : m.resvReply = some h) {r : Resv} (hd : dget s.w.resv h.corr = some r) (hp : r.prov = h.prov)
    (hf : (sysStep cfg s o (.start m)).w.freshIds) : dget (sysStep cfg s o (.start m)).w.resv h.corr = none := by
  have hu := hs _ (dget_some_mem hd)
  have key : ∀ (f : Resv → Prog (Option Str)), (∀ r, Paired (f r)) →
      Backed { s.w with orc := o, resv := ddel s.w.resv h.corr }
        (Conc.runSync machine s.next ((takeResv h).bind f) { s with w := { s.w with orc := o }, next := s.next + 1 }).w := by
    intro f hfp
    have h1 : machine.isAsync (Cmd.getResv h.corr) = false := rfl
    have h2 : machine.isAsync (Cmd.popResv h.corr) = false := rfl
    simp only [takeResv, issue, Bind.bind, Coro.bind, Conc.runSync, h1, machine_exec, exec_getResv, Bool.false_eq_true, if_false, hd, hp,
      ne_eq, not_true_eq_false, h2, exec_popResv]
    exact ((hfp r).runSync s.next { s with w := { s.w with orc := o, resv := ddel s.w.resv h.corr }, next := s.next + 1 }).1
  have hdel : dget (ddel s.w.resv h.corr) h.corr = none := by rw [dget_ddel]; simp
  cases m <;> simp [Msg.resvReply] at hm
  case reserveConfirmed h' cid c =>
    subst hm
    exact (key (confirmOk · cid c) fun r => .of_uses (L := [.base, .newS, .saveS, .emitAbout]) (by simp)
      (.confirmOk (by simp) (by simp) (by simp) (by simp) _ _ _)).spent hu hdel hf
  case reserveFailed h' =>
    subst hm
    refine (key _ fun r => ?_).spent hu hdel hf
    exact .of_uses (L := [.base, .emitAbout]) (by simp) (.bind (.getConnectionByKey (by simp) _) fun _ => .bind (.markFailed (by simp) _) fun _ =>
      .bind (.issue (by simp [Cmd.kind])) fun _ => .bind (.issue (by simp [Cmd.kind])) fun _ => .pure _)

/-- Each correlation id is accepted at most once, whatever else is being handled in between and however the handlers are scheduled:
when a reply to it has been accepted, every later one is refused at once and changes nothing. -/
theorem C31_accepted_once {cfg : Cfg} {s : Sys} (hr : Reach cfg s) (o : Oracle) {m : Msg} {h : RHdr}
    (hm : m.resvReply = some h) {r : Resv} (hd : dget s.w.resv h.corr = some r) (hp : r.prov = h.prov)
    {s' : Sys} (hl : Follows cfg (sysStep cfg s o (.start m)) s') (hf : s'.w.freshIds) (o' : Oracle) {m' : Msg} {h' : RHdr}
    (hm' : m'.resvReply = some h') (hc : h'.corr = h.corr) :
    (sysStep cfg s' o' (.start m')).w = { s'.w with orc := o' } ∧ (sysStep cfg s' o' (.start m')).tasks = s'.tasks ∧
    ∃ e, (sysStep cfg s' o' (.start m')).done = s'.done ++ [(s'.next, .error e)] := by
  obtain ⟨h1, h2⟩ := hr.paired
  obtain ⟨h3, h4⟩ := sysStep_backed (cfg := cfg) h1 o (.start m)
  have h5 := (hl.backed h4).1
  have h6 := start_accepted (cfg := cfg) h2 o hm hd hp (h5.fresh hf)
  refine C31_forged_reservation_interleaved cfg s' o' hm' fun r' hr' => ?_
  rw [hc, h5.spent (h3.used (h2 _ (dget_some_mem hd))) h6 hf] at hr'
  cases hr'

namespace Ex

/-- A request up to the answers of the providers, which are still missing. -/
def reserving : List (Oracle × Conc.Choice Msg) :=
  [(o, .start reserve2.2)] ++ ((List.range 3).flatMap fun _ => [(o, .perform 0), (o, .resume 0)])

end Ex

/-- The confirmation of the first segment comes while the request is still being handled; a second one, while the first is being
handled, is refused. -/
example : let s := runSys Ex.cfg { w := .init } Ex.reserving
    let s' := sysStep Ex.cfg s Ex.nil (.start Ex.confA)
    Reach Ex.cfg s ∧ (dget s.w.resv ['1']).map (·.prov) = some ['m'] ∧ Follows Ex.cfg s' s' ∧ (s'.w.sent.map (·.corr)).Nodup ∧ s.tasks.length = 1 ∧ s'.tasks.length = 2 ∧
    (sysStep Ex.cfg s' Ex.nil (.start (.reserveFailed ⟨['m'], ['1']⟩))).done.getLast? = some (2, .error .nonExistent) :=
  ⟨Reach.runs .init _, by decide +kernel, .refl, by decide +kernel, by decide +kernel, by decide +kernel, by decide +kernel⟩

end OpenNSA.Agg
