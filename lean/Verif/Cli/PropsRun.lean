import Verif.Cli.Model
/-
C77: what the commands do.
-/
namespace OpenNSA.Cli
open OpenNSA Py

/-! ### Specification -/

/-- The requests to follow the reservation of a connection, in order, each with what the user is told when it is confirmed. -/
def Following : Command → Str → List (Op × Line)
  | .reserve, id => [(.reserveCommit (some id), .committed)]
  | .reserveprovision, id =>
    [(.reserveCommit (some id), .committed), (.querySummary (some [id]) none, .results), (.provision (some id), .provisioned id)]
  | .rprt, id =>
    [(.reserveCommit (some id), .committed), (.provision (some id), .provisioned id), (.release (some id), .released id),
     (.terminate (some id), .terminated id)]
  | _, _ => []

/-- The course of requests `steps`, after the requests `h` and messages `m` (latest first): each is sent after the one before has been
confirmed, none after one has failed. It ends with the requests `h'`, messages `m'` and the failure, if any. -/
inductive Course (cl : Client) : List (Op × Line) → List Sent → List Line → List Sent → List Line → Option Exc → Prop
  | done (h m) : Course cl [] h m h m none
  | failed (op l rest h m) (x : Sent) (e : Exc) (hx : x.op = op) (hf : cl.other (x :: h) = .error e) :
      Course cl ((op, l) :: rest) h m (x :: h) m (some e)
  | confirmed (op l rest h m h' m' out) (x : Sent) (hx : x.op = op) (hc : cl.other (x :: h) = .ok ())
      (hn : Course cl rest (x :: h) (l :: m) h' m' out) : Course cl ((op, l) :: rest) h m h' m' out

/-- How a command ends: an NSI error is told to the user, any other is passed on. -/
def Ends (m : List Line) (out : Option Exc) (s : St) (r : Except Exc Unit) : Prop :=
  match out with
  | none => s.log = m ∧ r = .ok ()
  | some .nsi => s.log = .error :: m ∧ r = .ok ()
  | some e => s.log = m ∧ r = .error e

/-! ### Proofs -/

/-- The result for an outcome, before NSI errors are caught. -/
def raw : Option Exc → Except Exc Unit
  | none => .ok ()
  | some e => .error e

/-- A piece of a command that runs the steps, with fresh correlation ids and the trace as it is. -/
def Runs (a : Act Unit) (steps : List (Op × Line)) : Prop :=
  ∀ ids cl s, (∃ out, Course cl steps s.sent s.log (a ids cl s).1.sent (a ids cl s).1.log out ∧ (a ids cl s).2 = raw out) ∧
    ∃ new, (a ids cl s).1.sent = new ++ s.sent ∧ (∀ x ∈ new, x.trace = s.trace ∧ ∃ k, s.used ≤ k ∧ x.corr = ids k) ∧
      ((∀ i j, ids i = ids j → i = j) → (new.map (·.corr)).Nodup)

theorem runs_nil : Runs (fun _ _ s => (s, .ok ())) [] := by
  intro ids cl s
  exact ⟨⟨none, .done _ _, rfl⟩, [], rfl, by simp, by simp⟩

theorem runs_cons {rest : Act Unit} {steps : List (Op × Line)} (op : Op) (l : Line) (hr : Runs rest steps) :
    Runs (Act.bind newCorr fun _ => Act.bind (send op) fun _ => Act.bind (say l) fun _ => rest) ((op, l) :: steps) := by
  intro ids cl s
  simp only [Act.bind, newCorr, send, say]
  cases hc : cl.other (⟨ids s.used, s.trace, op⟩ :: s.sent) with
  | error e =>
    refine ⟨⟨some e, .failed _ _ _ _ _ ⟨ids s.used, s.trace, op⟩ _ rfl hc, rfl⟩, [⟨ids s.used, s.trace, op⟩], rfl, ?_, by simp⟩
    intro x hx
    simp at hx
    subst hx
    exact ⟨rfl, s.used, by omega, rfl⟩
  | ok u =>
    obtain ⟨⟨out, h1, h2⟩, new, h3, h4, h5⟩ := hr ids cl
      { s with corr := ids s.used, used := s.used + 1, sent := ⟨ids s.used, s.trace, op⟩ :: s.sent, log := l :: s.log }
    refine ⟨⟨out, .confirmed _ _ _ _ _ _ _ _ ⟨ids s.used, s.trace, op⟩ rfl hc h1, h2⟩, new ++ [⟨ids s.used, s.trace, op⟩], ?_, ?_, ?_⟩
    · rw [h3]; simp
    · intro x hx
      rcases List.mem_append.mp hx with hx | hx
      · obtain ⟨e, k, hk, e2⟩ := h4 x hx
        exact ⟨e, k, by simp at hk; omega, e2⟩
      · simp at hx
        subst hx
        exact ⟨rfl, s.used, by omega, rfl⟩
    · intro hi
      rw [List.map_append, List.nodup_append]
      refine ⟨h5 hi, by simp, ?_⟩
      intro a ha b hb
      obtain ⟨x, hx, rfl⟩ := List.mem_map.mp ha
      simp at hb
      subst hb
      obtain ⟨_, k, hk, e2⟩ := h4 x hx
      rw [e2]
      intro e
      have := hi _ _ e
      simp at hk
      omega

theorem runs_last (op : Op) (l : Line) :
    Runs (Act.bind newCorr fun _ => Act.bind (send op) fun _ => say l) [(op, l)] := by
  have := runs_cons op l runs_nil
  intro ids cl s
  have e : (Act.bind newCorr fun _ => Act.bind (send op) fun _ => say l) ids cl s =
      (Act.bind newCorr fun _ => Act.bind (send op) fun _ => Act.bind (say l) fun _ => fun _ _ s => (s, Except.ok ())) ids cl s := rfl
  rw [e]
  exact this ids cl s

/-- A command that reserves: the reservation, then the rest. -/
def reserving (p : Plan) (crt : Criteria) (t : Option (List Str)) (rest : Str → Act Unit) : Act Unit :=
  catchNsi (Act.bind (setTrace (firstTrace p)) fun _ => Act.bind (sendReserve p.cid p.gid crt) fun cid =>
    Act.bind (setTrace t) fun _ => Act.bind (say (.held cid)) fun _ => rest cid)

theorem dispatch_reserving (c : Command) (p : Plan) (crt : Criteria) (hc : c.reserves = true) (hp : criteria p = .ok crt) :
    ∃ t rest, (t = none ∨ t = some []) ∧ (∀ id, Runs (rest id) (Following c id)) ∧ ∀ ids cl s, dispatch c p ids cl s = reserving p crt t rest ids cl s := by
  have e0 : ∀ (f : Criteria → Act Unit) ids cl s, Act.bind (ofStp (criteria p)) f ids cl s = f crt ids cl s := by
    intro f ids cl s
    rw [hp]; rfl
  cases c <;> simp only [Command.reserves, Bool.false_eq_true] at hc
  · exact ⟨none, fun cid => Act.bind newCorr fun _ => Act.bind (send (.reserveCommit (some cid))) fun _ => say .committed, .inl rfl,
      fun id => runs_last _ _, fun ids cl s => e0 _ ids cl s⟩
  · exact ⟨none, fun cid => fun _ _ s => (s, .ok ()), .inl rfl, fun id => runs_nil, fun ids cl s => e0 _ ids cl s⟩
  · exact ⟨some [], _, .inr rfl, fun id => runs_cons _ _ (runs_cons _ _ (runs_last _ _)), fun ids cl s => e0 _ ids cl s⟩
  · exact ⟨some [], _, .inr rfl, fun id => runs_cons _ _ (runs_cons _ _ (runs_cons _ _ (runs_last _ _))), fun ids cl s => e0 _ ids cl s⟩

/-- C77: a command that reserves sends the reservation; if it is confirmed, the requests to follow, with the connection id of the confirmation. -/
theorem C77_course (c : Command) (p : Plan) (ids : Nat → Str) (cl : Client) (crt : Criteria) (hc : c.reserves = true)
    (hp : criteria p = .ok crt) : ∃ x : Sent, x.op = .reserve p.cid p.gid crt ∧ x.trace = some ["urn:ogf:network:".toList ++ p.requester ++ [':', '1']] ∧
      match cl.reserve [x] with
      | .error e => (run c p ids cl).1.sent = [x] ∧ Ends [] (some e) (run c p ids cl).1 (run c p ids cl).2
      | .ok id => ∃ m out, Course cl (Following c id) [x] [.held id] (run c p ids cl).1.sent m out ∧
          Ends m out (run c p ids cl).1 (run c p ids cl).2 := by
  refine ⟨⟨ids 0, firstTrace p, .reserve p.cid p.gid crt⟩, rfl, rfl, ?_⟩
  obtain ⟨t, rest, _, hrest, he⟩ := dispatch_reserving c p crt hc hp
  unfold run
  rw [he]
  simp only [reserving, catchNsi, Act.bind, setTrace, sendReserve, say]
  cases hr : cl.reserve [⟨ids 0, firstTrace p, .reserve p.cid p.gid crt⟩] with
  | error e => cases e <;> simp [Ends]
  | ok id =>
    simp only
    obtain ⟨⟨out, h1, h2⟩, _⟩ := hrest id ids cl
      { corr := ids 0, used := 1, trace := t, sent := [⟨ids 0, firstTrace p, .reserve p.cid p.gid crt⟩], log := [.held id] }
    generalize hres : rest id ids cl
      { corr := ids 0, used := 1, trace := t, sent := [⟨ids 0, firstTrace p, .reserve p.cid p.gid crt⟩], log := [.held id] } = res at h1 h2 ⊢
    obtain ⟨s', r⟩ := res
    simp only at h1 h2
    subst h2
    refine ⟨s'.log, out, ?_, ?_⟩
    · cases out with
      | none => exact h1
      | some e => cases e <;> exact h1
    · cases out with
      | none => exact ⟨rfl, rfl⟩
      | some e => cases e <;> exact ⟨rfl, rfl⟩

/-- C77: a command whose end points or route cannot be read sends nothing. -/
theorem C77_unread (c : Command) (p : Plan) (ids : Nat → Str) (cl : Client) (e : StpErr) (hc : c.reserves = true)
    (hp : criteria p = .error e) : (run c p ids cl).1.sent = [] ∧ (run c p ids cl).2 = .error (.stp e) := by
  have e0 : ∀ (f : Criteria → Act Unit) ids cl s, Act.bind (ofStp (criteria p)) f ids cl s = (s, .error (.stp e)) := by
    intro f ids cl s
    rw [hp]; rfl
  cases c <;> simp only [Command.reserves, Bool.false_eq_true] at hc
  all_goals
    refine ⟨?_, ?_⟩
    · refine (congrArg (fun x : St × Except Exc Unit => x.1.sent) (e0 _ ids cl _)).trans rfl
    · refine (congrArg (fun x : St × Except Exc Unit => x.2) (e0 _ ids cl _)).trans rfl

/-- The request of a command that makes one, and the message when it is confirmed. -/
def Only : Command → Plan → Op × Line
  | .reservecommit, p => (.reserveCommit p.cid, .committed)
  | .provision, p => (.provision p.cid, .provisioned (p.cid.getD []))
  | .release, p => (.release p.cid, .released (p.cid.getD []))
  | .terminate, p => (.terminate p.cid, .terminated (p.cid.getD []))
  | .query, p => (.querySummary (single p.cid) (single p.gid), .results)
  | _, p => (.queryRecursive (single p.cid) (single p.gid), .results)

/-- C77: any other command sends one request, for the connection given, and says so when it is confirmed; if told to wait for notifications, provision
and release say that they do not. -/
theorem C77_single (c : Command) (p : Plan) (ids : Nat → Str) (cl : Client) (hc : c.reserves = false) :
    ∃ x : Sent, x.op = (Only c p).1 ∧ x.trace = none ∧ (run c p ids cl).1.sent = [x] ∧
      ((Only c p).2 ∈ (run c p ids cl).1.log ↔ cl.other [x] = .ok ()) ∧
      (.error ∈ (run c p ids cl).1.log ↔ cl.other [x] = .error .nsi) ∧
      (∀ e, (run c p ids cl).2 = .error e ↔ cl.other [x] = .error e ∧ e ≠ .nsi) ∧
      (.noWait ∈ (run c p ids cl).1.log ↔ (c = .provision ∨ c = .release) ∧ p.wait = true ∧ (run c p ids cl).2 = .ok ()) := by
  refine ⟨⟨ids 0, none, (Only c p).1⟩, rfl, rfl, ?_⟩
  cases c <;> simp only [Command.reserves, Bool.true_eq_false] at hc
  all_goals
    simp only [run, dispatch, reservecommit, provision, release, terminate, querySummary, queryRecursive, bind, Act.bind, catchNsi, send, say, Only]
  all_goals
    generalize cl.other _ = res
    cases res with
    | ok u => (try cases p.wait) <;> simp [pure, say]
    | error e => cases e <;> (try cases p.wait) <;> simp [pure, say]

/-- C77: the requests of a command have different correlation ids, if those generated are different. -/
theorem C77_correlation (c : Command) (p : Plan) (ids : Nat → Str) (cl : Client) (hids : ∀ i j, ids i = ids j → i = j) :
    ((run c p ids cl).1.sent.map (·.corr)).Nodup := by
  cases hc : c.reserves with
  | false =>
    obtain ⟨x, _, _, h, _⟩ := C77_single c p ids cl hc
    rw [h]; simp
  | true =>
    cases hp : criteria p with
    | error e => rw [(C77_unread c p ids cl e hc hp).1]; simp
    | ok crt =>
      obtain ⟨t, rest, _, hrest, he⟩ := dispatch_reserving c p crt hc hp
      unfold run
      rw [he]
      simp only [reserving, catchNsi, Act.bind, setTrace, sendReserve, say]
      cases hr : cl.reserve [⟨ids 0, firstTrace p, .reserve p.cid p.gid crt⟩] with
      | error e => cases e <;> simp
      | ok id =>
        simp only
        obtain ⟨_, new, h1, h2, h3⟩ := hrest id ids cl
          { corr := ids 0, used := 1, trace := t, sent := [⟨ids 0, firstTrace p, .reserve p.cid p.gid crt⟩], log := [.held id] }
        generalize hres : rest id ids cl
          { corr := ids 0, used := 1, trace := t, sent := [⟨ids 0, firstTrace p, .reserve p.cid p.gid crt⟩], log := [.held id] } = res at h1 ⊢
        have key : (res.1.sent.map (·.corr)).Nodup := by
          rw [h1, List.map_append, List.nodup_append]
          refine ⟨h3 hids, by simp, ?_⟩
          intro a ha b hb
          obtain ⟨x, hx, rfl⟩ := List.mem_map.mp ha
          simp at hb
          subst hb
          obtain ⟨_, k, hk, e2⟩ := h2 x hx
          rw [e2]
          intro e
          have := hids _ _ e
          simp at hk
          omega
        obtain ⟨s', r⟩ := res
        cases r with
        | ok u => exact key
        | error e => cases e <;> exact key

/-- C77: the connection trace goes with the reservation only. -/
theorem C77_trace (c : Command) (p : Plan) (ids : Nat → Str) (cl : Client) (x : Sent) (hx : x ∈ (run c p ids cl).1.sent) (t : Str)
    (l : List Str) (ht : x.trace = some (t :: l)) : t = "urn:ogf:network:".toList ++ p.requester ++ [':', '1'] ∧ l = [] ∧ ∃ crt, x.op = .reserve p.cid p.gid crt := by
  cases hc : c.reserves with
  | false =>
    obtain ⟨y, _, h0, h, _⟩ := C77_single c p ids cl hc
    rw [h] at hx
    simp at hx
    subst hx
    rw [h0] at ht; cases ht
  | true =>
    cases hp : criteria p with
    | error e => rw [(C77_unread c p ids cl e hc hp).1] at hx; simp at hx
    | ok crt =>
      obtain ⟨tr, rest, htr, hrest, he⟩ := dispatch_reserving c p crt hc hp
      have first : x = ⟨ids 0, firstTrace p, .reserve p.cid p.gid crt⟩ →
          t = "urn:ogf:network:".toList ++ p.requester ++ [':', '1'] ∧ l = [] ∧ ∃ crt, x.op = .reserve p.cid p.gid crt := by
        rintro rfl
        simp only [firstTrace, Option.some.injEq, List.cons.injEq] at ht
        exact ⟨ht.1.symm, ht.2.symm, crt, rfl⟩
      unfold run at hx
      rw [he] at hx
      simp only [reserving, catchNsi, Act.bind, setTrace, sendReserve, say] at hx
      cases hr : cl.reserve [⟨ids 0, firstTrace p, .reserve p.cid p.gid crt⟩] with
      | error e => rw [hr] at hx; cases e <;> (simp at hx; exact first hx)
      | ok id =>
        rw [hr] at hx
        simp only at hx
        obtain ⟨_, new, h1, h2, _⟩ := hrest id ids cl
          { corr := ids 0, used := 1, trace := tr, sent := [⟨ids 0, firstTrace p, .reserve p.cid p.gid crt⟩], log := [.held id] }
        generalize hres : rest id ids cl
          { corr := ids 0, used := 1, trace := tr, sent := [⟨ids 0, firstTrace p, .reserve p.cid p.gid crt⟩], log := [.held id] } = res at h1 hx
        have hx' : x ∈ res.1.sent := by
          obtain ⟨s', r⟩ := res
          cases r with
          | ok u => exact hx
          | error e => cases e <;> exact hx
        rw [h1] at hx'
        rcases List.mem_append.mp hx' with hx' | hx'
        · obtain ⟨e, _⟩ := h2 x hx'
          rw [e] at ht
          simp only at ht
          rcases htr with rfl | rfl <;> simp at ht
        · simp at hx'
          exact first hx'

/-! ### Notifications -/

/-- Events that end the wait for a connection: it has failed, or its data plane has gone down everywhere. -/
def Final : Event → Prop
  | .errorEvent _ => True
  | .dataPlane _ active consistent => active = false ∧ consistent = true
  | .other => False

/-- C77: the wait for notifications ends with the first final event, and not before. -/
theorem C77_events (es : List Event) : (waitLoop es).1 = true ↔ ∃ e ∈ es, Final e := by
  have hf : ∀ e, handleEvent e = true ↔ Final e := by
    intro e
    cases e with
    | errorEvent c => simp [handleEvent, Final]
    | dataPlane c a b => cases a <;> cases b <;> simp [handleEvent, Final]
    | other => simp [handleEvent, Final]
  induction es with
  | nil => simp [waitLoop]
  | cons e es ih =>
    unfold waitLoop
    split
    · rename_i h
      simp only [true_iff]
      exact ⟨e, by simp, (hf e).mp h⟩
    · rename_i h
      simp only [ih]
      constructor
      · rintro ⟨x, hx, hf⟩; exact ⟨x, by simp [hx], hf⟩
      · rintro ⟨x, hx, hfx⟩
        rcases List.mem_cons.mp hx with rfl | hx
        · exact absurd ((hf x).mpr hfx) h
        · exact ⟨x, hx, hfx⟩

/-- C77: … and reads no event after it. -/
theorem C77_events_read (es fs : List Event) (e : Event) (he : Final e) (hes : ∀ x ∈ es, ¬ Final x) :
    waitLoop (es ++ e :: fs) = (true, es.length + 1) := by
  have hf : ∀ e, handleEvent e = true ↔ Final e := by
    intro e
    cases e with
    | errorEvent c => simp [handleEvent, Final]
    | dataPlane c a b => cases a <;> cases b <;> simp [handleEvent, Final]
    | other => simp [handleEvent, Final]
  induction es with
  | nil => simp [waitLoop, (hf e).mpr he]
  | cons x xs ih =>
    have hx : handleEvent x = false := by
      cases h : handleEvent x with
      | false => rfl
      | true => exact absurd ((hf x).mp h) (hes x (by simp))
    simp only [List.cons_append, waitLoop, hx]
    rw [ih (fun y hy => hes y (by simp [hy]))]
    simp

/-- C77 fails: the connection an event is about is not looked at: the wait for one connection ends with an event of another. -/
theorem C77_other_connection_fails : ∀ mine : Str, ∃ other : Str, other ≠ mine ∧ waitLoop [.dataPlane other false true] = (true, 1) := by
  intro mine
  refine ⟨'x' :: mine, ?_, rfl⟩
  intro h
  have := congrArg List.length h
  simp at this

/-- C77 fails: `reservecommit` does not need a connection id (onsa:176 asks for one only for provision, release and terminate); without
one it is sent all the same. -/
theorem C77_reservecommit_fails : ∃ p, plan (fun _ => none) .reservecommit
      { host := some ['h'], service := some ['u'], provider := some ['p'] } {} = .ok p ∧ p.cid = none ∧
    ∀ ids cl, ∃ x : Sent, (run .reservecommit p ids cl).1.sent = [x] ∧ x.op = .reserveCommit none := by
  refine ⟨_, rfl, rfl, ?_⟩
  intro ids cl
  obtain ⟨x, h1, _, h2, _⟩ := C77_single .reservecommit _ ids cl rfl
  exact ⟨x, h2, h1⟩

/-! ### Examples -/

namespace Ex

/-- A reservation from A to B. -/
def p : Plan :=
  { provider := ['p'], service := ['u'], requester := ['r'], authz := none, attrs := [], cid := none, gid := none, tls := false, host := ['h'],
    port := 7080, ctx := none, source := some "net:a".toList, dest := some "net:b".toList, start := none, end_ := none,
    bandwidth := some (.inr 100), ero := none, wait := false }

/-- A provider that confirms the first two requests and fails the third. -/
def cl : Client where
  reserve _ := .ok ['7']
  other h := if h.length < 3 then .ok () else .error .nsi

/-- Correlation ids. -/
def ids (n : Nat) : Str := List.replicate n 'c'

end Ex

example : ∃ crt, criteria Ex.p = .ok crt := ⟨_, rfl⟩
example : ∀ i j, Ex.ids i = Ex.ids j → i = j := fun i j h => by simpa [Ex.ids] using congrArg List.length h
/-- Reserve, provision, release, terminate: the third request fails, the fourth is not sent. -/
example : (run .rprt Ex.p Ex.ids Ex.cl).1.log = [.error, .committed, .held ['7']] ∧ (run .rprt Ex.p Ex.ids Ex.cl).1.sent.length = 3 ∧
    (run .rprt Ex.p Ex.ids Ex.cl).1.sent.map (·.corr) = [['c', 'c'], ['c'], []] := by decide +kernel
example : ∃ e, criteria { Ex.p with source := some ['n'] } = .error e := ⟨_, rfl⟩
example : Final (.dataPlane ['7'] false true) ∧ ∀ x ∈ [Event.other, .dataPlane ['7'] true true], ¬ Final x := by
  simp [Final]

end OpenNSA.Cli
