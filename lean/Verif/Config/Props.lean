import Verif.Config.Model
import Verif.PyLemmas
import Verif.Label.Lemmas
/-
C69: configuration files (config.py).
-/
namespace OpenNSA.Config
open Py

/-! ### Vocabulary -/

/-- The section `service` sets the option to this text. -/
def Sets (f : File) (o t : Str) : Prop := dget f.service o = some (some t)
/-- The section `service` does not mention the option. -/
def Absent (f : File) (o : Str) : Prop := dget f.service o = none

instance (f : File) (o t : Str) : Decidable (Sets f o t) := by unfold Sets; infer_instance

/-- The value of an option without default. -/
def IsOpt (f : File) (o : Str) (v : Option Str) : Prop := (Absent f o ∧ v = none) ∨ ∃ t, Sets f o t ∧ v = some t
/-- The value of an option with default `d`. -/
def IsOr (f : File) (o d v : Str) : Prop := (Absent f o ∧ v = d) ∨ Sets f o v
/-- Texts for yes and for no, in any case. -/
def Yes (t : Str) : Prop := String.ofList (t.map Char.toLower) ∈ ["1", "yes", "true", "on"]
def No (t : Str) : Prop := String.ofList (t.map Char.toLower) ∈ ["0", "no", "false", "off"]
/-- The value of a Boolean option with default `d`. -/
def IsBool (f : File) (o : Str) (d v : Bool) : Prop := (Absent f o ∧ v = d) ∨ ∃ t, Sets f o t ∧ ((v = true ∧ Yes t) ∨ (v = false ∧ No t))
/-- The value of an option with a number. -/
def IsInt (f : File) (o : Str) (d v : Int) : Prop := (Absent f o ∧ v = d) ∨ ∃ t, Sets f o t ∧ pyInt t = some v

/-- The parts of a comma-separated text that are not empty, without blanks around them. -/
def IsList (t : Str) (l : List Str) : Prop := ∃ items, ItemsOf t items ∧ l = (items.filter fun i => decide (i ≠ [])).map strip

/-- The known policies. -/
def KnownPolicy (p : Str) : Prop := String.ofList p ∈ ["requireuser", "requiretrace", "aggregator", "allowhairpin"]

/-- A section is named `t:n`, or `t` (and `n` is empty). -/
def Section (s t n : Str) : Prop := (':' ∉ s ∧ t = s ∧ n = []) ∨ (s = t ++ ':' :: n ∧ ':' ∉ t ∧ ':' ∉ n)

/-- The known types of backends. -/
def KnownBackend (t : Str) : Prop := String.ofList t ∈ ["dud", "juniperex", "junipervpls", "junosmx", "force10", "brocade", "ncsvpn", "pica8ovs", "oess", "junosspace", "junosex",
  "custombackend", "asyncfail"]

/-- The settings of a backend are those in its section, and its type. -/
def ConfOf (opts : List (Str × Option Str)) (t : Str) (conf : List (Str × Str)) : Prop :=
  dget conf kType = some t ∧ ∀ o, o ≠ kType → ∀ v, dget conf o = some v ↔ dget opts o = some (some v)

/-- What the verified configuration has to be; the names of the options are those of config.py:41-67, written out. -/
structure Reads (ex : Str → Bool) (f : File) (vc : Vc) : Prop where
  domain : Sets f ['d', 'o', 'm', 'a', 'i', 'n'] vc.domain
  logfile : IsOr f ['l', 'o', 'g', 'f', 'i', 'l', 'e'] "/var/log/opennsa.log".toList vc.logfile
  rest : IsBool f ['r', 'e', 's', 't'] false vc.rest
  peers : (Absent f ['p', 'e', 'e', 'r', 's'] ∧ vc.peers = none) ∨ ∃ t items, Sets f ['p', 'e', 'e', 'r', 's'] t ∧ items ≠ [] ∧ (∀ i ∈ items, '\n' ∉ i) ∧ t = joinWith '\n' items ∧ vc.peers = some (items.map strip)
  host : IsOpt f ['h', 'o', 's', 't'] vc.host
  tls : IsBool f ['t', 'l', 's'] true vc.tls
  port : IsInt f ['p', 'o', 'r', 't'] (if vc.tls then 9443 else 9080) vc.port
  baseUrl : IsOpt f ['b', 'a', 's', 'e', '_', 'u', 'r', 'l'] vc.baseUrl
  key : IsOpt f ['k', 'e', 'y'] vc.key
  certificate : IsOpt f ['c', 'e', 'r', 't', 'i', 'f', 'i', 'c', 'a', 't', 'e'] vc.certificate
  policy : (Absent f ['p', 'o', 'l', 'i', 'c', 'y'] ∧ vc.policy = []) ∨ ∃ t, Sets f ['p', 'o', 'l', 'i', 'c', 'y'] t ∧ ItemsOf t vc.policy ∧ ∀ p ∈ vc.policy, KnownPolicy p
  plugin : IsOpt f ['p', 'l', 'u', 'g', 'i', 'n'] vc.plugin
  database : Sets f ['d', 'a', 't', 'a', 'b', 'a', 's', 'e'] vc.database
  dbUser : Sets f ['d', 'b', 'u', 's', 'e', 'r'] vc.dbUser
  dbPassword : IsOpt f ['d', 'b', 'p', 'a', 's', 's', 'w', 'o', 'r', 'd'] vc.dbPassword
  dbHost : IsOr f ['d', 'b', 'h', 'o', 's', 't'] "localhost".toList vc.dbHost
  serviceId : IsOpt f ['s', 'e', 'r', 'v', 'i', 'c', 'e', 'i', 'd', '_', 's', 't', 'a', 'r', 't'] vc.serviceId
  certdir : (Absent f ['c', 'e', 'r', 't', 'd', 'i', 'r'] ∧ vc.certdir = "/etc/ssl/certs".toList) ∨ (Sets f ['c', 'e', 'r', 't', 'd', 'i', 'r'] vc.certdir ∧ ex vc.certdir = true)
  verify : IsBool f ['v', 'e', 'r', 'i', 'f', 'y'] true vc.verify
  tlsFiles : vc.tls = true → (∃ t, vc.key = some t ∧ t ≠ [] ∧ ex t = true) ∧ ∃ t, vc.certificate = some t ∧ t ≠ [] ∧ ex t = true
  hosts : ∀ t, vc.tls = true → Sets f ['a', 'l', 'l', 'o', 'w', 'e', 'd', 'h', 'o', 's', 't', 's'] t → ∃ l, vc.allowedHosts = some l ∧ IsList t l
  noHosts : Absent f ['a', 'l', 'l', 'o', 'w', 'e', 'd', 'h', 'o', 's', 't', 's'] → vc.allowedHosts = none
  admins : (Absent f ['a', 'l', 'l', 'o', 'w', 'e', 'd', '_', 'a', 'd', 'm', 'i', 'n', 's'] ∧ vc.admins = []) ∨ ∃ t, Sets f ['a', 'l', 'l', 'o', 'w', 'e', 'd', '_', 'a', 'd', 'm', 'i', 'n', 's'] t ∧ IsList t vc.admins
  backends : ∀ s opts t n, (s, opts) ∈ f.sections → Section s t n → KnownBackend t → ∃ conf, dget vc.backends n = some conf ∧ ConfOf opts t conf
  onlyBackends : ∀ n conf, dget vc.backends n = some conf → ∃ s opts t, (s, opts) ∈ f.sections ∧ Section s t n ∧ KnownBackend t ∧ ConfOf opts t conf

/-! ### Lemmas -/

theorem bind_ok {α β ε : Type} {x : Except ε α} {g : α → Except ε β} {b : β} : (x >>= g) = .ok b ↔ ∃ a, x = .ok a ∧ g a = .ok b := by
  cases x with
  | error e => simp [bind, Except.bind]
  | ok a => simp [bind, Except.bind]

theorem get_ok {f : File} {o : Str} {v : Option Str} : get f o = .ok v ↔ IsOpt f o v := by
  unfold get IsOpt Absent Sets
  split
  · rename_i h; simp [h, eq_comm]
  · rename_i h; simp [h]
  · rename_i t h; simp [h, eq_comm]

theorem mandatory_ok {f : File} {o t : Str} : mandatory f o = .ok t ↔ Sets f o t := by
  unfold mandatory get Sets
  cases dget f.service o with
  | none => simp
  | some v => cases v <;> simp

theorem getDefault_ok {f : File} {o d t : Str} : getDefault f o d = .ok t ↔ IsOr f o d t := by
  unfold getDefault get IsOr Absent Sets
  cases dget f.service o with
  | none => simp [eq_comm]
  | some v => cases v <;> simp

theorem forbidden_ok {f : File} {o : Str} {u : Unit} : forbidden f o = .ok u ↔ Absent f o := by
  unfold forbidden get Absent
  cases dget f.service o with
  | none => simp
  | some v => cases v <;> simp

theorem ofList_eq_iff (l : Str) (s : String) : String.ofList l = s ↔ l = s.toList := by
  constructor
  · rintro rfl; simp
  · rintro rfl; simp

theorem boolOf_ok {t : Str} {b : Bool} : boolOf t = some b ↔ (b = true ∧ Yes t) ∨ (b = false ∧ No t) := by
  have hy : Yes t ↔ t.map Char.toLower ∈ [['1'], ['y','e','s'], ['t','r','u','e'], ['o','n']] := by
    simp only [Yes, List.mem_cons, ofList_eq_iff, List.not_mem_nil, or_false]; rfl
  have hn : No t ↔ t.map Char.toLower ∈ [['0'], ['n','o'], ['f','a','l','s','e'], ['o','f','f']] := by
    simp only [No, List.mem_cons, ofList_eq_iff, List.not_mem_nil, or_false]; rfl
  rw [hy, hn]
  unfold boolOf
  by_cases h1 : t.map Char.toLower ∈ [['1'], ['y','e','s'], ['t','r','u','e'], ['o','n']]
  · have h2 : t.map Char.toLower ∉ [['0'], ['n','o'], ['f','a','l','s','e'], ['o','f','f']] := by
      intro h2
      simp only [List.mem_cons, List.not_mem_nil, or_false] at h1 h2
      rcases h1 with h | h | h | h <;> rw [h] at h2 <;> revert h2 <;> decide
    simp only [h1, h2, if_true, Option.some.injEq, and_true, and_false, or_false, eq_comm]
  · by_cases h2 : t.map Char.toLower ∈ [['0'], ['n','o'], ['f','a','l','s','e'], ['o','f','f']]
    · simp only [h1, h2, if_true, if_false, Option.some.injEq, and_true, and_false, false_or, eq_comm]
    · simp [h1, h2]

theorem getBool_ok {f : File} {o : Str} {d v : Bool} : getBool f o d = .ok v ↔ IsBool f o d v := by
  unfold getBool get IsBool Absent Sets
  cases dget f.service o with
  | none => simp [eq_comm]
  | some x =>
    cases x with
    | none => simp
    | some t =>
      simp only [Option.some.injEq, reduceCtorEq, false_and, false_or, exists_eq_left', ← boolOf_ok]
      cases boolOf t <;> simp

theorem getInt_ok {f : File} {o : Str} {d v : Int} : getInt f o d = .ok v ↔ IsInt f o d v := by
  unfold getInt get IsInt Absent Sets
  cases dget f.service o with
  | none => simp [eq_comm]
  | some x =>
    cases x with
    | none => simp
    | some t =>
      simp only [Option.some.injEq, reduceCtorEq, false_and, false_or, exists_eq_left']
      cases pyInt t <;> simp

theorem known_policy {p : Str} : policies.contains p = true ↔ KnownPolicy p := by
  simp only [List.contains_iff_mem, KnownPolicy, policies, List.mem_cons, ofList_eq_iff, List.not_mem_nil, or_false]; rfl

theorem known_backend {t : Str} : backendTypes.contains t = true ↔ KnownBackend t := by
  simp only [List.contains_iff_mem, KnownBackend, backendTypes, List.mem_cons, ofList_eq_iff, List.not_mem_nil, or_false]; rfl

theorem getPolicy_ok {f : File} {l : List Str} :
    getPolicy f = .ok l ↔ (Absent f oPolicy ∧ l = []) ∨ ∃ t, Sets f oPolicy t ∧ ItemsOf t l ∧ ∀ p ∈ l, KnownPolicy p := by
  unfold getPolicy get Absent Sets
  cases dget f.service oPolicy with
  | none => simp [eq_comm]
  | some x =>
    cases x with
    | none => simp
    | some t =>
      simp only [Option.some.injEq, reduceCtorEq, false_and, false_or, exists_eq_left']
      constructor
      · intro h
        split at h
        · rename_i hk
          cases h
          exact ⟨itemsOf_splitOn t, fun p hp => known_policy.1 (List.all_eq_true.1 hk p hp)⟩
        · cases h
      · rintro ⟨h, hk⟩
        rw [h.splitOn_eq, if_pos (List.all_eq_true.2 fun p hp => known_policy.2 (hk p hp))]

theorem getPeers_ok {f : File} {v : Option (List Str)} :
    getPeers f = .ok v ↔ (Absent f oPeers ∧ v = none) ∨ ∃ t items, Sets f oPeers t ∧ items ≠ [] ∧ (∀ i ∈ items, '\n' ∉ i) ∧ t = joinWith '\n' items ∧ v = some (items.map strip) := by
  unfold getPeers get Absent Sets
  cases dget f.service oPeers with
  | none => simp [eq_comm]
  | some x =>
    cases x with
    | none => simp
    | some t =>
      simp only [Option.some.injEq, reduceCtorEq, false_and, false_or, Except.ok.injEq]
      constructor
      · rintro rfl
        exact ⟨t, _, rfl, splitOn_ne_nil '\n' t, (splitOn_items '\n' t).1, (splitOn_items '\n' t).2.symm, rfl⟩
      · rintro ⟨_, items, rfl, hne, hi, rfl, rfl⟩
        rw [splitOn_joinWith hne hi]

theorem entries_list (t : Str) : IsList t (entries t) := ⟨_, itemsOf_splitOn t, rfl⟩

theorem sectionName_ok {s t n : Str} : sectionName s = .ok (t, n) ↔ Section s t n := by
  unfold sectionName Section
  constructor
  · intro h
    obtain ⟨hi, hj⟩ := splitOn_items ':' s
    split at h
    · rename_i a ha
      simp only [Except.ok.injEq, Prod.mk.injEq] at h
      obtain ⟨rfl, rfl⟩ := h
      rw [ha] at hi hj
      simp only [joinWith] at hj
      subst hj
      exact Or.inl ⟨hi a (by simp), rfl, rfl⟩
    · rename_i a b hab
      simp only [Except.ok.injEq, Prod.mk.injEq] at h
      obtain ⟨rfl, rfl⟩ := h
      rw [hab] at hi hj
      simp only [joinWith] at hj
      exact Or.inr ⟨hj.symm, hi a (by simp), hi b (by simp)⟩
    · cases h
  · rintro (⟨h, rfl, rfl⟩ | ⟨rfl, h1, h2⟩)
    · rw [splitOn_no_sep h]
    · have : splitOn ':' (t ++ ':' :: n) = [t, n] :=
        splitOn_joinWith (c := ':') (parts := [t, n]) (by simp) (by intro p hp; rcases List.mem_cons.1 hp with rfl | hp; exact h1; rw [List.mem_singleton] at hp; subst hp; exact h2)
      rw [this]

theorem Section.unique {s t n t' n' : Str} (h : Section s t n) (h' : Section s t' n') : t = t' ∧ n = n' := by
  have a := sectionName_ok.2 h
  have b := sectionName_ok.2 h'
  rw [a] at b
  simpa using b

theorem items_ok {opts : List (Str × Option Str)} {l : List (Str × Str)} : items opts = .ok l ↔ opts = l.map fun x => (x.1, some x.2) := by
  induction opts generalizing l with
  | nil => cases l <;> simp [items]
  | cons x r ih =>
    obtain ⟨o, v⟩ := x
    cases v with
    | none => cases l <;> simp [items]
    | some t =>
      unfold items
      cases hr : items r with
      | error e =>
        simp only [reduceCtorEq, false_iff]
        intro h
        cases l with
        | nil => simp at h
        | cons y l =>
          simp only [List.map_cons, List.cons.injEq] at h
          rw [ih.2 h.2] at hr; cases hr
      | ok m =>
        simp only [Except.ok.injEq]
        have hm := ih.1 hr
        constructor
        · rintro rfl; simp [hm]
        · intro h
          cases l with
          | nil => simp at h
          | cons y l =>
            simp only [List.map_cons, List.cons.injEq, Prod.mk.injEq, Option.some.injEq] at h
            have := ih.2 h.2
            rw [hr] at this
            cases this
            rw [h.1.1, h.1.2]

theorem dget_items {l : List (Str × Str)} (o v : Str) : dget (l.map fun x => (x.1, some x.2)) o = some (some v) ↔ dget l o = some v := by
  induction l with
  | nil => simp [dget]
  | cons x l ih =>
    simp only [List.map_cons, dget]
    split <;> simp_all

theorem confOf_items {opts : List (Str × Option Str)} {l : List (Str × Str)} (h : items opts = .ok l) (t : Str) : ConfOf opts t (dset l kType t) := by
  rw [items_ok] at h
  subst h
  refine ⟨by rw [dget_dset]; simp, fun o ho v => ?_⟩
  rw [dget_dset, if_neg (Ne.symm ho), dget_items]

theorem loadBackends_ok {secs : List (Str × List (Str × Option Str))} {b0 b : Backends} (h : loadBackends secs b0 = .ok b) :
    (∀ n c, dget b0 n = some c → dget b n = some c) ∧
    (∀ s opts t n, (s, opts) ∈ secs → Section s t n → KnownBackend t → ∃ conf, dget b n = some conf ∧ ConfOf opts t conf) ∧
    (∀ n conf, dget b n = some conf → dget b0 n = some conf ∨ ∃ s opts t, (s, opts) ∈ secs ∧ Section s t n ∧ KnownBackend t ∧ ConfOf opts t conf) := by
  induction secs generalizing b0 with
  | nil =>
    cases h
    exact ⟨fun _ _ h => h, fun _ _ _ _ hm => absurd hm List.not_mem_nil, fun n c h => Or.inl h⟩
  | cons x r ih =>
    obtain ⟨s, opts⟩ := x
    unfold loadBackends at h
    split at h
    · cases h
    · rename_i t n hs
      have hsec := sectionName_ok.1 hs
      split at h
      · cases h
      · rename_i hfree
        split at h
        · rename_i hk
          rw [known_backend] at hk
          split at h
          · cases h
          · rename_i l hl
            obtain ⟨h1, h2, h3⟩ := ih h
            have hconf := confOf_items hl t
            refine ⟨?_, ?_, ?_⟩
            · intro m c hm
              apply h1
              rw [dget_dset, if_neg]
              · exact hm
              · rintro rfl
                exact hfree (by simp [dmem, hm])
            · intro s' opts' t' n' hm hs' hk'
              rcases List.mem_cons.1 hm with he | hm
              · cases he
                obtain ⟨rfl, rfl⟩ := hsec.unique hs'
                exact ⟨_, h1 _ _ (by rw [dget_dset, if_pos rfl]), hconf⟩
              · exact h2 s' opts' t' n' hm hs' hk'
            · intro m c hm
              rcases h3 m c hm with h' | ⟨s', opts', t', hm', hr⟩
              · rw [dget_dset] at h'
                split at h'
                · rename_i e
                  subst e
                  cases h'
                  exact Or.inr ⟨s, opts, t, List.mem_cons_self, hsec, hk, hconf⟩
                · exact Or.inl h'
              · exact Or.inr ⟨s', opts', t', List.mem_cons_of_mem _ hm', hr⟩
        · rename_i hk
          rw [known_backend] at hk
          obtain ⟨h1, h2, h3⟩ := ih h
          refine ⟨h1, ?_, ?_⟩
          · intro s' opts' t' n' hm hs' hk'
            rcases List.mem_cons.1 hm with he | hm
            · cases he
              obtain ⟨rfl, rfl⟩ := hsec.unique hs'
              exact absurd hk' hk
            · exact h2 s' opts' t' n' hm hs' hk'
          · intro m c hm
            rcases h3 m c hm with h' | ⟨s', opts', t', hm', hr⟩
            · exact Or.inl h'
            · exact Or.inr ⟨s', opts', t', List.mem_cons_of_mem _ hm', hr⟩

theorem tlsFile_ok {ex : Str → Bool} {v : Option Str} {u : Unit} : tlsFile ex v = .ok u ↔ ∃ t, v = some t ∧ t ≠ [] ∧ ex t = true := by
  cases v with
  | none => simp [tlsFile]
  | some t =>
    simp only [tlsFile, Option.some.injEq, exists_eq_left']
    by_cases h : t = []
    · simp [h]
    · cases hx : ex t <;> simp [h]

theorem getTls_ok {ex : Str → Bool} {f : File} {tls : Bool} {k c : Option Str} {v : Option (List Str)} :
    getTls ex f tls k c = .ok v ↔ (tls = false ∧ v = none) ∨
      (tls = true ∧ (∃ t, k = some t ∧ t ≠ [] ∧ ex t = true) ∧ (∃ t, c = some t ∧ t ≠ [] ∧ ex t = true) ∧ v = getHosts f) := by
  unfold getTls
  cases tls with
  | false =>
    simp only [Bool.false_eq_true, if_false, Except.ok.injEq, true_and, false_and, or_false]
    exact eq_comm
  | true =>
    simp only [if_true, Bool.true_eq_false, false_and, true_and, false_or]
    cases hk : tlsFile ex k with
    | error e =>
      simp only [reduceCtorEq, false_iff]
      rintro ⟨h, _⟩
      rw [tlsFile_ok (u := ()) |>.2 h] at hk; cases hk
    | ok u =>
      cases hc : tlsFile ex c with
      | error e =>
        simp only [reduceCtorEq, false_iff]
        rintro ⟨_, h, _⟩
        rw [tlsFile_ok (u := ()) |>.2 h] at hc; cases hc
      | ok u' =>
        simp only [Except.ok.injEq]
        exact ⟨fun h => ⟨tlsFile_ok.1 hk, tlsFile_ok.1 hc, h.symm⟩, fun h => h.2.2.symm⟩

theorem getCertdir_ok {ex : Str → Bool} {f : File} {t : Str} :
    getCertdir ex f = .ok t ↔ (Absent f oCertdir ∧ t = dCertdir) ∨ (Sets f oCertdir t ∧ ex t = true) := by
  unfold getCertdir get Absent Sets
  cases dget f.service oCertdir with
  | none =>
    simp only [Except.ok.injEq, true_and, reduceCtorEq, false_and, or_false]
    exact eq_comm
  | some x =>
    cases x with
    | none => simp
    | some s =>
      simp only [Option.some.injEq, reduceCtorEq, false_and, false_or]
      cases hx : ex s
      · simp only [Bool.false_eq_true, if_false, reduceCtorEq, false_iff]
        rintro ⟨rfl, h⟩
        rw [hx] at h; cases h
      · simp only [if_true, Except.ok.injEq]
        constructor
        · rintro rfl; exact ⟨rfl, hx⟩
        · rintro ⟨rfl, _⟩; rfl

/-! ### Claims -/

/-- **C69, values.** What is accepted is read as written: every value is the one of the file or the documented default. -/
theorem C69_values (ex : Str → Bool) (f : File) (vc : Vc) (h : load ex f = .ok vc) : Reads ex f vc ∧ Absent f oNrmmap ∧ Absent f oNetwork := by
  simp only [load, bind_ok, pure, Except.pure, forbidden_ok, mandatory_ok, getDefault_ok, getBool_ok, getPeers_ok, get_ok, getInt_ok, getPolicy_ok, getCertdir_ok, getTls_ok,
    Except.ok.injEq] at h
  obtain ⟨_, hnrm, domain, h1, _, hnet, logfile, h2, rest, h3, peers, h4, host, h5, tls, h6, port, h7, baseUrl, h8, key, h9, cert, h10, policy, h11, plugin, h12, db, h13, dbu, h14,
    dbp, h15, dbh, h16, sid, h17, cd, h18, ver, h19, hosts, h20, adm, h21, b, h22, rfl⟩ := h
  obtain ⟨_, hb1, hb2⟩ := loadBackends_ok h22
  refine ⟨⟨h1, h2, h3, h4, h5, h6, h7, h8, h9, h10, h11, h12, h13, h14, h15, h16, h17, h18, h19, ?_, ?_, ?_, ?_, hb1, ?_⟩, hnrm, hnet⟩
  · intro ht
    rcases h20 with ⟨h, _⟩ | ⟨_, h, h', _⟩
    · simp only at ht; rw [h] at ht; cases ht
    · exact ⟨h, h'⟩
  · intro t ht hs
    rcases h20 with ⟨h, _⟩ | ⟨_, _, _, rfl⟩
    · simp only at ht; rw [h] at ht; cases ht
    · refine ⟨entries t, ?_, entries_list t⟩
      have : get f oAllowedHosts = .ok (some t) := get_ok.2 (Or.inr ⟨t, hs, rfl⟩)
      simp only [getHosts, this]
  · intro ha
    rcases h20 with ⟨_, rfl⟩ | ⟨_, _, _, rfl⟩
    · rfl
    · have : get f oAllowedHosts = .ok none := get_ok.2 (Or.inl ⟨ha, rfl⟩)
      simp only [getHosts, this]
  · rcases h21 with ⟨h, rfl⟩ | h
    · exact Or.inl ⟨h, rfl⟩
    · exact Or.inr ⟨adm, h, entries_list adm⟩
  · intro n conf hd
    rcases hb2 n conf hd with h | h
    · cases h
    · exact h

/-- **C69, administrators.** Exactly the requesters in the list may see everything. -/
theorem C69_admins (ex : Str → Bool) (f : File) (vc : Vc) (h : load ex f = .ok vc) (urn : Str) :
    isAdmin vc urn = true ↔ ∃ t items, Sets f oAllowedAdmins t ∧ ItemsOf t items ∧ ∃ i ∈ items, i ≠ [] ∧ strip i = urn := by
  have hr := (C69_values ex f vc h).1.admins
  change (Absent f oAllowedAdmins ∧ vc.admins = []) ∨ ∃ t, Sets f oAllowedAdmins t ∧ IsList t vc.admins at hr
  simp only [isAdmin, List.any_eq_true, decide_eq_true_eq, exists_eq_right]
  rcases hr with ⟨ha, he⟩ | ⟨t, hs, items, hi, he⟩
  · rw [he]
    simp only [List.not_mem_nil, false_iff]
    rintro ⟨t, _, hs, _⟩
    unfold Absent at ha; unfold Sets at hs
    rw [ha] at hs; cases hs
  · rw [he]
    simp only [List.mem_map, List.mem_filter, decide_eq_true_eq]
    constructor
    · rintro ⟨i, ⟨h1, h2⟩, h3⟩
      exact ⟨t, items, hs, hi, i, h1, h2, h3⟩
    · rintro ⟨t', items', hs', hi', i, h1, h2, h3⟩
      unfold Sets at hs hs'
      rw [hs] at hs'
      cases hs'
      have : items' = items := by rw [← hi'.splitOn_eq, hi.splitOn_eq]
      subst this
      exact ⟨i, ⟨h1, h2⟩, h3⟩

/-- The option can be read: it is not there, or its text can be interpolated. -/
def Readable (f : File) (o : Str) : Prop := dget f.service o ≠ some none

/-- The sections of the backends are in order: names have at most one colon, a name is not used again after a backend has it, and the settings of backends can
be read. -/
structure SectionsOk (secs : List (Str × List (Str × Option Str))) : Prop where
  named : ∀ s ∈ secs, ∃ t n, Section s.1 t n
  once : secs.Pairwise fun a b => ∀ t n t' n', Section a.1 t n → Section b.1 t' n' → KnownBackend t → n ≠ n'
  readable : ∀ s ∈ secs, ∀ t n, Section s.1 t n → KnownBackend t → ∀ o ∈ s.2, o.2 ≠ none

/-- The conditions under which a file is accepted. -/
structure Acceptable (ex : Str → Bool) (f : File) : Prop where
  nrmmap : Absent f oNrmmap
  network : Absent f oNetwork
  domain : ∃ t, Sets f oDomain t
  database : ∃ t, Sets f oDatabase t
  dbUser : ∃ t, Sets f oDbuser t
  readable : ∀ o ∈ [oLogfile, oPeers, oHost, oBaseUrl, oKey, oCertificate, oPlugin, oDbpassword, oDbhost, oServiceId, oAllowedAdmins], Readable f o
  booleans : ∀ o ∈ [oRest, oTls, oVerify], Absent f o ∨ ∃ t, Sets f o t ∧ (Yes t ∨ No t)
  port : Absent f oPort ∨ ∃ t i, Sets f oPort t ∧ pyInt t = some i
  policy : Absent f oPolicy ∨ ∃ t items, Sets f oPolicy t ∧ ItemsOf t items ∧ ∀ p ∈ items, KnownPolicy p
  certdir : Absent f oCertdir ∨ ∃ t, Sets f oCertdir t ∧ ex t = true
  tls : (∃ t, Sets f oTls t ∧ No t) ∨ ((∃ t, Sets f oKey t ∧ t ≠ [] ∧ ex t = true) ∧ ∃ t, Sets f oCertificate t ∧ t ≠ [] ∧ ex t = true)
  sections : SectionsOk f.sections

theorem isOpt_exists {f : File} {o : Str} : (∃ v, IsOpt f o v) ↔ Readable f o := by
  unfold IsOpt Readable Absent Sets
  cases dget f.service o with
  | none => simp
  | some x => cases x <;> simp

theorem isOr_exists {f : File} {o d : Str} : (∃ v, IsOr f o d v) ↔ Readable f o := by
  unfold IsOr Readable Absent Sets
  cases dget f.service o with
  | none => simp
  | some x => cases x <;> simp

theorem isBool_exists {f : File} {o : Str} {d : Bool} : (∃ v, IsBool f o d v) ↔ (Absent f o ∨ ∃ t, Sets f o t ∧ (Yes t ∨ No t)) := by
  constructor
  · rintro ⟨v, ⟨h, _⟩ | ⟨t, h, ⟨_, h'⟩ | ⟨_, h'⟩⟩⟩
    · exact Or.inl h
    · exact Or.inr ⟨t, h, Or.inl h'⟩
    · exact Or.inr ⟨t, h, Or.inr h'⟩
  · rintro (h | ⟨t, h, h' | h'⟩)
    · exact ⟨d, Or.inl ⟨h, rfl⟩⟩
    · exact ⟨true, Or.inr ⟨t, h, Or.inl ⟨rfl, h'⟩⟩⟩
    · exact ⟨false, Or.inr ⟨t, h, Or.inr ⟨rfl, h'⟩⟩⟩

theorem items_exists {opts : List (Str × Option Str)} : (∃ l, items opts = .ok l) ↔ ∀ o ∈ opts, o.2 ≠ none := by
  constructor
  · rintro ⟨l, h⟩ o ho
    rw [items_ok.1 h] at ho
    obtain ⟨x, _, rfl⟩ := List.mem_map.1 ho
    simp
  · intro h
    induction opts with
    | nil => exact ⟨[], rfl⟩
    | cons x r ih =>
      obtain ⟨l, hl⟩ := ih fun o ho => h o (List.mem_cons_of_mem _ ho)
      obtain ⟨o, v⟩ := x
      cases v with
      | none => exact absurd rfl (h (o, none) List.mem_cons_self)
      | some t => exact ⟨(o, t) :: l, by simp [items, hl]⟩

theorem loadBackends_exists {secs : List (Str × List (Str × Option Str))} {b0 : Backends} :
    (∃ b, loadBackends secs b0 = .ok b) ↔ SectionsOk secs ∧ ∀ s ∈ secs, ∀ t n, Section s.1 t n → dmem b0 n = false := by
  induction secs generalizing b0 with
  | nil => exact ⟨fun _ => ⟨⟨by simp, .nil, by simp⟩, by simp⟩, fun _ => ⟨b0, rfl⟩⟩
  | cons x r ih =>
    obtain ⟨s, opts⟩ := x
    constructor
    · rintro ⟨b, h⟩
      unfold loadBackends at h
      split at h
      · cases h
      · rename_i t n hs
        have hsec := sectionName_ok.1 hs
        split at h
        · cases h
        · rename_i hfree
          split at h
          · rename_i hk
            rw [known_backend] at hk
            split at h
            · cases h
            · rename_i l hl
              obtain ⟨hok, hf⟩ := ih.1 ⟨b, h⟩
              have hmem : ∀ m, dmem (dset b0 n (dset l kType t)) m = false → n ≠ m ∧ dmem b0 m = false := by
                intro m hm
                simp only [dmem, dget_dset] at hm
                split at hm
                · simp at hm
                · rename_i hne; exact ⟨hne, hm⟩
              refine ⟨⟨?_, ?_, ?_⟩, ?_⟩
              · intro y hy
                rcases List.mem_cons.1 hy with rfl | hy
                · exact ⟨t, n, hsec⟩
                · exact hok.named y hy
              · refine List.pairwise_cons.2 ⟨fun y hy t1 n1 t2 n2 h1 h2 _ => ?_, hok.once⟩
                obtain ⟨rfl, rfl⟩ := hsec.unique h1
                exact (hmem n2 (hf y hy t2 n2 h2)).1
              · intro y hy t1 n1 h1 h2
                rcases List.mem_cons.1 hy with rfl | hy
                · exact items_exists.1 ⟨l, hl⟩
                · exact hok.readable y hy t1 n1 h1 h2
              · intro y hy t1 n1 h1
                rcases List.mem_cons.1 hy with rfl | hy
                · obtain ⟨rfl, rfl⟩ := hsec.unique h1
                  simpa using hfree
                · exact (hmem n1 (hf y hy t1 n1 h1)).2
          · rename_i hk
            rw [known_backend] at hk
            obtain ⟨hok, hf⟩ := ih.1 ⟨b, h⟩
            refine ⟨⟨?_, ?_, ?_⟩, ?_⟩
            · intro y hy
              rcases List.mem_cons.1 hy with rfl | hy
              · exact ⟨t, n, hsec⟩
              · exact hok.named y hy
            · refine List.pairwise_cons.2 ⟨fun y hy t1 n1 t2 n2 h1 h2 hk' => ?_, hok.once⟩
              obtain ⟨rfl, rfl⟩ := hsec.unique h1
              exact absurd hk' hk
            · intro y hy t1 n1 h1 h2
              rcases List.mem_cons.1 hy with rfl | hy
              · obtain ⟨rfl, rfl⟩ := hsec.unique h1
                exact absurd h2 hk
              · exact hok.readable y hy t1 n1 h1 h2
            · intro y hy t1 n1 h1
              rcases List.mem_cons.1 hy with rfl | hy
              · obtain ⟨rfl, rfl⟩ := hsec.unique h1
                simpa using hfree
              · exact hf y hy t1 n1 h1
    · rintro ⟨hok, hf⟩
      obtain ⟨t, n, hsec⟩ := hok.named (s, opts) List.mem_cons_self
      have hr : SectionsOk r := ⟨fun y hy => hok.named y (List.mem_cons_of_mem _ hy), (List.pairwise_cons.1 hok.once).2, fun y hy => hok.readable y (List.mem_cons_of_mem _ hy)⟩
      unfold loadBackends
      rw [sectionName_ok.2 hsec]
      simp only [hf (s, opts) List.mem_cons_self t n hsec, Bool.false_eq_true, if_false]
      by_cases hk : backendTypes.contains t = true
      · simp only [hk, if_true]
        obtain ⟨l, hl⟩ := items_exists.2 (hok.readable (s, opts) List.mem_cons_self t n hsec (known_backend.1 hk))
        simp only [hl]
        refine ih.2 ⟨hr, fun y hy t1 n1 h1 => ?_⟩
        have hne := (List.pairwise_cons.1 hok.once).1 y hy t n t1 n1 hsec h1 (known_backend.1 hk)
        have := hf y (List.mem_cons_of_mem _ hy) t1 n1 h1
        simp only [dmem, dget_dset, if_neg hne] at this ⊢
        exact this
      · simp only [hk]
        exact ih.2 ⟨hr, fun y hy => hf y (List.mem_cons_of_mem _ hy)⟩

/-- **C69, acceptance.** The exact conditions under which a file is accepted. -/
theorem C69_accepted (ex : Str → Bool) (f : File) : (∃ vc, load ex f = .ok vc) ↔ Acceptable ex f := by
  simp only [load, bind_ok, pure, Except.pure, forbidden_ok, mandatory_ok, getDefault_ok, getBool_ok, getPeers_ok, get_ok, getInt_ok, getPolicy_ok, getCertdir_ok, getTls_ok,
    Except.ok.injEq]
  constructor
  · rintro ⟨vc, _, hnrm, domain, h1, _, hnet, logfile, h2, rest, h3, peers, h4, host, h5, tls, h6, port, h7, baseUrl, h8, key, h9, cert, h10, policy, h11, plugin, h12, db, h13, dbu,
      h14, dbp, h15, dbh, h16, sid, h17, cd, h18, ver, h19, hosts, h20, adm, h21, b, h22, rfl⟩
    refine ⟨hnrm, hnet, ⟨_, h1⟩, ⟨_, h13⟩, ⟨_, h14⟩, ?_, ?_, ?_, ?_, ?_, ?_, (loadBackends_exists.1 ⟨b, h22⟩).1⟩
    · intro o ho
      simp only [List.mem_cons, List.not_mem_nil, or_false] at ho
      rcases ho with rfl | rfl | rfl | rfl | rfl | rfl | rfl | rfl | rfl | rfl | rfl
      · exact isOr_exists.1 ⟨_, h2⟩
      · rcases h4 with ⟨h, _⟩ | ⟨t, _, h, _⟩
        · unfold Absent at h; unfold Readable; rw [h]; simp
        · unfold Sets at h; unfold Readable; rw [h]; simp
      · exact isOpt_exists.1 ⟨_, h5⟩
      · exact isOpt_exists.1 ⟨_, h8⟩
      · exact isOpt_exists.1 ⟨_, h9⟩
      · exact isOpt_exists.1 ⟨_, h10⟩
      · exact isOpt_exists.1 ⟨_, h12⟩
      · exact isOpt_exists.1 ⟨_, h15⟩
      · exact isOr_exists.1 ⟨_, h16⟩
      · exact isOpt_exists.1 ⟨_, h17⟩
      · exact isOr_exists.1 ⟨_, h21⟩
    · intro o ho
      simp only [List.mem_cons, List.not_mem_nil, or_false] at ho
      rcases ho with rfl | rfl | rfl
      · exact isBool_exists.1 ⟨_, h3⟩
      · exact isBool_exists.1 ⟨_, h6⟩
      · exact isBool_exists.1 ⟨_, h19⟩
    · rcases h7 with ⟨h, _⟩ | ⟨t, h, h'⟩
      · exact Or.inl h
      · exact Or.inr ⟨t, _, h, h'⟩
    · rcases h11 with ⟨h, _⟩ | ⟨t, h, h'⟩
      · exact Or.inl h
      · exact Or.inr ⟨t, _, h, h'⟩
    · rcases h18 with ⟨h, _⟩ | h
      · exact Or.inl h
      · exact Or.inr ⟨_, h⟩
    · rcases h20 with ⟨h, _⟩ | ⟨_, ⟨t, hk, hk'⟩, ⟨t', hc, hc'⟩, _⟩
      · rcases h6 with ⟨_, h'⟩ | ⟨t, hs, ⟨h', _⟩ | ⟨_, hn⟩⟩
        · rw [h] at h'; cases h'
        · rw [h] at h'; cases h'
        · exact Or.inl ⟨t, hs, hn⟩
      · subst hk hc
        right
        constructor
        · rcases h9 with ⟨_, h⟩ | ⟨_, h, he⟩
          · cases h
          · cases he; exact ⟨t, h, hk'⟩
        · rcases h10 with ⟨_, h⟩ | ⟨_, h, he⟩
          · cases h
          · cases he; exact ⟨t', h, hc'⟩
  · intro h
    obtain ⟨domain, h1⟩ := h.domain
    obtain ⟨db, h13⟩ := h.database
    obtain ⟨dbu, h14⟩ := h.dbUser
    obtain ⟨logfile, h2⟩ := isOr_exists.2 (h.readable oLogfile (by simp))
    obtain ⟨rest, h3⟩ := isBool_exists (d := false) |>.2 (h.booleans oRest (by simp))
    obtain ⟨peers, h4⟩ : ∃ v, getPeers f = .ok v := by
      have := h.readable oPeers (by simp)
      unfold Readable at this
      unfold getPeers get
      cases hd : dget f.service oPeers with
      | none => exact ⟨none, rfl⟩
      | some x =>
        cases x with
        | none => exact absurd hd this
        | some t => exact ⟨_, rfl⟩
    obtain ⟨host, h5⟩ := isOpt_exists.2 (h.readable oHost (by simp))
    obtain ⟨tls, h6⟩ := isBool_exists (d := true) |>.2 (h.booleans oTls (by simp))
    obtain ⟨port, h7⟩ : ∃ v, IsInt f oPort (if tls then 9443 else 9080) v := by
      rcases h.port with h | ⟨t, i, h, h'⟩
      · exact ⟨_, Or.inl ⟨h, rfl⟩⟩
      · exact ⟨i, Or.inr ⟨t, h, h'⟩⟩
    obtain ⟨baseUrl, h8⟩ := isOpt_exists.2 (h.readable oBaseUrl (by simp))
    obtain ⟨key, h9⟩ := isOpt_exists.2 (h.readable oKey (by simp))
    obtain ⟨cert, h10⟩ := isOpt_exists.2 (h.readable oCertificate (by simp))
    obtain ⟨policy, h11⟩ : ∃ l, (Absent f oPolicy ∧ l = []) ∨ ∃ t, Sets f oPolicy t ∧ ItemsOf t l ∧ ∀ p ∈ l, KnownPolicy p := by
      rcases h.policy with h | ⟨t, l, h⟩
      · exact ⟨[], Or.inl ⟨h, rfl⟩⟩
      · exact ⟨l, Or.inr ⟨t, h⟩⟩
    obtain ⟨plugin, h12⟩ := isOpt_exists.2 (h.readable oPlugin (by simp))
    obtain ⟨dbp, h15⟩ := isOpt_exists.2 (h.readable oDbpassword (by simp))
    obtain ⟨dbh, h16⟩ := isOr_exists.2 (h.readable oDbhost (by simp))
    obtain ⟨sid, h17⟩ := isOpt_exists.2 (h.readable oServiceId (by simp))
    obtain ⟨cd, h18⟩ : ∃ t, (Absent f oCertdir ∧ t = dCertdir) ∨ (Sets f oCertdir t ∧ ex t = true) := by
      rcases h.certdir with h | ⟨t, h⟩
      · exact ⟨_, Or.inl ⟨h, rfl⟩⟩
      · exact ⟨t, Or.inr h⟩
    obtain ⟨ver, h19⟩ := isBool_exists (d := true) |>.2 (h.booleans oVerify (by simp))
    obtain ⟨adm, h21⟩ := isOr_exists (d := []) |>.2 (h.readable oAllowedAdmins (by simp))
    obtain ⟨b, h22⟩ := loadBackends_exists (b0 := []) |>.2 ⟨h.sections, fun _ _ _ _ _ => rfl⟩
    obtain ⟨hosts, h20⟩ : ∃ v : Option (List Str), (tls = false ∧ v = none) ∨
        (tls = true ∧ (∃ t, key = some t ∧ t ≠ [] ∧ ex t = true) ∧ (∃ t, cert = some t ∧ t ≠ [] ∧ ex t = true) ∧ v = getHosts f) := by
      cases tls with
      | false => exact ⟨none, Or.inl ⟨rfl, rfl⟩⟩
      | true =>
        rcases h.tls with ⟨t, hs, hn⟩ | ⟨⟨t, hs, hk⟩, t', hs', hk'⟩
        · exfalso
          rcases h6 with ⟨ha, _⟩ | ⟨t', hs', ⟨_, hy⟩ | ⟨h', _⟩⟩
          · unfold Absent at ha; unfold Sets at hs; rw [ha] at hs; cases hs
          · unfold Sets at hs hs'
            rw [hs] at hs'
            cases hs'
            have a := boolOf_ok.2 (Or.inl ⟨rfl, hy⟩)
            have b := boolOf_ok.2 (Or.inr ⟨rfl, hn⟩)
            rw [a] at b; cases b
          · cases h'
        · refine ⟨_, Or.inr ⟨rfl, ⟨t, ?_, hk⟩, ⟨t', ?_, hk'⟩, rfl⟩⟩
          · rcases h9 with ⟨ha, _⟩ | ⟨x, hx, rfl⟩
            · unfold Absent at ha; unfold Sets at hs; rw [ha] at hs; cases hs
            · unfold Sets at hs hx; rw [hs] at hx; cases hx; rfl
          · rcases h10 with ⟨ha, _⟩ | ⟨x, hx, rfl⟩
            · unfold Absent at ha; unfold Sets at hs'; rw [ha] at hs'; cases hs'
            · unfold Sets at hs' hx; rw [hs'] at hx; cases hx; rfl
    exact ⟨_, (), h.nrmmap, domain, h1, (), h.network, logfile, h2, rest, h3, peers, getPeers_ok.1 h4, host, h5, tls, h6, port, h7, baseUrl, h8, key, h9, cert, h10, policy, h11, plugin, h12,
      db, h13, dbu, h14, dbp, h15, dbh, h16, sid, h17, cd, h18, ver, h19, hosts, h20, adm, h21, b, h22, rfl⟩

/-! ### Examples -/

namespace Ex
def s (x : String) : Str := x.toList
/-- A configuration as in test/test_config.py:85-104, with an administrator and policies. -/
def file : File := ⟨[(s "domain", some (s "aruba.net")), (s "host", some (s "dummy")), (s "logfile", some []), (s "rest", some (s "true")), (s "port", some (s "4080")),
    (s "peers", some (s "http://localhost:4081/NSI/discovery.xml")), (s "database", some (s "opennsa")), (s "dbuser", some (s "u")), (s "tls", some (s "False")),
    (s "policy", some (s "requireuser,aggregator")), (s "allowed_admins", some (s "urn:ogf:network:a:nsa, urn:ogf:network:b:nsa"))],
  [(s "dud:ojs", [(s "nrmmap", some (s "/tmp/ojs"))]), (s "dud:san", [(s "nrmmap", some (s "/tmp/san"))])]⟩
/-- The smallest accepted file, with further settings. -/
def tiny (more : List (Str × Option Str)) (secs : List (Str × List (Str × Option Str))) : File :=
  ⟨[(s "domain", some (s "a.net")), (s "database", some (s "d")), (s "dbuser", some (s "u")), (s "tls", some (s "no"))] ++ more, secs⟩
/-- The same with TLS. -/
def tinyTls (more : List (Str × Option Str)) (secs : List (Str × List (Str × Option Str))) : File :=
  ⟨[(s "domain", some (s "a.net")), (s "database", some (s "d")), (s "dbuser", some (s "u")), (s "key", some (s "/k")), (s "certificate", some (s "/c"))] ++ more, secs⟩
end Ex

example : ∃ vc, load (fun _ => true) Ex.file = .ok vc ∧ vc.port = 4080 ∧ vc.tls = false ∧ vc.admins = [Ex.s "urn:ogf:network:a:nsa", Ex.s "urn:ogf:network:b:nsa"] ∧
    vc.backends.map (·.1) = [Ex.s "ojs", Ex.s "san"] := by
  cases h : load (fun _ => true) Ex.file with
  | error e => exact absurd h (by revert e; intro e; cases e <;> decide +kernel)
  | ok vc =>
    have : (match load (fun _ => true) Ex.file with
      | .ok vc => decide (vc.port = 4080 ∧ vc.tls = false ∧ vc.admins = [Ex.s "urn:ogf:network:a:nsa", Ex.s "urn:ogf:network:b:nsa"] ∧
          vc.backends.map (·.1) = [Ex.s "ojs", Ex.s "san"])
      | _ => false) = true := by decide +kernel
    rw [h] at this
    exact ⟨vc, rfl, of_decide_eq_true this⟩

/-! ### Violations -/

/-- What a file gives, if it is accepted. -/
def given {α : Type} (ex : Str → Bool) (f : File) (g : Vc → α) : Option α := match load ex f with | .ok vc => some (g vc) | .error _ => none

theorem given_some {α : Type} {ex : Str → Bool} {f : File} {g : Vc → α} {a : α} (h : given ex f g = some a) : ∃ vc, load ex f = .ok vc ∧ g vc = a := by
  unfold given at h
  split at h
  · rename_i vc hvc
    exact ⟨vc, hvc, Option.some.inj h⟩
  · cases h

/-- **C69 is violated for policies**: a blank after a comma makes a list of known policies refused, though other lists allow blanks. -/
theorem C69_policy_fails : ∃ f : File, Sets f oPolicy "requireuser, requiretrace".toList ∧ load (fun _ => true) f = .error .configuration ∧
    (∃ vc, load (fun _ => true) (Ex.tiny [(oPolicy, some "requireuser,requiretrace".toList)] []) = .ok vc) := by
  refine ⟨Ex.tiny [(oPolicy, some "requireuser, requiretrace".toList)] [], by decide +kernel, by decide +kernel, ?_⟩
  obtain ⟨vc, h, _⟩ := given_some (g := fun _ => ()) (show given (fun _ => true) (Ex.tiny [(oPolicy, some "requireuser,requiretrace".toList)] []) (fun _ => ()) = some () by decide +kernel)
  exact ⟨vc, h⟩

/-- **C69 is violated for peers**: with the list of peers on the lines after `peers=`, the first peer has an empty URL. -/
theorem C69_peers_fails : ∃ (f : File) (vc : Vc), Sets f oPeers "\nhttp://a/\nhttp://b/".toList ∧ load (fun _ => true) f = .ok vc ∧
    vc.peers = some [[], "http://a/".toList, "http://b/".toList] := by
  obtain ⟨vc, h, h'⟩ := given_some (show given (fun _ => true) (Ex.tiny [(oPeers, some "\nhttp://a/\nhttp://b/".toList)] []) (·.peers) =
    some (some [[], "http://a/".toList, "http://b/".toList]) by decide +kernel)
  exact ⟨_, vc, by decide +kernel, h, h'⟩

/-- **C69 is violated for the list of hosts**: if its text cannot be interpolated (it has a percent sign, say), the error is ignored and there is no list, so that every
host with a certificate may connect. -/
theorem C69_hosts_fails : ∃ (f : File) (vc : Vc), dget f.service oAllowedHosts = some none ∧ load (fun _ => true) f = .ok vc ∧ vc.tls = true ∧ vc.allowedHosts = none := by
  obtain ⟨vc, h, h'⟩ := given_some (show given (fun _ => true) (Ex.tinyTls [(oAllowedHosts, none)] []) (fun vc => (vc.tls, vc.allowedHosts)) = some (true, none) by decide +kernel)
  exact ⟨_, vc, by decide +kernel, h, congrArg Prod.fst h', congrArg Prod.snd h'⟩

/-- **C69 is violated for the list of hosts without TLS**: it is not read. -/
theorem C69_notls_fails : ∃ (f : File) (vc : Vc), Sets f oAllowedHosts "a.net".toList ∧ load (fun _ => true) f = .ok vc ∧ vc.allowedHosts = none := by
  obtain ⟨vc, h, h'⟩ := given_some (show given (fun _ => true) (Ex.tiny [(oAllowedHosts, some "a.net".toList)] []) (·.allowedHosts) = some none by decide +kernel)
  exact ⟨_, vc, by decide +kernel, h, h'⟩

/-- **C69 is violated for blank entries**: an entry that is empty is left out, one that is blank becomes an empty name; here the requester with the empty name is an
administrator. -/
theorem C69_blank_fails : ∃ (f : File) (vc : Vc), Sets f oAllowedAdmins "a, ".toList ∧ load (fun _ => true) f = .ok vc ∧ isAdmin vc [] = true := by
  obtain ⟨vc, h, h'⟩ := given_some (show given (fun _ => true) (Ex.tiny [(oAllowedAdmins, some "a, ".toList)] []) (fun vc => isAdmin vc []) = some true by decide +kernel)
  exact ⟨_, vc, by decide +kernel, h, h'⟩

/-- **C69 is violated for names of backends with a colon**: the section raises a `ValueError` instead of a configuration error. -/
theorem C69_section_fails : ∃ f : File, f.sections = [("dud:a:b".toList, [])] ∧ load (fun _ => true) f = .error .value := ⟨Ex.tiny [] [("dud:a:b".toList, [])], rfl, by decide +kernel⟩

/-- **C69 is violated for backends of unknown type**: a misspelt type is accepted, and the service runs without the backend. -/
theorem C69_unknown_fails : ∃ (f : File) (vc : Vc), f.sections = [("junosmxx:a".toList, [])] ∧ load (fun _ => true) f = .ok vc ∧ vc.backends = [] := by
  obtain ⟨vc, h, h'⟩ := given_some (show given (fun _ => true) (Ex.tiny [] [("junosmxx:a".toList, [])]) (·.backends) = some [] by decide +kernel)
  exact ⟨_, vc, rfl, h, h'⟩

/-- **C69 is violated by a second file**: after a file was read, even without success, another is not read any more. -/
theorem C69_second_fails : ∃ f g : File, (∃ vc, load (fun _ => true) g = .ok vc) ∧
    let r := readConfig (fun _ => true) ⟨none, none⟩ f
    r.2 = .error .configuration ∧ (readConfig (fun _ => true) r.1 g).2 = .error .configuration := by
  refine ⟨⟨[], []⟩, Ex.tiny [] [], ?_, by decide +kernel⟩
  obtain ⟨vc, h, _⟩ := given_some (g := fun _ => ()) (show given (fun _ => true) (Ex.tiny [] []) (fun _ => ()) = some () by decide +kernel)
  exact ⟨vc, h⟩

/-- **C69, old options.** A file with one of the options that are no longer supported, spelled out here, is not accepted. -/
theorem C69_obsolete {ex : Str → Bool} {f : File} {o v : Str} (ho : o = "nrmmap".toList ∨ o = "network".toList) (hs : Sets f o v) : ∀ vc, load ex f ≠ .ok vc := by
  intro vc h
  obtain ⟨_, h1, h2⟩ := C69_values ex f vc h
  have e1 : oNrmmap = "nrmmap".toList := by decide +kernel
  have e2 : oNetwork = "network".toList := by decide +kernel
  rw [e1] at h1
  rw [e2] at h2
  unfold Absent at h1 h2
  unfold Sets at hs
  rcases ho with rfl | rfl
  · rw [h1] at hs; cases hs
  · rw [h2] at hs; cases hs

/-- `C69_obsolete`: an accepted file to which an old option is added. -/
example : Sets { Ex.file with service := ("network".toList, some "n".toList) :: Ex.file.service } "network".toList "n".toList := by decide +kernel

end OpenNSA.Config
