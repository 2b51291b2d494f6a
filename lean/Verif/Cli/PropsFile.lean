import Verif.Cli.PropsPlan
/-
C76: the values in the defaults file by kind, and the files used for TLS.
-/
namespace OpenNSA.Cli
open OpenNSA Py

/-- The last line that sets `k` gives it the value `v`. -/
def LastSets (ck : Clock) (lines : List Str) (k : Str) (v : DVal) : Prop :=
  ∃ pre l post, lines = pre ++ l :: post ∧ Sets ck l k v ∧ ∀ l' ∈ post, ∀ v', ¬ Sets ck l' k v'

/-- C76: a default is used as what it is: a text option has the text its last line gives, and likewise numbers, flags and times; a
value of another kind is not used. -/
theorem C76_kinds (ck : Clock) (lines : List Str) (k : Str) :
    (∀ t, (readDefaults ck lines).text k = some t ↔ LastSets ck lines k (.text t)) ∧
    (∀ n, (readDefaults ck lines).int k = some n ↔ LastSets ck lines k (.int n)) ∧
    (∀ b, (readDefaults ck lines).flag k = some b ↔ LastSets ck lines k (.flag b)) ∧
    (∀ t, (readDefaults ck lines).time k = some t ↔ LastSets ck lines k (.time t)) := by
  have h := C76_defaults ck lines k
  refine ⟨fun x => ?_, fun x => ?_, fun x => ?_, fun x => ?_⟩ <;>
  · rw [LastSets, ← h]
    simp only [Defaults.text, Defaults.int, Defaults.flag, Defaults.time]
    cases dget (readDefaults ck lines).vals k with
    | none => simp
    | some v => cases v <;> simp

theorem plan_ctx {hostname : Str → Option Str} {c : Command} {o : Opts} {d : Defaults} {p : Plan} (h : plan hostname c o d = .ok p) :
    pickCtx o d p.tls = .ok p.ctx := by
  unfold plan at h
  split at h
  · cases h
  simp only at h
  split at h
  · cases h
  · cases h
  split at h
  · cases h
  split at h
  · cases h
  rename_i ctx hctx
  split at h
  · cases h
  simp only [Except.ok.injEq] at h
  subst h
  exact hctx

/-- C76: the key, the certificate and the directory of certificates with which a command connects are those of the command line or,
where it has none, of the defaults file; with "." for key and certificate only the directory is used. -/
theorem C76_files (hostname : Str → Option Str) (c : Command) (o : Opts) (d : Defaults) (p : Plan) (h : plan hostname c o d = .ok p) :
    (∀ key cert dir v, p.ctx = some (.twoWay key cert dir v) →
      Chosen o.key (d.text "key".toList) (some key) ∧ Chosen o.certificate (d.text "certificate".toList) (some cert) ∧
      Chosen o.certdir (d.text "certdir".toList) (some dir) ∧ key ≠ [] ∧ cert ≠ [] ∧ dir ≠ []) ∧
    (∀ dir v, p.ctx = some (.oneWay dir v) →
      Chosen o.key (d.text "key".toList) (some ".".toList) ∧ Chosen o.certificate (d.text "certificate".toList) (some ".".toList) ∧
      Chosen o.certdir (d.text "certdir".toList) dir) := by
  have h := plan_ctx h
  have e1 : (d.text "key".toList) = d.text kKey := rfl
  have e2 : (d.text "certificate".toList) = d.text kCertificate := rfl
  have e3 : (d.text "certdir".toList) = d.text kCertdir := rfl
  have g1 := orText_chosen o.key (d.text kKey)
  have g2 := orText_chosen o.certificate (d.text kCertificate)
  have g3 := orText_chosen o.certdir (d.text kCertdir)
  rw [e1, e2, e3]
  unfold pickCtx at h
  simp only at h
  have tr : ∀ {x : Option Str}, truthy x = true → x = some (x.getD []) ∧ x.getD [] ≠ [] := by
    intro x hx
    cases x with
    | none => cases hx
    | some t => cases t with
      | nil => cases hx
      | cons a b => exact ⟨rfl, by simp⟩
  split at h
  · cases h
  rename_i ctx hc
  split at h
  · cases h
  simp only [Except.ok.injEq] at h
  rw [h] at hc
  constructor
  · intro key cert dir v hp
    rw [hp] at hc
    split at hc
    · split at hc
      · simp at hc
      · split at hc
        · rename_i ht
          simp only [Bool.and_eq_true] at ht
          simp only [Except.ok.injEq, Option.some.injEq, Ctx.twoWay.injEq] at hc
          obtain ⟨rfl, rfl, rfl, _⟩ := hc
          obtain ⟨⟨t1, t2⟩, t3⟩ := ht
          exact ⟨(tr t2).1 ▸ g1, (tr t1).1 ▸ g2, (tr t3).1 ▸ g3, (tr t2).2, (tr t1).2, (tr t3).2⟩
        · split at hc <;> simp at hc
    · simp at hc
  · intro dir v hp
    rw [hp] at hc
    split at hc
    · split at hc
      · rename_i hd
        simp only [Except.ok.injEq, Option.some.injEq, Ctx.oneWay.injEq] at hc
        obtain ⟨rfl, _⟩ := hc
        rw [hd.2] at g1
        rw [hd.1] at g2
        exact ⟨g1, g2, g3⟩
      · split at hc
        · simp at hc
        · split at hc <;> simp at hc
    · simp at hc

/-- The last of two lines counts; a text for a number is not set. -/
example (ck : Clock) : (readDefaults ck ["host=a".toList, "host=b".toList, "port=x".toList]).text "host".toList = some "b".toList ∧
    (readDefaults ck ["host=a".toList, "host=b".toList, "port=x".toList]).int "port".toList = none ∧
    (readDefaults ck ["port=2000".toList]).int "port".toList = some 2000 := ⟨by rfl, by rfl, by rfl⟩

/-- Key and certificate from the defaults file, the directory from the command line. -/
example (ck : Clock) : ∃ p, plan (fun _ => none) .query
      { host := some ['h'], service := some ['u'], provider := some ['p'], tls := true, certdir := some "dir".toList }
      (readDefaults ck ["key=k.pem".toList, "certificate=c.pem".toList]) = .ok p ∧
    p.ctx = some (.twoWay "k.pem".toList "c.pem".toList "dir".toList true) := ⟨_, by rfl, by rfl⟩

end OpenNSA.Cli
