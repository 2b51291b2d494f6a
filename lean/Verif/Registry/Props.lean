import Verif.Registry.Model
/-
C43: the provider registry.
-/
namespace OpenNSA.Registry
open Py

variable {π : Type}

/-- The state of a registry: same networks in both dictionaries, each once. -/
structure Inv (r : Reg π) : Prop where
  keys : dkeys r.providers = dkeys r.urns
  nodup : (dkeys r.providers).Nodup

/-- The effect of one call: nothing, or one new network is registered. -/
def Adds (r r' : Reg π) (n u : Str) (p : π) : Prop :=
  dget r.providers n = none ∧ r' = { r with providers := dset r.providers n p, urns := dset r.urns n u }

theorem addProvider_ok {r r' : Reg π} {u n : Str} {p : π} (h : r.addProvider u n p = .ok r') : Adds r r' n u p := by
  unfold Reg.addProvider at h
  split at h
  · exact absurd h (by simp)
  · rename_i hm
    simp only [dmem, Bool.not_eq_true, Option.isSome_eq_false_iff, Option.isNone_iff_eq_none] at hm
    exact ⟨hm, by simpa using h.symm⟩

theorem firstWith_some {l : List (Str × Str)} {u n : Str} (h : firstWith l u = some n) : (n, u) ∈ l := by
  induction l with
  | nil => simp [firstWith] at h
  | cons a l ih =>
    obtain ⟨m, v⟩ := a
    simp only [firstWith] at h
    split at h
    · rename_i hv
      simp only [Option.some.injEq] at h
      subst hv h
      exact List.mem_cons_self
    · exact List.mem_cons_of_mem _ (ih h)

theorem step_cases (r : Reg π) (o : Op π) : r.step o = r ∨ ∃ n u p, Adds r (r.step o) n u p ∧
    ((o = .add u n p) ∨ ∃ a made, o = .spawn a n made ∧ a.urn = u ∧
      ((made = some p ∧ u ∉ r.urns.map (·.2)) ∨ ∃ m, (m, u) ∈ r.urns ∧ dget r.providers m = some p)) := by
  cases o with
  | add u n p =>
    simp only [Reg.step]
    split
    · rename_i r' h
      exact .inr ⟨n, u, p, addProvider_ok h, .inl rfl⟩
    · exact .inl rfl
  | spawn a n made =>
    simp only [Reg.step]
    split
    · rename_i r' x h
      unfold Reg.spawnProvider at h
      split at h
      · simp only [Except.ok.injEq, Prod.mk.injEq] at h
        exact .inl h.1.symm
      · split at h
        · split at h
          · rename_i other hf
            split at h
            · exact absurd h (by simp)
            · rename_i p hp
              split at h
              · exact absurd h (by simp)
              · rename_i r'' ha
                simp only [Except.ok.injEq, Prod.mk.injEq] at h
                obtain ⟨rfl, -⟩ := h
                exact .inr ⟨n, a.urn, p, addProvider_ok ha, .inr ⟨a, made, rfl, rfl, .inr ⟨other, firstWith_some hf, hp⟩⟩⟩
          · simp only [Except.ok.injEq, Prod.mk.injEq] at h
            exact .inl h.1.symm
        · rename_i hu
          split at h
          · exact absurd h (by simp)
          · split at h
            · exact absurd h (by simp)
            · rename_i p
              split at h
              · exact absurd h (by simp)
              · rename_i r'' ha
                simp only [Except.ok.injEq, Prod.mk.injEq] at h
                obtain ⟨rfl, -⟩ := h
                exact .inr ⟨n, a.urn, p, addProvider_ok ha, .inr ⟨a, some p, rfl, rfl, .inl ⟨rfl, hu⟩⟩⟩
    · exact .inl rfl

theorem Inv.new (f : List Str) : Inv (Reg.new f : Reg π) := ⟨rfl, List.nodup_nil⟩

theorem dget_none_iff_keys {κ ν : Type} [DecidableEq κ] {d : List (κ × ν)} {k : κ} : dget d k = none ↔ k ∉ dkeys d := by
  rw [dget_none]
  simp only [dkeys, List.mem_map, not_exists, not_and]

theorem Inv.urn_none {r : Reg π} (h : Inv r) {n : Str} : dget r.providers n = none ↔ dget r.urns n = none := by
  rw [dget_none_iff_keys, dget_none_iff_keys, h.keys]

theorem Inv.adds {r r' : Reg π} {n u : Str} {p : π} (h : Inv r) (ha : Adds r r' n u p) : Inv r' := by
  obtain ⟨hn, rfl⟩ := ha
  refine ⟨?_, nodup_dset h.nodup n p⟩
  have hn' := h.urn_none.1 hn
  rw [dget_none_iff_keys] at hn hn'
  simp only [dkeys_dset, hn', if_false, h.keys]

theorem Inv.step {r : Reg π} (h : Inv r) (o : Op π) : Inv (r.step o) := by
  rcases step_cases r o with he | ⟨n, u, p, ha, -⟩
  · rwa [he]
  · exact h.adds ha

theorem Inv.run {r : Reg π} (h : Inv r) (ops : List (Op π)) : Inv (r.run ops) := by
  induction ops generalizing r with
  | nil => exact h
  | cons o ops ih => exact ih (h.step o)

theorem Adds.keep {r r' : Reg π} {n u : Str} {p : π} (ha : Adds r r' n u p) {m : Str} {q : π}
    (hq : dget r.providers m = some q) : dget r'.providers m = some q := by
  obtain ⟨hn, rfl⟩ := ha
  simp only [dget_dset]
  split
  · rename_i he; subst he; simp [hn] at hq
  · exact hq

theorem Adds.keepUrn {r r' : Reg π} {n u : Str} {p : π} (ha : Adds r r' n u p) (h : Inv r) {m : Str} {q : Str}
    (hq : dget r.urns m = some q) : dget r'.urns m = some q := by
  obtain ⟨hn, rfl⟩ := ha
  have hn' := h.urn_none.1 hn
  simp only [dget_dset]
  split
  · rename_i he; subst he; simp [hn'] at hq
  · exact hq

theorem run_keep {r : Reg π} (h : Inv r) (ops : List (Op π)) {m : Str} :
    (∀ q, dget r.providers m = some q → dget (r.run ops).providers m = some q) ∧
    (∀ q, dget r.urns m = some q → dget (r.run ops).urns m = some q) := by
  induction ops generalizing r with
  | nil => exact ⟨fun _ h => h, fun _ h => h⟩
  | cons o ops ih =>
    have := ih (h.step o)
    rcases step_cases r o with he | ⟨n, u, p, ha, -⟩
    · rw [he] at this
      simpa [Reg.run, he] using this
    · exact ⟨fun q hq => this.1 q (ha.keep hq), fun q hq => this.2 q (ha.keepUrn h hq)⟩

theorem getProvider_ok {r : Reg π} {n : Str} {p : π} : r.getProvider n = .ok p ↔ endsWithNsa n = false ∧ dget r.providers n = some p := by
  unfold Reg.getProvider
  cases hn : endsWithNsa n <;> cases hd : dget r.providers n <;> simp

theorem getURN_ok {r : Reg π} {n u : Str} : r.getProviderURN n = .ok u ↔ dget r.urns n = some u := by
  unfold Reg.getProviderURN
  cases hd : dget r.urns n <;> simp

theorem Reg.run_append (r : Reg π) (a b : List (Op π)) : r.run (a ++ b) = (r.run a).run b := by simp [Reg.run]

/-- **C43, for ever.** Once a network resolves to a provider and a URN, it resolves to the same provider and the same
URN after every further history of registrations — whoever claims the network later. -/
theorem C43_forever (f : List Str) (before after : List (Op π)) (n : Str) :
    (∀ p, ((Reg.new f).run before).getProvider n = .ok p → ((Reg.new f).run (before ++ after)).getProvider n = .ok p) ∧
    (∀ u, ((Reg.new f).run before).getProviderURN n = .ok u → ((Reg.new f).run (before ++ after)).getProviderURN n = .ok u) := by
  have hk := run_keep ((Inv.new f).run before) after (m := n)
  rw [Reg.run_append]
  exact ⟨fun p h => getProvider_ok.2 ⟨(getProvider_ok.1 h).1, hk.1 p (getProvider_ok.1 h).2⟩,
    fun u h => getURN_ok.2 (hk.2 u (getURN_ok.1 h))⟩

theorem nsa_suffix (n : Str) : endsWithNsa n = false ↔ ¬ ":nsa".toList <:+ n := by
  rw [← List.isSuffixOf_iff_suffix, Bool.not_eq_true]; exact Iff.rfl

/-- **C43, what was registered.** A successful direct registration is what the lookups give; a network already
registered is refused and nothing changes. -/
theorem C43_registered (f : List Str) (before : List (Op π)) (u n : Str) (p : π) :
    (∀ r', ((Reg.new f).run before).addProvider u n p = .ok r' →
      dget r'.providers n = some p ∧ r'.getProviderURN n = .ok u ∧ (¬ ":nsa".toList <:+ n → r'.getProvider n = .ok p)) ∧
    (((Reg.new f).run before).addProvider u n p = .error .valueError ↔
      ∃ q, dget ((Reg.new f).run before).providers n = some q) := by
  constructor
  · intro r' h
    obtain ⟨hn, rfl⟩ := addProvider_ok h
    refine ⟨by simp [dget_dset], getURN_ok.2 (by simp [dget_dset]), fun he => getProvider_ok.2 ⟨(nsa_suffix n).2 he, by simp [dget_dset]⟩⟩
  · unfold Reg.addProvider dmem
    cases hd : dget ((Reg.new f).run before).providers n <;> simp

/-- The operation registers network `n`, if it succeeds. -/
def Op.network : Op π → Str
  | .add _ n _ => n
  | .spawn _ n _ => n

theorem run_known {r : Reg π} (ops : List (Op π)) {n : Str} {p : π} (h : dget (r.run ops).providers n = some p) :
    (∃ q, dget r.providers n = some q) ∨ ∃ o ∈ ops, o.network = n := by
  induction ops generalizing r with
  | nil => exact .inl ⟨p, h⟩
  | cons o ops ih =>
    rcases ih (r := r.step o) h with ⟨q, hq⟩ | ⟨o', ho', hn⟩
    · rcases step_cases r o with he | ⟨m, u, p', ha, hc⟩
      · rw [he] at hq; exact .inl ⟨q, hq⟩
      · obtain ⟨-, hr⟩ := ha
        rw [hr] at hq
        simp only [dget_dset] at hq
        split at hq
        · rename_i hm
          subst hm
          refine .inr ⟨o, List.mem_cons_self, ?_⟩
          rcases hc with rfl | ⟨a, made, rfl, -, -⟩ <;> rfl
        · exact .inl ⟨q, hq⟩
    · exact .inr ⟨o', List.mem_cons_of_mem _ ho', hn⟩

/-- **C43, unknown networks.** A network no call mentioned is refused with the resolution error (or, if it looks like an
NSA id, with `ValueError`). -/
theorem C43_unknown (f : List Str) (ops : List (Op π)) (n : Str) (h : ∀ o ∈ ops, o.network ≠ n) :
    (":nsa".toList <:+ n → ((Reg.new f).run ops).getProvider n = .error .valueError) ∧
    (¬ ":nsa".toList <:+ n → ((Reg.new f).run ops).getProvider n = .error .stpResolutionError) ∧
    ((Reg.new f).run ops).getProviderURN n = .error .keyError := by
  have hn : dget ((Reg.new f).run ops).providers n = none := by
    cases hd : dget ((Reg.new f).run ops).providers n with
    | none => rfl
    | some p =>
      rcases run_known ops hd with ⟨q, hq⟩ | ⟨o, ho, he⟩
      · simp [Reg.new, dget] at hq
      · exact absurd he (h o ho)
  have hu := ((Inv.new f).run ops).urn_none.1 hn
  refine ⟨fun h => ?_, fun h => ?_, ?_⟩
  · have hs : endsWithNsa n = true := List.isSuffixOf_iff_suffix.2 h
    simp [Reg.getProvider, hs]
  · simp [Reg.getProvider, hn, (nsa_suffix n).2 h]
  · unfold Reg.getProviderURN; rw [hu]

/-- No call added a provider with this URN directly. -/
def NoDirect (u : Str) (ops : List (Op π)) : Prop := ∀ n p, Op.add u n p ∉ ops

/-- The networks with URN `u` have one provider. -/
def Shared (r : Reg π) (u : Str) : Prop :=
  ∀ n m p q, dget r.urns n = some u → dget r.urns m = some u → dget r.providers n = some p → dget r.providers m = some q → p = q

theorem Shared.run {r : Reg π} {u : Str} (hi : Inv r) (h : Shared r u) (ops : List (Op π)) (hd : NoDirect u ops) :
    Shared (r.run ops) u := by
  induction ops generalizing r with
  | nil => exact h
  | cons o ops ih =>
    refine ih (hi.step o) ?_ fun n p hm => hd n p (List.mem_cons_of_mem _ hm)
    rcases step_cases r o with he | ⟨k, v, p, ha, hc⟩
    · rw [he]; exact h
    · obtain ⟨hk, hr⟩ := ha
      rw [hr]
      -- the provider of the new network is that of any other network with this URN
      have key : v = u → ∀ m q, dget r.urns m = some u → dget r.providers m = some q → p = q := by
        rintro rfl m q hu hq
        rcases hc with rfl | ⟨a, made, rfl, rfl, ⟨-, hnot⟩ | ⟨m', hm', hp'⟩⟩
        · exact absurd List.mem_cons_self (hd k p)
        · exact absurd (List.mem_map.2 ⟨_, dget_some_mem hu, rfl⟩) hnot
        · have hm'' : dget r.urns m' = some a.urn := dget_of_mem_nodup (by rw [← hi.keys]; exact hi.nodup) hm'
          exact h m' m p q hm'' hu hp' hq
      intro n m p1 p2 hn hm hp1 hp2
      simp only [dget_dset] at hn hm hp1 hp2
      split at hn <;> split at hm
      · simp_all
      · rename_i h1 h2
        rw [if_pos h1] at hp1
        rw [if_neg h2] at hp2
        simp only [Option.some.injEq] at hn hp1
        subst hp1
        exact key hn m p2 hm hp2
      · rename_i h1 h2
        rw [if_neg h1] at hp1
        rw [if_pos h2] at hp2
        simp only [Option.some.injEq] at hm hp2
        subst hp2
        exact (key hm n p1 hn hp1).symm
      · rename_i h1 h2
        rw [if_neg h1] at hp1
        rw [if_neg h2] at hp2
        exact h n m p1 p2 hn hm hp1 hp2

/-- **C43, one provider per NSA.** After every history, the networks of an NSA found through discovery (that is, not
added directly by the setup) share one provider. -/
theorem C43_shared (f : List Str) (ops : List (Op π)) (u n m : Str) (p q : π) (hd : NoDirect u ops)
    (hn : ((Reg.new f).run ops).getProviderURN n = .ok u) (hm : ((Reg.new f).run ops).getProviderURN m = .ok u)
    (hp : ((Reg.new f).run ops).getProvider n = .ok p) (hq : ((Reg.new f).run ops).getProvider m = .ok q) : p = q :=
  Shared.run (Inv.new f) (by intro n m p q hn; simp [Reg.new, dget] at hn) ops hd n m p q (getURN_ok.1 hn) (getURN_ok.1 hm)
    (getProvider_ok.1 hp).2 (getProvider_ok.1 hq).2

theorem firstWith_none {l : List (Str × Str)} {u : Str} : firstWith l u = none ↔ u ∉ l.map (·.2) := by
  induction l with
  | nil => simp [firstWith]
  | cons a l ih =>
    obtain ⟨m, v⟩ := a
    simp only [firstWith, List.map_cons, List.mem_cons, not_or]
    split
    · rename_i h; simp [h]
    · rename_i h; rw [ih]; exact ⟨fun x => ⟨fun e => h e.symm, x⟩, fun x => x.2⟩

/-- **C43, discovery.** Spawning for a network nobody has: if the NSA is known its provider is taken and no factory is asked;
if the NSA is new the result is exactly what the factory made. In both cases the network is then registered with the URN of
the agent. It fails only if the NSA is new and there is no factory for its service type or the factory raises. -/
theorem C43_spawn (f : List Str) (ops : List (Op π)) (a : Agent) (n : Str) (made : Option π)
    (hn : dget ((Reg.new f).run ops).providers n = none) :
    let r := (Reg.new f).run ops
    (∀ r' x, r.spawnProvider a n made = .ok (r', x) → r'.getProviderURN n = .ok a.urn ∧
      ∃ p, dget r'.providers n = some p ∧ ((∃ m, r.getProviderURN m = .ok a.urn ∧ dget r.providers m = some p) ∨
        ((∀ m, r.getProviderURN m ≠ .ok a.urn) ∧ made = some p))) ∧
    (∀ e, r.spawnProvider a n made = .error e →
      (∀ m, r.getProviderURN m ≠ .ok a.urn) ∧ (a.serviceType ∉ r.factories ∨ made = none)) := by
  intro r
  have hi : Inv r := (Inv.new f).run ops
  have hnd : (dkeys r.urns).Nodup := by rw [← hi.keys]; exact hi.nodup
  have hr : dget r.providers n = none := hn
  have hnone : a.urn ∉ r.urns.map (·.2) → ∀ m, r.getProviderURN m ≠ .ok a.urn := by
    intro h m hm
    exact h (List.mem_map.2 ⟨_, dget_some_mem (getURN_ok.1 hm), rfl⟩)
  have hadd : ∀ p, r.addProvider a.urn n p = .ok { r with providers := dset r.providers n p, urns := dset r.urns n a.urn } := by
    intro p; simp [Reg.addProvider, dmem, hr]
  have known : ∀ p, let r' : Reg π := { r with providers := dset r.providers n p, urns := dset r.urns n a.urn }
      r'.getProviderURN n = .ok a.urn ∧ dget r'.providers n = some p :=
    fun p => ⟨getURN_ok.2 (by simp [dget_dset]), by simp [dget_dset]⟩
  unfold Reg.spawnProvider
  simp only [hr]
  split
  · rename_i hu
    cases hf : firstWith r.urns a.urn with
    | none => exact absurd hu (firstWith_none.1 hf)
    | some other =>
      have ho : dget r.urns other = some a.urn := dget_of_mem_nodup hnd (firstWith_some hf)
      simp only
      cases hp : dget r.providers other with
      | none => rw [hi.urn_none.1 hp] at ho; simp at ho
      | some p =>
        simp only [hadd p]
        refine ⟨?_, by simp⟩
        rintro r' x h
        simp only [Except.ok.injEq, Prod.mk.injEq] at h
        obtain ⟨rfl, -⟩ := h
        exact ⟨(known p).1, p, (known p).2, .inl ⟨other, getURN_ok.2 ho, hp⟩⟩
  · rename_i hu
    split
    · rename_i hs
      exact ⟨by simp, fun _ _ => ⟨hnone hu, .inl hs⟩⟩
    · cases made with
      | none => exact ⟨by simp, fun _ _ => ⟨hnone hu, .inr rfl⟩⟩
      | some p =>
        simp only [hadd p]
        refine ⟨?_, by simp⟩
        rintro r' x h
        simp only [Except.ok.injEq, Prod.mk.injEq] at h
        obtain ⟨rfl, -⟩ := h
        exact ⟨(known p).1, p, (known p).2, .inr ⟨hnone hu, rfl⟩⟩

/-! ### Examples -/
namespace Ex
/-- `localNsa` -/
def home : Str := "home:nsa".toList
def peer : Str := "peer:nsa".toList
def cs2 : Str := "cs2".toList
def netA : Str := "a".toList
def netB : Str := "b".toList
def netC : Str := "c".toList
def netD : Str := "d".toList
/-- Two local networks with a backend each, then a peer with two networks, and another peer claiming the first. -/
def hist : List (Op Nat) :=
  [.add home netA 1, .add home netB 2, .spawn ⟨peer, cs2⟩ netC (some 3), .spawn ⟨peer, cs2⟩ netD (some 4)]
def reg : Reg Nat := (Reg.new [cs2]).run hist

example : reg.getProvider netA = .ok 1 ∧ reg.getProvider netB = .ok 2 ∧ reg.getProviderURN netC = .ok peer := by decide +kernel
/-- `C43_forever`: a later claim of the network by another NSA changes nothing. -/
example : (reg.run [.spawn ⟨"evil:nsa".toList, cs2⟩ netA (some 9), .add peer netC 7]).getProvider netA = .ok 1 := by decide +kernel
/-- `C43_registered`: both cases occur. -/
example : (reg.addProvider peer netC 5).toOption = none ∧ (reg.addProvider home "e".toList 5).toOption ≠ none := by decide +kernel
/-- `C43_unknown` -/
example : (∀ o ∈ hist, o.network ≠ "x".toList) ∧ reg.getProvider "x".toList = .error .stpResolutionError ∧
    reg.getProvider home = .error .valueError := by decide +kernel
/-- `C43_spawn`: a new network of a known peer, of a new peer, and of a peer we have no factory for. -/
example : dget reg.providers "e".toList = none ∧
    (reg.spawnProvider ⟨peer, cs2⟩ "e".toList none).toOption.map (·.1.getProvider "e".toList) = some (.ok 3) ∧
    (reg.spawnProvider ⟨"new:nsa".toList, cs2⟩ "e".toList (some 8)).toOption.map (·.1.getProvider "e".toList) = some (.ok 8) ∧
    (reg.spawnProvider ⟨"new:nsa".toList, "cs1".toList⟩ "e".toList (some 8)).toOption = none := by decide +kernel
/-- `C43_shared`: the factory made 4 for the second network of the peer, but the first provider is used. -/
example : NoDirect peer hist ∧ reg.getProvider netC = .ok 3 ∧ reg.getProvider netD = .ok 3 := by
  refine ⟨?_, by decide +kernel⟩
  intro n p h
  simp only [hist, List.mem_cons, reduceCtorEq, Op.add.injEq, List.not_mem_nil, or_false] at h
  rcases h with h | h <;> exact absurd h.1 (by decide +kernel)
end Ex

/-- **C43 violated for our own networks.** setup.py:267 registers every backend under the URN of the local agent: two
networks of the same NSA with two providers. A peer announcing our own NSA id then gets the first backend as provider of
its networks. -/
theorem C43_local_fails : ∃ (ops : List (Op Nat)) (u n m k : Str) (p q : Nat),
    ((Reg.new [Ex.cs2]).run ops).getProviderURN n = .ok u ∧ ((Reg.new [Ex.cs2]).run ops).getProviderURN m = .ok u ∧
    ((Reg.new [Ex.cs2]).run ops).getProvider n = .ok p ∧ ((Reg.new [Ex.cs2]).run ops).getProvider m = .ok q ∧ p ≠ q ∧
    ((Reg.new [Ex.cs2]).run ops).getProvider k = .ok p ∧ Op.spawn ⟨u, Ex.cs2⟩ k (some 3) ∈ ops :=
  ⟨[.add Ex.home Ex.netA 1, .add Ex.home Ex.netB 2, .spawn ⟨Ex.home, Ex.cs2⟩ Ex.netC (some 3)], Ex.home, Ex.netA, Ex.netB, Ex.netC,
    1, 2, by decide +kernel⟩

end OpenNSA.Registry
