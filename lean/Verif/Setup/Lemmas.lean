import Verif.Setup.Model
import Verif.Discovery.PropsDocument
import Verif.Http.PropsClient
/-
Lemmas for C79 and C80: the tree of resources, the start of a service, and what discovery documents change.
-/
namespace OpenNSA.Setup
open Py OpenNSA.Registry OpenNSA.Discovery

variable {β : Type}

/-! ### Trees -/

theorem dset_new {κ ν : Type} [DecidableEq κ] {d : List (κ × ν)} {k : κ} {v : ν} (h : ∀ e ∈ d, e.1 ≠ k) : dset d k v = d ++ [(k, v)] := by
  induction d with
  | nil => rfl
  | cons e d ih =>
    unfold dset
    rw [if_neg (h e (by simp)), ih fun e he => h e (by simp [he])]
    rfl

theorem putChild_new {t : Tree} {parent : List Seg} {name : Seg} {k : Kind} (h : ∀ e ∈ t, ¬ (parent ++ [name]) <+: e.1) :
    putChild t parent name k = t ++ [(parent ++ [name], k)] := by
  have hf : t.filter (fun e => !(parent ++ [name]).isPrefixOf e.1) = t := by
    rw [List.filter_eq_self]
    intro e he
    simp only [Bool.not_eq_true', ← Bool.not_eq_true, List.isPrefixOf_iff_prefix]
    exact h e he
  unfold putChild
  rw [hf, dset_new]
  intro e he heq
  exact h e he (heq ▸ List.prefix_refl _)

theorem dget_append {κ ν : Type} [DecidableEq κ] (a b : List (κ × ν)) (k : κ) : dget (a ++ b) k = (dget a k).or (dget b k) := by
  induction a with
  | nil => rfl
  | cons e a ih =>
    simp only [List.cons_append, dget]
    split
    · rfl
    · exact ih

/-- The network of a backend. -/
def net (domain name : Str) : Str := domain ++ ':' :: name

theorem net_inj {domain a b : Str} (h : net domain a = net domain b) : a = b := by
  unfold net at h
  simpa using h

/-- What the tree has once the service is started. -/
def fixed (vc : Config.Vc) : Tree :=
  [([], .plain), ([nsi], .plain), ([nsi, services], .plain), ([nsi, services, .bytes cs2], .provider vc.allowedHosts), ([nsi, .text connections], .view)] ++
  (if vc.rest then [([.bytes connections], .rest vc.allowedHosts)] else [])

def nmlEntries (nets : List Str) : Tree := nets.map fun n => ([nsi, .bytes (nmlName n)], .nml n)
def requesterEntries (names : List Str) : Tree := names.map fun x => ([nsi, services, .bytes x], .requester none)

/-- The tree of a service with the given names of requester resources. -/
def treeOf (vc : Config.Vc) (names : List Str) : Tree :=
  fixed vc ++ nmlEntries (vc.backends.map fun b => net vc.domain b.1) ++ [([nsi, .bytes discoveryXml], .discovery)] ++ requesterEntries names

theorem nmlName_inj {a b : Str} (h : nmlName a = nmlName b) : a = b := by
  unfold nmlName at h
  exact List.append_cancel_right h

theorem dot_nmlName (n : Str) : '.' ∈ nmlName n := by
  unfold nmlName
  exact List.mem_append_right _ (by decide)

theorem nmlName_ne_services (n : Str) : Seg.bytes (nmlName n) ≠ services := by
  intro h
  unfold services at h
  have := dot_nmlName n
  rw [Seg.bytes.inj h] at this
  revert this
  decide

theorem nmlName_ne_discovery (d b : Str) : nmlName (net d b) ≠ discoveryXml := by
  intro h
  have : ':' ∈ nmlName (net d b) := by simp [nmlName, net]
  rw [h] at this
  revert this
  decide

theorem fixed_prefix {vc : Config.Vc} {e : List Seg × Kind} (he : e ∈ fixed vc) {x : Str} (hx : Seg.bytes x ≠ services) : ¬ [nsi, Seg.bytes x] <+: e.1 := by
  unfold fixed at he
  simp only [List.mem_append, List.mem_cons, List.not_mem_nil, or_false] at he
  have key : ∀ a b : Seg, ∀ r, [nsi, Seg.bytes x] <+: a :: b :: r → Seg.bytes x = b := by
    rintro a b r ⟨t, ht⟩
    simp only [List.cons_append, List.cons.injEq] at ht
    exact ht.2.1
  have hs : ∀ a : Seg, ¬ [nsi, Seg.bytes x] <+: [a] := by
    rintro a ⟨t, ht⟩
    simp at ht
  rcases he with (rfl | rfl | rfl | rfl | rfl) | he
  · simp
  · exact hs _
  · exact fun h => hx (key _ _ _ h)
  · exact fun h => hx (key _ _ _ h)
  · exact fun h => nomatch key _ _ _ h
  · split at he
    · simp only [List.mem_singleton] at he
      subst he
      exact hs _
    · cases he

theorem nml_prefix {nets : List Str} {e : List Seg × Kind} (he : e ∈ nmlEntries nets) {x : Str} (hx : ∀ n ∈ nets, x ≠ nmlName n) : ¬ [nsi, Seg.bytes x] <+: e.1 := by
  simp only [nmlEntries, List.mem_map] at he
  obtain ⟨n, hn, rfl⟩ := he
  rintro ⟨t, ht⟩
  simp only [List.cons_append, List.cons.injEq, Seg.bytes.injEq] at ht
  exact hx n hn ht.2.1

/-- The documents of networks, in their order. -/
inductive AllDocs (env : Env β) : List (Str × β × List Nrm.Port) → List (Str × Wire.Elem) → Prop
  | nil : AllDocs env [] []
  | cons {n b ports x nt rs docs} : Nml.createNMLNetwork ports n n = .ok nt → Nml.topologyXML nt env.now (env.canSwap b) = some x → AllDocs env rs docs →
      AllDocs env ((n, b, ports) :: rs) ((n, x) :: docs)

theorem addDocs_ok (env : Env β) {rs : List (Str × β × List Nrm.Port)} {t : Tree} {done : List Str} {vc : Config.Vc} (ht : t = fixed vc ++ nmlEntries done)
    (hn : (done ++ rs.map (·.1)).Nodup) {t' : Tree} {docs : List (Str × Wire.Elem)} :
    addDocs env rs t = .ok (t', docs) ↔ t' = fixed vc ++ nmlEntries (done ++ rs.map (·.1)) ∧ AllDocs env rs docs := by
  induction rs generalizing t done docs with
  | nil =>
    simp only [addDocs, Except.ok.injEq, Prod.mk.injEq, List.map_nil, List.append_nil]
    constructor
    · rintro ⟨rfl, rfl⟩
      exact ⟨ht, .nil⟩
    · rintro ⟨rfl, h⟩
      cases h
      exact ⟨ht, rfl⟩
  | cons r rs ih =>
    obtain ⟨n, b, ports⟩ := r
    have hn' : ((done ++ [n]) ++ rs.map (·.1)).Nodup := by simpa using hn
    have hfresh : n ∉ done := by
      intro hd
      rw [List.nodup_append] at hn
      exact hn.2.2 n hd n (by simp) rfl
    have hput : putChild t [nsi] (.bytes (nmlName n)) (.nml n) = fixed vc ++ nmlEntries (done ++ [n]) := by
      rw [putChild_new, ht]
      · simp [nmlEntries]
      · intro e he
        rw [ht, List.mem_append] at he
        rcases he with he | he
        · exact fixed_prefix he (nmlName_ne_services n)
        · exact nml_prefix he fun m hm h => hfresh (nmlName_inj h ▸ hm)
    simp only [addDocs]
    cases hc : Nml.createNMLNetwork ports n n with
    | error e =>
      simp only [reduceCtorEq, false_iff, not_and]
      intro _ h
      cases h with
      | cons h1 _ _ => rw [hc] at h1; cases h1
    | ok nt =>
      simp only
      cases hx : Nml.topologyXML nt env.now (env.canSwap b) with
      | none =>
        simp only [reduceCtorEq, false_iff, not_and]
        intro _ h
        cases h with
        | cons h1 h2 _ =>
          rw [hc] at h1
          cases h1
          rw [hx] at h2
          cases h2
      | some x =>
        simp only
        have hmap : done ++ ((n, b, ports) :: rs).map (·.1) = done ++ [n] ++ rs.map (·.1) := by simp
        rw [hmap]
        constructor
        · intro h
          split at h
          · cases h
          · rename_i t1 d1 hr
            simp only [Except.ok.injEq, Prod.mk.injEq] at h
            obtain ⟨rfl, rfl⟩ := h
            obtain ⟨e1, e2⟩ := (ih hput hn').1 hr
            exact ⟨e1, .cons hc hx e2⟩
        · rintro ⟨h1, h⟩
          cases h with
          | cons g1 g2 g3 =>
            rw [hc] at g1
            cases g1
            rw [hx] at g2
            cases g2
            rw [(ih hput hn').2 ⟨h1, g3⟩]

/-! ### Backends -/

/-- A backend of the configuration can be set up: it has a name, its port map is there and can be read, no port to another network has further vectors, and
the backend object can be made. -/
def Runs (env : Env β) (domain : Str) (b : Str × List (Str × Str)) (r : Str × β × List Nrm.Port) : Prop :=
  r.1 = net domain b.1 ∧ b.1 ≠ [] ∧ nrmPorts env b.2 = .ok r.2.2 ∧ (∀ p ∈ r.2.2, p.remote ≠ none → p.vectors = []) ∧ setupBackend env b.2 (net domain b.1) r.2.2 = .ok r.2.1

/-- All backends, in their order. -/
inductive AllRun (env : Env β) (domain : Str) : List (Str × List (Str × Str)) → List (Str × β × List Nrm.Port) → Prop
  | nil : AllRun env domain [] []
  | cons {b r bs rs} : Runs env domain b r → AllRun env domain bs rs → AllRun env domain (b :: bs) (r :: rs)

theorem AllRun.names {env : Env β} {domain : Str} {bs : List (Str × List (Str × Str))} {rs : List (Str × β × List Nrm.Port)} (h : AllRun env domain bs rs) :
    rs.map (·.1) = bs.map fun b => net domain b.1 := by
  induction h with
  | nil => rfl
  | cons h _ ih => rw [List.map_cons, List.map_cons, ih, h.1]

/-- The networks as the fetcher sees them. -/
def portsOf (rs : List (Str × β × List Nrm.Port)) : Ports := rs.map fun n => (n.1, n.2.2.map fun p => (p.name, p.remote.map (·.network)))

/-- The registry with the own networks. -/
def regOf (domain : Str) (rs : List (Str × β × List Nrm.Port)) : Reg (Prov β) :=
  ⟨rs.map fun r => (r.1, .backend r.2.1), rs.map fun r => (r.1, urnPrefix ++ (domain ++ ":nsa".toList)), [cs2ServiceType]⟩

/-- The link vectors with the own networks. -/
def lvOf (rs : List (Str × β × List Nrm.Port)) : LinkVector := lvRun [] 5 (setupOps (portsOf rs))

/-- The updates for the ports of one network. -/
def portOps (network : Str) (ports : List Nrm.Port) : List LvOp :=
  (ports.map fun p => (p.name, p.remote.map (·.network))).flatMap fun np => match np.2 with
    | none => []
    | some r => [.update network np.1 [(r, 1)]]

theorem setupOps_append (a b : Ports) : setupOps (a ++ b) = setupOps a ++ setupOps b := by simp [setupOps]

theorem lvOf_append (rs : List (Str × β × List Nrm.Port)) (r : Str × β × List Nrm.Port) :
    lvOf (rs ++ [r]) = (portOps r.1 r.2.2).foldl (fun lv o => (lv.step o).1) ((lvOf rs).step (.addLocal r.1)).1 := by
  unfold lvOf
  have : portsOf (rs ++ [r]) = portsOf rs ++ portsOf [r] := by simp [portsOf]
  rw [this, setupOps_append]
  have h2 : setupOps (portsOf [r]) = .addLocal r.1 :: portOps r.1 r.2.2 := by
    simp only [setupOps, portsOf, portOps, List.map_cons, List.map_nil, List.flatMap_cons, List.flatMap_nil, List.append_nil]
    rfl
  rw [h2]
  simp only [lvRun, List.foldl_append, List.foldl_cons]

theorem black_step (lv : LinkVector) (o : LvOp) : (lv.step o).1.cfg.black = lv.cfg.black := by
  cases o with
  | addLocal n => simp only [LinkVector.step]; split <;> simp [LinkVector.calculate, calcOver_cfg]
  | update n p v => simp [LinkVector.step, LinkVector.calculate, calcOver_cfg]
  | delete n p => simp only [LinkVector.step]; split <;> simp [LinkVector.calculate, calcOver_cfg]

theorem black_run (ops : List LvOp) (lv : LinkVector) : (ops.foldl (fun lv o => (lv.step o).1) lv).cfg.black = lv.cfg.black := by
  induction ops generalizing lv with
  | nil => rfl
  | cons o ops ih => rw [List.foldl_cons, ih, black_step]

theorem sound_of_black {lv : LinkVector} (h : lv.cfg.black = []) : Sound lv := by
  intro n _
  rw [h]
  exact List.not_mem_nil

theorem portOps_nets (network : Str) (ports : List Nrm.Port) (lv : LinkVector) :
    ((portOps network ports).foldl (fun lv o => (lv.step o).1) lv).localNets = lv.localNets := by
  induction ports generalizing lv with
  | nil => rfl
  | cons p ps ih =>
    have hc : portOps network (p :: ps) = (match p.remote.map (·.network) with | none => [] | some r => [.update network p.name [(r, 1)]]) ++ portOps network ps := by
      simp [portOps]
    rw [hc, List.foldl_append, ih]
    cases p.remote with
    | none => rfl
    | some r => simp [LinkVector.step, LinkVector.calculate, calcOver_nets]

theorem addPorts_ok (network : Str) (ports : List Nrm.Port) (lv lv' : LinkVector) (hs : Sound lv) :
    addPorts network ports lv = .ok lv' ↔ (∀ p ∈ ports, p.remote ≠ none → p.vectors = []) ∧ lv' = (portOps network ports).foldl (fun lv o => (lv.step o).1) lv := by
  induction ports generalizing lv with
  | nil =>
    simp only [addPorts, Except.ok.injEq, List.not_mem_nil, false_implies, implies_true, true_and, portOps, List.map_nil, List.flatMap_nil, List.foldl_nil]
    exact eq_comm
  | cons p ps ih =>
    unfold addPorts
    cases hr : p.remote with
    | none =>
      simp only
      rw [ih lv hs]
      have : portOps network (p :: ps) = portOps network ps := by simp [portOps, hr]
      rw [this]
      simp [hr]
    | some r =>
      have hu := hs.update network p.name [(r.network, 1)]
      simp only [hu.2, Bool.not_true, Bool.false_eq_true, if_false]
      have hops : portOps network (p :: ps) = .update network p.name [(r.network, 1)] :: portOps network ps := by simp [portOps, hr]
      by_cases hv : p.vectors = []
      · rw [if_neg (fun h => h hv), ih _ hu.1, hops]
        simp [hv]
      · rw [if_pos hv]
        simp [hr, hv]

theorem step_addLocal_ok {lv : LinkVector} {n : Str} (hb : lv.cfg.black = []) :
    (lv.step (.addLocal n)).2 = true ↔ n ∉ lv.localNets := by
  simp only [LinkVector.step]
  split
  · rename_i h; simp [h]
  · rename_i h
    simp only [h, not_false_eq_true, iff_true]
    apply calculate_true
    intro m _
    simp [hb]

theorem step_addLocal_nets {lv : LinkVector} {n : Str} (h : n ∉ lv.localNets) : (lv.step (.addLocal n)).1.localNets = lv.localNets ++ [n] := by
  simp [LinkVector.step, h, LinkVector.calculate, calcOver_nets]

theorem lvOf_nets (rs : List (Str × β × List Nrm.Port)) (hn : (rs.map (·.1)).Nodup) : (lvOf rs).localNets = rs.map (·.1) := by
  have key : ∀ (n : Nat) (rs : List (Str × β × List Nrm.Port)), rs.length = n → (rs.map (·.1)).Nodup → (lvOf rs).localNets = rs.map (·.1) := by
    intro n
    induction n with
    | zero =>
      intro rs h _
      rw [List.length_eq_zero_iff.1 h]
      rfl
    | succ n ih =>
      intro rs hl hn
      obtain ⟨init, last, rfl⟩ : ∃ init last, rs = init ++ [last] := ⟨rs.dropLast, rs.getLast (by intro h; simp [h] at hl), (List.dropLast_concat_getLast _).symm⟩
      simp only [List.map_append, List.map_cons, List.map_nil] at hn ⊢
      rw [List.nodup_append] at hn
      have h0 := ih init (by simpa using hl) hn.1
      rw [lvOf_append, portOps_nets, step_addLocal_nets, h0]
      rw [h0]
      intro hm
      exact hn.2.2 _ hm _ (by simp) rfl
  exact key _ rs rfl hn

theorem lvOf_black (rs : List (Str × β × List Nrm.Port)) : (lvOf rs).cfg.black = [] := by
  unfold lvOf lvRun
  rw [black_run]
  rfl

theorem regOf_none {domain : Str} {rs : List (Str × β × List Nrm.Port)} {n : Str} : dget (regOf domain rs).providers n = none ↔ n ∉ rs.map (·.1) := by
  rw [dget_none]
  simp only [regOf, List.mem_map]
  constructor
  · rintro h ⟨r, hr, rfl⟩
    exact h _ ⟨r, hr, rfl⟩ rfl
  · rintro h e ⟨r, hr, rfl⟩ rfl
    exact h ⟨r, hr, rfl⟩

theorem regOf_add {domain : Str} {rs : List (Str × β × List Nrm.Port)} {r : Str × β × List Nrm.Port} (h : r.1 ∉ rs.map (·.1)) :
    (regOf domain rs).addProvider (urnPrefix ++ (domain ++ ":nsa".toList)) r.1 (.backend r.2.1) = .ok (regOf domain (rs ++ [r])) := by
  unfold Reg.addProvider
  have hd := (regOf_none (domain := domain)).2 h
  rw [if_neg (by simp [dmem, hd])]
  congr 1
  simp only [regOf, Reg.mk.injEq, and_true, List.map_append, List.map_cons, List.map_nil]
  refine ⟨dset_new ?_, dset_new ?_⟩ <;>
    · intro e he
      simp only [List.mem_map] at he
      obtain ⟨a, ha, rfl⟩ := he
      exact fun heq => h (heq ▸ List.mem_map.2 ⟨a, ha, rfl⟩)

/-- The state with these networks. -/
def partialOf (domain : Str) (rs : List (Str × β × List Nrm.Port)) : Partial β := ⟨regOf domain rs, lvOf rs, rs⟩

theorem addBackend_ok (env : Env β) (domain : Str) (rs : List (Str × β × List Nrm.Port)) (hn : (rs.map (·.1)).Nodup) (name : Str) (cfg : List (Str × Str)) (p : Partial β) :
    addBackend env domain (partialOf domain rs) name cfg = .ok p ↔
      net domain name ∉ rs.map (·.1) ∧ ∃ r, Runs env domain (name, cfg) r ∧ p = partialOf domain (rs ++ [r]) := by
  unfold addBackend
  by_cases hname : name = []
  · rw [if_pos hname]
    simp [Runs, hname]
  · rw [if_neg hname]
    simp only
    cases hp : nrmPorts env cfg with
    | error e => simp [Runs, hp]
    | ok ports =>
      simp only [partialOf]
      have hl := lvOf_nets rs hn
      have hb := lvOf_black rs
      by_cases hm : net domain name ∈ rs.map (·.1)
      · have : ((lvOf rs).step (.addLocal (domain ++ ':' :: name))).2 = false := by
          rw [← Bool.not_eq_true, step_addLocal_ok hb, hl]
          exact fun h => h hm
        simp [this, hm]
      · have h2 : ((lvOf rs).step (.addLocal (domain ++ ':' :: name))).2 = true := (step_addLocal_ok hb).2 (by rw [hl]; exact hm)
        have hs : Sound ((lvOf rs).step (.addLocal (domain ++ ':' :: name))).1 := sound_of_black (by rw [black_step, hb])
        simp only [h2, Bool.not_true, Bool.false_eq_true, if_false, hm, not_false_eq_true, true_and]
        cases ha : addPorts (domain ++ ':' :: name) ports ((lvOf rs).step (.addLocal (domain ++ ':' :: name))).1 with
        | error e =>
          simp only [reduceCtorEq, false_iff, not_exists, not_and]
          intro r hr _
          have hpp : r.2.2 = ports := by
            have := hr.2.2.1
            simp only [hp, Except.ok.injEq] at this
            exact this.symm
          have := (addPorts_ok (domain ++ ':' :: name) ports _ _ hs).2 ⟨hpp ▸ hr.2.2.2.1, rfl⟩
          rw [ha] at this
          cases this
        | ok lv =>
          obtain ⟨hv, hlv⟩ := (addPorts_ok (domain ++ ':' :: name) ports _ _ hs).1 ha
          simp only
          cases hbk : setupBackend env cfg (domain ++ ':' :: name) ports with
          | error e =>
            simp only [reduceCtorEq, false_iff, not_exists, not_and]
            intro r hr _
            have hpp : r.2.2 = ports := by
              have := hr.2.2.1
              simp only [hp, Except.ok.injEq] at this
              exact this.symm
            have := hr.2.2.2.2
            rw [hpp] at this
            simp only [net, hbk] at this
            cases this
          | ok b =>
            have hadd := regOf_add (domain := domain) (rs := rs) (r := (net domain name, b, ports)) hm
            simp only [net] at hadd
            simp only [hadd, Except.ok.injEq]
            have hst : dset rs (domain ++ ':' :: name) (b, ports) = rs ++ [(net domain name, b, ports)] := by
              apply dset_new
              intro e he heq
              exact hm (List.mem_map.2 ⟨e, he, heq⟩)
            constructor
            · rintro rfl
              refine ⟨(net domain name, b, ports), ⟨rfl, hname, hp, hv, hbk⟩, ?_⟩
              rw [hst, hlv, lvOf_append]
              rfl
            · rintro ⟨r, hr, rfl⟩
              obtain ⟨r1, r2, r3⟩ := r
              obtain ⟨e1, _, e3, _, e5⟩ := hr
              simp only at e1 e3 e5
              rw [hp] at e3
              cases e3
              rw [show net domain name = domain ++ ':' :: name from rfl, hbk] at e5
              cases e5
              subst e1
              rw [hst, hlv, lvOf_append]
              rfl

theorem addBackends_ok (env : Env β) (domain : Str) (bs : List (Str × List (Str × Str))) (rs : List (Str × β × List Nrm.Port)) (hn : (rs.map (·.1)).Nodup) (p : Partial β) :
    addBackends env domain bs (partialOf domain rs) = .ok p ↔
      ∃ rs', AllRun env domain bs rs' ∧ ((rs ++ rs').map (·.1)).Nodup ∧ p = partialOf domain (rs ++ rs') := by
  induction bs generalizing rs with
  | nil =>
    simp only [addBackends, Except.ok.injEq]
    constructor
    · rintro rfl
      exact ⟨[], .nil, by simpa using hn, by simp⟩
    · rintro ⟨rs', h, _, rfl⟩
      cases h
      simp
  | cons b bs ih =>
    obtain ⟨name, cfg⟩ := b
    simp only [addBackends]
    cases ha : addBackend env domain (partialOf domain rs) name cfg with
    | error e =>
      simp only [reduceCtorEq, false_iff, not_exists, not_and]
      rintro rs' h hnd _
      cases h with
      | @cons _ r _ rs' hr _ =>
        have hfresh : net domain name ∉ rs.map (·.1) := by
          intro hm
          rw [List.map_append, List.nodup_append] at hnd
          exact hnd.2.2 _ hm _ (by simp) hr.1.symm
        have := (addBackend_ok env domain rs hn name cfg _).2 ⟨hfresh, r, hr, rfl⟩
        rw [ha] at this
        cases this
    | ok q =>
      obtain ⟨hfresh, r, hr, rfl⟩ := (addBackend_ok env domain rs hn name cfg q).1 ha
      simp only
      have hn' : ((rs ++ [r]).map (·.1)).Nodup := by
        rw [List.map_append, List.nodup_append]
        refine ⟨hn, by simp, ?_⟩
        intro a ha' b hb'
        simp only [List.map_cons, List.map_nil, List.mem_singleton] at hb'
        subst hb'
        rw [hr.1]
        exact fun h => hfresh (h ▸ ha')
      rw [ih (rs ++ [r]) hn']
      constructor
      · rintro ⟨rs', h1, h2, rfl⟩
        exact ⟨r :: rs', .cons hr h1, by simpa using h2, by simp⟩
      · rintro ⟨rs', h1, h2, rfl⟩
        cases h1 with
        | @cons _ r' _ rs' hr' h1 =>
          have hrr : r' = r := by
            obtain ⟨r1, r2, r3⟩ := r
            obtain ⟨s1, s2, s3⟩ := r'
            obtain ⟨e1, _, e3, _, e5⟩ := hr
            obtain ⟨f1, _, f3, _, f5⟩ := hr'
            simp only at e1 e3 e5 f1 f3 f5
            rw [e3] at f3
            cases f3
            rw [e5] at f5
            cases f5
            rw [e1, f1]
          subst hrr
          exact ⟨rs', h1, by simpa using h2, by simp⟩

end OpenNSA.Setup
