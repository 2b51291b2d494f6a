import Verif.Discovery.Model
/-
C53: discovered reachability.
-/
namespace OpenNSA.Discovery
open Py OpenNSA.Registry

variable {π : Type}

/-! ### Reading the document -/

/-- Network `n` is one of the networks the document says are the peer's. -/
def Doc.Owns (d : Doc) (n : Str) : Prop := some (urnPrefix ++ n) ∈ d.networkIds

/-- The last cost that the document gives for network `n` is `c`. -/
def Doc.Advertises (d : Doc) (n : Str) (c : Int) : Prop :=
  ∃ before after, d.reach = before ++ (some (urnPrefix ++ n), c) :: after ∧ ∀ e ∈ after, e.1 ≠ some (urnPrefix ++ n)

/-- The document is in order: an identity that is a URN, a URL for the connection service, no empty network ids. -/
structure Doc.Fine (d : Doc) (ident : Str) : Prop where
  id : d.id = some (urnPrefix ++ ident)
  url : ∃ l t u, d.interfaces = some l ∧ (t = cs2Provider ∨ t = cs2ServiceType) ∧ (some t, some u) ∈ l
  href : ∀ l, d.interfaces = some l → ∀ i ∈ l, i.2 ≠ none
  ids : none ∉ d.networkIds
  uris : ∀ e ∈ d.reach, e.1 ≠ none

/-- A port of ours leads to network `r`. -/
def LeadsTo (ports : Ports) (n p r : Str) : Prop := ∃ ps, (n, ps) ∈ ports ∧ (p, some r) ∈ ps

theorem prefix_drop {s : Str} (h : urnPrefix.isPrefixOf s = true) : urnPrefix ++ s.drop urnPrefix.length = s := by
  obtain ⟨t, rfl⟩ := List.isPrefixOf_iff_prefix.1 h
  simp

theorem isPrefix_append (s : Str) : urnPrefix.isPrefixOf (urnPrefix ++ s) = true := List.isPrefixOf_iff_prefix.2 (List.prefix_append _ _)

theorem baseNames_spec {l : List (Option Str)} (h : none ∉ l) : ∃ nets, baseNames l = some nets ∧ ∀ n, n ∈ nets ↔ some (urnPrefix ++ n) ∈ l := by
  induction l with
  | nil => exact ⟨[], rfl, by simp⟩
  | cons a l ih =>
    obtain ⟨nets, h1, h2⟩ := ih fun h' => h (List.mem_cons_of_mem _ h')
    cases a with
    | none => simp at h
    | some s =>
      refine ⟨_, by simp only [baseNames, h1]; rfl, ?_⟩
      intro n
      by_cases hp : urnPrefix.isPrefixOf s = true
      · simp only [hp, if_true, List.mem_cons, h2 n, Option.some.injEq]
        constructor
        · rintro (rfl | h)
          · exact Or.inl (prefix_drop hp)
          · exact Or.inr h
        · rintro (h | h)
          · exact Or.inl (by rw [← h]; simp)
          · exact Or.inr h
      · rw [if_neg hp]
        simp only [List.mem_cons, h2 n, Option.some.injEq]
        constructor
        · exact Or.inr
        · rintro (h | h)
          · rw [← h] at hp
            exact absurd (isPrefix_append n) hp
          · exact h

theorem baseName_some (ident : Str) : baseName (some (urnPrefix ++ ident)) = some ident := by
  simp only [baseName, isPrefix_append, if_true]
  simp

theorem serviceUrl_some {l : List (Option Str × Option Str)} (hh : ∀ i ∈ l, i.2 ≠ none) (h : ∃ t u, (t = cs2Provider ∨ t = cs2ServiceType) ∧ (some t, some u) ∈ l) :
    ∃ url, serviceUrl l = some url := by
  -- once there is a URL there always is one
  have keep : ∀ (l : List (Option Str × Option Str)) (x : Str), (∀ i ∈ l, i.2 ≠ none) →
      ∃ url, l.foldl (fun url i => if i.1 = some cs2Provider then i.2 else if i.1 = some cs2ServiceType ∧ url = none then i.2 else url) (some x) = some url := by
    intro l
    induction l with
    | nil => exact fun x _ => ⟨x, rfl⟩
    | cons a l ih =>
      intro x ha
      simp only [List.foldl_cons]
      obtain ⟨y, hy⟩ := Option.ne_none_iff_exists'.1 (ha a (by simp))
      split
      · rw [hy]
        exact ih y fun i hi => ha i (List.mem_cons_of_mem _ hi)
      · rw [if_neg (by simp)]
        exact ih x fun i hi => ha i (List.mem_cons_of_mem _ hi)
  have main : ∀ (o : Option Str), ∃ url, l.foldl (fun url i => if i.1 = some cs2Provider then i.2 else if i.1 = some cs2ServiceType ∧ url = none then i.2 else url) o = some url := by
   induction l with
   | nil => obtain ⟨t, u, _, h⟩ := h; simp at h
   | cons a l ih =>
     intro o
     obtain ⟨t, u, ht, hm⟩ := h
     have hh' : ∀ i ∈ l, i.2 ≠ none := fun i hi => hh i (List.mem_cons_of_mem _ hi)
     simp only [List.foldl_cons]
     rcases List.mem_cons.1 hm with rfl | hm
     · rcases ht with rfl | rfl
       · rw [if_pos rfl]
         exact keep l u hh'
       · cases o with
         | none =>
           rw [if_neg (show ¬ some cs2ServiceType = some cs2Provider by decide), if_pos ⟨rfl, rfl⟩]
           exact keep l u hh'
         | some x =>
           rw [if_neg (show ¬ some cs2ServiceType = some cs2Provider by decide), if_neg (by simp)]
           exact keep l x hh'
     · exact ih hh' ⟨t, u, ht, hm⟩ _
  exact main none

theorem advertised_spec {l : List (Option Str × Int)} (h : ∀ e ∈ l, e.1 ≠ none) (v : Vec) :
    ∃ w, advertised l v = some w ∧ ∀ n,
      (∀ c, (∃ before after, l = before ++ (some (urnPrefix ++ n), c) :: after ∧ ∀ e ∈ after, e.1 ≠ some (urnPrefix ++ n)) →
        dget w n = some (c + 1)) ∧
      ((∀ e ∈ l, e.1 ≠ some (urnPrefix ++ n)) → dget w n = dget v n) := by
  induction l generalizing v with
  | nil => exact ⟨v, rfl, fun n => ⟨by rintro c ⟨b, a, h, _⟩; simp at h, fun _ => rfl⟩⟩
  | cons a l ih =>
    obtain ⟨s, c⟩ := a
    cases s with
    | none => exact absurd rfl (h (none, c) (by simp))
    | some s =>
      obtain ⟨w, h1, h2⟩ := ih (fun e he => h e (List.mem_cons_of_mem _ he)) (if urnPrefix.isPrefixOf s then dset v (s.drop urnPrefix.length) (c + 1) else v)
      refine ⟨w, h1, fun n => ⟨?_, ?_⟩⟩
      · rintro k ⟨b, e, hl, he⟩
        cases b with
        | nil =>
          simp only [List.nil_append, List.cons.injEq, Prod.mk.injEq, Option.some.injEq] at hl
          obtain ⟨⟨rfl, rfl⟩, rfl⟩ := hl
          rw [(h2 n).2 he, isPrefix_append, if_pos rfl, dget_dset]
          simp
        | cons b0 b =>
          simp only [List.cons_append, List.cons.injEq] at hl
          exact (h2 n).1 k ⟨b, e, hl.2, he⟩
      · intro hn
        rw [(h2 n).2 fun e he => hn e (List.mem_cons_of_mem _ he)]
        split
        · rename_i hp
          rw [dget_dset, if_neg]
          intro hc
          have := hn _ (List.mem_cons_self ..)
          rw [← hc, prefix_drop hp] at this
          exact this rfl
        · rfl

theorem own_spec (nets : List Str) (v : Vec) (n : Str) : dget (nets.foldl (fun v n => dset v n 1) v) n = if n ∈ nets then some 1 else dget v n := by
  induction nets generalizing v with
  | nil => simp
  | cons a nets ih =>
    simp only [List.foldl_cons, ih, dget_dset, List.mem_cons]
    by_cases h1 : n ∈ nets
    · simp [h1]
    · by_cases h2 : a = n
      · simp [h2]
      · have : n ≠ a := fun h => h2 h.symm
        simp [h1, h2, this]

/-- What is announced for a destination. -/
structure Announces (d : Doc) (w : Vec) : Prop where
  own : ∀ n, d.Owns n → dget w n = some 1
  behind : ∀ n c, ¬ d.Owns n → d.Advertises n c → dget w n = some (c + 1)
  other : ∀ n, ¬ d.Owns n → (∀ e ∈ d.reach, e.1 ≠ some (urnPrefix ++ n)) → dget w n = none

theorem vectorsOf_spec {d : Doc} (h : ∀ e ∈ d.reach, e.1 ≠ none) {nets : List Str} (hn : ∀ n, n ∈ nets ↔ d.Owns n) :
    ∃ w, vectorsOf d.reach nets = some w ∧ Announces d w := by
  obtain ⟨v, h1, h2⟩ := advertised_spec h []
  refine ⟨_, by simp only [vectorsOf, h1]; rfl, ?_, ?_, ?_⟩
  · intro n ho
    rw [own_spec, if_pos ((hn n).2 ho)]
  · intro n c ho ha
    rw [own_spec, if_neg fun h => ho ((hn n).1 h)]
    exact (h2 n).1 c ha
  · intro n ho ha
    rw [own_spec, if_neg fun h => ho ((hn n).1 h)]
    exact (h2 n).2 ha

theorem mem_facing {nets : List Str} {ports : Ports} {n p : Str} : (n, p) ∈ facing nets ports ↔ ∃ r, LeadsTo ports n p r ∧ r ∈ nets := by
  unfold facing LeadsTo
  simp only [List.mem_flatMap, List.mem_map, List.mem_filter]
  constructor
  · rintro ⟨⟨m, ps⟩, hm, ⟨q, r⟩, ⟨hq, hr⟩, he⟩
    simp only [Prod.mk.injEq] at he
    obtain ⟨rfl, rfl⟩ := he
    cases r with
    | none => simp at hr
    | some r => exact ⟨r, ⟨ps, hm, hq⟩, by simpa using hr⟩
  · rintro ⟨r, ⟨ps, hm, hq⟩, hr⟩
    exact ⟨(n, ps), hm, (p, some r), ⟨hq, by simpa using hr⟩, rfl⟩

/-! ### The calculation does not raise -/

theorem relaxOne_ne {g : LvCfg} {src u port : Str} {c : Int} {st : Dist × Prev} {e : Str × Int} (h : st.1 ≠ []) : (relaxOne g src u c port st e).1 ≠ [] := by
  have hd : ∀ (d : Dist) k v, dset d k v ≠ [] := by
    intro d k v h
    have := dget_dset d k k v
    rw [h] at this
    simp [dget] at this
  unfold relaxOne
  split
  · exact h
  · split
    · exact h
    · simp only
      split
      · exact h
      · split
        · exact hd _ _ _
        · split
          · exact hd _ _ _
          · exact h

theorem relaxFrom_ne {g : LvCfg} {src u : Str} {c : Int} {st : Dist × Prev} (h : st.1 ≠ []) : (relaxFrom g src u c st).1 ≠ [] := by
  unfold relaxFrom
  generalize g.vectors.filter _ = l
  induction l generalizing st with
  | nil => exact h
  | cons a l ih =>
    simp only [List.foldl_cons]
    apply ih
    generalize a.2 = v
    induction v generalizing st with
    | nil => exact h
    | cons b v ih2 => exact ih2 (relaxOne_ne h)

theorem dijLoop_some (g : LvCfg) (src : Str) : ∀ (n : Nat) (unv : List Str) (dist : Dist) (prev : Prev), unv.length = n → (dist = [] → src ∈ unv) →
    ∃ x, dijLoop g src unv dist prev = some x := by
  intro n
  induction n using Nat.strongRecOn with
  | ind n ih =>
    intro unv dist prev hl hd
    unfold dijLoop
    split
    · exact ⟨_, rfl⟩
    · simp only
      by_cases hdist : dist = []
      · rw [if_pos hdist]
        simp only
        split
        · exact ⟨_, rfl⟩
        · rename_i h
          rw [dif_pos (hd hdist)]
          refine ih _ ?_ _ _ _ rfl ?_
          · rw [← hl]
            exact length_dropNet_lt (hd hdist)
          · intro he
            exact absurd ⟨trivial, he⟩ h
      · rw [if_neg hdist]
        cases hm : minCost (candidates unv dist) with
        | none => exact ⟨_, rfl⟩
        | some x =>
          obtain ⟨c, u⟩ := x
          simp only
          split
          · exact ⟨_, rfl⟩
          · have hu : u ∈ unv := (mem_candidates.1 (minCost_some hm).1).2
            rw [dif_pos hu]
            refine ih _ ?_ _ _ _ rfl ?_
            · rw [← hl]
              exact length_dropNet_lt hu
            · intro he
              exact absurd he (relaxFrom_ne hdist)

theorem calculate_true (lv : LinkVector) (hb : ∀ n ∈ lv.localNets, n ∉ lv.cfg.black) : lv.calculate.2 = true := by
  have key : ∀ (l : List Str) (lv : LinkVector), (∀ n ∈ l, n ∈ lv.localNets ∧ n ∉ lv.cfg.black) → (calcOver lv l).2 = true := by
    intro l
    induction l with
    | nil => exact fun _ _ => rfl
    | cons n l ih =>
      intro lv h
      obtain ⟨x, hx⟩ := dijLoop_some lv.cfg n _ (allNetworks lv.cfg lv.localNets) [] [] rfl (by
        intro _
        simp [allNetworks, (h n (by simp)).1, (h n (by simp)).2])
      unfold calcOver dijkstra
      rw [hx]
      exact ih _ fun m hm => h m (List.mem_cons_of_mem _ hm)
  exact key _ lv fun n hn => ⟨hn, hb n hn⟩

theorem calcOver_nets (lv : LinkVector) (l : List Str) : (calcOver lv l).1.localNets = lv.localNets := by
  induction l generalizing lv with
  | nil => rfl
  | cons n ns ih =>
    unfold calcOver
    split
    · rfl
    · rw [ih]

/-- No own network is blacklisted. -/
def Sound (lv : LinkVector) : Prop := ∀ n ∈ lv.localNets, n ∉ lv.cfg.black

theorem Sound.update {lv : LinkVector} (h : Sound lv) (n p : Str) (v : Vec) : Sound (lv.step (.update n p v)).1 ∧ (lv.step (.update n p v)).2 = true := by
  constructor
  · intro m hm
    simp only [LinkVector.step, LinkVector.calculate, calcOver_nets] at hm
    simp only [LinkVector.step, LinkVector.calculate, calcOver_cfg]
    exact h m hm
  · exact calculate_true _ h

/-- All updates are made. -/
theorem updateAll_eq {lv : LinkVector} (h : Sound lv) (vec : Vec) (l : List (Str × Str)) :
    updateAll vec l lv = (l.map fun k => LvOp.update k.1 k.2 vec).foldl (fun lv o => (lv.step o).1) lv ∧ Sound (updateAll vec l lv) := by
  induction l generalizing lv with
  | nil => exact ⟨rfl, h⟩
  | cons k l ih =>
    have hs := h.update k.1 k.2 vec
    simp only [updateAll, hs.2, if_true, List.map_cons, List.foldl_cons]
    exact ih hs.1

theorem costOf_updateAll {lv : LinkVector} (h : Sound lv) (vec : Vec) (l : List (Str × Str)) (n p d : Str) :
    (updateAll vec l lv).costOf n p d = if (n, p) ∈ l then (match lv.costOf n p d with | some k => some k | none => dget vec d) else lv.costOf n p d := by
  induction l generalizing lv with
  | nil => simp [updateAll]
  | cons k l ih =>
    have hs := h.update k.1 k.2 vec
    simp only [updateAll, hs.2, if_true, ih hs.1, C16_update_exact, List.mem_cons, Prod.ext_iff]
    by_cases h1 : (n, p) ∈ l <;> by_cases h2 : n = k.1 ∧ p = k.2
    · obtain ⟨rfl, rfl⟩ := h2
      cases lv.costOf k.1 k.2 d <;> cases dget vec d <;> simp
    · simp [h1, h2]
    · obtain ⟨rfl, rfl⟩ := h2
      rw [if_neg h1]
      simp only [and_self, if_true, true_or]
      cases lv.costOf k.1 k.2 d <;> rfl
    · simp [h1, h2]

/-! ### The registry -/

theorem run_factories (r : Reg π) (ops : List (Op π)) : (r.run ops).factories = r.factories := by
  induction ops generalizing r with
  | nil => rfl
  | cons o ops ih =>
    show ((r.step o).run ops).factories = _
    rw [ih]
    rcases step_cases r o with he | ⟨n, u, p, ha, -⟩
    · rw [he]
    · rw [ha.2]

theorem spawnAll_ok (f : List Str) (ops : List (Op π)) (agent : Agent) (made : Str → Option π) (hf : agent.serviceType ∈ f) (hm : ∀ n, made n ≠ none)
    (nets : List Str) :
    spawnAll agent made nets ((Reg.new f).run ops) = ((Reg.new f).run (ops ++ nets.map fun n => .spawn agent n (made n)), true) ∧
    ∀ n ∈ nets, (∃ p, dget ((Reg.new f).run (ops ++ nets.map fun n => .spawn agent n (made n))).providers n = some p) ∧
      ((∀ p, dget ((Reg.new f).run ops).providers n ≠ some p) →
        ((Reg.new f).run (ops ++ nets.map fun n => .spawn agent n (made n))).getProviderURN n = .ok agent.urn) := by
  induction nets generalizing ops with
  | nil => simp [spawnAll]
  | cons n nets ih =>
    have hfac : agent.serviceType ∈ ((Reg.new f).run ops).factories := by rw [run_factories]; exact hf
    -- the call for the first network
    have h1 : ∃ x, ((Reg.new f).run ops).spawnProvider agent n (made n) = .ok ((Reg.new f).run (ops ++ [.spawn agent n (made n)]), x) ∧
        (∃ p, dget ((Reg.new f).run (ops ++ [.spawn agent n (made n)])).providers n = some p) ∧
        ((∀ p, dget ((Reg.new f).run ops).providers n ≠ some p) → ((Reg.new f).run (ops ++ [.spawn agent n (made n)])).getProviderURN n = .ok agent.urn) := by
      have hrun : (Reg.new f).run (ops ++ [.spawn agent n (made n)]) = ((Reg.new f).run ops).step (.spawn agent n (made n)) := by
        rw [Reg.run_append]; rfl
      rw [hrun]
      cases hd : dget ((Reg.new f).run ops).providers n with
      | some p =>
        refine ⟨some p, ?_, ⟨p, ?_⟩, fun h => absurd rfl (h p)⟩
        · simp [Reg.step, Reg.spawnProvider, hd]
        · simp [Reg.step, Reg.spawnProvider, hd]
      | none =>
        have hs := C43_spawn f ops agent n (made n) hd
        cases hr : ((Reg.new f).run ops).spawnProvider agent n (made n) with
        | error e =>
          exfalso
          rcases (hs.2 e hr).2 with h | h
          · exact h hfac
          · exact hm n h
        | ok v =>
          obtain ⟨r', x⟩ := v
          obtain ⟨hu, p, hp, _⟩ := hs.1 r' x hr
          have hst : ((Reg.new f).run ops).step (.spawn agent n (made n)) = r' := by simp [Reg.step, hr]
          rw [hst]
          exact ⟨x, rfl, ⟨p, hp⟩, fun _ => hu⟩
    obtain ⟨x, hsp, ⟨p0, hp0⟩, hu0⟩ := h1
    obtain ⟨i1, i2⟩ := ih (ops ++ [.spawn agent n (made n)])
    have hl : ops ++ [.spawn agent n (made n)] ++ nets.map (fun n => Op.spawn agent n (made n)) = ops ++ (n :: nets).map fun n => .spawn agent n (made n) := by simp
    rw [hl] at i1 i2
    have hk := run_keep ((Inv.new f).run (ops ++ [.spawn agent n (made n)])) (nets.map fun n => Op.spawn agent n (made n)) (m := n)
    refine ⟨by simp only [spawnAll, hsp]; exact i1, ?_⟩
    intro m hmem
    by_cases hmn : m = n
    · subst hmn
      have := hk
      rw [← Reg.run_append, hl] at this
      exact ⟨⟨p0, this.1 _ hp0⟩, fun h => getURN_ok.2 (this.2 _ (getURN_ok.1 (hu0 h)))⟩
    · have hm' : m ∈ nets := by simpa [hmn] using hmem
      refine ⟨(i2 m hm').1, fun h => ?_⟩
      refine (i2 m hm').2 ?_
      intro p hp
      rw [Reg.run_append] at hp
      rcases run_known [Op.spawn agent n (made n)] hp with ⟨q, hq⟩ | ⟨o, ho, he⟩
      · exact h q hq
      · simp only [List.mem_singleton] at ho
        subst ho
        exact hmn he.symm

/-! ### Documents -/

/-- The agent that a document describes. -/
abbrev agentOf (ident : Str) : Agent := ⟨urnPrefix ++ ident, cs2ServiceType⟩

/-- A fine document is processed to the end. -/
theorem gotDocument_fine {ports : Ports} {made : Str → Option π} {d : Doc} {ident : Str} (hd : d.Fine ident) (hm : ∀ n, made n ≠ none)
    (f : List Str) (hf : cs2ServiceType ∈ f) (rops : List (Op π)) (lv : LinkVector) :
    ∃ nets w, (∀ n, n ∈ nets ↔ d.Owns n) ∧ Announces d w ∧ (w = [] → nets = []) ∧
      (∀ e ∈ w, ∃ c, (e.2 = 1 ∧ d.Owns e.1) ∨ (e.2 = c + 1 ∧ (some (urnPrefix ++ e.1), c) ∈ d.reach)) ∧
      gotDocument ports made ⟨(Reg.new f).run rops, lv⟩ d =
        ⟨(Reg.new f).run (rops ++ nets.map fun n => .spawn (agentOf ident) n (made n)), updateAll w (facing nets ports) lv⟩ := by
  obtain ⟨l, t, u, hi, ht, hmem⟩ := hd.url
  obtain ⟨url, hurl⟩ := serviceUrl_some (hd.href l hi) ⟨t, u, ht, hmem⟩
  obtain ⟨nets, hn, hn'⟩ := baseNames_spec hd.ids
  obtain ⟨w, hw, hw'⟩ := vectorsOf_spec hd.uris (fun n => hn' n)
  have hkeys : w = [] → nets = [] := by
    intro h
    cases nets with
    | nil => rfl
    | cons n ns =>
      have := hw'.own n ((hn' n).1 (by simp))
      rw [h] at this
      simp [dget] at this
  refine ⟨nets, w, hn', hw', hkeys, ?_, ?_⟩
  · -- where the entries come from
    have hadv : ∀ (l : List (Option Str × Int)) (v w : Vec), advertised l v = some w → ∀ e ∈ w, e ∈ v ∨ ∃ c, e.2 = c + 1 ∧ (some (urnPrefix ++ e.1), c) ∈ l := by
      intro l
      induction l with
      | nil => intro v w h e he; cases h; exact Or.inl he
      | cons a l ih =>
        intro v w h e he
        obtain ⟨s, c⟩ := a
        cases s with
        | none => cases h
        | some s =>
          rcases ih _ w h e he with h1 | ⟨k, h1, h2⟩
          · split at h1
            · rename_i hp
              rcases mem_dset_of h1 with h2 | h2
              · exact Or.inr ⟨c, by rw [h2], by rw [h2]; simp [prefix_drop hp]⟩
              · exact Or.inl h2
            · exact Or.inl h1
          · exact Or.inr ⟨k, h1, List.mem_cons_of_mem _ h2⟩
    have hown : ∀ (nets : List Str) (v : Vec), ∀ e ∈ nets.foldl (fun v n => dset v n 1) v, e ∈ v ∨ (e.2 = 1 ∧ e.1 ∈ nets) := by
      intro nets
      induction nets with
      | nil => intro v e he; exact Or.inl he
      | cons a nets ih =>
        intro v e he
        rcases ih _ e he with h1 | ⟨h1, h2⟩
        · rcases mem_dset_of h1 with h2 | h2
          · exact Or.inr (by rw [h2]; simp)
          · exact Or.inl h2
        · exact Or.inr ⟨h1, List.mem_cons_of_mem _ h2⟩
    intro e he
    unfold vectorsOf at hw
    cases ha : advertised d.reach [] with
    | none => rw [ha] at hw; cases hw
    | some v =>
      rw [ha] at hw
      simp only [Option.some.injEq] at hw
      rw [← hw] at he
      rcases hown nets v e he with h1 | ⟨h1, h2⟩
      · rcases hadv _ _ _ ha e h1 with h2 | ⟨c, h2, h3⟩
        · simp at h2
        · exact ⟨c, Or.inr ⟨h2, h3⟩⟩
      · exact ⟨0, Or.inl ⟨h1, (hn' _).1 h2⟩⟩
  · have hsp := (spawnAll_ok f rops (agentOf ident) made hf hm nets).1
    unfold gotDocument
    simp only [hi, hurl, hn, hd.id, baseName_some]
    rw [hsp]
    simp only [Bool.not_true, Bool.false_eq_true, if_false, hw]
    split
    · rename_i h
      have : facing nets ports = [] := List.eq_nil_iff_forall_not_mem.2 fun ⟨a, b⟩ hab => by
        obtain ⟨r, _, hr⟩ := mem_facing.1 hab
        rw [hkeys h] at hr
        simp at hr
      rw [this]
      simp [updateAll]
    · rfl

/-- **C53, costs.** A document that is in order changes the costs of exactly those ports that lead to one of the peer's networks. There,
destinations that are not known yet are given cost 1 if they are the peer's, and otherwise the last cost that the document
gives plus one; those that are neither stay unknown. The costs of known destinations stay as they are. The advertised costs may be any numbers. -/
theorem C53_costs {ports : Ports} {made : Str → Option π} {d : Doc} {ident : Str} (hd : d.Fine ident) (hm : ∀ n, made n ≠ none)
    (f : List Str) (hf : cs2ServiceType ∈ f) (rops : List (Op π)) (lv : LinkVector) (hl : ∀ n ∈ lv.localNets, n ∉ lv.cfg.black) (n p x : Str) :
    let before := lv.costOf n p x
    let after := (gotDocument ports made ⟨(Reg.new f).run rops, lv⟩ d).lv.costOf n p x
    ((¬ ∃ r, LeadsTo ports n p r ∧ d.Owns r) → after = before) ∧
    (∀ k, before = some k → after = some k) ∧
    ((∃ r, LeadsTo ports n p r ∧ d.Owns r) → before = none →
      (d.Owns x → after = some 1) ∧
      (¬ d.Owns x → ∀ c, d.Advertises x c → after = some (c + 1)) ∧
      (¬ d.Owns x → (∀ e ∈ d.reach, e.1 ≠ some (urnPrefix ++ x)) → after = none)) := by
  obtain ⟨nets, w, hn, hw, _, _, he⟩ := gotDocument_fine (ports := ports) hd hm f hf rops lv
  simp only [he, costOf_updateAll hl]
  have hfac : (n, p) ∈ facing nets ports ↔ ∃ r, LeadsTo ports n p r ∧ d.Owns r := by simp only [mem_facing, hn]
  refine ⟨fun h => by rw [if_neg fun h' => h (hfac.1 h')], ?_, ?_⟩
  · intro k hk
    simp only [hk]
    split <;> rfl
  · intro h hb
    rw [if_pos (hfac.2 h), hb]
    exact ⟨hw.own x, fun ho c => hw.behind x c ho, hw.other x⟩

/-- **C53, providers.** After a document that is in order each of the peer's networks has a provider, and it is the peer's unless the network
had one before. -/
theorem C53_providers {ports : Ports} {made : Str → Option π} {d : Doc} {ident : Str} (hd : d.Fine ident) (hm : ∀ n, made n ≠ none)
    (f : List Str) (hf : cs2ServiceType ∈ f) (rops : List (Op π)) (lv : LinkVector) (n : Str) (hn : d.Owns n) :
    let before := (Reg.new f).run rops
    let after := (gotDocument ports made ⟨before, lv⟩ d).reg
    (∃ p, dget after.providers n = some p) ∧ ((∀ p, dget before.providers n ≠ some p) → after.getProviderURN n = .ok (urnPrefix ++ ident)) := by
  obtain ⟨nets, w, hn', _, _, _, he⟩ := gotDocument_fine (ports := ports) hd hm f hf rops lv
  simp only [he]
  exact (spawnAll_ok f rops (agentOf ident) made hf hm nets).2 n ((hn' n).2 hn)

/-- Any document makes updates only, of the entries announced by it. -/
theorem gotDocument_ops {ports : Ports} {made : Str → Option π} {d : Doc} (st : Fetcher π) (hs : Sound st.lv) :
    ∃ l : List (Str × Str), ∃ w : Vec, (gotDocument ports made st d).lv = (l.map fun k => LvOp.update k.1 k.2 w).foldl (fun lv o => (lv.step o).1) st.lv ∧
      Sound (gotDocument ports made st d).lv ∧ (∀ k ∈ l, ∃ r, LeadsTo ports k.1 k.2 r) ∧
      (∀ e ∈ w, e.2 = 1 ∨ ∃ r ∈ d.reach, e.2 = r.2 + 1) := by
  have triv : ∀ st' : Fetcher π, st'.lv = st.lv → ∃ l : List (Str × Str), ∃ w : Vec, st'.lv = (l.map fun k => LvOp.update k.1 k.2 w).foldl (fun lv o => (lv.step o).1) st.lv ∧
      Sound st'.lv ∧ (∀ k ∈ l, ∃ r, LeadsTo ports k.1 k.2 r) ∧ (∀ e ∈ w, e.2 = 1 ∨ ∃ r ∈ d.reach, e.2 = r.2 + 1) := by
    intro st' h
    exact ⟨[], [], h, by rw [h]; exact hs, by simp, by simp⟩
  unfold gotDocument
  split
  · exact triv _ rfl
  · split
    · exact triv _ rfl
    · split
      · exact triv _ rfl
      · rename_i nets _
        split
        · exact triv _ rfl
        · simp only
          split
          · exact triv _ rfl
          · split
            · exact triv _ rfl
            · rename_i w hw
              split
              · exact triv _ rfl
              · refine ⟨facing nets ports, w, (updateAll_eq hs w _).1, (updateAll_eq hs w _).2, ?_, ?_⟩
                · intro k hk
                  obtain ⟨r, hr, _⟩ := mem_facing.1 hk
                  exact ⟨r, hr⟩
                · intro e he
                  have hadv : ∀ (l : List (Option Str × Int)) (v w : Vec), advertised l v = some w → ∀ e ∈ w, e ∈ v ∨ ∃ r ∈ l, e.2 = r.2 + 1 := by
                    intro l
                    induction l with
                    | nil => intro v w h e he; cases h; exact Or.inl he
                    | cons a l ih =>
                      intro v w h e he
                      obtain ⟨s, c⟩ := a
                      cases s with
                      | none => cases h
                      | some s =>
                        rcases ih _ w h e he with h1 | ⟨r, h1, h2⟩
                        · split at h1
                          · rcases mem_dset_of h1 with h2 | h2
                            · exact Or.inr ⟨(some s, c), by simp, by rw [h2]⟩
                            · exact Or.inl h2
                          · exact Or.inl h1
                        · exact Or.inr ⟨r, List.mem_cons_of_mem _ h1, h2⟩
                  have hown : ∀ (nets : List Str) (v : Vec), ∀ e ∈ nets.foldl (fun v n => dset v n 1) v, e ∈ v ∨ e.2 = 1 := by
                    intro nets
                    induction nets with
                    | nil => intro v e he; exact Or.inl he
                    | cons a nets ih =>
                      intro v e he
                      rcases ih _ e he with h1 | h1
                      · rcases mem_dset_of h1 with h2 | h2
                        · exact Or.inr (by rw [h2])
                        · exact Or.inl h2
                      · exact Or.inr h1
                  unfold vectorsOf at hw
                  cases ha : advertised d.reach [] with
                  | none => rw [ha] at hw; cases hw
                  | some v =>
                    rw [ha] at hw
                    simp only [Option.some.injEq] at hw
                    rw [← hw] at he
                    rcases hown nets v e he with h1 | h1
                    · rcases hadv _ _ _ ha e h1 with h2 | h2
                      · simp at h2
                      · exact Or.inr h2
                    · exact Or.inl h1

/-- Any number of documents, whatever they contain: the vectors are those after further updates, of ports that lead to other networks, and no
cost is less than 0 if no document advertises a cost less than -1. -/
theorem gotDocuments_ops {black : List Str} {mc : Int} {ports : Ports} (ops : List LvOp) (hg : ∀ o ∈ ops, o.Good black) (reg : Reg π)
    (ds : List (Doc × (Str → Option π))) (hc : ∀ d ∈ ds, ∀ r ∈ d.1.reach, -1 ≤ r.2) :
    ∃ more : List LvOp, (∀ o ∈ more, o.Good black ∧ ∃ n p w r, o = .update n p w ∧ LeadsTo ports n p r) ∧
      (gotDocuments ports ⟨reg, lvRun black mc ops⟩ ds).lv = lvRun black mc (ops ++ more) := by
  have key : ∀ (ds : List (Doc × (Str → Option π))) (st : Fetcher π), (∀ d ∈ ds, ∀ r ∈ d.1.reach, -1 ≤ r.2) → Sound st.lv →
      ∃ more : List LvOp, (∀ o ∈ more, o.Good black ∧ ∃ n p w r, o = .update n p w ∧ LeadsTo ports n p r) ∧
      (gotDocuments ports st ds).lv = more.foldl (fun lv o => (lv.step o).1) st.lv := by
    intro ds
    induction ds with
    | nil => exact fun st _ _ => ⟨[], by simp, rfl⟩
    | cons d ds ih =>
      intro st hc hs
      obtain ⟨l, w, h1, h2, h3, h4⟩ := gotDocument_ops (ports := ports) (made := d.2) (d := d.1) st hs
      obtain ⟨more, h5, h6⟩ := ih (gotDocument ports d.2 st d.1) (fun e he => hc e (List.mem_cons_of_mem _ he)) h2
      refine ⟨(l.map fun k => LvOp.update k.1 k.2 w) ++ more, ?_, ?_⟩
      · intro o ho
        rcases List.mem_append.1 ho with ho | ho
        · simp only [List.mem_map] at ho
          obtain ⟨k, hk, rfl⟩ := ho
          refine ⟨?_, k.1, k.2, w, ?_⟩
          · intro e he
            rcases h4 e he with h | ⟨r, hr, h⟩
            · omega
            · have := hc d (by simp) r hr
              omega
          · obtain ⟨r, hr⟩ := h3 k hk
            exact ⟨r, rfl, hr⟩
        · exact h5 o ho
      · show (gotDocuments ports (gotDocument ports d.2 st d.1) ds).lv = _
        rw [h6, h1, List.foldl_append]
  obtain ⟨more, h1, h2⟩ := key ds ⟨reg, lvRun black mc ops⟩ hc (by
    have h := lvInv_run black mc ops hg
    exact h.notBlack)
  exact ⟨more, h1, by rw [h2]; simp [lvRun, List.foldl_append]⟩

/-- **C53, never beyond the limit.** Whatever documents were received (advertising no costs below -1), every path that is found is made of announced
vectors, its cost is within the maximum, and it enters no blacklisted network. -/
theorem C53_limits_partial {black : List Str} {mc : Int} {ports : Ports} (ops : List LvOp) (hg : ∀ o ∈ ops, o.Good black) (reg : Reg π)
    (ds : List (Doc × (Str → Option π))) (hc : ∀ d ∈ ds, ∀ r ∈ d.1.reach, -1 ≤ r.2) (fuel : Nat) (net src : Str) (hops : List (Str × Str))
    (hp : (gotDocuments ports ⟨reg, lvRun black mc ops⟩ ds).lv.path fuel net src = .res (.hops hops)) :
    ∃ c, Route (gotDocuments ports ⟨reg, lvRun black mc ops⟩ ds).lv.cfg src net hops c ∧ c ≤ mc ∧
      (gotDocuments ports ⟨reg, lvRun black mc ops⟩ ds).lv.cfg.black = black ∧ net ∉ black := by
  obtain ⟨more, h1, h2⟩ := gotDocuments_ops (mc := mc) (ports := ports) ops hg reg ds hc
  rw [h2] at hp ⊢
  obtain ⟨_, hb, c, hr, hcc, hne, hns⟩ := C13_path_is_route black mc (ops ++ more) (by
    intro o ho
    rcases List.mem_append.1 ho with ho | ho
    · exact hg o ho
    · exact (h1 o ho).1) fuel net src hops hp
  refine ⟨c, hr, hcc, hb, ?_⟩
  cases hr with
  | start => exact absurd rfl hns
  | hop _ _ hnb _ => rw [hb] at hnb; exact hnb

/-- **C53, used.** After a document that is in order, a destination that was not known on a port of ours to one of the peer's networks is reached
from that network of ours, if it is not blacklisted and its cost is within the limit, and by a path that costs no more. -/
theorem C53_used_partial {black : List Str} {mc : Int} {ports : Ports} (ops : List LvOp) (hg : ∀ o ∈ ops, o.Good black) {made : Str → Option π} {d : Doc} {ident : Str}
    (hd : d.Fine ident) (hm : ∀ n, made n ≠ none) (f : List Str) (hf : cs2ServiceType ∈ f) (rops : List (Op π)) (hc : ∀ r ∈ d.reach, -1 ≤ r.2)
    (n p r x : Str) (k : Int) (hn : n ∈ (lvRun black mc ops).localNets) (hp : LeadsTo ports n p r) (ho : d.Owns r)
    (hx : (d.Owns x ∧ k = 1) ∨ (¬ d.Owns x ∧ ∃ c, d.Advertises x c ∧ k = c + 1)) (hnew : (lvRun black mc ops).costOf n p x = none)
    (hb : x ∉ black) (hxn : x ≠ n) (hk : k ≤ mc) :
    let lv := (gotDocument ports made ⟨(Reg.new f).run rops, lvRun black mc ops⟩ d).lv
    ∃ hops c, (∀ fuel, (allNetworks lv.cfg lv.localNets).length ≤ fuel → lv.path fuel x n = .res (.hops hops)) ∧ Route lv.cfg n x hops c ∧ c ≤ k := by
  obtain ⟨more, h1, h2⟩ := gotDocuments_ops (mc := mc) (ports := ports) ops hg ((Reg.new f).run rops) [(d, made)] (by simpa using fun a b h => hc (a, b) h)
  have hs : Sound (lvRun black mc ops) := by
    have h := lvInv_run black mc ops hg
    exact h.notBlack
  have hcost := (C53_costs (ports := ports) hd hm f hf rops (lvRun black mc ops) hs n p x).2.2 ⟨r, hp, ho⟩ hnew
  have hcost' : (gotDocument ports made ⟨(Reg.new f).run rops, lvRun black mc ops⟩ d).lv.costOf n p x = some k := by
    rcases hx with ⟨hx, rfl⟩ | ⟨hx, c, hc, rfl⟩
    · exact hcost.1 hx
    · exact hcost.2.1 hx c hc
  have h3 : (gotDocument ports made ⟨(Reg.new f).run rops, lvRun black mc ops⟩ d).lv = lvRun black mc (ops ++ more) := h2
  simp only [h3] at hcost' ⊢
  have hgood : ∀ o ∈ ops ++ more, o.Good black := by
    intro o ho
    rcases List.mem_append.1 ho with ho | ho
    · exact hg o ho
    · exact (h1 o ho).1
  have hinv := lvInv_run black mc (ops ++ more) hgood
  have hann : Announced (lvRun black mc (ops ++ more)).cfg.vectors n p x k := by
    unfold LinkVector.costOf at hcost'
    cases hv : dget (lvRun black mc (ops ++ more)).cfg.vectors (n, p) with
    | none => rw [hv] at hcost'; simp at hcost'
    | some vec =>
      rw [hv] at hcost'
      exact ⟨vec, dget_some_mem hv, dget_some_mem hcost'⟩
  have hroute : Route (lvRun black mc (ops ++ more)).cfg n x ([] ++ [(n, p)]) (0 + k) :=
    .hop .start hann (by rw [hinv.black]; exact hb) hxn
  have hloc : n ∈ (lvRun black mc (ops ++ more)).localNets := by
    have key : ∀ (l : List LvOp) (lv : LinkVector), n ∈ lv.localNets → (∀ o ∈ l, ∃ a b w, o = LvOp.update a b w) →
        n ∈ (l.foldl (fun lv o => (lv.step o).1) lv).localNets := by
      intro l
      induction l with
      | nil => exact fun _ h _ => h
      | cons o l ih =>
        intro lv h ho
        apply ih _ _ fun o' ho' => ho o' (List.mem_cons_of_mem _ ho')
        obtain ⟨a, b, w, rfl⟩ := ho o (by simp)
        simp only [LinkVector.step, LinkVector.calculate, calcOver_nets]
        exact h
    unfold lvRun
    rw [List.foldl_append]
    refine key more _ hn fun o ho => ?_
    obtain ⟨_, a, b, w, _, h, _⟩ := h1 o ho
    exact ⟨a, b, w, h⟩
  obtain ⟨hops', c', e1, e2, e3⟩ := C14_cheapest_found black mc (ops ++ more) hgood n x hloc hxn _ _ hroute (by omega)
  refine ⟨hops', c', e1, e2, ?_⟩
  have := e3 _ _ hroute
  omega

/-- **C53, documents that are not in order.** Without an identity that is a URN, or a URL for the connection service, the document changes
nothing at all. -/
theorem C53_discarded {ports : Ports} {made : Str → Option π} {d : Doc} (st : Fetcher π)
    (h : (∀ ident, d.id ≠ some (urnPrefix ++ ident)) ∨
      (∀ l, d.interfaces = some l → ∀ t u, t = cs2Provider ∨ t = cs2ServiceType → (some t, some u) ∉ l) ∨ none ∈ d.networkIds) :
    gotDocument ports made st d = st := by
  have hbn : ∀ l : List (Option Str), none ∈ l → baseNames l = none := by
    intro l
    induction l with
    | nil => simp
    | cons a l ih =>
      intro h
      cases a with
      | none => rfl
      | some s =>
        have : none ∈ l := by simpa using h
        simp [baseNames, ih this]
  unfold gotDocument
  split
  · rfl
  · rename_i l hl
    split
    · rfl
    · rename_i url hurl
      split
      · rfl
      · rename_i nets hn
        split
        · rfl
        · rename_i ident hi
          exfalso
          rcases h with h | h | h
          · cases hd : d.id with
            | none => rw [hd] at hi; cases hi
            | some s =>
              rw [hd] at hi
              simp only [baseName] at hi
              by_cases hs : urnPrefix.isPrefixOf s = true
              · exact h _ (by rw [hd, prefix_drop hs])
              · rw [if_neg hs] at hi
                cases hi
          · -- no URL can have been chosen
            have key : ∀ (k : List (Option Str × Option Str)), (∀ i ∈ k, i ∈ l) →
                k.foldl (fun url i => if i.1 = some cs2Provider then i.2 else if i.1 = some cs2ServiceType ∧ url = none then i.2 else url) none = none := by
              intro k
              induction k with
              | nil => exact fun _ => rfl
              | cons a k ih =>
                intro hk
                obtain ⟨t, u⟩ := a
                have hu : t = some cs2Provider ∨ t = some cs2ServiceType → u = none := by
                  intro ht
                  cases u with
                  | none => rfl
                  | some u =>
                    rcases ht with rfl | rfl
                    · exact absurd (hk _ (by simp)) (h l hl _ u (Or.inl rfl))
                    · exact absurd (hk _ (by simp)) (h l hl _ u (Or.inr rfl))
                simp only [List.foldl_cons]
                have : (if t = some cs2Provider then u else if t = some cs2ServiceType ∧ True then u else none) = none := by
                  split
                  · exact hu (Or.inl ‹_›)
                  · split
                    · rename_i h2
                      exact hu (Or.inr h2.1)
                    · rfl
                simp only [this]
                exact ih fun i hi => hk i (List.mem_cons_of_mem _ hi)
            have := key l fun i hi => hi
            rw [serviceUrl, this] at hurl
            cases hurl
          · rw [hbn _ h] at hn
            cases hn

/-! ### Every port that is updated has an entry -/

theorem entry_update {lv : LinkVector} {n p a b : Str} {w : Vec} (h : ∃ v, dget lv.cfg.vectors (a, b) = some v) :
    ∃ v, dget (lv.step (.update n p w)).1.cfg.vectors (a, b) = some v := by
  simp only [LinkVector.step, LinkVector.calculate, calcOver_cfg, updateTable]
  obtain ⟨v, hv⟩ := h
  split
  · rw [dget_dset]
    split
    · exact ⟨_, rfl⟩
    · exact ⟨v, hv⟩
  · rw [dget_dset]
    split
    · exact ⟨_, rfl⟩
    · exact ⟨v, hv⟩

/-- **C53, no sharing.** After the setup, and after any documents, every port that leads to another network has its own entry: no document's
dictionary is stored as the entry of a port (which the code would share between several ports). -/
theorem C53_no_sharing {black : List Str} {mc : Int} {ports : Ports} (reg : Reg π) (ds : List (Doc × (Str → Option π)))
    (hb : ∀ no ∈ ports, no.1 ∉ black) (hc : ∀ d ∈ ds, ∀ r ∈ d.1.reach, -1 ≤ r.2) (n p r : Str) (h : LeadsTo ports n p r) :
    ∃ v, dget (gotDocuments ports ⟨reg, lvRun black mc (setupOps ports)⟩ ds).lv.cfg.vectors (n, p) = some v := by
  have hgood : ∀ o ∈ setupOps ports, o.Good black := by
    intro o ho
    simp only [setupOps, List.mem_flatMap, List.mem_cons] at ho
    obtain ⟨no, hno, rfl | ⟨np, _, ho⟩⟩ := ho
    · exact hb no hno
    · split at ho
      · simp at ho
      · simp only [List.mem_singleton] at ho
        subst ho
        intro e he
        simp only [List.mem_singleton] at he
        subst he
        show (0 : Int) ≤ 1
        omega
  obtain ⟨more, h1, h2⟩ := gotDocuments_ops (mc := mc) (ports := ports) _ hgood reg ds hc
  rw [h2]
  have hkeep : ∀ (l : List LvOp) (lv : LinkVector), (∀ o ∈ l, (∃ a, o = .addLocal a) ∨ ∃ a b w, o = .update a b w) →
      ((∃ v, dget lv.cfg.vectors (n, p) = some v) ∨ ∃ w, .update n p w ∈ l) → ∃ v, dget (l.foldl (fun lv o => (lv.step o).1) lv).cfg.vectors (n, p) = some v := by
    intro l
    induction l with
    | nil =>
      intro lv _ h
      rcases h with h | ⟨w, h⟩
      · exact h
      · simp at h
    | cons o l ih =>
      intro lv ho hor
      simp only [List.foldl_cons]
      refine ih _ (fun o' ho' => ho o' (List.mem_cons_of_mem _ ho')) ?_
      rcases hor with hv | ⟨w, hw⟩
      · left
        rcases ho o (by simp) with ⟨a, rfl⟩ | ⟨a, b, w, rfl⟩
        · simp only [LinkVector.step]
          split
          · exact hv
          · simp only [LinkVector.calculate, calcOver_cfg]
            exact hv
        · exact entry_update hv
      · rcases List.mem_cons.1 hw with rfl | hw
        · left
          simp only [LinkVector.step, LinkVector.calculate, calcOver_cfg, updateTable]
          split <;> simp [dget_dset]
        · exact Or.inr ⟨w, hw⟩
  unfold lvRun
  refine hkeep _ _ ?_ (Or.inr ⟨[(r, 1)], ?_⟩)
  · intro o ho
    rcases List.mem_append.1 ho with ho | ho
    · simp only [setupOps, List.mem_flatMap, List.mem_cons] at ho
      obtain ⟨no, _, rfl | ⟨np, _, ho⟩⟩ := ho
      · exact Or.inl ⟨_, rfl⟩
      · split at ho
        · simp at ho
        · simp only [List.mem_singleton] at ho
          exact Or.inr ⟨_, _, _, ho⟩
    · obtain ⟨_, a, b, w, _, h, _⟩ := h1 o ho
      exact Or.inr ⟨a, b, w, h⟩
  · obtain ⟨ps, hps, hp⟩ := h
    refine List.mem_append_left _ ?_
    simp only [setupOps, List.mem_flatMap, List.mem_cons]
    exact ⟨(n, ps), hps, Or.inr ⟨(p, some r), hp, by simp⟩⟩

/-! ### Example and violations -/

/-- C53: if no client can be made for an agent that is not known, the document has no effect at all, unless all its networks have providers already. -/
theorem C53_raised {ports : Ports} {made : Str → Option π} {d : Doc} {ident : Str} (hd : d.Fine ident) (hm : ∀ n, made n = none) (st : Fetcher π)
    (hu : urnPrefix ++ ident ∉ st.reg.urns.map (·.2)) (hn : ∃ n, d.Owns n ∧ dget st.reg.providers n = none) : gotDocument ports made st d = st := by
  obtain ⟨nets, h1, h2⟩ := baseNames_spec hd.ids
  obtain ⟨n, ho, hno⟩ := hn
  have key : ∀ nets : List Str, n ∈ nets → spawnAll ⟨urnPrefix ++ ident, cs2ServiceType⟩ made nets st.reg = (st.reg, false) := by
    intro nets
    induction nets with
    | nil => exact fun h => by cases h
    | cons a l ih =>
      intro hmem
      unfold spawnAll
      cases hp : dget st.reg.providers a with
      | some p =>
        have hna : n ≠ a := by
          rintro rfl
          rw [hno] at hp
          cases hp
        have : st.reg.spawnProvider ⟨urnPrefix ++ ident, cs2ServiceType⟩ a (made a) = .ok (st.reg, some p) := by simp [Reg.spawnProvider, hp]
        rw [this]
        rcases List.mem_cons.1 hmem with h | h
        · exact absurd h hna
        · exact ih h
      | none =>
        have : ∃ e, st.reg.spawnProvider ⟨urnPrefix ++ ident, cs2ServiceType⟩ a (made a) = .error e := by
          unfold Reg.spawnProvider
          rw [hp, hm a]
          simp only [if_neg hu]
          split
          · exact ⟨_, rfl⟩
          · exact ⟨_, rfl⟩
        obtain ⟨e, he⟩ := this
        rw [he]
  unfold gotDocument
  split
  · rfl
  split
  · rfl
  rw [h1, hd.id, baseName_some]
  simp only
  rw [key nets ((h2 n).2 ho)]
  rfl

namespace Ex
def x : Str := "nordu.net:topology".toList
def z : Str := "far.net:topology".toList
def urn (s : Str) : Option Str := some (urnPrefix ++ s)
def own : Str := "home:topology".toList
/-- One network with two ports, one of which leads to the peer. -/
def ports : Ports := [(own, [("p".toList, some x), ("q".toList, none)])]
/-- A document: the peer has network `x` and reaches `z` at cost `c`. -/
def doc (c : Int) : Doc := ⟨urn "nordu.net:nsa".toList, [urn x], some [(some cs2Provider, some "https://nordu.net/".toList)], [(urn z, c)]⟩
theorem fine (c : Int) : (doc c).Fine "nordu.net:nsa".toList :=
  ⟨rfl, ⟨_, cs2Provider, _, rfl, Or.inl rfl, List.mem_singleton.2 rfl⟩, by simp [doc], by simp [doc, urn], by simp [doc, urn]⟩
theorem owns (c : Int) : (doc c).Owns x := by simp [Doc.Owns, doc, urn]
theorem leads : LeadsTo ports own "p".toList x := ⟨_, List.mem_singleton.2 rfl, by simp⟩
theorem behind (c : Int) : ¬ (doc c).Owns z ∧ (doc c).Advertises z c := by
  refine ⟨?_, [], [], by simp [doc, urn], by simp⟩
  simp only [Doc.Owns, doc, urn, List.mem_singleton, Option.some.injEq]
  exact fun h => absurd (List.append_cancel_left h) (by decide)
/-- The own setup. -/
def lv : LinkVector := lvRun [] 5 (setupOps ports)
theorem lv_local : lv.localNets = [own] ∧ lv.cfg.vectors = [((own, "p".toList), [(x, 1)])] ∧ lv.cfg.black = [] := by
  simp [lv, setupOps, ports, lvRun, LinkVector.step, LinkVector.new, LinkVector.calculate, calcOver_cfg, calcOver_nets, updateTable, dget, dset]
end Ex

/-- The hypotheses of `C53_costs`, `C53_providers`, `C53_used_partial` are met. -/
example : (Ex.doc 2).Fine "nordu.net:nsa".toList ∧ (∃ r, LeadsTo Ex.ports Ex.own "p".toList r ∧ (Ex.doc 2).Owns r) ∧
    (¬ (Ex.doc 2).Owns Ex.z ∧ (Ex.doc 2).Advertises Ex.z 2) ∧ Ex.lv.costOf Ex.own "p".toList Ex.z = none ∧ (∀ n ∈ Ex.lv.localNets, n ∉ Ex.lv.cfg.black) := by
  refine ⟨Ex.fine 2, ⟨Ex.x, Ex.leads, Ex.owns 2⟩, Ex.behind 2, ?_, ?_⟩
  · unfold LinkVector.costOf
    rw [Ex.lv_local.2.1]
    decide
  · rw [Ex.lv_local.2.2]
    simp

/-- The hypotheses of `C53_raised` are met. -/
example : (Ex.doc 2).Fine "nordu.net:nsa".toList ∧ urnPrefix ++ "nordu.net:nsa".toList ∉ ((Reg.new [cs2ServiceType]).run ([] : List (Op Nat))).urns.map (·.2) ∧
    (∃ n, (Ex.doc 2).Owns n ∧ dget ((Reg.new [cs2ServiceType]).run ([] : List (Op Nat))).providers n = none) :=
  ⟨Ex.fine 2, by simp [Reg.run, Reg.new], Ex.x, Ex.owns 2, rfl⟩

/-- What it gives: the network behind the peer at cost 3. -/
example : (gotDocument Ex.ports (fun _ => some 7) ⟨(Reg.new [cs2ServiceType]).run [], Ex.lv⟩ (Ex.doc 2)).lv.costOf Ex.own "p".toList Ex.z = some 3 := by
  have hnone : Ex.lv.costOf Ex.own "p".toList Ex.z = none := by
    unfold LinkVector.costOf
    rw [Ex.lv_local.2.1]
    decide
  exact ((C53_costs (ports := Ex.ports) (made := fun _ => some 7) (Ex.fine 2) (by simp) [cs2ServiceType] (by simp) [] Ex.lv (by rw [Ex.lv_local.2.2]; simp)
    Ex.own "p".toList Ex.z).2.2 ⟨Ex.x, Ex.leads, Ex.owns 2⟩ hnone).2.1 (Ex.behind 2).1 2 (Ex.behind 2).2

/-- **C53 is violated when a cost changes**: a later document of the same peer with another cost for a network is ignored. -/
theorem C53_changed_cost_fails : (gotDocuments Ex.ports ⟨(Reg.new [cs2ServiceType]).run [], Ex.lv⟩
    [(Ex.doc 2, fun _ => some 7), (Ex.doc 0, fun _ => some 7)]).lv.costOf Ex.own "p".toList Ex.z = some 3 := by
  have hs : ∀ n ∈ Ex.lv.localNets, n ∉ Ex.lv.cfg.black := by rw [Ex.lv_local.2.2]; simp
  have hnone : Ex.lv.costOf Ex.own "p".toList Ex.z = none := by
    unfold LinkVector.costOf
    rw [Ex.lv_local.2.1]
    decide
  obtain ⟨nets, w, _, _, _, _, he⟩ := gotDocument_fine (ports := Ex.ports) (made := fun _ => some 7) (Ex.fine 2) (by simp) [cs2ServiceType] (by simp) [] Ex.lv
  have h1 := ((C53_costs (ports := Ex.ports) (made := fun _ => some 7) (Ex.fine 2) (by simp) [cs2ServiceType] (by simp) [] Ex.lv hs
    Ex.own "p".toList Ex.z).2.2 ⟨Ex.x, Ex.leads, Ex.owns 2⟩ hnone).2.1 (Ex.behind 2).1 2 (Ex.behind 2).2
  simp only [gotDocuments, List.foldl_cons, List.foldl_nil]
  rw [he] at h1 ⊢
  exact (C53_costs (ports := Ex.ports) (made := fun _ => some 7) (Ex.fine 0) (by simp) [cs2ServiceType] (by simp) _ _ (updateAll_eq hs w _).2
    Ex.own "p".toList Ex.z).2.1 3 h1

namespace Ex
def nS : Str := ['S']
def nA : Str := ['A']
def nB : Str := ['B']
def nX : Str := ['X']
/-- Three networks of ours one behind the other, and a peer behind the last. -/
def chain : Ports := [(nS, [(['p'], some nA)]), (nA, [(['q'], some nB)]), (nB, [(['r'], some nX)])]
/-- The peer's document: it reaches our middle network, at a negative cost. -/
def negDoc : Doc := ⟨urn "X:nsa".toList, [urn nX], some [(some cs2Provider, some "https://x/".toList)], [(urn nA, -6)]⟩
theorem negFine : negDoc.Fine "X:nsa".toList :=
  ⟨rfl, ⟨_, cs2Provider, _, rfl, Or.inl rfl, List.mem_singleton.2 rfl⟩, by simp [negDoc], by simp [negDoc, urn], by simp [negDoc, urn]⟩
/-- The vectors after the setup and the document. -/
def negLv : LinkVector := updateAll [(nA, -5), (nX, 1)] [(nB, ['r'])] (lvRun [] 5 (setupOps chain))
theorem negLv_eq : (gotDocument chain (fun _ => some 7) ⟨(Reg.new [cs2ServiceType]).run [], lvRun [] 5 (setupOps chain)⟩ negDoc).lv = negLv := by
  have hsp := (spawnAll_ok [cs2ServiceType] [] (agentOf "X:nsa".toList) (fun _ => some 7) (by simp) (by simp) [nX]).1
  have e1 : negDoc.interfaces = some [(some cs2Provider, some "https://x/".toList)] := rfl
  have e2 : serviceUrl [(some cs2Provider, some "https://x/".toList)] = some "https://x/".toList := by decide
  have e3 : baseNames negDoc.networkIds = some [nX] := by decide
  have e4 : vectorsOf negDoc.reach [nX] = some [(nA, -5), (nX, 1)] := by decide
  have e5 : facing [nX] chain = [(nB, ['r'])] := by decide
  unfold gotDocument
  simp only [e1, e2, e3, negFine.id, baseName_some]
  rw [hsp]
  simp [e4, e5, negLv]
theorem negLv_prev : nS ∈ negLv.localNets ∧ ∃ p, dget negLv.netPrev nS = some p ∧ dget p nA = some (nB, ['r']) ∧ dget p nB = some (nA, ['q']) := by
  refine ⟨?_, ?_⟩
  · simp [negLv, updateAll, lvRun, setupOps, chain, LinkVector.step, LinkVector.new, LinkVector.calculate, calcOver, dijkstra, dijLoop, allNetworks,
      updateTable, dget, dset, mergeVec, nS, nA, nB, nX, relaxFrom, relaxOne, minCost, candidates, dropNet, strLt]
  · simp [negLv, updateAll, lvRun, setupOps, chain, LinkVector.step, LinkVector.new, LinkVector.calculate, calcOver, dijkstra, dijLoop, allNetworks,
      updateTable, dget, dset, mergeVec, nS, nA, nB, nX, relaxFrom, relaxOne, minCost, candidates, dropNet, strLt]
end Ex

/-- **C53 is violated for negative costs**: a document that advertises a negative cost makes the search for a path between two of our own networks
run for ever (the costs are not checked when they are read). -/
theorem C53_negative_cost_fails : ∀ fuel,
    (gotDocument Ex.chain (fun _ => some 7) ⟨(Reg.new [cs2ServiceType]).run [], lvRun [] 5 (setupOps Ex.chain)⟩ Ex.negDoc).lv.path fuel Ex.nB Ex.nS = .res .outOfFuel := by
  rw [Ex.negLv_eq]
  obtain ⟨hs, p, hp, ha, hb⟩ := Ex.negLv_prev
  have key : ∀ (fuel : Nat) (acc : List (Str × Str)), pathLoop p Ex.nS fuel Ex.nA acc = .outOfFuel ∧ pathLoop p Ex.nS fuel Ex.nB acc = .outOfFuel := by
    intro fuel
    induction fuel with
    | zero => intro acc; simp [pathLoop]
    | succ n ih =>
      intro acc
      constructor
      · unfold pathLoop; rw [ha]; simp only; rw [if_neg (by decide)]; exact (ih _).2
      · unfold pathLoop; rw [hb]; simp only; rw [if_neg (by decide)]; exact (ih _).1
  intro fuel
  unfold LinkVector.path
  rw [if_neg (by simpa using hs), hp]
  simp only [hb]
  rw [(key fuel []).2]

end OpenNSA.Discovery
