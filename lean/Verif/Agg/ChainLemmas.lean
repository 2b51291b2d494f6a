import Verif.Agg.ReserveRun
import Verif.Agg.ReachLemmas
/- The path chosen is a chain (C33); what was sent as a function of the outcome. -/
namespace OpenNSA.Agg
open OpenNSA Py Coro

theorem crossConnects_chain {cfg : Cfg} {remote : STP} : ∀ {hops : List (Str × Str)} {prev : STP} {ls : List Link},
    (∀ x ∈ hops, cfg.isLocal x.1 = true) → crossConnects cfg remote prev hops = .ok ls → Chain cfg prev remote ls
  | [], prev, ls, _, h => by
    simp only [crossConnects, Except.ok.injEq] at h
    subst h
    exact ⟨rfl, rfl, by simp, by simp⟩
  | (net, port) :: rest, prev, ls, hl, h => by
    unfold crossConnects at h
    split at h
    · simp at h
    · rename_i hnet
      have hnet : prev.network = net := by simpa using hnet
      split at h
      · simp at h
      · rename_i ports hports
        split at h
        · simp at h
        · rename_i np hnp
          split at h
          · rename_i rn rp hrn hrp
            split at h
            · rename_i ls' hls'
              simp only [Except.ok.injEq] at h
              have ih := crossConnects_chain (fun x hx => hl x (by simp [hx])) hls'
              obtain ⟨l', ls'', rfl⟩ : ∃ l' ls'', ls' = l' :: ls'' := by
                cases ls' with
                | nil => have := ih.first; simp at this
                | cons a b => exact ⟨a, b, rfl⟩
              have hsrc : l'.src = ⟨rn, rp, np.label⟩ := by simpa using ih.first
              subst h
              refine ⟨rfl, ?_, ?_, ?_⟩
              · simpa [List.getLast?_cons] using ih.last
              · intro l hm
                simp only [List.dropLast_cons_cons, List.mem_cons] at hm
                rcases hm with rfl | hm
                · exact ⟨hnet, hnet ▸ hl (net, port) (by simp)⟩
                · exact ih.inside l hm
              · rw [List.isChain_cons_cons]
                refine ⟨⟨ports, np, hports, hnp, rfl, ?_, ?_, ?_⟩, ih.meet⟩
                · rw [hsrc]
                · rw [hsrc]; exact hrn
                · rw [hsrc]; exact hrp
            · simp at h
          · simp at h

theorem aggregatePath_chain {cfg : Cfg} {loc remote : STP} {ls : List Link} (h : aggregatePath cfg loc remote = .ok ls) :
    Chain cfg loc remote ls := by
  unfold aggregatePath at h
  split at h
  · simp at h
  · simp at h
  · simp at h
  · simp at h
  · rename_i hops _
    exact crossConnects_chain (fun x hx => by simpa using (List.mem_filter.mp hx).2) h

/-- The path chosen for a request that passed admission is a chain from source to destination. -/
theorem choosePath_chain {cfg : Cfg} {h : Hdr} {c : Crit} {ls : List Link} (hadm : admit cfg h c = .ok ())
    (hp : choosePath cfg c.src c.dst = .ok ls) : Chain cfg c.src c.dst ls := by
  unfold choosePath at hp
  split at hp
  · split at hp
    · simp at hp
    · simp only [Except.ok.injEq] at hp
      subst hp
      exact ⟨rfl, rfl, by simp, by simp⟩
  · split at hp
    · exact aggregatePath_chain hp
    · rename_i hsrc
      split at hp
      · rename_i hdst
        -- not admitted
        exfalso
        unfold admit at hadm
        have hsrc' : cfg.isLocal c.src.network = false := by simpa using hsrc
        split at hadm
        · simp at hadm
        · split at hadm
          · simp at hadm
          · split at hadm
            · simp at hadm
            · have hn : c.src.network ∉ cfg.lv.localNets := by simpa [Cfg.isLocal] using hsrc'
              have : vectorCheck cfg c.src.network c.src.network = .error .value := by
                simp [vectorCheck, LinkVector.path, hn]
              simp [hdst, hsrc', this] at hadm
      · split at hp
        · simp only [Except.ok.injEq] at hp
          subst hp
          exact ⟨rfl, rfl, by simp, by simp⟩
        · simp at hp

/-- If the providers of the non-local segments were found and the local networks have providers, no look-up fails. -/
theorem checkProviders_provided {cfg : Cfg} (hl : ∀ n ∈ cfg.lv.localNets, ∃ p, cfg.provider n = .ok p) :
    ∀ {ls : List Link}, checkProviders cfg ls = .ok () → provided cfg ls = true
  | [], _ => rfl
  | l :: ls, h => by
    unfold checkProviders at h
    have : (∃ p, cfg.provider l.src.network = .ok p) ∧ checkProviders cfg ls = .ok () := by
      split at h
      · rename_i hloc
        exact ⟨hl _ (by simpa [Cfg.isLocal] using hloc), h⟩
      · split at h
        · simp at h
        · rename_i p hp
          exact ⟨⟨p, hp⟩, h⟩
    obtain ⟨⟨p, hp⟩, h2⟩ := this
    have := checkProviders_provided hl h2
    simp only [provided, List.all_cons, hp, Bool.true_and] at this ⊢
    exact this

/-- The links of calls made for links. -/
theorem callFor_links {cfg : Cfg} {row : CRow} {start end_ : Option Time} {calls : List PCall} {ls : List Link}
    (h : List.Forall₂ (CallFor cfg row start end_) calls ls) : calls.map (·.link) = ls.map some := by
  induction h with
  | nil => rfl
  | @cons a b _ _ hab _ ih =>
    have : a.link = some b := by simp [PCall.link, hab.op]
    simp [this, ih]

theorem callFor_isReserve {cfg : Cfg} {row : CRow} {start end_ : Option Time} {calls : List PCall} {ls : List Link}
    (h : List.Forall₂ (CallFor cfg row start end_) calls ls) : ∀ c ∈ calls, c.isReserve := by
  induction h with
  | nil => simp
  | cons hab _ ih =>
    intro c hc
    rcases List.mem_cons.mp hc with rfl | hc
    · exact ⟨_, _, _, _, _, _, hab.op⟩
    · exact ih c hc

/-- The terminate calls made are the cleanup of the accepted calls. -/
theorem terms_cleanup {cfg : Cfg} {row : CRow} {start end_ : Option Time} {last : Str} :
    ∀ {results : List (Except Err Str)} {calls terms : List PCall} {ls : List Link},
    List.Forall₂ (CallFor cfg row start end_) calls ls → List.Forall₂ (TermFor cfg last) terms (accepted results ls) →
    terms.map (fun t => (t.handle, t.op)) = cleanup calls results
  | [], calls, terms, ls, hc, ht => by
    simp only [accepted] at ht
    cases ht
    simp [cleanup]
  | .error e :: rs, [], terms, [], hc, ht => by simp only [accepted] at ht; cases ht; simp [cleanup]
  | .ok e :: rs, [], terms, [], hc, ht => by simp only [accepted] at ht; cases ht; simp [cleanup]
  | .error e :: rs, c :: cs, terms, l :: ls, .cons h1 hc, ht => by
    simp only [accepted] at ht
    simpa [cleanup] using terms_cleanup hc ht
  | .ok sc :: rs, c :: cs, terms, l :: ls, .cons h1 hc, ht => by
    simp only [accepted] at ht
    cases ht with
    | cons hat ht =>
      have ih := terms_cleanup hc ht
      obtain ⟨urn, hu⟩ := hat.handle
      have hh : ∀ x y : Nat × Str, cfg.provider l.src.network = .ok x → cfg.provider l.src.network = .ok y → x.1 = y.1 := by
        intro x y hx hy; rw [hx] at hy; cases hy; rfl
      have := hh _ _ hu h1.prov
      simp only [List.map_cons, cleanup, List.zip_cons_cons, List.filterMap_cons]
      simp only [cleanup] at ih
      rw [ih, hat.op]
      simp at this
      rw [this]

end OpenNSA.Agg
