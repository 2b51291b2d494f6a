import Verif.Plugin.Model
import Verif.Label.Props
/-
C68: the pruner (plugins/pruner.py), and connection ids of the Canarie plugin.
-/
namespace OpenNSA.Plugin
open Py Agg

/-! ### Vocabulary -/

/-- Two links connect the same ports of the same networks. -/
def SamePlace (l l' : Link) : Prop :=
  l'.src.network = l.src.network ∧ l'.src.port = l.src.port ∧ l'.dst.network = l.dst.network ∧ l'.dst.port = l.dst.port

/-- The network of the link is one that has to be helped: one of the configured texts occurs in its name. -/
def Helped (networks : List Str) (l : Link) : Prop := ∃ n ∈ networks, ∃ a b, l.src.network = a ++ n ++ b

/-- No new values: the label is unchanged, or of the same type with fewer values. -/
def Narrower (x y : Option Label) : Prop := x = y ∨ ∃ a b, x = some a ∧ y = some b ∧ a.type_ = b.type_ ∧ ∀ n, a.has n → b.has n

/-- Both sides of every demarcation point of the path have the same label. -/
def Agrees (p : List Link) : Prop := ∀ (i : Nat) (l m : Link), p[i]? = some l → p[i + 1]? = some m → l.dst.label = m.src.label

/-- All labels of the path come from text (as all labels in the aggregator do). -/
def TextLabels (p : List Link) : Prop := ∀ l ∈ p, (∀ a, l.src.label = some a → a.FromText) ∧ (∀ a, l.dst.label = some a → a.FromText)

/-- No two consecutive links need help. -/
def Apart (networks : List Str) (p : List Link) : Prop := ∀ (i : Nat) (l m : Link), p[i]? = some l → p[i + 1]? = some m → ¬ (Helped networks l ∧ Helped networks m)

/-! ### Lemmas -/

theorem occursIn_iff (n s : Str) : occursIn n s = true ↔ ∃ a b, s = a ++ n ++ b := by
  induction s with
  | nil =>
    simp only [occursIn, List.isEmpty_iff]
    constructor
    · intro h; exact ⟨[], [], by simp [h]⟩
    · rintro ⟨a, b, h⟩
      have := congrArg List.length h
      simp at this
      exact List.eq_nil_of_length_eq_zero (by omega)
  | cons c cs ih =>
    simp only [occursIn, Bool.or_eq_true, ih, List.isPrefixOf_iff_prefix]
    constructor
    · rintro (⟨b, h⟩ | ⟨a, b, h⟩)
      · exact ⟨[], b, by simpa using h.symm⟩
      · exact ⟨c :: a, b, by simp [h]⟩
    · rintro ⟨a, b, h⟩
      cases a with
      | nil => exact Or.inl ⟨b, by simpa using h.symm⟩
      | cons x a => right; exact ⟨a, b, by simpa using (List.cons.inj h).2⟩

theorem isTarget_iff (networks : List Str) (l : Link) : isTarget networks l = true ↔ Helped networks l := by
  simp only [isTarget, List.any_eq_true, Helped, occursIn_iff]

theorem Helped.congr {networks : List Str} {l l' : Link} (h : SamePlace l l') : Helped networks l' ↔ Helped networks l := by
  unfold Helped; rw [h.1]

theorem SamePlace.refl (l : Link) : SamePlace l l := ⟨rfl, rfl, rfl, rfl⟩
theorem SamePlace.trans {a b c : Link} (h : SamePlace a b) (h' : SamePlace b c) : SamePlace a c :=
  ⟨h'.1.trans h.1, h'.2.1.trans h.2.1, h'.2.2.1.trans h.2.2.1, h'.2.2.2.trans h.2.2.2⟩

/-- What a round does to the link at position `j`. -/
def upd (k : Nat) (v : Label) (j : Nat) (l : Link) : Link :=
  if j = k then setDst v (setSrc v l) else if j + 1 = k then setDst v l else if j = k + 1 then setSrc v l else l

theorem upd_next (k : Nat) (v : Label) (l : Link) : upd k v (k + 1) l = setSrc v l := by
  have h2 : ¬ k + 1 + 1 = k := by omega
  simp [upd, h2]

theorem upd_place (k : Nat) (v : Label) (j : Nat) (l : Link) : SamePlace l (upd k v j l) := by
  unfold upd; split
  · exact ⟨rfl, rfl, rfl, rfl⟩
  · split
    · exact ⟨rfl, rfl, rfl, rfl⟩
    · split <;> exact ⟨rfl, rfl, rfl, rfl⟩

theorem prunedLabel_ok {l : Link} {v : Label} (h : prunedLabel l = .ok v) :
    ∃ a b, l.src.label = some a ∧ l.dst.label = some b ∧ a.intersect b = .ok v := by
  unfold prunedLabel at h
  split at h
  · cases h
  · rename_i a ha
    split at h
    · cases h
    · rename_i b hb
      split at h
      · cases h
      · rename_i liv hi
        rw [(C02_label_roundtrip liv (C02_intersect_fromText _ _ _ hi)).1] at h
        cases h
        exact ⟨a, b, ha, hb, hi⟩

theorem prunedLabel_of {l : Link} {a b v : Label} (ha : l.src.label = some a) (hb : l.dst.label = some b) (hi : a.intersect b = .ok v) : prunedLabel l = .ok v := by
  unfold prunedLabel
  simp only [ha, hb, hi, (C02_label_roundtrip v (C02_intersect_fromText _ _ _ hi)).1]

theorem modify_three (p : List Link) (k : Nat) (v : Label) (hk : k < p.length) (j : Nat) :
    (let q := p.modify k fun l => setDst v (setSrc v l)
     let q := if k > 0 then q.modify (k - 1) (setDst v) else q
     if k + 1 < q.length then q.modify (k + 1) (setSrc v) else q)[j]? = (p[j]?).map (upd k v j) := by
  have hlen : (if k > 0 then (p.modify k fun l => setDst v (setSrc v l)).modify (k - 1) (setDst v) else p.modify k fun l => setDst v (setSrc v l)).length = p.length := by
    split <;> simp
  have key : ∀ q : List Link, q.length = p.length → (if k + 1 < q.length then q.modify (k + 1) (setSrc v) else q)[j]? = (q[j]?).map fun l => if j = k + 1 then setSrc v l else l := by
    intro q hq
    split
    · rw [List.getElem?_modify, Option.map_eq_map]
      simp only [eq_comm]
    · by_cases h : j = k + 1
      · subst h
        rw [List.getElem?_eq_none (by omega)]; rfl
      · simp [h]
  have key2 : ∀ q : List Link, (if k > 0 then q.modify (k - 1) (setDst v) else q)[j]? = (q[j]?).map fun l => if j + 1 = k then setDst v l else l := by
    intro q
    split
    · have : (k - 1 = j) ↔ (j + 1 = k) := by omega
      rw [List.getElem?_modify, Option.map_eq_map]
      simp only [this]
    · have : ¬ j + 1 = k := by omega
      simp [this]
  simp only
  rw [key _ hlen, key2, List.getElem?_modify, Option.map_eq_map]
  simp only [Option.map_map]
  congr 1
  funext l
  simp only [Function.comp_def, upd]
  by_cases h1 : j = k
  · subst h1; simp
  · by_cases h2 : j + 1 = k
    · subst h2
      have : ¬ j = j + 1 + 1 := by omega
      simp [this]
    · simp [h1, h2, Ne.symm h1]

theorem pruneStep_ok {networks : List Str} {p p' : List Link} {k : Nat} {l : Link} (hl : p[k]? = some l) (h : pruneStep networks p k = .ok p') :
    (¬ Helped networks l ∧ p' = p) ∨ (Helped networks l ∧ ∃ v, prunedLabel l = .ok v ∧ ∀ j, p'[j]? = (p[j]?).map (upd k v j)) := by
  unfold pruneStep at h
  simp only [hl] at h
  split at h
  · rename_i ht
    right
    refine ⟨(isTarget_iff _ _).1 ht, ?_⟩
    split at h
    · cases h
    · rename_i v hv
      cases h
      exact ⟨v, hv, fun j => modify_three p k v (List.getElem?_eq_some_iff.1 hl).1 j⟩
  · rename_i ht
    cases h
    exact Or.inl ⟨fun hh => ht ((isTarget_iff _ _).2 hh), rfl⟩

/-- The lists have the same length and each link is at the same place. -/
def Alike (p p' : List Link) : Prop := p'.length = p.length ∧ ∀ (j : Nat) (l l' : Link), p[j]? = some l → p'[j]? = some l' → SamePlace l l'

theorem alike_of_upd {p p' : List Link} {k : Nat} {v : Label} (h : ∀ j, p'[j]? = (p[j]?).map (upd k v j)) : Alike p p' := by
  constructor
  · apply Nat.le_antisymm
    · have := h p.length
      rw [List.getElem?_eq_none (Nat.le_refl _)] at this
      exact List.getElem?_eq_none_iff.1 this
    · have := h p'.length
      rw [List.getElem?_eq_none (Nat.le_refl _)] at this
      exact List.getElem?_eq_none_iff.1 (Option.map_eq_none_iff.1 this.symm)
  · intro j l l' hl hl'
    rw [h, hl] at hl'
    cases hl'
    exact upd_place ..

theorem Alike.refl (p : List Link) : Alike p p := ⟨rfl, fun j l l' h h' => by rw [h] at h'; cases h'; exact .refl _⟩

theorem Alike.trans {a b c : List Link} (h : Alike a b) (h' : Alike b c) : Alike a c := by
  refine ⟨h'.1.trans h.1, fun j l l' hl hl' => ?_⟩
  obtain ⟨m, hm⟩ : ∃ m, b[j]? = some m := by
    have : j < b.length := by rw [h.1]; exact (List.getElem?_eq_some_iff.1 hl).1
    exact ⟨b[j], List.getElem?_eq_getElem this⟩
  exact (h.2 j l m hl hm).trans (h'.2 j m l' hm hl')

theorem Alike.get {p p' : List Link} (h : Alike p p') {j : Nat} {l : Link} (hl : p[j]? = some l) : ∃ l', p'[j]? = some l' ∧ SamePlace l l' := by
  have : j < p'.length := by rw [h.1]; exact (List.getElem?_eq_some_iff.1 hl).1
  exact ⟨p'[j], List.getElem?_eq_getElem this, h.2 j l _ hl (List.getElem?_eq_getElem this)⟩

/-- Induction over the rounds: what holds of the path and is kept by each round that changes something holds of the result. -/
theorem pruneUpTo_induct {networks : List Str} {p : List Link} (P : Nat → List Link → Prop) (h0 : P 0 p)
    (skip : ∀ k q l l', p[k]? = some l → q[k]? = some l' → SamePlace l l' → Alike p q → ¬ Helped networks l → P k q → P (k + 1) q)
    (step : ∀ k q q' l l' v, p[k]? = some l → q[k]? = some l' → SamePlace l l' → Alike p q → Helped networks l → prunedLabel l' = .ok v →
      (∀ j, q'[j]? = (q[j]?).map (upd k v j)) → P k q → P (k + 1) q') :
    ∀ k, k ≤ p.length → ∀ q, pruneUpTo networks p k = .ok q → Alike p q ∧ P k q := by
  intro k
  induction k with
  | zero => intro _ q h; cases h; exact ⟨.refl _, h0⟩
  | succ k ih =>
    intro hk q' h
    unfold pruneUpTo at h
    split at h
    · cases h
    · rename_i q hq
      obtain ⟨ha, hP⟩ := ih (by omega) q hq
      have hl : p[k]? = some p[k] := List.getElem?_eq_getElem (by omega)
      obtain ⟨l', hl', hp⟩ := ha.get hl
      rcases pruneStep_ok hl' h with ⟨hn, rfl⟩ | ⟨hh, v, hv, hu⟩
      · exact ⟨ha, skip k _ _ l' hl hl' hp ha (fun hh => hn ((Helped.congr hp).2 hh)) hP⟩
      · exact ⟨ha.trans (alike_of_upd hu), step k q q' _ l' v hl hl' hp ha ((Helped.congr hp).1 hh) hv hu hP⟩

/-! ### Claims -/

/-- **C68, ports and networks.** Pruning changes labels only. -/
theorem C68_places (networks : List Str) (p p' : List Link) (h : pruneLabels networks p = .ok p') :
    p'.length = p.length ∧ ∀ (j : Nat) (l l' : Link), p[j]? = some l → p'[j]? = some l' → SamePlace l l' :=
  (pruneUpTo_induct (networks := networks) (fun _ _ => True) trivial (fun _ _ _ _ _ _ _ _ _ _ => trivial) (fun _ _ _ _ _ _ _ _ _ _ _ _ _ _ => trivial)
    p.length (Nat.le_refl _) p' h).1

/-- **C68, demarcation points.** Next to a network that needs help, both sides of the demarcation point have the same label after pruning; elsewhere nothing
changes. -/
theorem C68_demarcation (networks : List Str) (p p' : List Link) (h : pruneLabels networks p = .ok p') (i : Nat) (l m l' m' : Link)
    (hl : p[i]? = some l) (hm : p[i + 1]? = some m) (hl' : p'[i]? = some l') (hm' : p'[i + 1]? = some m') :
    (Helped networks l ∨ Helped networks m → ∃ v, l'.dst.label = some v ∧ m'.src.label = some v) ∧
    (¬ Helped networks l → ¬ Helped networks m → l'.dst = l.dst ∧ m'.src = m.src) := by
  have key := (pruneUpTo_induct (networks := networks) (p := p) (fun k q => ∀ x y, q[i]? = some x → q[i + 1]? = some y →
      ((Helped networks l ∧ i < k) ∨ (Helped networks m ∧ i + 1 < k) → ∃ v, x.dst.label = some v ∧ y.src.label = some v) ∧
      (¬ (Helped networks l ∧ i < k) → ¬ (Helped networks m ∧ i + 1 < k) → x.dst = l.dst ∧ y.src = m.src))
    (by
      intro x y hx hy
      rw [hl] at hx; rw [hm] at hy
      cases hx; cases hy
      exact ⟨fun h => by omega, fun _ _ => ⟨rfl, rfl⟩⟩)
    (by
      intro k q a a' ha ha' _ _ hn ih x y hx hy
      obtain ⟨h1, h2⟩ := ih x y hx hy
      have hA : (Helped networks l ∧ i < k + 1) ↔ (Helped networks l ∧ i < k) := by
        refine and_congr_right fun hh => ?_
        have : i ≠ k := by rintro rfl; rw [hl] at ha; cases ha; exact hn hh
        omega
      have hB : (Helped networks m ∧ i + 1 < k + 1) ↔ (Helped networks m ∧ i + 1 < k) := by
        refine and_congr_right fun hh => ?_
        have : i + 1 ≠ k := by rintro rfl; rw [hm] at ha; cases ha; exact hn hh
        omega
      rw [hA, hB]
      exact ⟨h1, h2⟩)
    (by
      intro k q q' a a' v ha ha' _ hq hh _ hu ih x y hx hy
      rw [hu] at hx hy
      obtain ⟨x0, hx0, rfl⟩ := Option.map_eq_some_iff.1 hx
      obtain ⟨y0, hy0, rfl⟩ := Option.map_eq_some_iff.1 hy
      obtain ⟨h1, h2⟩ := ih x0 y0 hx0 hy0
      by_cases e1 : i = k
      · subst e1
        rw [hl] at ha; cases ha
        exact ⟨fun _ => ⟨v, by simp [upd, setDst], by rw [upd_next]; rfl⟩, fun hn => absurd ⟨hh, by omega⟩ hn⟩
      · by_cases e2 : i + 1 = k
        · subst e2
          rw [hm] at ha; cases ha
          exact ⟨fun _ => ⟨v, by simp [upd, setDst], by simp [upd, setSrc, setDst]⟩, fun _ hn => absurd ⟨hh, by omega⟩ hn⟩
        · have ex : (upd k v i x0).dst = x0.dst := by simp only [upd, if_neg e1, if_neg e2]; split <;> rfl
          have ey : (upd k v (i + 1) y0).src = y0.src := by
            simp only [upd, if_neg e2]
            split
            · rfl
            · rw [if_neg (by omega)]
          rw [ex, ey]
          have hA : (Helped networks l ∧ i < k + 1) ↔ (Helped networks l ∧ i < k) := and_congr_right fun _ => by omega
          have hB : (Helped networks m ∧ i + 1 < k + 1) ↔ (Helped networks m ∧ i + 1 < k) := and_congr_right fun _ => by omega
          rw [hA, hB]
          exact ⟨h1, h2⟩)
    p.length (Nat.le_refl _) p' h).2 l' m' hl' hm'
  have hi : i + 1 < p.length := (List.getElem?_eq_some_iff.1 hm).1
  refine ⟨fun hh => key.1 (hh.imp (fun h => ⟨h, by omega⟩) (fun h => ⟨h, hi⟩)), fun h1 h2 => key.2 (fun h => h1 h.1) (fun h => h2 h.1)⟩

/-- **C68, the network that is helped.** If no two such networks are neighbours on the path, each of them gets the same label at both ends: the intersection
of the two labels that were asked for. -/
theorem C68_helped_partial (networks : List Str) (p p' : List Link) (hap : Apart networks p) (ht : TextLabels p) (h : pruneLabels networks p = .ok p')
    (i : Nat) (l l' : Link) (hl : p[i]? = some l) (hl' : p'[i]? = some l') (hh : Helped networks l) :
    ∃ a b v, l.src.label = some a ∧ l.dst.label = some b ∧ l'.src.label = some v ∧ l'.dst.label = some v ∧ v.type_ = a.type_ ∧
      (∀ n, v.has n ↔ a.has n ∧ b.has n) ∧ ∃ n, v.has n := by
  have key := (pruneUpTo_induct (networks := networks) (p := p) (fun k q => ∀ (j : Nat) (l l' : Link), p[j]? = some l → q[j]? = some l' → Helped networks l →
      (j < k → ∃ v, prunedLabel l = .ok v ∧ l'.src.label = some v ∧ l'.dst.label = some v) ∧ (k ≤ j → l' = l))
    (by
      intro j l l' hl hl' _
      rw [hl] at hl'; cases hl'
      exact ⟨fun h => by omega, fun _ => rfl⟩)
    (by
      intro k q a a' ha ha' _ _ hn ih j l l' hl hl' hh
      obtain ⟨h1, h2⟩ := ih j l l' hl hl' hh
      have : j ≠ k := by rintro rfl; rw [hl] at ha; cases ha; exact hn hh
      exact ⟨fun _ => h1 (by omega), fun _ => h2 (by omega)⟩)
    (by
      intro k q q' a a' v ha ha' _ hq hk hv hu ih j l l' hl hl' hh
      rw [hu] at hl'
      obtain ⟨x0, hx0, rfl⟩ := Option.map_eq_some_iff.1 hl'
      obtain ⟨h1, h2⟩ := ih j l x0 hl hx0 hh
      by_cases e1 : j = k
      · subst e1
        rw [ha'] at hx0; cases hx0
        rw [h2 (Nat.le_refl _)] at hv ⊢
        exact ⟨fun _ => ⟨v, hv, by simp [upd, setSrc, setDst], by simp [upd, setSrc, setDst]⟩, fun h => by omega⟩
      · have e2 : j + 1 ≠ k := by rintro rfl; exact hap j l a hl ha ⟨hh, hk⟩
        have e3 : j ≠ k + 1 := by rintro rfl; exact hap k a l ha hl ⟨hk, hh⟩
        have : upd k v j x0 = x0 := by simp [upd, e1, e2, e3]
        rw [this]
        exact ⟨fun _ => h1 (by omega), fun _ => h2 (by omega)⟩)
    p.length (Nat.le_refl _) p' h).2 i l l' hl hl' hh
  obtain ⟨v, hv, hs, hd⟩ := key.1 (List.getElem?_eq_some_iff.1 hl).1
  obtain ⟨a, b, ha, hb, hi⟩ := prunedLabel_ok hv
  obtain ⟨ta, tb⟩ := ht l (List.mem_of_getElem? hl)
  have hty : a.type_ = b.type_ := by
    apply Classical.byContradiction
    intro hne
    rw [(C03_type_mismatch a b hne).1] at hi; cases hi
  have hx := C03_intersect_exact a b (ta a ha) (tb b hb) hty
  by_cases hc : ∃ n, a.has n ∧ b.has n
  · obtain ⟨w, hw, hwt, _, hwn⟩ := hx.1 hc
    rw [hi] at hw; cases hw
    obtain ⟨n, hn⟩ := hc
    exact ⟨a, b, v, ha, hb, hs, hd, hwt, hwn, n, (hwn n).2 hn⟩
  · rw [hx.2 hc] at hi; cases hi

/-- **C68, success.** If no two networks that need help are neighbours, pruning succeeds exactly if each of them has, at both ends, labels of one type with a
value in common. -/
theorem C68_succeeds_partial (networks : List Str) (p : List Link) (hap : Apart networks p) (ht : TextLabels p) :
    (∃ p', pruneLabels networks p = .ok p') ↔
      ∀ l ∈ p, Helped networks l → ∃ a b, l.src.label = some a ∧ l.dst.label = some b ∧ a.type_ = b.type_ ∧ ∃ n, a.has n ∧ b.has n := by
  constructor
  · rintro ⟨p', h⟩ l hl hh
    obtain ⟨i, hi⟩ := List.getElem?_of_mem hl
    obtain ⟨hlen, _⟩ := C68_places networks p p' h
    have hb : i < p'.length := by rw [hlen]; exact (List.getElem?_eq_some_iff.1 hi).1
    have hi' := List.getElem?_eq_getElem hb
    obtain ⟨a, b, v, ha, hb', _, _, _, hn, n, hv⟩ := C68_helped_partial networks p p' hap ht h i l _ hi hi' hh
    refine ⟨a, b, ha, hb', ?_, n, (hn n).1 hv⟩
    obtain ⟨ta, tb⟩ := ht l hl
    apply Classical.byContradiction
    intro hne
    have key := (pruneUpTo_induct (networks := networks) (p := p) (fun k q => ∀ (j : Nat) (l l' : Link), p[j]? = some l → q[j]? = some l' → Helped networks l →
        (j < k → ∃ v, prunedLabel l = .ok v) ∧ (k ≤ j → l' = l))
      (by
        intro j l l' hl hl' _
        rw [hl] at hl'; cases hl'
        exact ⟨fun h => by omega, fun _ => rfl⟩)
      (by
        intro k q a a' ha ha' _ _ hn ih j l l' hl hl' hh
        obtain ⟨h1, h2⟩ := ih j l l' hl hl' hh
        have : j ≠ k := by rintro rfl; rw [hl] at ha; cases ha; exact hn hh
        exact ⟨fun _ => h1 (by omega), fun _ => h2 (by omega)⟩)
      (by
        intro k q q' a a' v ha ha' _ hq hk hv hu ih j l l' hl hl' hh
        rw [hu] at hl'
        obtain ⟨x0, hx0, rfl⟩ := Option.map_eq_some_iff.1 hl'
        obtain ⟨h1, h2⟩ := ih j l x0 hl hx0 hh
        by_cases e1 : j = k
        · subst e1
          rw [ha'] at hx0; cases hx0
          rw [h2 (Nat.le_refl _)] at hv
          exact ⟨fun _ => ⟨v, hv⟩, fun h => by omega⟩
        · have e2 : j + 1 ≠ k := by rintro rfl; exact hap j l a hl ha ⟨hh, hk⟩
          have e3 : j ≠ k + 1 := by rintro rfl; exact hap k a l ha hl ⟨hk, hh⟩
          have : upd k v j x0 = x0 := by simp [upd, e1, e2, e3]
          rw [this]
          exact ⟨fun _ => h1 (by omega), fun _ => h2 (by omega)⟩)
      p.length (Nat.le_refl _) p' h).2 i l _ hi hi' hh
    obtain ⟨w, hw⟩ := key.1 (List.getElem?_eq_some_iff.1 hi).1
    obtain ⟨a', b', ha', hb'', hi''⟩ := prunedLabel_ok hw
    rw [ha] at ha'; rw [hb'] at hb''
    cases ha'; cases hb''
    rw [(C03_type_mismatch a b hne).1] at hi''; cases hi''
  · intro hok
    have : ∀ k, k ≤ p.length → ∃ q, pruneUpTo networks p k = .ok q ∧ Alike p q ∧
        ∀ (j : Nat) (l l' : Link), p[j]? = some l → q[j]? = some l' → Helped networks l → k ≤ j → l' = l := by
      intro k
      induction k with
      | zero =>
        intro _
        refine ⟨p, rfl, .refl _, fun j l l' h h' _ _ => ?_⟩
        rw [h] at h'; cases h'; rfl
      | succ k ih =>
        intro hk
        obtain ⟨q, hq, ha, hr⟩ := ih (by omega)
        have hl : p[k]? = some p[k] := List.getElem?_eq_getElem (by omega)
        obtain ⟨l', hl', hp⟩ := ha.get hl
        by_cases hh : Helped networks p[k]
        · have e := hr k _ l' hl hl' hh (Nat.le_refl _)
          subst e
          obtain ⟨a, b, sa, sb, hty, hn⟩ := hok p[k] (List.getElem_mem _) hh
          obtain ⟨ta, tb⟩ := ht p[k] (List.getElem_mem _)
          obtain ⟨v, hv, _⟩ := (C03_intersect_exact a b (ta a sa) (tb b sb) hty).1 hn
          have hpl := prunedLabel_of sa sb hv
          cases hs : pruneStep networks q k with
          | error e =>
            unfold pruneStep at hs
            simp only [hl', (isTarget_iff networks p[k]).2 hh, if_true, hpl] at hs
            cases hs
          | ok q' =>
            rcases pruneStep_ok hl' hs with ⟨hn, _⟩ | ⟨_, w, _, hu⟩
            · exact absurd hh hn
            · refine ⟨q', by unfold pruneUpTo; rw [hq]; exact hs, ha.trans (alike_of_upd hu), fun j l x hj hx hhj hkj => ?_⟩
              rw [hu] at hx
              obtain ⟨x0, hx0, rfl⟩ := Option.map_eq_some_iff.1 hx
              rw [hr j l x0 hj hx0 hhj (by omega)]
              have e3 : j ≠ k + 1 := by rintro rfl; exact hap k _ l hl hj ⟨hh, hhj⟩
              have e1 : j ≠ k := by omega
              have e2 : j + 1 ≠ k := by omega
              simp [upd, e1, e2, e3]
        · refine ⟨q, ?_, ha, fun j l x hj hx hhj hkj => hr j l x hj hx hhj (by omega)⟩
          unfold pruneUpTo
          rw [hq]
          have : isTarget networks l' = false := by
            cases hb : isTarget networks l' with
            | false => rfl
            | true => exact absurd ((Helped.congr hp).1 ((isTarget_iff _ _).1 hb)) hh
          simp only [pruneStep, hl', this]
          rfl
    obtain ⟨q, hq, _⟩ := this p.length (Nat.le_refl _)
    exact ⟨q, hq⟩

theorem Narrower.refl (x : Option Label) : Narrower x x := Or.inl rfl

theorem Narrower.trans {x y z : Option Label} (h : Narrower x y) (h' : Narrower y z) : Narrower x z := by
  rcases h with rfl | ⟨a, b, rfl, rfl, ht, hn⟩
  · exact h'
  · rcases h' with rfl | ⟨b', c, hb, rfl, ht', hn'⟩
    · exact Or.inr ⟨a, b, rfl, rfl, ht, hn⟩
    · cases hb
      exact Or.inr ⟨a, c, rfl, rfl, ht.trans ht', fun n h => hn' n (hn n h)⟩

/-- **C68, narrowing.** If both sides of each demarcation point ask for the same label, pruning only narrows labels, and both sides still have the same
label after it. -/
theorem C68_narrows_partial (networks : List Str) (p p' : List Link) (hag : Agrees p) (ht : TextLabels p) (h : pruneLabels networks p = .ok p') :
    Agrees p' ∧ ∀ (j : Nat) (l l' : Link), p[j]? = some l → p'[j]? = some l' → Narrower l'.src.label l.src.label ∧ Narrower l'.dst.label l.dst.label := by
  have key := (pruneUpTo_induct (networks := networks) (p := p) (fun _ q => Agrees q ∧ TextLabels q ∧
      ∀ (j : Nat) (l l' : Link), p[j]? = some l → q[j]? = some l' → Narrower l'.src.label l.src.label ∧ Narrower l'.dst.label l.dst.label)
    ⟨hag, ht, fun j l l' h h' => by rw [h] at h'; cases h'; exact ⟨.refl _, .refl _⟩⟩
    (fun _ _ _ _ _ _ _ _ _ h => h)
    (by
      intro k q q' a a' v ha ha' _ hq hk hv hu ⟨hag, ht, ih⟩
      obtain ⟨x, y, hx, hy, hi⟩ := prunedLabel_ok hv
      obtain ⟨tx, ty⟩ := ht a' (List.mem_of_getElem? ha')
      have hft := C02_intersect_fromText _ _ _ hi
      have hty : x.type_ = y.type_ := by
        apply Classical.byContradiction
        intro hne
        rw [(C03_type_mismatch x y hne).1] at hi; cases hi
      have hvx : v.type_ = x.type_ ∧ ∀ n, v.has n ↔ x.has n ∧ y.has n := by
        have hx' := C03_intersect_exact x y (tx x hx) (ty y hy) hty
        by_cases hc : ∃ n, x.has n ∧ y.has n
        · obtain ⟨w, hw, hwt, _, hwn⟩ := hx'.1 hc
          rw [hi] at hw; cases hw
          exact ⟨hwt, hwn⟩
        · rw [hx'.2 hc] at hi; cases hi
      have nx : Narrower (some v) (some x) := Or.inr ⟨v, x, rfl, rfl, hvx.1, fun n h => ((hvx.2 n).1 h).1⟩
      have ny : Narrower (some v) (some y) := Or.inr ⟨v, y, rfl, rfl, hvx.1.trans hty, fun n h => ((hvx.2 n).1 h).2⟩
      refine ⟨?_, ?_, ?_⟩
      · intro i l m hl hm
        rw [hu] at hl hm
        obtain ⟨l0, hl0, rfl⟩ := Option.map_eq_some_iff.1 hl
        obtain ⟨m0, hm0, rfl⟩ := Option.map_eq_some_iff.1 hm
        by_cases e1 : i = k
        · subst e1; rw [upd_next]; simp [upd, setDst, setSrc]
        · by_cases e2 : i + 1 = k
          · subst e2; simp [upd, setDst, setSrc]
          · have ex : (upd k v i l0).dst = l0.dst := by simp only [upd, if_neg e1, if_neg e2]; split <;> rfl
            have ey : (upd k v (i + 1) m0).src = m0.src := by
              simp only [upd, if_neg e2]
              split
              · rfl
              · rw [if_neg (by omega)]
            rw [ex, ey]
            exact hag i l0 m0 hl0 hm0
      · intro l hl
        obtain ⟨j, hj⟩ := List.getElem?_of_mem hl
        rw [hu] at hj
        obtain ⟨l0, hl0, rfl⟩ := Option.map_eq_some_iff.1 hj
        obtain ⟨t1, t2⟩ := ht l0 (List.mem_of_getElem? hl0)
        simp only [upd]
        split
        · exact ⟨fun a h => by cases h; exact hft, fun a h => by cases h; exact hft⟩
        · split
          · exact ⟨t1, fun a h => by cases h; exact hft⟩
          · split
            · exact ⟨fun a h => by cases h; exact hft, t2⟩
            · exact ⟨t1, t2⟩
      · intro j l l' hl hl'
        rw [hu] at hl'
        obtain ⟨l0, hl0, rfl⟩ := Option.map_eq_some_iff.1 hl'
        obtain ⟨n1, n2⟩ := ih j l l0 hl hl0
        simp only [upd]
        split
        · rename_i e
          subst e
          rw [ha'] at hl0; cases hl0
          rw [hx] at n1; rw [hy] at n2
          exact ⟨nx.trans n1, ny.trans n2⟩
        · split
          · rename_i e
            subst e
            have := hag j l0 a' hl0 ha'
            rw [this, hx] at n2
            exact ⟨n1, nx.trans n2⟩
          · split
            · rename_i e
              subst e
              have := hag k a' l0 ha' hl0
              rw [← this, hy] at n1
              exact ⟨ny.trans n1, n2⟩
            · exact ⟨n1, n2⟩)
    p.length (Nat.le_refl _) p' h).2
  exact ⟨key.1, key.2.2⟩

/-! ### Examples -/

namespace Ex
def stp (n p : String) (v : List Rng) : STP := ⟨n.toList, p.toList, some ⟨tVlan, v, false⟩⟩
def surfnet : List Str := ["surfnet.nl".toList]
/-- The path of test/test_pruner.py:20-31. -/
def path : List Link := [
  ⟨stp "surfnet.nl:1990:production7" "ps" [(1784, 1784)], stp "surfnet.nl:1990:production7" "sara-ndn1" [(1780, 1799)]⟩,
  ⟨stp "nordu.net:2013:topology" "surfnet" [(1784, 1789)], stp "nordu.net:2013:topology" "deic1" [(1784, 1789)]⟩,
  ⟨stp "deic.dk:2013:topology" "ndn1" [(1784, 1789)], stp "deic.dk:2013:topology" "ps" [(1784, 1784)]⟩]
end Ex

theorem text_stp {n p : String} {v : List Rng} (s : String) (h : Label.mk' tVlan (.str s.toList) = .ok ⟨tVlan, v, false⟩) :
    ∀ a, (Ex.stp n p v).label = some a → a.FromText := fun _ ha => by cases ha; exact ⟨_, h⟩

/-- The example of the test meets the hypotheses of `C68_places`, `C68_demarcation`, `C68_helped_partial` and `C68_succeeds_partial`. -/
example : (∃ p', pruneLabels Ex.surfnet Ex.path = .ok p') ∧ TextLabels Ex.path ∧ Apart Ex.surfnet Ex.path := by
  refine ⟨?_, ?_, ?_⟩
  · cases h : pruneLabels Ex.surfnet Ex.path with
    | ok p => exact ⟨p, rfl⟩
    | error e =>
      exfalso
      have : (match pruneLabels Ex.surfnet Ex.path with | .ok _ => true | _ => false) = true := by decide +kernel
      rw [h] at this; cases this
  · intro l hl
    simp only [Ex.path, List.mem_cons, List.not_mem_nil, or_false] at hl
    rcases hl with rfl | rfl | rfl
    · exact ⟨text_stp "1784" (by decide +kernel), text_stp "1780-1799" (by decide +kernel)⟩
    · exact ⟨text_stp "1784-1789" (by decide +kernel), text_stp "1784-1789" (by decide +kernel)⟩
    · exact ⟨text_stp "1784-1789" (by decide +kernel), text_stp "1784" (by decide +kernel)⟩
  · intro i l m hl hm ⟨h1, h2⟩
    have h1 := (isTarget_iff _ _).2 h1
    have h2 := (isTarget_iff _ _).2 h2
    match i with
    | 0 => cases hl; cases hm; revert h2; decide +kernel
    | 1 => cases hl; cases hm; revert h2; decide +kernel
    | i + 2 => simp [Ex.path] at hm

example : (pruneLabels Ex.surfnet Ex.path).toOption.map (·.map fun l => (l.src.label.map (·.labelValue), l.dst.label.map (·.labelValue))) =
    some [(some "1784".toList, some "1784".toList), (some "1784".toList, some "1784-1789".toList), (some "1784-1789".toList, some "1784".toList)] := by decide +kernel

/-- A path as `C68_narrows_partial` requires. -/
example : Agrees [⟨Ex.stp "surfnet.nl" "a" [(2, 2)], Ex.stp "surfnet.nl" "b" [(1, 9)]⟩, ⟨Ex.stp "nordu.net" "c" [(1, 9)], Ex.stp "nordu.net" "d" [(4, 4)]⟩] := by
  intro i l m hl hm
  match i with
  | 0 => cases hl; cases hm; rfl
  | i + 1 => simp at hm

/-! ### Violations -/

/-- **C68 is violated for the single value**: a network that cannot choose is still given a range if both its labels are ranges; `labelValue()` is the text of the whole
set. -/
theorem C68_single_fails : ∃ (p p' : List Link) (l' : Link) (v : Label), TextLabels p ∧ Apart Ex.surfnet p ∧ Agrees p ∧ pruneLabels Ex.surfnet p = .ok p' ∧
    p'[0]? = some l' ∧ Helped Ex.surfnet l' ∧ l'.src.label = some v ∧ v.singleValue = false := by
  refine ⟨[⟨Ex.stp "surfnet.nl" "a" [(1784, 1789)], Ex.stp "surfnet.nl" "b" [(1780, 1799)]⟩],
    [⟨Ex.stp "surfnet.nl" "a" [(1784, 1789)], Ex.stp "surfnet.nl" "b" [(1784, 1789)]⟩], _, ⟨tVlan, [(1784, 1789)], false⟩, ?_, ?_, ?_, by decide +kernel, rfl,
    (isTarget_iff _ _).1 (by decide +kernel), rfl, by decide +kernel⟩
  · intro l hl
    rw [List.mem_singleton] at hl
    subst hl
    exact ⟨text_stp "1784-1789" (by decide +kernel), text_stp "1780-1799" (by decide +kernel)⟩
  · intro i l m _ hm; simp at hm
  · intro i l m _ hm; simp at hm

/-- **C68 is violated for neighbours**: a neighbour's label is replaced, not narrowed. Here the neighbour has VLANs 1784 to 1789 at the demarcation point and is
given 1790. -/
theorem C68_neighbour_fails : ∃ (p p' : List Link) (l l' : Link), TextLabels p ∧ Apart Ex.surfnet p ∧ pruneLabels Ex.surfnet p = .ok p' ∧ p[1]? = some l ∧ p'[1]? = some l' ∧
    ¬ Narrower l'.src.label l.src.label := by
  refine ⟨[⟨Ex.stp "surfnet.nl" "a" [(1790, 1790)], Ex.stp "surfnet.nl" "b" [(1780, 1799)]⟩, ⟨Ex.stp "nordu.net" "c" [(1784, 1789)], Ex.stp "nordu.net" "d" [(4, 4)]⟩],
    [⟨Ex.stp "surfnet.nl" "a" [(1790, 1790)], Ex.stp "surfnet.nl" "b" [(1790, 1790)]⟩, ⟨Ex.stp "nordu.net" "c" [(1790, 1790)], Ex.stp "nordu.net" "d" [(4, 4)]⟩],
    _, _, ?_, ?_, by decide +kernel, rfl, rfl, ?_⟩
  · intro l hl
    simp only [List.mem_cons, List.not_mem_nil, or_false] at hl
    rcases hl with rfl | rfl
    · exact ⟨text_stp "1790" (by decide +kernel), text_stp "1780-1799" (by decide +kernel)⟩
    · exact ⟨text_stp "1784-1789" (by decide +kernel), text_stp "4" (by decide +kernel)⟩
  · intro i l m hl hm ⟨h1, h2⟩
    have h2 := (isTarget_iff _ _).2 h2
    match i with
    | 0 => cases hl; cases hm; revert h2; decide +kernel
    | i + 1 => simp at hm
  · rintro (h | ⟨a, b, ha, hb, _, hn⟩)
    · exact absurd h (by decide +kernel)
    · cases ha; cases hb
      have := hn 1790 ⟨(1790, 1790), by simp, by simp, by simp⟩
      simp [Label.has, InRanges] at this

/-- **C68 is violated for neighbours that both need help**: the second one changes the label at the far end of the first, which then has different labels at its two
ends though it cannot translate. -/
theorem C68_adjacent_fails : ∃ (p p' : List Link) (l' : Link), TextLabels p ∧ Agrees p ∧ pruneLabels Ex.surfnet p = .ok p' ∧ p'[0]? = some l' ∧ Helped Ex.surfnet l' ∧
    l'.src.label ≠ l'.dst.label := by
  refine ⟨[⟨Ex.stp "surfnet.nl:a" "a" [(1, 4)], Ex.stp "surfnet.nl:a" "b" [(1, 4)]⟩, ⟨Ex.stp "surfnet.nl:b" "c" [(1, 4)], Ex.stp "surfnet.nl:b" "d" [(2, 2)]⟩],
    [⟨Ex.stp "surfnet.nl:a" "a" [(1, 4)], Ex.stp "surfnet.nl:a" "b" [(2, 2)]⟩, ⟨Ex.stp "surfnet.nl:b" "c" [(2, 2)], Ex.stp "surfnet.nl:b" "d" [(2, 2)]⟩],
    _, ?_, ?_, by decide +kernel, rfl, (isTarget_iff _ _).1 (by decide +kernel), by decide +kernel⟩
  · intro l hl
    simp only [List.mem_cons, List.not_mem_nil, or_false] at hl
    rcases hl with rfl | rfl
    · exact ⟨text_stp "1-4" (by decide +kernel), text_stp "1-4" (by decide +kernel)⟩
    · exact ⟨text_stp "1-4" (by decide +kernel), text_stp "2" (by decide +kernel)⟩
  · intro i l m hl hm
    cases i with
    | zero =>
      simp only [Nat.zero_add, List.getElem?_cons_zero, List.getElem?_cons_succ, Option.some.injEq] at hl hm
      subst hl hm
      rfl
    | succ i => simp at hm

/-- **C68 is violated for ports without label**: pruning raises, for instance on a path between two ports without labels. -/
theorem C68_none_fails : ∃ p : List Link, Agrees p ∧ pruneLabels Ex.surfnet p = .error .attribute := by
  refine ⟨[⟨⟨"surfnet.nl".toList, ['a'], none⟩, ⟨"surfnet.nl".toList, ['b'], none⟩⟩], ?_, by decide +kernel⟩
  intro i l m _ hm; simp at hm

/-! ### C70: connection ids -/

theorem showNat_inj {a b : Nat} (h : showNat a = showNat b) : a = b := by
  have := congrArg (readDigits 0 false) h
  rw [readDigits_showNat, readDigits_showNat] at this
  exact Option.some.inj this

/-- **C70, Canarie.** Different numbers give different connection ids. -/
theorem C70_canarie (n m : Nat) (h : canarieConnectionId (some n) = canarieConnectionId (some m)) : n = m := by
  simp only [canarieConnectionId, Option.some.injEq] at h
  have h := List.append_cancel_right h
  simp only [List.append_assoc, List.cons_append, List.nil_append] at h
  have noC : ∀ k, 'C' ∉ (showNat k).take 5 := by
    intro k hm
    obtain ⟨d, hd, he⟩ := showNat_digits k 'C' (List.mem_of_mem_take hm)
    have : ∀ d, d < 10 → 'C' ≠ digitChar d := by decide
    exact this d hd he
  have h1 := cutFirst_append (c := 'C') ('S' :: (showNat n).drop 5) (noC n)
  rw [h, cutFirst_append ('S' :: (showNat m).drop 5) (noC m)] at h1
  simp only [Option.some.injEq, Prod.mk.injEq, List.cons.injEq, true_and] at h1
  apply showNat_inj
  rw [← List.take_append_drop 5 (showNat n), ← List.take_append_drop 5 (showNat m), h1.1, h1.2]

/-- **C70, default.** Different draws give different connection ids. -/
theorem C70_default (upper : Str → Str) (domain d d' : Str) (h : defaultConnectionId upper domain d = defaultConnectionId upper domain d') : d = d' := by
  have := List.append_cancel_left h
  simpa using this

/-- C70: the ids of the default plugin begin with the first two letters of the domain, and those of two domains that begin differently are different, whatever is drawn. -/
theorem C70_domains (upper : Str → Str) (hu : ∀ s, (upper s).length = s.length) (a b : Char) (rest rest' d d' : Str) (a' b' : Char) (hne : upper [a, b] ≠ upper [a', b']) :
    defaultConnectionId upper (a :: b :: rest) d ≠ defaultConnectionId upper (a' :: b' :: rest') d' ∧
    (defaultConnectionId upper (a :: b :: rest) d).take 2 = upper [a, b] := by
  have hl : ∀ x y : Char, (upper [x, y]).length = 2 := fun x y => hu [x, y]
  have ht : ∀ (x y : Char) (r d : Str), (defaultConnectionId upper (x :: y :: r) d).take 2 = upper [x, y] := by
    intro x y r d
    have : defaultConnectionId upper (x :: y :: r) d = upper [x, y] ++ '-' :: d := rfl
    rw [this, ← hl x y, List.take_left]
  refine ⟨?_, ht a b rest d⟩
  intro h
  apply hne
  rw [← ht a b rest d, ← ht a' b' rest' d', h]

example : (fun s : Str => s.map Char.toUpper) ['n', 'o'] ≠ (fun s : Str => s.map Char.toUpper) ['s', 'u'] := by decide
example : canarieConnectionId (some 1234567) = some "12345CS67-ANA".toList := by decide +kernel
example : defaultConnectionId (fun s => s.map Char.toUpper) "nordu.net".toList "0123456789".toList = "NO-0123456789".toList := by decide +kernel

end OpenNSA.Plugin
