import Verif.Backend.ReservePost
import Verif.Backend.SpecReserve
import Verif.Backend.Examples
import Verif.Label.Props
/-
C18, C19, C20: admission, labels and availability.
-/
namespace OpenNSA.Backend
open OpenNSA Py Prog

theorem portMatches_ok {p : Port} {s : STP} (hp : ∀ l, p.label = some l → l.FromText) (hs : ∀ l, s.label = some l → l.FromText) :
    portMatches p s = .ok () ↔ LabelsMeet p.label s.label := by
  unfold portMatches LabelsMeet
  by_cases ht : ∀ x y, p.label = some x → s.label = some y → x.type_ = y.type_
  · obtain ⟨r, h1, h2⟩ := C03_canMatch p.label s.label hp hs ht
    rw [h1]
    have h3 : (LabelsMeet p.label s.label) ↔ r = true := by
      rw [h2]
      unfold LabelsMeet
      refine or_congr_right ⟨?_, ?_⟩
      · rintro ⟨x, y, a, b, _, c⟩; exact ⟨x, y, a, b, c⟩
      · rintro ⟨x, y, a, b, c⟩; exact ⟨x, y, a, b, ht x y a b, c⟩
    unfold LabelsMeet at h3
    rw [h3]
    cases r <;> simp
  · obtain ⟨x, y, a, b, c⟩ : ∃ x y, p.label = some x ∧ s.label = some y ∧ x.type_ ≠ y.type_ := Classical.byContradiction fun hne =>
      ht fun x y a b => Decidable.byContradiction fun c => hne ⟨x, y, a, b, c⟩
    rw [a, b, (C03_type_mismatch x y c).2]
    constructor
    · intro h; simp at h
    · rintro (⟨h, _⟩ | ⟨x', y', h1, h2, h3, _⟩)
      · simp at h
      · simp at h1 h2; subst h1 h2; exact absurd h3 c

theorem authorizePort_ok {cfg : Cfg} {h : Hdr} {n : Str} {p : Port} (hp : dget cfg.ports n = some p) :
    authorizePort cfg h n = .ok () ↔ isAuthorized p.authz h.attrs h.ri = some true := by
  unfold authorizePort
  rw [hp]
  simp only
  cases isAuthorized p.authz h.attrs h.ri with
  | none => simp
  | some b => cases b <;> simp

theorem authorize_ok {cfg : Cfg} {h : Hdr} {a b : Str} {sp dp : Port} (ha : dget cfg.ports a = some sp) (hb : dget cfg.ports b = some dp) :
    authorize cfg h a b = .ok () ↔ isAuthorized sp.authz h.attrs h.ri = some true ∧ isAuthorized dp.authz h.attrs h.ri = some true := by
  unfold authorize
  have e1 : dmem cfg.ports a = true := by rw [dmem_eq, ha]; rfl
  have e2 : dmem cfg.ports b = true := by rw [dmem_eq, hb]; rfl
  rw [if_neg (by simp [e1, e2]), ← authorizePort_ok ha, ← authorizePort_ok hb]
  cases authorizePort cfg h a with
  | error e => simp
  | ok u => cases u; simp

/-- C18. The checks of `reserve` that do not concern free resources succeed exactly when the request is admissible. -/
theorem C18_admission_exact (cfg : Cfg) (h : Hdr) (src dst : STP) (st en : Option Time) (ht : TextLabels cfg src dst) :
    admission cfg h src dst st en = .ok () ↔ ∃ sp dp, Admissible cfg h src dst st en sp dp := by
  constructor
  · intro ha
    unfold admission at ha
    split at ha
    · simp at ha
    rename_i h1
    split at ha
    · simp at ha
    rename_i h2
    split at ha
    · simp at ha
    · simp at ha
    rename_i sp dp hsp hdp
    split at ha
    · simp at ha
    rename_i h3
    split at ha
    · simp at ha
    rename_i u hau
    split at ha
    · simp at ha
    rename_i h4
    split at ha
    · simp at ha
    rename_i h5
    split at ha
    · simp at ha
    rename_i h6
    split at ha
    · simp at ha
    rename_i u' hm
    refine ⟨sp, dp, ⟨by simpa using h1, by simpa using h2⟩, ⟨hsp, hdp⟩, ?_, (authorize_ok hsp hdp).mp hau, h4, h5, ?_, ?_, ?_, ?_⟩
    · intro s e hs he
      subst hs he
      simpa [tooShort] using h3
    · intro f hf
      simpa [cannotConnect, hf] using h6
    · intro hf
      have h6 : ¬ decide (labelType src ≠ labelType dst) = true := by simpa only [cannotConnect, hf] using h6
      exact Decidable.byContradiction fun hne => h6 (decide_eq_true hne)
    · exact (portMatches_ok (fun l hl => ht.2.2 _ _ l hsp hl) ht.1).mp hm
    · exact (portMatches_ok (fun l hl => ht.2.2 _ _ l hdp hl) ht.2.1).mp ha
  · rintro ⟨sp, dp, ha⟩
    unfold admission
    rw [if_neg (by simp [ha.networks.1]), if_neg (by simp [ha.networks.2]), ha.ports.1, ha.ports.2]
    simp only
    rw [if_neg, (authorize_ok ha.ports.1 ha.ports.2).mpr ha.authorized]
    · simp only
      rw [if_neg ha.transit, if_neg ha.different, if_neg,
        (portMatches_ok (fun l hl => ht.2.2 _ _ l ha.ports.1 hl) ht.1).mpr ha.meet.1]
      · exact (portMatches_ok (fun l hl => ht.2.2 _ _ l ha.ports.2 hl) ht.2.1).mpr ha.meet.2
      · cases hf : cfg.mgr.canConnect with
        | none => 
          have := ha.sameType hf
          simp only [cannotConnect, hf, decide_eq_true_eq]
          exact fun hne => hne this
        | some f => simpa [cannotConnect, hf] using ha.connectable f hf
    · cases st with
      | none => simp [tooShort]
      | some s =>
        cases en with
        | none => simp [tooShort]
        | some e => simpa [tooShort] using ha.duration s e rfl rfl

theorem FreeIn.free {c : Cal} {a b : Time} {r : Resv} (h : FreeIn c a b r) (hc : ∀ x ∈ c, ∀ s, x.start = some s → s ≤ year2095)
    (hb : b < forever) : Cal.Free c a b r := by
  obtain ⟨t, h1, h2, h3⟩ := h
  refine ⟨t, h1, h2, ?_⟩
  rintro ⟨x, hx, hres, u, hu1, hu2⟩
  exact no_clash_of_check (b := ⟨x, t⟩) (hc x hx) (by omega) hx h3 ⟨hres, u, hu1, hu2⟩

/-- C18. An accepted reservation was admissible, its two resources were free (nobody occupied them at any instant of the
requested interval, when looked at during the request), and it is stored as held with the requested ends and times.
Hypotheses: labels come from texts, stored start times are not after 2095 (`checkReservation` ensures this), clock before 9999. -/
theorem C18_accepted (cfg : Cfg) (w : World) (o : Oracle) (h : Hdr) (cid? : Option Str) (src dst : STP) (st en : Option Time)
    (w' : World) (c : Option Str) (hs : step cfg w o (.req h (.reserve cid? src dst st en)) = (w', .ok c))
    (ht : TextLabels cfg src dst) (hn : (w.rows.map (·.cid)).Nodup) (hc : ∀ x ∈ w.cal, ∀ s, x.start = some s → s ≤ year2095)
    (hclk : w'.clk < forever) :
    (∃ sp dp, Admissible cfg h src dst st en sp dp) ∧
    ∃ row, w'.rows = w.rows ++ [row] ∧ c = some row.cid ∧ row.requester = h.requester ∧ row.srcPort = src.port ∧ row.dstPort = dst.port ∧
      row.start = st ∧ row.end_ = en ∧ row.st = { ConnStates.fresh with r := .held } ∧ row.allocated = false ∧ row.active = false ∧
      Cal.Free w.cal w.clk w'.clk ⟨cfg.mgr.getResource row.srcPort row.srcLabel, st, en⟩ ∧
      Cal.Free w.cal w.clk w'.clk ⟨cfg.mgr.getResource row.dstPort row.dstLabel, st, en⟩ := by
  obtain ⟨cid, row, rfl, ha⟩ := (step_reserve o hn hs).2 c rfl
  refine ⟨(C18_admission_exact cfg h src dst st en ht).mp ha.adm, row, ha.rows, ?_⟩
  obtain ⟨t0, t1, t2, o', sl, dl, h1, h2, h3, h4, hal, rfl⟩ := ha.alloc
  simp only at h1
  refine ⟨rfl, rfl, rfl, rfl, rfl, rfl, rfl, rfl, rfl, ?_, ?_⟩
  · obtain ⟨t, a, b, d⟩ := hal.srcFree.free hc (by omega)
    exact ⟨t, by simp only at a; omega, by omega, d⟩
  · obtain ⟨t, a, b, d⟩ := hal.dstFree.free hc (by omega)
    exact ⟨t, by simp only at a; omega, by omega, d⟩

/-! ### Labels -/

theorem mem_labelEnum {l : Option Label} {v : Option LabelVal} (hl : ∀ x, l = some x → x.FromText) : v ∈ labelEnum l ↔ Wanted l v := by
  cases l with
  | none => simp [labelEnum, Wanted]
  | some l =>
    obtain ⟨s, hs⟩ := hl l rfl
    have := (C04_enumerate l ⟨_, hs⟩).2.1
    simp only [labelEnum, Wanted, List.mem_map]
    constructor
    · rintro ⟨n, h1, h2⟩; exact ⟨n, h2.symm, (this n).mp h1⟩
    · rintro ⟨n, h1, h2⟩; exact ⟨n, (this n).mpr h2, h1.symm⟩

theorem labelEnum_sorted {l : Option Label} (hl : ∀ x, l = some x → x.FromText) : (labelEnum l).Pairwise ValLt := by
  cases l with
  | none => simp [labelEnum]
  | some l =>
    obtain ⟨s, hs⟩ := hl l rfl
    simp only [labelEnum, List.pairwise_map]
    exact (C04_enumerate l ⟨_, hs⟩).1

/-- In a sorted enumeration, everything smaller than an element comes before it. -/
theorem before_of_lt {l : List (Option LabelVal)} (h : l.Pairwise ValLt) {pre post : List (Option LabelVal)} {v x : Option LabelVal}
    (e : l = pre ++ v :: post) (hx : x ∈ l) (hlt : ValLt x v) : x ∈ pre := by
  subst e
  rw [List.pairwise_append, List.pairwise_cons] at h
  rcases List.mem_append.mp hx with hx | hx
  · exact hx
  · rcases List.mem_cons.mp hx with hx | hx
    · subst hx
      rcases x with _ | ⟨_, a⟩
      · exact hlt.elim
      · exact absurd hlt (by simp [ValLt])
    · have := h.2.1.1 x hx
      rcases x with _ | ⟨_, a⟩
      · exact hlt.elim
      · rcases v with _ | ⟨_, b⟩
        · exact hlt.elim
        · simp [ValLt] at hlt this; omega

theorem labelCandidate_spec {src dst : STP} (hs : ∀ l, src.label = some l → l.FromText) (hd : ∀ l, dst.label = some l → l.FromText)
    {cand : Option Label} (h : labelCandidate src dst = .ok cand) :
    (∀ l, cand = some l → l.FromText) ∧ ∀ v, Wanted cand v ↔ WantedBoth src dst v := by
  unfold labelCandidate at h
  unfold WantedBoth
  cases hsl : src.label with
  | none => rw [hsl] at h; simp at h; subst h; exact ⟨hd, fun _ => Iff.rfl⟩
  | some s =>
    cases hdl : dst.label with
    | none => rw [hsl, hdl] at h; simp at h; subst h; exact ⟨fun l hl => hs l (by rw [hsl]; exact hl), fun _ => Iff.rfl⟩
    | some d =>
      rw [hsl, hdl] at h
      simp only at h
      cases hi : s.intersect d with
      | error e => rw [hi] at h; simp at h
      | ok l =>
        rw [hi] at h; simp at h; subst h
        have ht : s.type_ = d.type_ := Decidable.byContradiction fun hne => by
          rw [(C03_type_mismatch s d hne).1] at hi; simp at hi
        obtain ⟨hyes, hno⟩ := C03_intersect_exact s d (hs s hsl) (hd d hdl) ht
        by_cases hex : ∃ n, s.has n ∧ d.has n
        · obtain ⟨l', h1, h2, _, h3⟩ := hyes hex
          rw [hi] at h1; simp at h1; subst h1
          refine ⟨fun x hx => by simp at hx; subst hx; exact C02_intersect_fromText s d l hi, fun v => ?_⟩
          simp only [Wanted]
          constructor
          · rintro ⟨n, a, b⟩
            obtain ⟨b1, b2⟩ := (h3 n).mp b
            exact ⟨⟨n, by rw [a, h2], b1⟩, ⟨n, by rw [a, h2, ht], b2⟩⟩
          · rintro ⟨⟨n, a, b⟩, ⟨m, a', b'⟩⟩
            have : n = m := by rw [a] at a'; simp at a'; exact a'.2
            subst this
            exact ⟨n, by rw [a, h2], (h3 n).mpr ⟨b, b'⟩⟩
        · rw [hno hex] at hi; simp at hi

/-- C19, the part that holds: the label value allocated on each end is one of those requested for that end (`_partial`: that
it is configured for the port is false, see `C19_configured_fails`). If the labels of the two ends are of the same kind. -/
theorem C19_requested_partial (cfg : Cfg) (w : World) (o : Oracle) (h : Hdr) (cid? : Option Str) (src dst : STP) (st en : Option Time)
    (w' : World) (c : Option Str) (hs : step cfg w o (.req h (.reserve cid? src dst st en)) = (w', .ok c))
    (ht : TextLabels cfg src dst) (hn : (w.rows.map (·.cid)).Nodup)
    (hk : src.label.map (·.type_) = dst.label.map (·.type_)) :
    ∃ row, w'.rows = w.rows ++ [row] ∧ Wanted src.label row.srcLabel ∧ Wanted dst.label row.dstLabel ∧
      (¬ Swaps cfg src dst → row.srcLabel = row.dstLabel) := by
  obtain ⟨cid, row, rfl, ha⟩ := (step_reserve o hn hs).2 c rfl
  refine ⟨row, ha.rows, ?_⟩
  obtain ⟨t0, t1, t2, o', sl, dl, h1, h2, h3, h4, hal, rfl⟩ := ha.alloc
  show Wanted src.label sl ∧ Wanted dst.label dl ∧ (_ → sl = dl)
  rcases hal.choice with ⟨c1, c2, ⟨p1, q1, e1, _⟩, ⟨p2, q2, e2, _⟩⟩ | ⟨c1, rfl, cand, hc, p1, q1, e1, _⟩
  · refine ⟨(mem_labelEnum ht.1).mp (by rw [e1]; simp), (mem_labelEnum ht.2.1).mp (by rw [e2]; simp), fun hx => absurd ⟨c1, c2⟩ hx⟩
  · obtain ⟨k1, k2⟩ := labelCandidate_spec ht.1 ht.2.1 hc
    have := (k2 sl).mp ((mem_labelEnum k1).mp (by rw [e1]; simp))
    unfold WantedBoth at this
    cases hsl : src.label with
    | none =>
      cases hdl : dst.label with
      | none => rw [hsl, hdl] at this; exact ⟨this, this, fun _ => rfl⟩
      | some d => rw [hsl, hdl] at hk; simp at hk
    | some s =>
      cases hdl : dst.label with
      | none => rw [hsl, hdl] at hk; simp at hk
      | some d => rw [hsl, hdl] at this; exact ⟨this.1, this.2, fun _ => rfl⟩

/-- C19, the part that holds: if every requested value is configured for the port, so is the allocated one. -/
theorem C19_configured_partial (cfg : Cfg) (w : World) (o : Oracle) (h : Hdr) (cid? : Option Str) (src dst : STP) (st en : Option Time)
    (w' : World) (c : Option Str) (hs : step cfg w o (.req h (.reserve cid? src dst st en)) = (w', .ok c))
    (ht : TextLabels cfg src dst) (hn : (w.rows.map (·.cid)).Nodup)
    (hk : src.label.map (·.type_) = dst.label.map (·.type_))
    (hsub : ∀ (s : STP) (p : Port), s = src ∨ s = dst → dget cfg.ports s.port = some p → ∀ x y n, p.label = some x → s.label = some y →
      y.has n → x.has n) :
    ∃ row sp dp, w'.rows = w.rows ++ [row] ∧ dget cfg.ports src.port = some sp ∧ dget cfg.ports dst.port = some dp ∧
      Wanted sp.label row.srcLabel ∧ Wanted dp.label row.dstLabel := by
  obtain ⟨cid, row', rfl, ha⟩ := (step_reserve o hn hs).2 c rfl
  obtain ⟨sp, dp, hadm⟩ := (C18_admission_exact cfg h src dst st en ht).mp ha.adm
  obtain ⟨row, hr, hw1, hw2, _⟩ := C19_requested_partial cfg w o h cid? src dst st en w' (some cid) hs ht hn hk
  refine ⟨row, sp, dp, hr, hadm.ports.1, hadm.ports.2, ?_, ?_⟩
  · rcases hadm.meet.1 with ⟨a, b⟩ | ⟨x, y, a, b, hty, _⟩
    · rw [a]; rw [b] at hw1; exact hw1
    · rw [a]; rw [b] at hw1
      obtain ⟨n, h1, h2⟩ := hw1
      exact ⟨n, by rw [h1, hty], hsub src sp (Or.inl rfl) hadm.ports.1 x y n a b h2⟩
  · rcases hadm.meet.2 with ⟨a, b⟩ | ⟨x, y, a, b, hty, _⟩
    · rw [a]; rw [b] at hw2; exact hw2
    · rw [a]; rw [b] at hw2
      obtain ⟨n, h1, h2⟩ := hw2
      exact ⟨n, by rw [h1, hty], hsub dst dp (Or.inr rfl) hadm.ports.2 x y n a b h2⟩

/-! ### Availability -/

theorem unavailable_clashes {c : Cal} {now : Time} {r : Resv} (h : c.check now r = .error .unavailable) : Cal.Clashes c now r := by
  have hloop : ∀ (c : Cal), checkLoop now r.resource r.start r.end_ c = .error .unavailable → Cal.Clashes c now r := by
    intro c
    induction c with
    | nil => intro h; simp [checkLoop] at h
    | cons x xs ih =>
      intro h
      unfold checkLoop at h
      by_cases hr : r.resource = x.resource
      · rw [if_pos hr] at h
        have hov : ∀ b, resourceOverlap now x.start x.end_ r.start r.end_ = .ok b → b = true → Cal.Clashes (x :: xs) now r := by
          intro b hb hb'
          subst hb'
          refine ⟨x, by simp, hr.symm, max (x.start.getD now) (r.start.getD now), ?_⟩
          have hend : ¬ (r.end_.getD forever < x.start.getD now ∨ x.end_.getD forever < r.start.getD now) ∧
              x.start.getD now < x.end_.getD forever ∧ r.start.getD now < r.end_.getD forever := by
            unfold resourceOverlap at hb
            simp only at hb
            split at hb
            · simp at hb
            · rename_i h1
              split at hb
              · simp at hb
              · rename_i h2
                refine ⟨?_, by omega, by omega⟩
                intro hor
                split at hb
                · simp at hb
                · rename_i h3
                  split at hb
                  · simp at hb
                  · omega
          obtain ⟨k1, k2, k3⟩ := hend
          simp only [Resv.OccupiesAt]
          refine ⟨⟨by omega, fun e he => ?_⟩, by omega, fun e he => ?_⟩
          · rw [he] at k1 k2; simp only [Option.getD_some] at k1 k2; omega
          · rw [he] at k1 k3; simp only [Option.getD_some] at k1 k3; omega
        cases ho : resourceOverlap now x.start x.end_ r.start r.end_ with
        | error e => rw [ho] at h; simp at h; subst h; exact absurd ho (by unfold resourceOverlap; simp only; split <;> (try split) <;> (try split) <;> (try split) <;> simp)
        | ok b =>
          cases b with
          | true => exact hov true ho rfl
          | false =>
            rw [ho] at h
            obtain ⟨y, a, b⟩ := ih h
            exact ⟨y, by simp [a], b⟩
      · rw [if_neg hr] at h
        obtain ⟨y, a, b⟩ := ih h
        exact ⟨y, by simp [a], b⟩
  unfold Cal.check at h
  repeat' split at h
  all_goals first
    | exact hloop c h
    | exact absurd h (by simp)

theorem TakenIn.taken {c : Cal} {a b : Time} {r : Resv} (h : TakenIn c a b r) : Cal.Taken c a b r := by
  obtain ⟨t, h1, h2, h3⟩ := h
  exact ⟨t, h1, h2, unavailable_clashes h3⟩

/-- C20. An admissible request is refused for unavailability only if all candidate label values are occupied: with label
swapping, all values of one end; without, every common value on one end or the other. -/
theorem C20_refused_only_if_taken (cfg : Cfg) (w : World) (o : Oracle) (h : Hdr) (cid? : Option Str) (src dst : STP) (st en : Option Time)
    (w' : World) (hs : step cfg w o (.req h (.reserve cid? src dst st en)) = (w', .error .stpUnavailable))
    (ht : TextLabels cfg src dst) (hn : (w.rows.map (·.cid)).Nodup) (sp dp : Port) (ha : Admissible cfg h src dst st en sp dp) :
    (Swaps cfg src dst →
      (∀ v, Wanted src.label v → Cal.Taken w.cal w.clk w'.clk ⟨cfg.mgr.getResource src.port v, st, en⟩) ∨
      (∀ v, Wanted dst.label v → Cal.Taken w.cal w.clk w'.clk ⟨cfg.mgr.getResource dst.port v, st, en⟩)) ∧
    (¬ Swaps cfg src dst → ∀ v, WantedBoth src dst v →
      Cal.Taken w.cal w.clk w'.clk ⟨cfg.mgr.getResource src.port v, st, en⟩ ∨
      Cal.Taken w.cal w.clk w'.clk ⟨cfg.mgr.getResource dst.port v, st, en⟩) := by
  have hadm := (C18_admission_exact cfg h src dst st en ht).mpr ⟨sp, dp, ha⟩
  rcases ((step_reserve o hn hs).1 _ rfl).2.2.2.2.2 with ⟨e, _⟩ | e | ⟨_, t1, o1, t, h1, h2, h3, hf⟩ | ⟨e, _⟩
  · exact absurd e (by simp)
  · rw [hadm] at e; simp at e
  · simp only at h1
    have up : ∀ {r}, TakenIn w.cal t1 t r → Cal.Taken w.cal w.clk w'.clk r := by
      intro r hr
      obtain ⟨u, a, b, c⟩ := hr.taken
      exact ⟨u, by omega, by omega, c⟩
    rcases hf with ⟨c1, c2, k⟩ | ⟨c, k⟩
    · refine ⟨fun _ => ?_, fun hx => absurd ⟨c1, c2⟩ hx⟩
      rcases k with ⟨_, k⟩ | ⟨_, k⟩ | ⟨k, _⟩
      · exact Or.inl fun v hv => up (k v ((mem_labelEnum ht.1).mpr hv))
      · exact Or.inr fun v hv => up (k v ((mem_labelEnum ht.2.1).mpr hv))
      · exact absurd rfl k
    · refine ⟨fun hx => absurd hx c, fun _ v hv => ?_⟩
      rcases k with ⟨_, k⟩ | ⟨cand, hc, ⟨_, k⟩ | ⟨k, _⟩⟩
      · exact absurd rfl k
      · obtain ⟨k1, k2⟩ := labelCandidate_spec ht.1 ht.2.1 hc
        exact (k v ((mem_labelEnum k1).mpr ((k2 v).mpr hv))).imp up up
      · exact absurd rfl k
  · exact absurd e (by simp)

/-- C20. An accepted request gets the smallest free candidate: all smaller ones are occupied. -/
theorem C20_smallest (cfg : Cfg) (w : World) (o : Oracle) (h : Hdr) (cid? : Option Str) (src dst : STP) (st en : Option Time)
    (w' : World) (c : Option Str) (hs : step cfg w o (.req h (.reserve cid? src dst st en)) = (w', .ok c))
    (ht : TextLabels cfg src dst) (hn : (w.rows.map (·.cid)).Nodup) :
    ∃ row, w'.rows = w.rows ++ [row] ∧
    (Swaps cfg src dst → Wanted src.label row.srcLabel ∧ Wanted dst.label row.dstLabel ∧
      (∀ v, Wanted src.label v → ValLt v row.srcLabel → Cal.Taken w.cal w.clk w'.clk ⟨cfg.mgr.getResource src.port v, st, en⟩) ∧
      (∀ v, Wanted dst.label v → ValLt v row.dstLabel → Cal.Taken w.cal w.clk w'.clk ⟨cfg.mgr.getResource dst.port v, st, en⟩)) ∧
    (¬ Swaps cfg src dst → row.srcLabel = row.dstLabel ∧ WantedBoth src dst row.srcLabel ∧
      ∀ v, WantedBoth src dst v → ValLt v row.srcLabel →
      Cal.Taken w.cal w.clk w'.clk ⟨cfg.mgr.getResource src.port v, st, en⟩ ∨
      Cal.Taken w.cal w.clk w'.clk ⟨cfg.mgr.getResource dst.port v, st, en⟩) := by
  obtain ⟨cid, row, rfl, ha⟩ := (step_reserve o hn hs).2 c rfl
  refine ⟨row, ha.rows, ?_⟩
  obtain ⟨t0, t1, t2, o', sl, dl, h1, h2, h3, h4, hal, rfl⟩ := ha.alloc
  simp only at h1
  have up : ∀ {r}, TakenIn w.cal t1 t0 r → Cal.Taken w.cal w.clk w'.clk r := by
    intro r hr
    obtain ⟨u, a, b, c⟩ := hr.taken
    exact ⟨u, by omega, by omega, c⟩
  rcases hal.choice with ⟨c1, c2, ⟨p1, q1, e1, k1⟩, ⟨p2, q2, e2, k2⟩⟩ | ⟨c1, rfl, cand, hc, p1, q1, e1, k1⟩
  · refine ⟨fun _ => ⟨(mem_labelEnum ht.1).mp (by rw [e1]; exact List.mem_append_right _ List.mem_cons_self), (mem_labelEnum ht.2.1).mp (by rw [e2]; exact List.mem_append_right _ List.mem_cons_self),
      fun v hv hlt => ?_, fun v hv hlt => ?_⟩, fun hx => absurd ⟨c1, c2⟩ hx⟩
    · exact up (k1 v (before_of_lt (labelEnum_sorted ht.1) e1 ((mem_labelEnum ht.1).mpr hv) hlt))
    · exact up (k2 v (before_of_lt (labelEnum_sorted ht.2.1) e2 ((mem_labelEnum ht.2.1).mpr hv) hlt))
  · refine ⟨fun hx => absurd hx c1, fun _ => ?_⟩
    obtain ⟨m1, m2⟩ := labelCandidate_spec ht.1 ht.2.1 hc
    refine ⟨rfl, (m2 sl).mp ((mem_labelEnum m1).mp (by rw [e1]; simp)), fun v hv hlt => ?_⟩
    exact (k1 v (before_of_lt (labelEnum_sorted m1) e1 ((mem_labelEnum m1).mpr ((m2 v).mpr hv)) hlt)).imp up up

/-- C18. A refused reservation leaves stored connections, links, timers and messages as they were; and the calendar, unless
the refusal was a connection id collision found by the database (see C22). -/
theorem C18_refused_no_effect (cfg : Cfg) (w : World) (o : Oracle) (h : Hdr) (cid? : Option Str) (src dst : STP) (st en : Option Time)
    (w' : World) (e : Err) (hs : step cfg w o (.req h (.reserve cid? src dst st en)) = (w', .error e))
    (hn : (w.rows.map (·.cid)).Nodup) :
    w'.rows = w.rows ∧ w'.links = w.links ∧ w'.tbl = w.tbl ∧ w'.outbox = w.outbox ∧ (e ≠ .db → w'.cal = w.cal) := by
  obtain ⟨h1, h2, h3, h4, h5, _⟩ := (step_reserve o hn hs).1 e rfl
  exact ⟨h1, h2, h3, h4, h5⟩

/-! ### Examples and counterexamples -/

/-- An accepted request. -/
example : ∃ w', step (Ex.cfg true) Ex.w0 (Ex.ids 'x') Ex.rsv = (w', .ok (some ['x'])) ∧ w'.clk < forever :=
  ⟨_, Prod.ext rfl (by decide +kernel : (step (Ex.cfg true) Ex.w0 (Ex.ids 'x') Ex.rsv).2 = _), by decide +kernel⟩

example : TextLabels (Ex.cfg true) (Ex.stp 'a' 12 20) (Ex.stp 'b' 12 20) :=
  Ex.textLabels true (by intro l hl; simp [Ex.stp] at hl; subst hl; exact Ex.fromText_12_20)
    (by intro l hl; simp [Ex.stp] at hl; subst hl; exact Ex.fromText_12_20)

/-- Admissible means something: too short, same end twice, unauthorized, foreign vlans are refused. -/
example : admission (Ex.cfg true) Ex.hdr (Ex.stp 'a' 12 20) (Ex.stp 'b' 12 20) (some 0) (some (60 * second)) = .ok () ∧
    admission (Ex.cfg true) Ex.hdr (Ex.stp 'a' 12 20) (Ex.stp 'b' 12 20) (some 0) (some (60 * second - 1)) = .error .connectionCreate ∧
    admission (Ex.cfg true) Ex.hdr (Ex.stp 'a' 12 20) (Ex.stp 'a' 12 20) none none = .error .service ∧
    admission (Ex.cfg true) Ex.hdr (Ex.stp 'b' 12 20) (Ex.stp 'b' 13 20) none none = .error .connectionCreate ∧
    admission (Ex.cfg true) { Ex.hdr with attrs := [] } ⟨['n'], ['c'], none⟩ ⟨['n'], ['c'], none⟩ none none = .error .unauthorized ∧
    admission (Ex.cfg true) Ex.hdr (Ex.stp 'a' 31 40) (Ex.stp 'b' 12 20) none none = .error .topology := by decide +kernel

/-- Without swapping, after two reservations of the two common values a third request is refused for unavailability. -/
example :
    let r (o : Oracle) (w : World) := step (Ex.cfg false) w o
      (.req Ex.hdr (.reserve none (Ex.stp 'a' 12 13) (Ex.stp 'b' 12 20) (some (Ex.sec 2000)) (some (Ex.sec 3000))))
    let w1 := (r (Ex.ids 'x') Ex.w0).1
    let w2 := (r (Ex.ids 'y') w1).1
    w2.rows.map (fun x => (x.cid, x.srcLabel, x.dstLabel)) =
      [(['x'], some (tVlan, 12), some (tVlan, 12)), (['y'], some (tVlan, 13), some (tVlan, 13))] ∧
    (r (Ex.ids 'z') w2).2 = .error .stpUnavailable := by decide +kernel

/-- C19 fails: request vlans 1-20 on port `a`, which is configured for 10-30. The label sets meet, so the request is accepted,
but the label allocated is 1, which the port does not have: genericbackend.py:288 enumerates the requested label, not its
intersection with the label of the port. -/
theorem C19_configured_fails : ∃ (cfg : Cfg) (w w' : World) (o : Oracle) (src dst : STP) (cid : Str) (row : Row) (p : Port) (l : Label),
    Reach cfg w ∧ TextLabels cfg src dst ∧
    step cfg w o (.req Ex.hdr (.reserve none src dst (some (Ex.sec 2000)) (some (Ex.sec 3000)))) = (w', .ok (some cid)) ∧
    w'.rows = [row] ∧ dget cfg.ports src.port = some p ∧ p.label = some l ∧ row.srcLabel = some (l.type_, 1) ∧ ¬ l.has 1 := by
  let r := step (Ex.cfg true) Ex.w0 (Ex.ids 'x')
    (.req Ex.hdr (.reserve none (Ex.stp 'a' 1 20) (Ex.stp 'b' 12 20) (some (Ex.sec 2000)) (some (Ex.sec 3000))))
  refine ⟨Ex.cfg true, Ex.w0, r.1, Ex.ids 'x', Ex.stp 'a' 1 20, Ex.stp 'b' 12 20, ['x'],
    ⟨['x'], ['r'], Ex.sec 1000, ⟨.held, .released, .created⟩, false, false, ['a'], some (tVlan, 1), ['b'], some (tVlan, 12),
      some (Ex.sec 2000), some (Ex.sec 3000)⟩, ⟨some (Ex.vlan 10 30), [], false⟩, Ex.vlan 10 30, Reach.init _ _, ?_, ?_, ?_, rfl, rfl, rfl, ?_⟩
  · exact Ex.textLabels true (by intro l hl; simp [Ex.stp] at hl; subst hl; exact Ex.fromText_1_20)
      (by intro l hl; simp [Ex.stp] at hl; subst hl; exact Ex.fromText_12_20)
  · exact Prod.ext rfl (by decide +kernel : r.2 = _)
  · decide +kernel
  · rintro ⟨x, hx, h1, h2⟩
    simp [Ex.vlan] at hx
    subst hx
    simp at h1

end OpenNSA.Backend
