import Verif.Nml.Model
import Verif.Nrm.Props
import Verif.Label.Props
import Verif.Discovery.Props
/-
C64: the published topology.
-/
namespace OpenNSA.Nml
open Py OpenNSA.Wire

/-! ### The ports of the network -/

/-- The inbound direction of a port, in the network `net`: what it is an alias of is the outbound direction of the remote port. -/
def inOf (net : Str) (p : Nrm.Port) : Port := ⟨net ++ ':' :: (p.name ++ sufIn), p.name ++ sufIn, p.label, p.remote.map (·.out)⟩
/-- The outbound direction. -/
def outOf (net : Str) (p : Nrm.Port) : Port := ⟨net ++ ':' :: (p.name ++ sufOut), p.name ++ sufOut, p.label, p.remote.map (·.in_)⟩
/-- Both together. -/
def bidiOf (net : Str) (p : Nrm.Port) : Bidi := ⟨net ++ ':' :: p.name, p.name, inOf net p, outOf net p, p.remote.map (·.port)⟩

/-- The name of the network is usable: it is not a URN. -/
def NetOk (net : Str) : Prop := urnStart.isPrefixOf (net ++ [':']) = false

instance (net : Str) : Decidable (NetOk net) := by unfold NetOk; infer_instance

theorem prefix_colon (net s : Str) : urnStart.isPrefixOf (net ++ ':' :: s) = urnStart.isPrefixOf (net ++ [':']) := by
  match net with
  | [] => simp [urnStart, List.isPrefixOf]
  | [a] => simp [urnStart, List.isPrefixOf]
  | [a, b] => simp [urnStart, List.isPrefixOf]
  | [a, b, c] => simp [urnStart, List.isPrefixOf]
  | a :: b :: c :: d :: l => simp [urnStart, List.isPrefixOf]

theorem NetOk.self {net : Str} (h : NetOk net) : urnStart.isPrefixOf net = false := by
  unfold NetOk at h
  match net with
  | [] => rfl
  | [a] => simp [urnStart, List.isPrefixOf]
  | [a, b] => simp [urnStart, List.isPrefixOf]
  | [a, b, c] => simp [urnStart, List.isPrefixOf]
  | a :: b :: c :: d :: l => simpa [urnStart, List.isPrefixOf] using h

theorem NetOk.id {net : Str} (h : NetOk net) (s : Str) : urnStart.isPrefixOf (net ++ ':' :: s) = false := by rw [prefix_colon]; exact h

theorem bidi_init {net : Str} (h : NetOk net) (p : Nrm.Port) :
    Bidi.init (net ++ ':' :: p.name) (some p.name) (inOf net p) (outOf net p) (p.remote.map (·.port)) = .ok (bidiOf net p) := by
  unfold Bidi.init
  cases hl : p.label with
  | none => simp [inOf, outOf, hl, h.id, bidiOf]
  | some l => simp [inOf, outOf, hl, h.id, bidiOf]

theorem createAll_ok {net : Str} (h : NetOk net) (ports : List Nrm.Port) (hp : ∀ p ∈ ports, ':' ∉ p.name) :
    createAll net ports = .ok (ports.map (inOf net), ports.map (outOf net), ports.map (bidiOf net)) := by
  induction ports with
  | nil => rfl
  | cons p ps ih =>
    have hn := hp p (by simp)
    have h1 : ':' ∉ p.name ++ sufIn := by simp [sufIn, hn]
    have h2 : ':' ∉ p.name ++ sufOut := by simp [sufOut, hn]
    have hc : createPorts net p = .ok (inOf net p, outOf net p, bidiOf net p) := by
      unfold createPorts Port.init
      simp only [h.id, h1, h2, if_false, Bool.false_eq_true]
      have := bidi_init h p
      unfold inOf outOf at this
      rw [this]
      rfl
    simp only [createAll, hc, ih fun p hp' => hp p (List.mem_cons_of_mem _ hp'), List.map_cons]

/-- **C64, the network.** A network is made of ports whose names have no colon: every port in both directions, with its label and, in the opposite
direction, its remote port. -/
theorem C64_network (net readable : Str) (ports : List Nrm.Port) (h : NetOk net) (hp : ∀ p ∈ ports, ':' ∉ p.name) :
    createNMLNetwork ports net readable = .ok ⟨net, readable, ports.map (inOf net), ports.map (outOf net), ports.map (bidiOf net)⟩ := by
  unfold createNMLNetwork
  rw [createAll_ok h ports hp]
  simp [Network.init, h.self]

/-- Two networks that face each other: a port of `x` leads to a port of `y` and the other way round, each with the suffixes under which networks are published. -/
def Facing (x y : Str) (p q : Nrm.Port) : Prop :=
  p.remote = some ⟨y, q.name, y ++ ':' :: q.name ++ "-in".toList, y ++ ':' :: q.name ++ "-out".toList⟩ ∧
  q.remote = some ⟨x, p.name, x ++ ':' :: p.name ++ "-in".toList, x ++ ':' :: p.name ++ "-out".toList⟩

/-- **C64, directions.** Where two networks face each other, what comes in at one is what goes out at the other: each direction of the port is an alias of the
opposite direction of the other port, by its id. -/
theorem C64_directions (x y : Str) (p q : Nrm.Port) (h : Facing x y p q) :
    (inOf x p).remote = some (outOf y q).id ∧ (outOf x p).remote = some (inOf y q).id ∧
    (inOf y q).remote = some (outOf x p).id ∧ (outOf y q).remote = some (inOf x p).id := by
  obtain ⟨h1, h2⟩ := h
  have e1 : "-in".toList = sufIn := rfl
  have e2 : "-out".toList = sufOut := rfl
  rw [e1, e2] at h1 h2
  simp [inOf, outOf, h1, h2]

/-! ### Reading -/

/-- The label under the NML name of its type. -/
def nmlLabel (l : Label) : Label := { l with type_ := (labelMapping l.type_).getD [] }

/-- The port as it is read. -/
def Port.read (p : Port) : Port := { p with label := p.label.map nmlLabel }

/-- A label that can be written: obtained from text, of one of the two types. -/
def Writable (l : Label) : Prop := l.FromText ∧ (l.type_ = tVlan ∨ l.type_ = tMpls)

theorem Writable.mapping {l : Label} (h : Writable l) : ∃ t, labelMapping l.type_ = some t := by
  unfold labelMapping
  rcases h.2 with h | h
  · exact ⟨_, by rw [if_pos h]⟩
  · rw [h]
    exact ⟨nmlMpls, by decide⟩

theorem mk_type {t t' : Str} {l : Label} {s : Str} (h : Label.mk' t (.str s) = .ok l) : Label.mk' t' (.str s) = .ok { l with type_ := t' } := by
  simp only [Label.mk'] at h ⊢
  cases hp : parseItems (splitOn ',' s) with
  | error e => rw [hp] at h; cases h
  | ok vs => rw [hp] at h; cases h; rfl

theorem get_head (t n : String) (v : Str) (a : List (String × Str)) (x : Option Str) (k : List Elem) : (wire (.mk t ((n, v) :: a) x k)).get n = some v := by
  rw [wire_get]
  simp [Elem.get, dget]

theorem baseId_wire (tag : String) (s : Str) (t : Option Str) (k : List Elem) (a : List (String × Str)) : baseId (wire (.mk tag (("id", urnPrefix ++ s) :: a) t k)) = .ok s := by
  have : (wire (.mk tag (("id", urnPrefix ++ s) :: a) t k)).get "id" = some (urnPrefix ++ s) := by rw [wire_get]; rfl
  simp only [baseId, this, Discovery.baseName_some]

theorem lastPart_append (a b : Str) (h : ':' ∉ b) : lastPart (a ++ ':' :: b) = b := by
  have key : ∀ a : Str, ∃ l, splitOn ':' (a ++ ':' :: b) = l ++ [b] := by
    intro a
    induction a with
    | nil => exact ⟨[[]], by simp [splitOn, splitOn_no_sep h]⟩
    | cons c a ih =>
      obtain ⟨l, hl⟩ := ih
      by_cases hc : c = ':'
      · exact ⟨[] :: l, by simp [splitOn, hc, hl]⟩
      · cases l with
        | nil =>
          exfalso
          simp only [List.nil_append] at hl
          have : ∀ s : Str, ':' ∈ s → (splitOn ':' s).length ≠ 1 := by
            intro s
            induction s with
            | nil => simp
            | cons d s ih =>
              intro hm
              by_cases hd : d = ':'
              · have := splitOn_ne_nil ':' s
                simp only [splitOn, hd, if_true, List.length_cons]
                cases hs : splitOn ':' s with
                | nil => exact absurd hs this
                | cons => simp
              · have hs : ':' ∈ s := by
                  rcases List.mem_cons.1 hm with h | h
                  · exact absurd h.symm hd
                  · exact h
                have := ih hs
                simp only [splitOn, hd, if_false]
                cases hss : splitOn ':' s with
                | nil => exact absurd hss (splitOn_ne_nil _ _)
                | cons x y =>
                  rw [hss] at this
                  simpa using this
          exact this (a ++ ':' :: b) (by simp) (by rw [hl]; rfl)
        | cons x l =>
          refine ⟨(c :: x) :: l, ?_⟩
          simp only [List.cons_append, splitOn, hc, if_false, hl]
  obtain ⟨l, hl⟩ := key a
  simp [lastPart, hl]

theorem labelValue_ne {l : Label} (h : l.FromText) : l.labelValue ≠ [] := by
  intro he
  have := (C02_label_roundtrip l h).1
  rw [he] at this
  have he : Label.mk' l.type_ (.str []) = .error .payload := rfl
  rw [he] at this
  cases this

theorem portElem_read {net : Str} (h : NetOk net) (p : Port) (hid : p.id = net ++ ':' :: p.name) (hn : ':' ∉ p.name) (hl : ∀ l, p.label = some l → Writable l) :
    ∃ e, portElem (urnPrefix ++ net) p = some e ∧ (wire e).tag = tPortGroup ∧ parsePort (wire e) = .ok p.read := by
  obtain ⟨id, name, label, remote⟩ := p
  simp only at hid hn hl
  subst hid
  have hloop : ∀ ls, labelElems label = some ls → portLoop ⟨none, none, none⟩ ((ls ++ aliasElems remote).map wire) = .ok ⟨none, label.map nmlLabel, remote⟩ := by
    intro ls hls
    have halias : ∀ v : PortVars, v.remote = none → portLoop v ((aliasElems remote).map wire) = .ok { v with remote := remote } := by
      intro v hv
      cases remote with
      | none => cases v; simp only at hv; subst hv; rfl
      | some r =>
        simp only [aliasElems, List.map_cons, List.map_nil, portLoop, portStep, wire_tag, mk_tag, wire_get, wire_kids, mk_kids]
        rw [if_neg (by decide), if_neg (by decide), if_pos trivial]
        simp only [Elem.get, mk_attrib, dget, if_true, baseId_wire]
    cases label with
    | none =>
      simp only [labelElems, Option.some.injEq] at hls
      subst hls
      exact halias _ rfl
    | some l =>
      obtain ⟨hf, ht⟩ := hl l rfl
      obtain ⟨t, htt⟩ := (show Writable l from ⟨hf, ht⟩).mapping
      simp only [labelElems, htt, Option.map_some, Option.some.injEq] at hls
      subst hls
      have hstep : portStep ⟨none, none, none⟩ (wire (.mk tLabelGroup [("labeltype", t)] (some l.labelValue) [])) = .ok ⟨none, some (nmlLabel l), none⟩ := by
        unfold portStep
        simp only [wire_tag, mk_tag, wire_get, wire_text, mk_text, wire_kids, mk_kids]
        rw [if_neg (by decide), if_pos (Or.inr trivial)]
        have hne : normText (some l.labelValue) = some l.labelValue := by
          cases hv : l.labelValue with
          | nil => exact absurd hv (labelValue_ne hf)
          | cons => rfl
        simp only [Elem.get, mk_attrib, dget, if_true, hne, mk_type (C02_label_roundtrip l hf).1, nmlLabel, htt, Option.getD_some]
      simp only [List.cons_append, List.nil_append, List.map_cons, portLoop, hstep]
      exact halias _ rfl
  have hsome : ∃ ls, labelElems label = some ls := by
    cases label with
    | none => exact ⟨_, rfl⟩
    | some l =>
      obtain ⟨t, ht⟩ := (hl l rfl).mapping
      exact ⟨_, by simp only [labelElems, ht, Option.map_some]; rfl⟩
  obtain ⟨ls, hls⟩ := hsome
  refine ⟨_, by simp only [portElem, hls, Option.map_some]; rfl, by simp, ?_⟩
  unfold parsePort
  rw [List.append_assoc, baseId_wire]
  simp only [wire_kids, mk_kids, hloop ls hls, Option.getD_none]
  rw [lastPart_append _ _ hn]
  simp [Port.init, h.id, hn, Port.read]

/-- The dictionary of the ports read. -/
def portDict (l : List Port) : List (Str × Port) := l.map fun p => (p.id, p.read)

theorem dset_new {κ ν : Type} [DecidableEq κ] {d : List (κ × ν)} {k : κ} {v : ν} (h : k ∉ dkeys d) : dset d k v = d ++ [(k, v)] := by
  induction d with
  | nil => rfl
  | cons a d ih =>
    obtain ⟨a, b⟩ := a
    simp only [dkeys, List.map_cons, List.mem_cons, not_or] at h
    simp only [dset]
    rw [if_neg fun h' => h.1 h'.symm, ih h.2]
    rfl

theorem portElems_read {net : Str} (h : NetOk net) (l : List Port) (hid : ∀ p ∈ l, p.id = net ++ ':' :: p.name) (hn : ∀ p ∈ l, ':' ∉ p.name)
    (hl : ∀ p ∈ l, ∀ x, p.label = some x → Writable x) (hd : (l.map (·.id)).Nodup) :
    ∃ es, portElems (urnPrefix ++ net) l = some es ∧ (es = [] ↔ l = []) ∧ ∀ d : List (Str × Port), (∀ p ∈ l, p.id ∉ dkeys d) → parsePorts d (es.map wire) = .ok (d ++ portDict l) := by
  induction l with
  | nil => exact ⟨[], rfl, by simp, fun d _ => by simp [parsePorts, portDict]⟩
  | cons p l ih =>
    simp only [List.map_cons, List.nodup_cons] at hd
    obtain ⟨es, h1, _, h2⟩ := ih (fun q hq => hid q (List.mem_cons_of_mem _ hq)) (fun q hq => hn q (List.mem_cons_of_mem _ hq))
      (fun q hq => hl q (List.mem_cons_of_mem _ hq)) hd.2
    obtain ⟨e, e1, e2, e3⟩ := portElem_read h p (hid p (by simp)) (hn p (by simp)) (hl p (by simp))
    refine ⟨e :: es, by simp [portElems, e1, h1], by simp, ?_⟩
    intro d hk
    have hpid : p.read.id = p.id := rfl
    simp only [List.map_cons, parsePorts, e2, or_true, if_true, e3, hpid]
    rw [dset_new (hk p (by simp)), h2 _ ?_]
    · simp [portDict]
    · intro q hq
      simp only [dkeys, List.map_append, List.map_cons, List.map_nil, List.mem_append, List.mem_singleton, not_or]
      refine ⟨hk q (List.mem_cons_of_mem _ hq), fun he => hd.1 ?_⟩
      rw [← he]
      exact List.mem_map.2 ⟨q, hq, rfl⟩

theorem bidiElem_read {net : Str} (b : Bidi) (hn : b.name ≠ []) :
    (wire (bidiElem (urnPrefix ++ net) b)).tag = tBidirectional ∧
    parseBidi (wire (bidiElem (urnPrefix ++ net) b)) = .ok ⟨net ++ ':' :: b.name, some b.name, net ++ ':' :: b.inbound.name, net ++ ':' :: b.outbound.name⟩ := by
  refine ⟨by simp [bidiElem], ?_⟩
  have hne : normText (some b.name) = some b.name := by
    cases hv : b.name with
    | nil => exact absurd hv hn
    | cons => rfl
  unfold parseBidi bidiElem
  simp only [List.append_assoc, baseId_wire, wire_kids, mk_kids, List.map_cons, List.map_nil, subPorts, wire_tag, mk_tag]
  have h1 : tPortGroup ≠ tName := by decide
  simp only [h1, if_false, or_true, if_true, lastName, List.foldl_cons, List.foldl_nil, wire_tag, mk_tag, leaf_tag, wire_text, leaf_text, hne]

theorem topLoop_append (v : Vars) (a b : List Elem) : topLoop v (a ++ b) = match topLoop v a with | .error x => .error x | .ok v => topLoop v b := by
  induction a generalizing v with
  | nil => rfl
  | cons e a ih =>
    simp only [List.cons_append, topLoop]
    cases topStep v e with
    | error x => rfl
    | ok v => exact ih v

theorem bidis_read {net : Str} (l : List Bidi) (hn : ∀ b ∈ l, b.name ≠ []) (v : Vars) :
    topLoop v ((l.map (bidiElem (urnPrefix ++ net))).map wire) =
      .ok { v with bd := v.bd ++ l.map fun b => ⟨net ++ ':' :: b.name, some b.name, net ++ ':' :: b.inbound.name, net ++ ':' :: b.outbound.name⟩ } := by
  induction l generalizing v with
  | nil => simp [topLoop]
  | cons b l ih =>
    obtain ⟨h1, h2⟩ := bidiElem_read (net := net) b (hn b (by simp))
    have t1 : tBidirectional ≠ tName := by decide
    have t2 : tBidirectional ≠ tRelation := by decide
    simp only [List.map_cons, topLoop, topStep, h1, t1, t2, if_false, if_true, h2]
    rw [ih fun b hb => hn b (List.mem_cons_of_mem _ hb)]
    simp

theorem relation_read (t : Str) (es : List Elem) (v : Vars) (d : List (Str × Port)) :
    (t = rInbound → parsePorts v.inbound (es.map wire) = .ok d → topLoop v ((relationElems t es).map wire) = .ok { v with inbound := d }) ∧
    (t = rOutbound → parsePorts v.outbound (es.map wire) = .ok d → topLoop v ((relationElems t es).map wire) = .ok { v with outbound := d }) := by
  have t1 : tRelation ≠ tName := by decide
  have t3 : rOutbound ≠ rInbound := by decide +kernel
  constructor
  · rintro rfl h
    cases es with
    | nil => simp only [List.map_nil, parsePorts, Except.ok.injEq] at h; subst h; rfl
    | cons e es =>
      simp only [relationElems, List.cons_ne_nil, if_false, List.map_cons, List.map_nil, topLoop, topStep, wire_tag, mk_tag, t1, if_true, get_head,
        wire_kids, mk_kids] at h ⊢
      rw [h]
  · rintro rfl h
    cases es with
    | nil => simp only [List.map_nil, parsePorts, Except.ok.injEq] at h; subst h; rfl
    | cons e es =>
      simp only [relationElems, List.cons_ne_nil, if_false, List.map_cons, List.map_nil, topLoop, topStep, wire_tag, mk_tag, t1, if_true, get_head,
        wire_kids, mk_kids, t3] at h ⊢
      rw [h]

theorem service_read (id : Str) (swap : Bool) (v : Vars) : topLoop v ((serviceElems id swap).map wire) = .ok v := by
  have t1 : tServiceDef ≠ tName ∧ tServiceDef ≠ tRelation ∧ tServiceDef ≠ tBidirectional ∧ tRelation ≠ tName := by decide
  have t2 : rService ≠ rInbound ∧ rService ≠ rOutbound := by decide +kernel
  simp only [serviceElems, List.map_cons, List.map_nil, topLoop, topStep, wire_tag, mk_tag, t1, if_false, if_true, get_head, t2]

/-- The ports can be published: names without colon, none empty, none twice; labels as they come from port descriptions. -/
structure Publishable (ports : List Nrm.Port) : Prop where
  colon : ∀ p ∈ ports, ':' ∉ p.name
  empty : ∀ p ∈ ports, p.name ≠ []
  once : (ports.map (·.name)).Nodup
  label : ∀ p ∈ ports, ∀ l, p.label = some l → Writable l

/-- A bidirectional port as it is read: the remote port is only found in the two directions. -/
def bidiRead (net : Str) (p : Nrm.Port) : Bidi := ⟨net ++ ':' :: p.name, p.name, (inOf net p).read, (outOf net p).read, none⟩

theorem nodup_in {net : Str} {ports : List Nrm.Port} (h : (ports.map (·.name)).Nodup) (f : Str → Str) (hf : ∀ a b, f a = f b → a = b) :
    (ports.map fun p => net ++ ':' :: f p.name).Nodup := by
  induction ports with
  | nil => simp
  | cons p ps ih =>
    simp only [List.map_cons, List.nodup_cons] at h ⊢
    refine ⟨?_, ih h.2⟩
    intro hm
    obtain ⟨q, hq, he⟩ := List.mem_map.1 hm
    have := List.append_cancel_left he
    simp only [List.cons.injEq, true_and] at this
    exact h.1 (List.mem_map.2 ⟨q, hq, hf _ _ this⟩)

theorem lookAll_read {net : Str} (h : NetOk net) (ps qs : List Nrm.Port) (hd : (ps.map (·.name)).Nodup) (hs : ∀ q ∈ qs, q ∈ ps) :
    lookAll (portDict (ps.map (inOf net))) (portDict (ps.map (outOf net)))
      (qs.map fun p => ⟨net ++ ':' :: p.name, some p.name, net ++ ':' :: (p.name ++ sufIn), net ++ ':' :: (p.name ++ sufOut)⟩) = .ok (qs.map (bidiRead net)) := by
  induction qs with
  | nil => rfl
  | cons q qs ih =>
    have hq := hs q (by simp)
    have h1 : dget (portDict (ps.map (inOf net))) (net ++ ':' :: (q.name ++ sufIn)) = some (inOf net q).read := by
      apply dget_of_mem_nodup
      · have : dkeys (portDict (ps.map (inOf net))) = ps.map fun p => net ++ ':' :: (p.name ++ sufIn) := by
          simp [dkeys, portDict, Function.comp_def, inOf]
        rw [this]
        exact nodup_in hd (· ++ sufIn) fun a b h => List.append_cancel_right h
      · simp only [portDict, List.map_map]
        exact List.mem_map.2 ⟨q, hq, rfl⟩
    have h2 : dget (portDict (ps.map (outOf net))) (net ++ ':' :: (q.name ++ sufOut)) = some (outOf net q).read := by
      apply dget_of_mem_nodup
      · have : dkeys (portDict (ps.map (outOf net))) = ps.map fun p => net ++ ':' :: (p.name ++ sufOut) := by
          simp [dkeys, portDict, Function.comp_def, outOf]
        rw [this]
        exact nodup_in hd (· ++ sufOut) fun a b h => List.append_cancel_right h
      · simp only [portDict, List.map_map]
        exact List.mem_map.2 ⟨q, hq, rfl⟩
    have h3 : Bidi.init (net ++ ':' :: q.name) (some q.name) (inOf net q).read (outOf net q).read none = .ok (bidiRead net q) := by
      unfold Bidi.init
      cases hlab : q.label with
      | none => simp [inOf, outOf, Port.read, hlab, h.id, bidiRead]
      | some l => simp [inOf, outOf, Port.read, hlab, h.id, bidiRead]
    simp only [List.map_cons, lookAll, lookBidi, h1, h2, h3, ih fun q hq => hs q (List.mem_cons_of_mem _ hq)]

/-- **C64, reading the document.** For ports that can be published the document is made, and what is read from it before the last step is the network, with every port in its place:
the ids, names, remote ports, and the same label values, but the label types are the NML names. (The last step fails: `C64_parse_fails`.) -/
theorem C64_read_partial (net readable version : Str) (swap : Bool) (ports : List Nrm.Port) (h : NetOk net) (hr : readable ≠ []) (hp : Publishable ports) :
    ∃ nw e, createNMLNetwork ports net readable = .ok nw ∧ topologyXML nw version swap = some e ∧
      parseParts (wire e) = .ok ⟨net, some readable, portDict (ports.map (inOf net)), portDict (ports.map (outOf net)), ports.map (bidiRead net)⟩ := by
  have hi := portElems_read h (ports.map (inOf net)) (by simp [inOf]) (by
      intro p hm
      obtain ⟨q, hq, rfl⟩ := List.mem_map.1 hm
      simp [inOf, sufIn, hp.colon q hq]) (by
      intro p hm
      obtain ⟨q, hq, rfl⟩ := List.mem_map.1 hm
      exact hp.label q hq) (by
      rw [List.map_map]
      exact nodup_in hp.once (· ++ sufIn) fun a b h => List.append_cancel_right h)
  have ho := portElems_read h (ports.map (outOf net)) (by simp [outOf]) (by
      intro p hm
      obtain ⟨q, hq, rfl⟩ := List.mem_map.1 hm
      simp [outOf, sufOut, hp.colon q hq]) (by
      intro p hm
      obtain ⟨q, hq, rfl⟩ := List.mem_map.1 hm
      exact hp.label q hq) (by
      rw [List.map_map]
      exact nodup_in hp.once (· ++ sufOut) fun a b h => List.append_cancel_right h)
  obtain ⟨is, i1, _, i2⟩ := hi
  obtain ⟨os, o1, _, o2⟩ := ho
  have i3 : ∀ v : Vars, v.inbound = [] → topLoop v ((relationElems rInbound is).map wire) = .ok { v with inbound := portDict (ports.map (inOf net)) } := by
    intro v hv
    exact (relation_read rInbound is v _).1 rfl (by rw [hv, i2 [] (by simp [dkeys])]; rfl)
  have o3 : ∀ v : Vars, v.outbound = [] → topLoop v ((relationElems rOutbound os).map wire) = .ok { v with outbound := portDict (ports.map (outOf net)) } := by
    intro v hv
    exact (relation_read rOutbound os v _).2 rfl (by rw [hv, o2 [] (by simp [dkeys])]; rfl)
  refine ⟨_, _, C64_network net readable ports h hp.colon, by simp only [topologyXML, i1, o1]; rfl, ?_⟩
  have hne : normText (some readable) = some readable := by
    cases hv : readable with
    | nil => exact absurd hv hr
    | cons => rfl
  unfold parseParts
  simp only [wire_tag, mk_tag, ne_eq, not_true_eq_false, if_false, baseId_wire, wire_kids, mk_kids, List.map_cons, List.map_append, topLoop, topStep, leaf_tag, if_true,
    wire_text, leaf_text, hne]
  rw [topLoop_append, topLoop_append, topLoop_append, bidis_read _ (by
    intro b hb
    obtain ⟨q, hq, rfl⟩ := List.mem_map.1 hb
    exact hp.empty q hq)]
  simp only [i3, o3, service_read]
  have := lookAll_read h ports ports hp.once (fun q hq => hq)
  simp only [List.nil_append, List.map_map, Function.comp_def, bidiOf, inOf, outOf] at this ⊢
  rw [this]

/-! ### From the file of port descriptions -/

theorem parseLabel_writable {s : Str} {l : Label} (h : Nrm.parseLabel s = .ok (some l)) : Writable l := by
  unfold Nrm.parseLabel at h
  split at h
  · cases h
  · split at h
    · cases h
    · rename_i alias range _
      split at h
      · rename_i ha
        cases hm : Label.mk' alias (.str range) with
        | error e => rw [hm] at h; cases h
        | ok l' =>
          rw [hm] at h
          cases h
          have ht : l.type_ = alias := by
            simp only [Label.mk'] at hm
            split at hm
            · cases hm
            · cases hm; rfl
          exact ⟨⟨range, by rw [ht]; exact hm⟩, by rw [ht]; exact ha⟩
      · cases h

theorem parseLine_port {line : Str} {p : Nrm.Port} (h : Nrm.parseLine line = .ok p) : p.name ≠ [] ∧ ∀ l, p.label = some l → Writable l := by
  unfold Nrm.parseLine at h
  split at h
  · rename_i portType name remote label bandwidth interface authz ht
    split at h
    · cases h
    · split at h
      · cases h
      · split at h
        · cases h
        · rename_i lab hlab
          split at h
          · cases h
          · split at h
            · cases h
            · split at h
              · cases h
              · cases h
                refine ⟨?_, fun l hl => parseLabel_writable (by rw [hlab]; exact congrArg _ hl)⟩
                have : name ∈ Nrm.tokens line := by rw [ht]; simp
                simp only [Nrm.tokens, List.mem_filter, decide_eq_true_eq] at this
                simpa using this.2
  · cases h

theorem parsePortSpec_port {lines : List Str} {ports : List Nrm.Port} (h : Nrm.parsePortSpec lines = .ok ports) :
    ∀ p ∈ ports, p.name ≠ [] ∧ ∀ l, p.label = some l → Writable l := by
  induction lines generalizing ports with
  | nil => cases h; simp
  | cons line lines ih =>
    unfold Nrm.parsePortSpec at h
    split at h
    · exact ih h
    · split at h
      · cases h
      · rename_i q hq
        split at h
        · cases h
        · rename_i ps hps
          cases h
          intro p hp
          rcases List.mem_cons.1 hp with rfl | hp
          · exact parseLine_port hq
          · exact ih hps p hp

/-- **C64, from the file to the reader.** The ports of every file that is accepted, if no name has a colon or occurs twice, are published, and read
as in `C64_read_partial`. -/
theorem C64_file_partial (lines : List Str) (ports : List Nrm.Port) (hf : Nrm.parsePortSpec lines = .ok ports) (hc : ∀ p ∈ ports, ':' ∉ p.name)
    (hd : (ports.map (·.name)).Nodup) (net version : Str) (swap : Bool) (h : NetOk net) (hne : net ≠ []) :
    ∃ nw e, createNMLNetwork ports net net = .ok nw ∧ topologyXML nw version swap = some e ∧
      parseParts (wire e) = .ok ⟨net, some net, portDict (ports.map (inOf net)), portDict (ports.map (outOf net)), ports.map (bidiRead net)⟩ :=
  C64_read_partial net net version swap ports h hne ⟨hc, fun p hp => (parsePortSpec_port hf p hp).1, hd, fun p hp => (parsePortSpec_port hf p hp).2⟩

/-- All ids of the network: of the ports and of their directions. -/
def Network.ids (n : Network) : List Str := n.bidirectional.map (·.id) ++ n.inbound.map (·.id) ++ n.outbound.map (·.id)

/-- **C64, ids.** The ids in the document are all different, if no name occurs twice and no name is that of a direction of another port. -/
theorem C64_ids (net readable : Str) (ports : List Nrm.Port) (h : NetOk net) (hc : ∀ p ∈ ports, ':' ∉ p.name) (hd : (ports.map (·.name)).Nodup)
    (hs : ∀ p ∈ ports, ∀ q ∈ ports, p.name ≠ q.name ++ sufIn ∧ p.name ≠ q.name ++ sufOut) :
    ∃ nw, createNMLNetwork ports net readable = .ok nw ∧ nw.ids.Nodup := by
  refine ⟨_, C64_network net readable ports h hc, ?_⟩
  have hb := nodup_in (net := net) hd id fun a b h => h
  have hi := nodup_in (net := net) hd (· ++ sufIn) fun a b h => List.append_cancel_right h
  have ho := nodup_in (net := net) hd (· ++ sufOut) fun a b h => List.append_cancel_right h
  simp only [Network.ids, List.map_map, Function.comp_def, bidiOf, inOf, outOf]
  have io : ∀ a b : Str, a ++ sufIn ≠ b ++ sufOut := by
    intro a b he
    have := congrArg List.getLast? he
    simp [sufIn, sufOut] at this
  rw [List.nodup_append, List.nodup_append]
  refine ⟨⟨hb, hi, ?_⟩, ho, ?_⟩
  · intro a ha b hb' he
    obtain ⟨p, hp, rfl⟩ := List.mem_map.1 ha
    obtain ⟨q, hq, rfl⟩ := List.mem_map.1 hb'
    have := List.append_cancel_left he
    simp only [List.cons.injEq, true_and] at this
    exact (hs p hp q hq).1 this
  · intro a ha b hb' he
    obtain ⟨q, hq, rfl⟩ := List.mem_map.1 hb'
    rcases List.mem_append.1 ha with ha | ha
    · obtain ⟨p, hp, rfl⟩ := List.mem_map.1 ha
      have := List.append_cancel_left he
      simp only [List.cons.injEq, true_and] at this
      exact (hs p hp q hq).2 this
    · obtain ⟨p, hp, rfl⟩ := List.mem_map.1 ha
      have := List.append_cancel_left he
      simp only [List.cons.injEq, true_and] at this
      exact io _ _ this

/-! ### Examples -/

namespace Ex
def net : Str := "nordu.net:topology".toList
def ports : List Nrm.Port := [
  ⟨"ps".toList, none, some ⟨tVlan, [(1780, 1783)], false⟩, 1000, "em0".toList, [], [], false⟩,
  ⟨"nl".toList, some ⟨"nl".toList, "ndn".toList, "nl:ndn-in".toList, "nl:ndn-out".toList⟩, some ⟨tVlan, [(1780, 1783), (1790, 1790)], false⟩, 1000, "em1".toList, [], [], false⟩,
  ⟨"uva".toList, some ⟨"uva".toList, "ndn".toList, "uva:ndn-in".toList, "uva:ndn-out".toList⟩, none, 1000, "em2".toList, [], [], true⟩]
end Ex

/-- The hypotheses of `C64_network`, `C64_read_partial`, `C64_ids` are met. -/
example : NetOk Ex.net ∧ Publishable Ex.ports ∧ ∀ p ∈ Ex.ports, ∀ q ∈ Ex.ports, p.name ≠ q.name ++ sufIn ∧ p.name ≠ q.name ++ sufOut := by
  refine ⟨by decide +kernel, ⟨by decide +kernel, by decide +kernel, by decide +kernel, ?_⟩, by decide +kernel⟩
  intro p hp l hl
  simp only [Ex.ports, List.mem_cons, List.not_mem_nil, or_false] at hp
  rcases hp with rfl | rfl | rfl
  · simp only [Option.some.injEq] at hl
    subst hl
    exact ⟨⟨"1780-1783".toList, by decide +kernel⟩, Or.inl rfl⟩
  · simp only [Option.some.injEq] at hl
    subst hl
    exact ⟨⟨"1780-1783,1790".toList, by decide +kernel⟩, Or.inl rfl⟩
  · cases hl

/-- Those of `C64_file_partial`: the file of the example of C48. -/
example : (match Nrm.parsePortSpec Nrm.Ex.file with | .ok ps => decide (∀ p ∈ ps, ':' ∉ p.name) && decide ((ps.map (·.name)).Nodup) | _ => false) = true := by decide +kernel

/-- Those of `C64_directions`. -/
example : Facing "a".toList "b".toList ⟨"p".toList, some ⟨"b".toList, "q".toList, "b:q-in".toList, "b:q-out".toList⟩, none, 1, "i".toList, [], [], false⟩
    ⟨"q".toList, some ⟨"a".toList, "p".toList, "a:p-in".toList, "a:p-out".toList⟩, none, 1, "j".toList, [], [], false⟩ := by
  constructor <;> decide +kernel

/-! ### Violations -/

/-- **C64 is violated by every document**: reading a topology always fails, as the last statement gives views of dictionaries where lists are required. For
instance the published document of the example, though everything in it can be read. -/
theorem C64_parse_fails : (∀ e : Elem, ∃ x, parseNMLTopology e = .error x) ∧
    ∃ nw e p, createNMLNetwork Ex.ports Ex.net Ex.net = .ok nw ∧ topologyXML nw "2026-01-01T00:00:00Z".toList true = some e ∧ parseParts (wire e) = .ok p ∧
      parseNMLTopology (wire e) = .error .assertion := by
  constructor
  · intro e
    unfold parseNMLTopology
    cases parseParts e with
    | error x => exact ⟨x, rfl⟩
    | ok p => cases hn : p.name <;> exact ⟨.assertion, by simp [Network.init]⟩
  · have hw : ∀ p ∈ Ex.ports, ∀ l, p.label = some l → Writable l := by
      intro p hp l hl
      simp only [Ex.ports, List.mem_cons, List.not_mem_nil, or_false] at hp
      rcases hp with rfl | rfl | rfl
      · simp only [Option.some.injEq] at hl
        subst hl
        exact ⟨⟨"1780-1783".toList, by decide +kernel⟩, Or.inl rfl⟩
      · simp only [Option.some.injEq] at hl
        subst hl
        exact ⟨⟨"1780-1783,1790".toList, by decide +kernel⟩, Or.inl rfl⟩
      · cases hl
    obtain ⟨nw, e, h1, h2, h3⟩ := C64_read_partial Ex.net Ex.net "2026-01-01T00:00:00Z".toList true Ex.ports (by decide +kernel) (by decide +kernel)
      ⟨by decide +kernel, by decide +kernel, by decide +kernel, hw⟩
    exact ⟨nw, e, _, h1, h2, h3, by unfold parseNMLTopology; rw [h3]; rfl⟩

/-- **C64 is violated for labels**: the type of a label that is read is not the type it had, so that it cannot even be compared with a label of a request: intersecting raises
an assertion. -/
theorem C64_label_fails : ∃ l : Label, Writable l ∧ (nmlLabel l).type_ ≠ l.type_ ∧ (nmlLabel l).intersect l = .error .assertion ∧ l.intersect l = .ok l := by
  refine ⟨⟨tVlan, [(1780, 1783)], false⟩, ⟨⟨"1780-1783".toList, by decide +kernel⟩, Or.inl rfl⟩, by decide +kernel, by decide +kernel, by decide +kernel⟩

/-- **C64 is violated for names with a colon**: a file with such a port is accepted, and the service then fails when it makes the topology. -/
theorem C64_colon_fails : ∃ (lines : List Str) (ports : List Nrm.Port), Nrm.parsePortSpec lines = .ok ports ∧ createNMLNetwork ports Ex.net Ex.net = .error .assertion := by
  refine ⟨["ethernet a:b - vlan:1-4 1000 em0 -".toList], [⟨"a:b".toList, none, some ⟨tVlan, [(1, 4)], false⟩, 1000, "em0".toList, [], [], false⟩], by decide +kernel, by decide +kernel⟩

/-- **C64 is violated for ids**: with ports `a` and `a-in` two things in the document have the same id. -/
theorem C64_ids_fails : ∃ (lines : List Str) (ports : List Nrm.Port) (nw : Network), Nrm.parsePortSpec lines = .ok ports ∧ createNMLNetwork ports Ex.net Ex.net = .ok nw ∧
    (ports.map (·.name)).Nodup ∧ ¬ nw.ids.Nodup := by
  refine ⟨["ethernet a - - 1000 em0 -".toList, "ethernet a-in - - 1000 em1 -".toList],
    [⟨"a".toList, none, none, 1000, "em0".toList, [], [], false⟩, ⟨"a-in".toList, none, none, 1000, "em1".toList, [], [], false⟩], _, by decide +kernel,
    C64_network _ _ _ (by decide +kernel) (by decide +kernel), by decide +kernel, by decide +kernel⟩

end OpenNSA.Nml
