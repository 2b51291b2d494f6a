import Verif.Setup.PropsFails
import Verif.Nml.PropsFormat
import Verif.Discovery.PropsFormat
/-
C96: the form of the documents that a service has at any time.
-/
namespace OpenNSA.Nml

theorem createAll_colon {net : Str} {ports : List Nrm.Port} {r : List Port × List Port × List Bidi} (h : createAll net ports = .ok r) :
    ∀ p ∈ ports, ':' ∉ p.name := by
  induction ports generalizing r with
  | nil => simp
  | cons p ps ih =>
    simp only [createAll] at h
    split at h
    · cases h
    rename_i i o b hc
    split at h
    · cases h
    rename_i is os bs ha
    intro q hq
    rcases List.mem_cons.1 hq with rfl | hq
    · unfold createPorts at hc
      split at hc
      · cases hc
      · rename_i i' hi
        unfold Port.init at hi
        split at hi
        · cases hi
        · split at hi
          · cases hi
          · rename_i hn
            simp only [List.mem_append, not_or] at hn
            exact hn.1
    · exact ih ha q hq

theorem create_conv {net readable : Str} {ports : List Nrm.Port} {nw : Network} (h : createNMLNetwork ports net readable = .ok nw) :
    (∀ p ∈ ports, ':' ∉ p.name) ∧ urnStart.isPrefixOf net = false := by
  unfold createNMLNetwork at h
  split at h
  · cases h
  rename_i i o b hc
  refine ⟨createAll_colon hc, ?_⟩
  simp only [Network.init] at h
  split at h
  · cases h
  · rename_i hn
    exact Bool.eq_false_iff.2 hn

theorem netOk_of {d b : Str} (h : urnStart.isPrefixOf (d ++ ':' :: b) = false) : NetOk (d ++ ':' :: b) := by
  unfold NetOk
  rw [prefix_colon] at h
  rw [List.append_assoc, List.cons_append, prefix_colon]
  exact h

end OpenNSA.Nml

namespace OpenNSA.Setup
open Py OpenNSA.Registry OpenNSA.Discovery OpenNSA.Wire

/-! ### URNs of the agents -/

/-- All agents are known by URNs of the OGF. -/
def Urns {π : Type} (r : Reg π) : Prop := ∀ x ∈ r.urns, Discovery.Format.Urn x.2

theorem Urns.add {π : Type} {r r' : Reg π} {urn network : Str} {p : π} (h : Urns r) (hu : Discovery.Format.Urn urn) (ha : r.addProvider urn network p = .ok r') : Urns r' := by
  unfold Reg.addProvider at ha
  split at ha
  · cases ha
  · cases ha
    intro x hx
    rcases mem_dset_of hx with rfl | hx
    · exact hu
    · exact h x hx

theorem Urns.spawn {π : Type} {r r' : Reg π} {agent : Agent} {network : Str} {made : Option π} {p : Option π} (h : Urns r) (hu : Discovery.Format.Urn agent.urn)
    (hs : r.spawnProvider agent network made = .ok (r', p)) : Urns r' := by
  unfold Reg.spawnProvider at hs
  repeat' split at hs
  all_goals first
    | (cases hs; done)
    | (cases hs; exact h)
    | (rename_i ha; cases hs; exact h.add hu ha)

theorem Urns.nets {env : Env β} {st : State β} {agent : Agent} {url : Str} (hu : Discovery.Format.Urn agent.urn) (nets : List Str) :
    ∀ (t : Tree) (r : Reg (Prov β)), Urns r → Urns (spawnNets env st agent url nets t r).2.1 := by
  induction nets with
  | nil => intro t r h; exact h
  | cons n ns ih =>
    intro t r h
    simp only [spawnNets]
    split
    · exact h
    · rename_i r' p hs
      exact ih _ _ (h.spawn hu hs)

/-- What is kept: agents under URNs, and a document of the right form. -/
structure Formed (env : Env β) (vc : Config.Vc) (st : State β) : Prop where
  urns : Urns st.reg
  about : st.about = about env vc
  tag : st.discovery.tag = "{http://schemas.ogf.org/nsi/2014/02/discovery/nsa}nsa"
  doc : Discovery.Format.Nsa st.discovery

theorem Formed.publish {env : Env β} {vc : Config.Vc} {st : State β} {start : Int} (hn : env.now = createXMLTime start) (h : Formed env vc st) : Formed env vc st.publish := by
  unfold State.publish
  split
  · exact h
  · rename_i x hx
    have := C96_discovery st.about start (by rw [h.about]; exact hn) st.reg.urns st.lv h.urns x hx
    exact ⟨h.urns, h.about, this.1, this.2⟩

theorem Formed.learn {env : Env β} {vc : Config.Vc} {st : State β} {start : Int} (hn : env.now = createXMLTime start) (h : Formed env vc st) (d : Doc) :
    Formed env vc (learn env st d) := by
  unfold Setup.learn
  split
  · exact h
  split
  · exact h
  split
  · exact h
  split
  · exact h
  split
  · exact h
  rename_i url _ _ nets _ _ ident _
  split
  rename_i t r ok hsp
  have hr : Urns r := by
    have := Urns.nets (env := env) (st := st) (agent := ⟨urnPrefix ++ ident, cs2ServiceType⟩) (url := strip url) ⟨ident, rfl⟩ nets st.tree st.reg h.urns
    rw [hsp] at this
    exact this
  split
  · exact ⟨hr, h.about, h.tag, h.doc⟩
  split
  · exact ⟨hr, h.about, h.tag, h.doc⟩
  split
  · exact ⟨hr, h.about, h.tag, h.doc⟩
  · exact Formed.publish hn ⟨hr, h.about, h.tag, h.doc⟩

/-- **C96, at any time.** A service that has started, whatever documents of peers (of any content) it got since, has a discovery document of the form of the discovery schema and, for each of its networks,
a topology of the form of NML in which everything that is named is there. -/
theorem C96_served {env : Env β} {vc : Config.Vc} {ds : List Doc} {st : State β} (h : Started env vc ds st) (start : Int) (hn : env.now = createXMLTime start) :
    (st.discovery.tag = "{http://schemas.ogf.org/nsi/2014/02/discovery/nsa}nsa" ∧ Discovery.Format.Nsa st.discovery) ∧
    ∀ b ∈ vc.backends, ∃ x swap, dget st.docs (vc.domain ++ ':' :: b.1) = some x ∧
      x.tag = "{http://schemas.ogf.org/nml/2013/05/base#}Topology" ∧ x.get "id" = some ("urn:ogf:network:".toList ++ (vc.domain ++ ':' :: b.1)) ∧
      Nml.Format.Topology swap x ∧ Nml.Format.Closed x := by
  refine ⟨?_, ?_⟩
  · obtain ⟨st0, h0, rfl⟩ := h
    have h1 : Formed env vc st0 := by
      obtain ⟨_, _, _, _, _, rs, docs, x, _, _, hx, rfl⟩ := (start_ok env vc st0).1 h0
      have hu : Urns (regOf vc.domain rs) := by
        intro x hx
        obtain ⟨r, _, rfl⟩ := List.mem_map.1 hx
        exact ⟨_, rfl⟩
      have := C96_discovery (Setup.about env vc) start hn _ _ hu x hx
      exact ⟨hu, rfl, this.1, this.2⟩
    clear h0
    induction ds generalizing st0 with
    | nil => exact ⟨h1.tag, h1.doc⟩
    | cons d ds ih => exact ih _ (h1.learn hn d)
  · intro b hb
    obtain ⟨file, lines, ports, back, nt, x, _, _, hp, _, hc, hx, hd⟩ := (C79_documents h).2 b hb
    obtain ⟨hcol, hpre⟩ := Nml.create_conv hc
    have hok := Nml.netOk_of hpre
    obtain ⟨nw, e, h1, h2, h3, h4⟩ := Nml.C96_topology lines ports hp hcol _ (vc.domain ++ ':' :: b.1) hok start (env.canSwap back)
    obtain ⟨nw', e', h1', h2', h3'⟩ := Nml.C96_references lines ports hp hcol _ (vc.domain ++ ':' :: b.1) env.now hok (env.canSwap back)
    rw [hc] at h1 h1'
    cases h1
    cases h1'
    rw [hn] at hx h2'
    rw [hx] at h2 h2'
    cases h2
    cases h2'
    refine ⟨x, env.canSwap back, hd, h3, ?_, h4, h3'⟩
    rw [Nml.C64_network _ _ _ hok hcol] at hc
    cases hc
    unfold Nml.topologyXML at hx
    split at hx
    · cases hx; rfl
    · cases hx

/-- The hypotheses of `C96_served` are met: the service of the example, with a time of start. -/
example : ∃ st, start { Ex.env with now := createXMLTime 1767225600000000 } (Ex.vc Ex.topology none) = .ok st := by
  have : (start { Ex.env with now := createXMLTime 1767225600000000 } (Ex.vc Ex.topology none)).toBool = true := by decide +kernel
  cases h : start { Ex.env with now := createXMLTime 1767225600000000 } (Ex.vc Ex.topology none) with
  | ok st => exact ⟨st, rfl⟩
  | error e => rw [h] at this; cases this

end OpenNSA.Setup
