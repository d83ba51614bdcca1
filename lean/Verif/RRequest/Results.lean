import Verif.RRequest.Requests

/-!
# What the resistor extractor is given for a net (C29) and what is reported for its output (C63)
-/

namespace Verif.RRequest

open TechInfo (Tech GDSPair Kind ComputedLayer computedByPair canonicalByPair IsLast)
open Shapes (Polygon Pt RegionPb klayoutRegion klayoutPolygon)
open Lvs
open Exc

theorem getD_groupBy {ε κ ν : Type} [DecidableEq κ] (key : ε → κ) (val : ε → ν) (l : List ε) (k : κ) :
    Dict.getD (groupBy key val l) k [] = (l.filter fun e => decide (key e = k)).map val := by
  rw [groupBy_eq, Dict.getD]
  have hk : Dict.keys ((firsts (l.map key)).map fun k => (k, (l.filter fun e => decide (key e = k)).map val)) =
      firsts (l.map key) := by
    unfold Dict.keys
    rw [List.map_map]
    have : (Prod.fst ∘ fun k => (k, (l.filter fun e => decide (key e = k)).map val)) = id := rfl
    rw [this, List.map_id]
  by_cases hm : k ∈ firsts (l.map key)
  · have hn := nodup_firsts (l.map key)
    rw [← hk] at hn
    rw [Dict.get?_of_mem hn (List.mem_map.2 ⟨k, hm, rfl⟩)]; rfl
  · rw [Dict.get?_eq_none.2 (by rw [hk]; exact hm)]
    rw [mem_firsts, List.mem_map] at hm
    symm
    rw [Option.getD_none, List.map_eq_nil_iff, List.filter_eq_nil_iff]
    intro e he h
    exact hm ⟨e, he, by simpa using h⟩

theorem rex_regions (norm : List Pt → List Pt) (q : NetRequest) :
    (rexInput norm q).regions = Dict.ofList (q.regions.map fun r => (r.layer.id, klayoutRegion norm r.region)) := by
  unfold rexInput Dict.ofList
  simp only
  rw [List.foldl_map]

theorem klayoutRegion_eq (norm : List Pt → List Pt) (r : RegionPb) :
    klayoutRegion norm r = r.polygons.map (klayoutPolygon norm) := by
  unfold klayoutRegion
  rw [Shapes.foldl_snoc, List.nil_append]

/-- The polygon that comes out of the message of a polygon in normal form. -/
theorem klayout_message (norm : List Pt → List Pt) (p : Polygon) (hn : norm p.hull = p.hull) :
    klayoutPolygon norm (Message ⟨p.hull, p.holes, none⟩) = ⟨p.hull, [], none⟩ := by
  unfold klayoutPolygon Message
  simp only [List.map_map]
  have : (Shapes.klayoutPoint ∘ fun q : Pt => (⟨q.1, q.2, ""⟩ : Shapes.PointPb)) = id := by funext q; rfl
  rw [this, List.map_id, hn]
  rfl

/-- **C29, end to end.** What the resistor extractor is given for the net `n`: for every layer with requested shapes the
shapes of the net on the layer, each once — also if LVS splits the layer and the request repeats the region; the pins of
the net on a layer as vertex ports; the shapes of its terminals on a layer as polygon ports.  Nothing else.  (Holes of
polygons are lost in the messages, see C46.) -/
theorem extractor_input_exact (t : Tech) (bb : Bool) (db : List DbLayer) (hd : (db.map (·.index)).Nodup) (v : Env)
    (cfg : Config) (skipEmpty : Bool) (ds : List DbDevice) (nets : List String) (hn : nets.Nodup) (q : Request)
    (h : prepareRequest (prepare t bb db) v cfg skipEmpty ds (some nets) = .ok q) (norm : List Pt → List Pt)
    (hnorm : ∀ s, Source t bb db s → ∀ p ∈ s.shapes, norm p.hull = p.hull)
    (hinj : ∀ s s', Source t bb db s → Source t bb db s' → v.layerOf s.pair = v.layerOf s'.pair → s.pair = s'.pair)
    (n : String) (r : NetRequest) (hr : (n, r) ∈ q.nets) :
    ((rexInput norm r).regions.map Prod.fst).Nodup ∧
    (∀ i, i ∈ (rexInput norm r).regions.map Prod.fst ↔
      n ∈ nets ∧ ∃ s, Requested t bb db skipEmpty n s ∧ v.layerOf s.pair = i) ∧
    (∀ i P, (i, P) ∈ (rexInput norm r).regions → ∀ s, Source t bb db s → v.layerOf s.pair = i →
      ∃ S, ShapesOf t bb db s.pair S ∧
        P = (S.filter fun p => p.net = some n).map fun p => ⟨p.hull, [], none⟩) ∧
    (∀ i, (rexInput norm r).vertexPorts.getD i [] =
      (q.pins.filter fun p => p.net = n ∧ p.layer.id = i).map (·.point)) ∧
    (∀ i, (rexInput norm r).polygonPorts.getD i [] =
      (((q.devices.flatMap (·.terminals)).filter fun m => m.net = n).flatMap fun m =>
        (m.regions.filter fun g => g.layer.id = i).flatMap fun g => g.region.polygons.map (klayoutPolygon norm))) := by
  obtain ⟨_, _, _, h4⟩ := request_exact_partial t bb db hd v cfg skipEmpty ds nets hn q h
  obtain ⟨hp, ht, hr0, hr1⟩ := h4 n r hr
  -- facts about the regions
  have hreg : (∀ g ∈ r.regions, n ∈ nets ∧ ∃ s, Requested t bb db skipEmpty n s ∧ RegionFor t bb db v n s g) ∧
      (n ∈ nets → ∀ s, Requested t bb db skipEmpty n s → ∃ g ∈ r.regions, RegionFor t bb db v n s g) := by
    by_cases hx : n ∈ nets
    · obtain ⟨srcs, g1, _, g3⟩ := hr1 hx
      refine ⟨fun g hg => ⟨hx, ?_⟩, fun _ s hs => ?_⟩
      · obtain ⟨i, hi, e⟩ := List.getElem_of_mem hg
        have hl := g3.length_eq
        have := (List.forall₂_iff_get.1 g3).2 i (by omega) hi
        exact ⟨srcs[i]'(by omega), (g1 _).1 (List.getElem_mem _), by simpa [e] using this⟩
      · obtain ⟨i, hi, e⟩ := List.getElem_of_mem ((g1 s).2 hs)
        have hl := g3.length_eq
        have := (List.forall₂_iff_get.1 g3).2 i hi (by omega)
        exact ⟨r.regions[i]'(by omega), List.getElem_mem _, by simpa [e] using this⟩
    · rw [hr0 hx]
      exact ⟨fun g hg => absurd hg (by simp), fun h => absurd h hx⟩
  have hnd : (Dict.keys (rexInput norm r).regions).Nodup := by rw [rex_regions]; exact Dict.nodup_ofList _
  refine ⟨hnd, ?_, ?_, ?_, ?_⟩
  · intro i
    change i ∈ Dict.keys _ ↔ _
    rw [rex_regions, ← not_iff_not, ← Dict.get?_eq_none, TechInfo.ofList_map_none]
    constructor
    · rintro hne ⟨hx, s, hs, e⟩
      obtain ⟨g, hg, c, S, _, _, hl, _⟩ := hreg.2 hx s hs
      exact hne g hg (by rw [hl]; exact e)
    · rintro hne g hg e
      obtain ⟨hx, s, hs, c, S, _, _, hl, _⟩ := hreg.1 g hg
      exact hne ⟨hx, s, hs, by rw [hl] at e; exact e⟩
  · intro i P hP s hs e
    have hg := Dict.get?_of_mem hnd hP
    rw [rex_regions, TechInfo.ofList_map_some] at hg
    obtain ⟨g, hg, rfl⟩ := hg
    obtain ⟨hx, s', hs', c, S, _, hS, hl, hpol⟩ := hreg.1 g hg.mem
    have e' : v.layerOf s'.pair = i := by have := hg.prop; rw [hl] at this; exact this
    have ep : s'.pair = s.pair := hinj s' s hs'.1 hs (e'.trans e.symm)
    rw [ep] at hS
    refine ⟨S, hS, ?_⟩
    rw [klayoutRegion_eq, hpol, List.map_map]
    refine List.map_congr_left fun p hp => ?_
    obtain ⟨s'', h1, _, h3⟩ := (mem_shapesOf t bb db _ S hS p).1 (List.mem_filter.1 hp).1
    exact klayout_message norm p (hnorm s'' h1 p h3)
  · intro i
    unfold rexInput
    simp only
    rw [getD_groupBy, hp, List.filter_filter]
    congr 2; funext p
    rw [Bool.decide_and, Bool.and_comm]
  · intro i
    unfold rexInput
    simp only
    rw [getD_groupBy, ← ht]
    unfold terminalPorts
    generalize r.terminals = ts
    induction ts with
    | nil => rfl
    | cons m ts ih =>
      rw [List.flatMap_cons, List.flatMap_cons, List.filter_append, List.map_append, ih]
      congr 1
      generalize m.regions = gs
      induction gs with
      | nil => rfl
      | cons g gs ihg =>
        rw [List.flatMap_cons, List.filter_append, List.map_append, ihg]
        by_cases e : g.layer.id = i
        · rw [List.filter_cons_of_pos (by simpa using e), List.flatMap_cons]
          congr 1
          rw [List.filter_map, List.map_map, List.filter_eq_self.2]
          · rfl
          · intro p _; simpa using e
        · rw [List.filter_cons_of_neg (by simpa using e)]
          rw [List.filter_map, List.filter_eq_nil_iff.2]
          · rfl
          · intro p _; simpa using e

/-! ### C63 -/

/-- Specification: `ref` is the layer that the technology of the request declares last with this id, conductors first. -/
def Declares (tech : RTech) (id : Nat) (ref : LayerRef) : Prop :=
  IsLast (fun r => r.id = id) (tech.conductors.map (·.layer) ++ tech.vias.map (·.layer)) ref

theorem layerNames_eq (tech : RTech) (i : Nat) (s : String) :
    (layerNames tech).get? i = some s ↔ ∃ ref, Declares tech i ref ∧ ref.canonical = s := by
  have : layerNames tech = Dict.ofList ((tech.conductors.map (·.layer) ++ tech.vias.map (·.layer)).map
      fun r => (r.id, r.canonical)) := by
    unfold layerNames Dict.ofList
    rw [List.foldl_map, List.foldl_append, List.foldl_map, List.foldl_map]
  rw [this, TechInfo.ofList_map_some]; rfl

/-- The node reported for a node of KLayout's network for net `n`: same id and name, the canonical name of its layer; a
node at a port belongs to the net, an inner node has its own name as net. -/
def NodeFor (tech : RTech) (n : String) (k : KNode) (r : ResNode) : Prop :=
  r.id = k.id ∧ r.name = k.name ∧ (∃ ref, Declares tech k.layer ref ∧ r.layer = ref.canonical) ∧
  (k.type = .internal → r.net = k.name) ∧ (k.type ≠ .internal → r.net = n)

/-- The network reported for the net `n` and the output of KLayout for the net. -/
def NetworkFor (tech : RTech) (n : String) (out : List KNode × List KElement) (R : ResNetwork) : Prop :=
  R.net = n ∧ List.Forall₂ (NodeFor tech n) out.1 R.nodes ∧
  R.elements = out.2.map fun e => (e.id, e.a, e.b, e.resistance)

theorem vertexPins_net (norm : List Pt → List Pt) (r : NetRequest) (n : String) (hp : ∀ p ∈ r.pins, p.net = n) (i : Nat)
    (e : String × String) (he : e ∈ (rexInput norm r).vertexPins.getD i []) : e.2 = n := by
  unfold rexInput at he
  simp only at he
  rw [getD_groupBy, List.mem_map] at he
  obtain ⟨p, hp', rfl⟩ := he
  exact hp p (List.mem_filter.1 hp').1

theorem polygonTerminals_net (norm : List Pt → List Pt) (r : NetRequest) (n : String)
    (hp : ∀ p ∈ r.terminals, p.net = n) (i : Nat) (m : Terminal)
    (he : m ∈ (rexInput norm r).polygonTerminals.getD i []) : m.net = n := by
  unfold rexInput at he
  simp only at he
  rw [getD_groupBy, List.mem_map] at he
  obtain ⟨⟨a, b, c⟩, hp', rfl⟩ := he
  have := (List.mem_filter.1 hp').1
  unfold terminalPorts at this
  simp only [List.mem_flatMap, List.mem_map, Prod.mk.injEq] at this
  obtain ⟨m', hm', _, _, _, _, _, _, rfl⟩ := this
  exact hp _ hm'

theorem resNode_ok (tech : RTech) (norm : List Pt → List Pt) (n : String) (r : NetRequest)
    (hp : ∀ p ∈ r.pins, p.net = n) (ht : ∀ m ∈ r.terminals, m.net = n) (k : KNode) (o : ResNode)
    (h : resNode tech (rexInput norm r) k = .ok o) : NodeFor tech n k o := by
  unfold resNode at h
  rw [bind_ok] at h
  obtain ⟨layer, hl, h⟩ := h
  rw [elim_ok, layerNames_eq] at hl
  obtain ⟨ref, hl, rfl⟩ := hl
  rw [bind_ok] at h
  obtain ⟨net, hnet, h⟩ := h
  rw [pure_ok] at h
  subst h
  refine ⟨rfl, rfl, ⟨ref, hl, rfl⟩, ?_, ?_⟩
  · intro e
    unfold nodeNet at hnet
    rw [e] at hnet
    exact (Except.ok.inj hnet).symm
  · intro e
    unfold nodeNet at hnet
    rcases hk : k.type with _ | _ | _
    · exact absurd hk e
    · rw [hk] at hnet
      simp only at hnet
      rw [elim_ok, Option.map_eq_some_iff] at hnet
      obtain ⟨a, ha, rfl⟩ := hnet
      exact vertexPins_net norm r n hp _ _ (List.mem_of_getElem? ha)
    · rw [hk] at hnet
      simp only at hnet
      rw [elim_ok, Option.map_eq_some_iff] at hnet
      obtain ⟨a, ha, rfl⟩ := hnet
      exact polygonTerminals_net norm r n ht _ _ (List.mem_of_getElem? ha)

/-- **C63.** The result has one network per part of the request, in the same order and named after its net, with the
elements of the network and a node for every node; nodes at ports carry the name of the net, inner nodes their own. -/
theorem results_exact (t : Tech) (bb : Bool) (db : List DbLayer) (hd : (db.map (·.index)).Nodup) (v : Env)
    (cfg : Config) (skipEmpty : Bool) (ds : List DbDevice) (nets : List String) (hn : nets.Nodup) (q : Request)
    (h : prepareRequest (prepare t bb db) v cfg skipEmpty ds (some nets) = .ok q) (norm : List Pt → List Pt)
    (rex : RexInput → List KNode × List KElement) (res : List ResNetwork) (hres : extract norm rex q = .ok res) :
    List.Forall₂ (fun e R => NetworkFor q.tech e.1 (rex (rexInput norm e.2)) R) q.nets res := by
  obtain ⟨_, _, _, h4⟩ := request_exact_partial t bb db hd v cfg skipEmpty ds nets hn q h
  unfold extract at hres
  rw [mapM_ok] at hres
  refine (List.forall₂_iff_get.2 ⟨hres.length_eq, fun i hi hj => ?_⟩)
  have hi' := (List.forall₂_iff_get.1 hres).2 i hi hj
  generalize hE : q.nets.get ⟨i, hi⟩ = E at hi'
  generalize res.get ⟨i, hj⟩ = R at hi'
  obtain ⟨n, r⟩ := E
  have hmem : (n, r) ∈ q.nets := by rw [← hE]; exact List.get_mem _ _
  obtain ⟨hp, ht, _⟩ := h4 n r hmem
  unfold resNetwork at hi'
  simp only at hi'
  rw [bind_ok] at hi'
  obtain ⟨nodes, hnodes, hi'⟩ := hi'
  rw [pure_ok] at hi'
  subst hi'
  rw [mapM_ok] at hnodes
  refine ⟨rfl, hnodes.imp fun k o hk => ?_, rfl⟩
  refine resNode_ok q.tech norm n r ?_ ?_ k o hk
  · intro p hp'; rw [hp] at hp'; simpa using (List.mem_filter.1 hp').2
  · intro p hp'; rw [ht] at hp'; simpa using (List.mem_filter.1 hp').2

/-- The extractor keeps to its input: nodes are on declared layers and ports refer to ports of the input. -/
def Contract (tech : RTech) (i : RexInput) (out : List KNode × List KElement) : Prop :=
  ∀ k ∈ out.1, (∃ ref, Declares tech k.layer ref) ∧
    (k.type = .vertexPort → k.port < (i.vertexPorts.getD k.layer []).length) ∧
    (k.type = .polygonPort → k.port < (i.polygonPorts.getD k.layer []).length)

/-- **C63, no lookup fails.** If the extractor keeps to its input, the result is reported without exception. -/
theorem results_succeed (norm : List Pt → List Pt) (rex : RexInput → List KNode × List KElement) (q : Request)
    (hc : ∀ e ∈ q.nets, Contract q.tech (rexInput norm e.2) (rex (rexInput norm e.2))) :
    ∃ res, extract norm rex q = .ok res := by
  have all_ok : ∀ {α β : Type} (f : α → Except String β) (l : List α), (∀ a ∈ l, ∃ b, f a = .ok b) →
      ∃ bs, l.mapM f = .ok bs := by
    intro α β f l
    induction l with
    | nil => intro _; exact ⟨[], rfl⟩
    | cons a l ih =>
      intro h
      obtain ⟨b, hb⟩ := h a List.mem_cons_self
      obtain ⟨bs, hbs⟩ := ih fun a ha => h a (List.mem_cons_of_mem _ ha)
      refine ⟨b :: bs, ?_⟩
      rw [mapM_ok] at hbs ⊢
      exact .cons hb hbs
  unfold extract
  refine all_ok _ _ fun e he => ?_
  obtain ⟨n, r⟩ := e
  have hc' := hc _ he
  obtain ⟨nodes, hnodes⟩ := all_ok (resNode q.tech (rexInput norm r)) (rex (rexInput norm r)).1 (by
    intro k hk
    obtain ⟨⟨ref, h1⟩, h2, h3⟩ := hc' k hk
    have hl := (layerNames_eq q.tech k.layer ref.canonical).2 ⟨ref, h1, rfl⟩
    have hnet : ∃ s, nodeNet (rexInput norm r) k = .ok s := by
      unfold nodeNet
      rcases ht : k.type with _ | _ | _
      · exact ⟨_, rfl⟩
      · have := h2 ht
        have hlen : ((rexInput norm r).vertexPins.getD k.layer []).length =
            ((rexInput norm r).vertexPorts.getD k.layer []).length := by
          unfold rexInput
          simp only
          rw [getD_groupBy, getD_groupBy, List.length_map, List.length_map]
        simp only
        rw [List.getElem?_eq_getElem (by rw [hlen]; exact this)]
        exact ⟨_, rfl⟩
      · have := h3 ht
        have hlen : ((rexInput norm r).polygonTerminals.getD k.layer []).length =
            ((rexInput norm r).polygonPorts.getD k.layer []).length := by
          unfold rexInput
          simp only
          rw [getD_groupBy, getD_groupBy, List.length_map, List.length_map]
        simp only
        rw [List.getElem?_eq_getElem (by rw [hlen]; exact this)]
        exact ⟨_, rfl⟩
    obtain ⟨s, hs⟩ := hnet
    refine ⟨⟨k.id, k.name, s, ref.canonical⟩, ?_⟩
    unfold resNode
    rw [hl, hs]; rfl)
  exact ⟨⟨n, nodes, (rex (rexInput norm r)).2.map fun el => (el.id, el.a, el.b, el.resistance)⟩, by
    unfold resNetwork; simp only; rw [hnodes]; rfl⟩

end Verif.RRequest
