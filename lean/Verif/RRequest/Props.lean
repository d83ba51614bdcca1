import Verif.RRequest.Tech

/-!
# Counterexamples and concrete cases for the R extraction request

The theorems on C29 are in `Requests.lean` and `Results.lean`, on C63 in `Results.lean`, on C62 and C64 in `Tech.lean`.
-/

namespace Verif.RRequest

open TechInfo (Tech GDSPair Kind Purpose ComputedLayer LayerInfo Contact IsLast)
open Shapes (Polygon Pt)
open Lvs

def exCfg : Config := ⟨.tesselation, .squareCounting, 1, 1 / 2, 1 / 10, false⟩

/-! ### C29 -/

/-- **C29, repeated regions.** If LVS splits a layer, the region of a net on the layer is in the request once per LVS
layer: here the two shapes of net `A` on the metal are listed twice. -/
theorem request_shapes_duplicated :
    (∃ q, prepareRequest (prepare exTech true exDb) exEnv exCfg true [exDevice] (some ["A", "B"]) = .ok q ∧
      ((Dict.getD q.nets "A" {}).regions.map fun r => (r.layer.lvsName, r.region.polygons)) =
        [("met1_con", [Message (box 0 0 10 10 none), Message (box 40 0 50 10 none)]),
         ("met1_cap", [Message (box 0 0 10 10 none), Message (box 40 0 50 10 none)])]) ∧
    (exDb.flatMap (·.shapes)).count (box 0 0 10 10 (some "A")) = 1 :=
  ⟨⟨_, rfl, rfl⟩, by decide⟩

/-- The request of the example has the parts `A` and `B`; `A` has pins, two terminals and shapes. -/
example : ∃ q, prepareRequest (prepare exTech true exDb) exEnv exCfg true [exDevice] (some ["A", "B"]) = .ok q ∧
    (q.nets.map fun e => (e.1, e.2.pins.length, e.2.terminals.length, e.2.regions.length)) =
      [("A", 2, 2, 2), ("B", 0, 0, 2)] := ⟨_, rfl, rfl⟩

/-- The extractor gets the shapes of net `A` once. -/
example : ∃ q, prepareRequest (prepare exTech true exDb) exEnv exCfg true [exDevice] (some ["A", "B"]) = .ok q ∧
    (rexInput id (Dict.getD q.nets "A" {})).regions = [(0, [box 0 0 10 10 none, box 40 0 50 10 none])] :=
  ⟨_, rfl, rfl⟩

example : ∀ s, Source exTech true exDb s → ∀ p ∈ s.shapes, id p.hull = p.hull := fun _ _ _ _ => rfl

/-- The layers of the example are told apart by `layerOf`. -/
example : ∀ s s', Source exTech true exDb s → Source exTech true exDb s' →
    exEnv.layerOf s.pair = exEnv.layerOf s'.pair → s.pair = s'.pair := by
  have key : ∀ s, Source exTech true exDb s → s.pair = (68, 20) ∨ s.pair = (68, 16) := by
    intro s hs
    have := ((allSources_spec exTech true exDb (by decide)).1 s).2 hs
    have e : (allSources (prepare exTech true exDb)).map (·.pair) = [(68, 20), (68, 20), (68, 16)] := by decide
    have hm : s.pair ∈ (allSources (prepare exTech true exDb)).map (·.pair) := List.mem_map_of_mem this
    rw [e] at hm
    simpa using hm
  intro s s' hs hs'
  rcases key s hs with e | e <;> rcases key s' hs' with e' | e' <;> rw [e, e'] <;> decide

/-! ### C62 -/

def layer (purpose : Purpose) (name : String) (pair : GDSPair) (original : String) : ComputedLayer :=
  { kind := .regular, info := { purpose := purpose, name := name, drw := pair }, original := original }

/-- An implant, a contact, two metals and a via between them. -/
def stackTech : Tech :=
  { computed := [layer .nImplant "nsd" (65, 20) "nsdm", layer .contact "licon" (66, 44) "licon1",
      layer .metal "met1_con" (68, 20) "met1", layer .via "via_con" (68, 44) "via", layer .metal "met2_con" (69, 20) "met2"]
    stack := [⟨"diff", .diffusion ⟨"licon", "nsd", "met1_con", 2⟩⟩, ⟨"met1", .metal (some ⟨"via_con", "met1_con", "met2_con", 3⟩)⟩,
      ⟨"met2", .metal none⟩]
    parasitics :=
      { layerResistances := [⟨"met1", 125⟩, ⟨"met2", 125⟩], contactResistances := [⟨"licon1", "nsd", 152000⟩]
        viaResistances := [⟨"via", 4500⟩] } }

def stackDb : List DbLayer :=
  [⟨1, "nsd", none, [box 0 0 9 9 (some "A")]⟩, ⟨2, "licon", none, [box 1 1 2 2 (some "A")]⟩,
   ⟨3, "met1_con", none, [box 0 0 9 9 (some "A")]⟩, ⟨4, "via_con", none, [box 4 4 5 5 (some "A")]⟩,
   ⟨5, "met2_con", none, [box 0 0 9 9 (some "A")]⟩]

def stackEnv : Env :=
  { layerOf := fun p => if p = (65, 20) then 0 else if p = (66, 44) then 1 else if p = (68, 20) then 2 else
      if p = (68, 44) then 3 else 4
    texts := fun _ => []
    inside := fun _ _ => true }

/-- The technology of the example: three conductors; the contact between 0 and 2, the via between 2 and 4. -/
theorem tech_example :
    prepareTech (prepare stackTech true stackDb) stackEnv exCfg = .ok
      { skipSimplify := false
        conductors := [⟨⟨0, "nsdm", "nsd"⟩, .tesselation, 1, 1 / 2, 0⟩,
          ⟨⟨2, "met1", "met1_con"⟩, .squareCounting, 1, 1 / 2, 1 / 8⟩,
          ⟨⟨4, "met2", "met2_con"⟩, .squareCounting, 1, 1 / 2, 1 / 8⟩]
        vias := [⟨⟨1, "licon1", "licon"⟩, 0, 2, 608, 1 / 10⟩, ⟨⟨3, "via", "via_con"⟩, 2, 4, 81 / 2, 1 / 10⟩] } := by
  decide +kernel

example : FindsLayer (prepare stackTech true stackDb) stackEnv := by unfold FindsLayer; decide

/-- **C62 fails for a via without contact in the process stack**: instead of being ignored, it leaves an entry that
connects layer 0 with layer 0 through layer 0 without resistance. -/
theorem empty_via_entry :
    ∃ T, prepareTech (prepare { stackTech with stack := [] } true stackDb) stackEnv exCfg = .ok T ∧
      T.vias = [⟨⟨0, "", ""⟩, 0, 0, 0, 0⟩] := ⟨_, rfl, rfl⟩

/-! ### C63 -/

/-- An extractor that reports a node per pin and an inner node. -/
def exRex (i : RexInput) : List KNode × List KElement :=
  ((i.vertexPorts.flatMap fun e => e.2.zipIdx.map fun p => (⟨p.2, "P", e.1, .vertexPort, p.2⟩ : KNode)) ++
    (i.polygonPorts.flatMap fun e => e.2.zipIdx.map fun p => (⟨10 + p.2, "T", e.1, .polygonPort, p.2⟩ : KNode)) ++
    [⟨7, "$7", 2, .internal, 0⟩], [⟨1, 0, 7, 1 / 3⟩])

def stackNet : Net := ⟨"A", [⟨"M1", 0, [(1, [box 0 0 1 1 none])]⟩]⟩

def stackDevice : DbDevice :=
  { id := 1, name := "M1", className := "nfet", abstractName := "D$nfet", params := []
    terminals := [(0, "S")], netFor := fun _ => some stackNet }

/-- The port node of net `A` carries the name of the net, the inner node its own. -/
theorem results_example :
    ∃ q res, prepareRequest (prepare stackTech true stackDb) stackEnv exCfg true [stackDevice] (some ["A"]) = .ok q ∧
      extract id exRex q = .ok res ∧
      (res.map fun R => (R.net, R.nodes)) = [("A", [⟨10, "T", "A", "nsdm"⟩, ⟨7, "$7", "$7", "met1"⟩])] :=
  ⟨_, _, rfl, rfl, by decide +kernel⟩

/-! ### C64 -/

/-- The metal of the example of `Lvs`, split by LVS, as a metal: the hypotheses of `terminal_ports_undeclared` are met. -/
def splitTech : Tech :=
  { computed := [layer .metal "met1_con" (68, 20) "met1", layer .metal "met1_cap" (68, 20) "met1"]
    parasitics := { layerResistances := [⟨"met1", 125⟩] } }

def splitDb : List DbLayer :=
  [⟨3, "met1_con", none, [box 0 0 10 10 (some "A")]⟩, ⟨6, "met1_cap", none, [box 40 0 50 10 (some "A")]⟩]

def splitEnv : Env := { layerOf := fun _ => 0, texts := fun _ => [], inside := fun _ _ => true }

example : FindsLayer (prepare splitTech true splitDb) splitEnv ∧
    (∃ T, prepareTech (prepare splitTech true splitDb) splitEnv exCfg = .ok T ∧ T.conductors.map (·.layer.id) = [0, 0]) ∧
    (∃ r, terminalRegion (prepare splitTech true splitDb) (3, []) = .ok r ∧ r.layer.id = 0) ∧
    (∃ r, terminalRegion (prepare splitTech true splitDb) (6, []) = .ok r ∧ r.layer.id = 1) :=
  ⟨by unfold FindsLayer; decide, ⟨_, rfl, rfl⟩, ⟨_, rfl, rfl⟩, ⟨_, rfl, rfl⟩⟩

example : MapsTo splitTech true splitDb[0] (68, 20) ∧ MapsTo splitTech true splitDb[1] (68, 20) := by
  refine ⟨.inl ⟨_, ⟨[], [_], rfl, rfl, by decide⟩, ?_, rfl⟩, .inl ⟨_, ⟨[_], [], rfl, rfl, by simp⟩, ?_, rfl⟩⟩ <;>
    (unfold LeftOut; decide)

/-- The hypotheses of `terminal_ports_declared_partial` are met by the contacted implant of the other example. -/
example : Source stackTech true stackDb ⟨0, "nsd", (65, 20), [box 0 0 9 9 (some "A")]⟩ ∧
    IsConductor stackTech ⟨0, "nsd", (65, 20), [box 0 0 9 9 (some "A")]⟩ ∧
    (∀ l' ∈ stackDb, MapsTo stackTech true l' (65, 20) → l' = stackDb[0]) := by
  refine ⟨?_, ?_, ?_⟩
  · have := (allSources_spec stackTech true stackDb (by decide)).1 ⟨0, "nsd", (65, 20), [box 0 0 9 9 (some "A")]⟩
    exact this.1 (by decide)
  · exact (condB_iff _ _).1 (by decide)
  · intro l' hl' hm
    rw [← pairFor_iff] at hm
    simp only [stackDb, List.mem_cons, List.not_mem_nil, or_false] at hl'
    rcases hl' with rfl | rfl | rfl | rfl | rfl
    · rfl
    all_goals exact absurd hm (by decide)

end Verif.RRequest
