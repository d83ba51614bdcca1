import Mathlib.Data.Finset.Image
import Mathlib.Data.Rat.Floor
import Mathlib.Data.List.Sort
import Verif.Common.PyDict

/-!
# Model of `klayout_pex/fastercap/fastercap_model_generator.py`: the 3D sweep

The builder collects layers (a region of the plane and a height interval) for nets and dielectric materials. The
generator sweeps over all heights, keeps for every net/material the region it occupies, and emits the horizontal and
vertical surfaces between different materials.

Simplifications (all definitions below):
* A KLayout region is a finite set of cells (type `P`): the cells of the arrangement of all polygon edges of the input,
  so that every region that occurs is a union of cells. `+=`/`+` is union, `&` intersection, `-` difference
  (KLayout's boolean operations use merged semantics, overlaps inside a region do not count twice).
* Heights are rationals instead of floats.
* Region edges are pairs of neighbouring cells `(inside, outside)`, see `edges`.
* The triangulation of a surface (`delaunay`) is not modelled: an emitted surface is the region itself.
* The keys `"+net"` and `"-material"` of the generator's dictionaries are the two constructors of `Mk`; dictionaries from
  these keys to regions are functions with the default the code uses for a missing key.
-/

namespace Verif.Sweep

/-- Key of the generator's dictionaries: `f"+{nn}"` (net) or `f"-{mn}"` (dielectric material);
fastercap_model_generator.py 194, 200, 411. -/
inductive Mk where
  | net (name : String)
  | mat (name : String)
deriving DecidableEq, Repr

variable {P : Type} [DecidableEq P]

/-- `Dict[str, List[Tuple[kdb.Region, float, float]]]`: layers with their normalised start and stop heights;
fastercap_model_generator.py 116–118. -/
abbrev Layers (P : Type) := Dict String (List (Finset P × Int × Int))

/-- `FasterCapModelBuilder`; fastercap_model_generator.py 83–122 (Delaunay parameters left out). -/
structure Builder (P : Type) where
  dbu : ℚ
  materials : Dict String ℚ := []
  clayers : Layers P := []
  dlayers : Layers P := []

/-- `_norm2z`; fastercap_model_generator.py 145–146. -/
def norm2z (dbu : ℚ) (z : ℚ) : ℚ := z * dbu

/-- `_z2norm`; fastercap_model_generator.py 148–149. -/
def z2norm (dbu : ℚ) (z : ℚ) : Int := ⌊z / dbu + 1 / 1000000⌋

/-- `add_material`; fastercap_model_generator.py 124–125. -/
def Builder.addMaterial (b : Builder P) (name : String) (k : ℚ) : Builder P :=
  { b with materials := b.materials.set name k }

/-- `add_dielectric`, `_add_layer` with `is_dielectric`; fastercap_model_generator.py 127–134, 151–166. -/
def Builder.addDielectric (b : Builder P) (name : String) (layer : Finset P) (z height : ℚ) :
    Except String (Builder P) :=
  if b.materials.has name = false then .error s!"Unknown material {name} - did you use 'add_material'?"
  else
    let zstart := z
    let zstop := zstart + height
    .ok { b with dlayers := b.dlayers.upd name [] (· ++ [(layer, z2norm b.dbu zstart, z2norm b.dbu zstop)]) }

/-- `add_conductor`, `_add_layer` without `is_dielectric`; fastercap_model_generator.py 136–143, 151–170. -/
def Builder.addConductor (b : Builder P) (name : String) (layer : Finset P) (z height : ℚ) : Builder P :=
  let zstart := z
  let zstop := zstart + height
  { b with clayers := b.clayers.upd name [] (· ++ [(layer, z2norm b.dbu zstart, z2norm b.dbu zstop)]) }

/-- One call of the builder's interface. -/
inductive Call (P : Type) where
  | material (name : String) (k : ℚ)
  | dielectric (name : String) (layer : Finset P) (z height : ℚ)
  | conductor (net : String) (layer : Finset P) (z height : ℚ)

/-- Effect of one interface call; fastercap_model_generator.py 124–143. -/
def Builder.call (b : Builder P) : Call P → Except String (Builder P)
  | .material n k => .ok (b.addMaterial n k)
  | .dielectric n l z h => b.addDielectric n l z h
  | .conductor n l z h => .ok (b.addConductor n l z h)

/-- A sequence of interface calls on a new builder; the first exception ends it. -/
def build (dbu : ℚ) (calls : List (Call P)) : Except String (Builder P) :=
  calls.foldlM Builder.call { dbu := dbu }

/-- Kinds of horizontal surfaces: `HDielKey(below, above)` from `generate_hdiel`, `HCondKey(net, below)` from
`generate_hcond_in` (normal facing down) and `HCondKey(net, above)` from `generate_hcond_out` (normal facing up);
fastercap_model_generator.py 210–236, 584–600, 634–672. `none` is the void. -/
inductive Face where
  | diel (below above : Option String)
  | bottom (net : String) (below : Option String)
  | top (net : String) (above : Option String)
deriving DecidableEq, Repr

/-- Kinds of vertical surfaces: `HDielKey(outside, inside)` from `generate_vdiel` and `HCondKey(net, outside)` from
`generate_vcond`; fastercap_model_generator.py 621–632, 674–685. -/
inductive WallKey where
  | diel (outside inside : Option String)
  | cond (net : String) (outside : Option String)
deriving DecidableEq, Repr

/-- An emitted horizontal surface: kind, height `self.z` and region. -/
structure HFace (P : Type) where
  key : Face
  z : ℚ
  region : Finset P
deriving DecidableEq

/-- Emitted vertical surfaces of one kind: the edges, each a pair (inside cell, outside cell), and the normalised
bottom and top heights of the inserted box. -/
structure Wall (P : Type) where
  key : WallKey
  edges : Finset (P × P)
  zlo : Int
  zhi : Int
deriving DecidableEq

/-- `FasterCapModelGenerator`; fastercap_model_generator.py 327–374. `horiz`/`walls` record the `generate_*` calls in
order, `overlapErrors` counts the "there is an overlap" error messages of `finish_z`. -/
structure Gen (P : Type) where
  dbu : ℚ
  nets : List String
  mats : List String
  z : Option ℚ := none
  layersIn : Mk → Finset P := fun _ => ∅
  layersOut : Mk → Finset P := fun _ => ∅
  state : Mk → Finset P := fun _ => ∅
  current : Mk → List (Finset P) := fun _ => []
  horiz : List (HFace P) := []
  walls : List (Wall P) := []
  overlapErrors : Nat := 0

/-- `add_in`; fastercap_model_generator.py 380–387. -/
def Gen.addIn (g : Gen P) (mk : Mk) (layer : Finset P) : Gen P :=
  { g with layersIn := Function.update g.layersIn mk (g.layersIn mk ∪ layer) }

/-- `add_out`; fastercap_model_generator.py 389–396. -/
def Gen.addOut (g : Gen P) (mk : Mk) (layer : Finset P) : Gen P :=
  { g with layersOut := Function.update g.layersOut mk (g.layersOut mk ∪ layer) }

/-! ### `_merge_events` -/

/-- Body of the first loop of `_merge_events`; fastercap_model_generator.py 1004–1012. -/
def addStep (s : List (Finset P) × Finset P) (i : Nat) : List (Finset P) × Finset P :=
  let pyra := s.1
  let lin := s.2
  let ii := pyra.length - i
  let added := lin ∩ pyra.getD (ii - 1) ∅
  if added = ∅ then s
  else
    let pyra := if ii ≥ pyra.length then pyra ++ [∅] else pyra
    (pyra.modify ii (· ∪ added), lin \ added)

/-- Body of the second loop of `_merge_events`; fastercap_model_generator.py 1018–1023. -/
def removeStep (s : List (Finset P) × Finset P) (i : Nat) : List (Finset P) × Finset P :=
  let pyra := s.1
  let lout := s.2
  let ii := pyra.length - i
  let removed := lout ∩ pyra.getD (ii - 1) ∅
  if removed = ∅ then s
  else (pyra.modify (ii - 1) (· \ removed), lout \ removed)

/-- `_merge_events`: returns `lin`, `lout` and the updated `pyra`; fastercap_model_generator.py 996–1028. -/
def mergeEvents (pyra : List (Finset P)) (lin lout : Finset P) : Finset P × Finset P × List (Finset P) :=
  let past := pyra.headD ∅
  let s := (List.range pyra.length).foldl addStep (pyra, lin)
  let pyra := if s.1.length = 0 then s.1 ++ [∅] else s.1
  let pyra := pyra.modify 0 (· ∪ s.2)
  let s := (List.range pyra.length).foldl removeStep (pyra, lout)
  let now := s.1.headD ∅
  (now \ past, past \ now, s.1)

/-! ### `finish_z` -/

/-- Local variables of the first loop of `finish_z`; fastercap_model_generator.py 401–407. -/
structure Acc (P : Type) where
  current : Mk → List (Finset P)
  state : Mk → Finset P
  din : Mk → Finset P := fun _ => ∅
  dout : Mk → Finset P := fun _ => ∅
  allIn : Finset P := ∅
  allOut : Finset P := ∅
  all : Finset P := ∅

/-- Body of the first loop of `finish_z` for one net or material; fastercap_model_generator.py 411–452. -/
def legalize (layersIn layersOut : Mk → Finset P) (a : Acc P) (mk : Mk) : Acc P :=
  let currentBefore := (a.current mk).headD ∅
  let m := mergeEvents (a.current mk) (layersIn mk) (layersOut mk)
  let lin := m.1
  let lout := m.2.1
  let current := m.2.2.headD ∅
  let linOrg := lin
  let loutOrg := lout
  let lout := lout ∩ a.state mk
  let lin := lin \ a.all
  let lout := lout ∪ (current ∩ a.allIn)
  let lin := lin ∪ (currentBefore ∩ a.allOut)
  let lin := lin \ loutOrg
  let lout := lout \ linOrg
  let st := (a.state mk ∪ lin) \ lout
  { current := Function.update a.current mk m.2.2
    state := Function.update a.state mk st
    din := Function.update a.din mk lin
    dout := Function.update a.dout mk lout
    allIn := a.allIn ∪ lin
    allOut := a.allOut ∪ lout
    all := a.all ∪ st }

/-- The check "whether states are separated": number of error messages; fastercap_model_generator.py 461–468.
The states are visited in the order of insertion, which is the order of the first loop. -/
def overlapCheck (state : Mk → Finset P) : List Mk → Finset P → Nat
  | [], _ => 0
  | k :: ks, a => (if state k \ a = ∅ then 0 else 1) + overlapCheck state ks (a \ state k)

/-- The loop that splits a region by the regions of the materials in order and calls `generate_*` for every non-empty
part, with the remaining part going to the void; fastercap_model_generator.py 476–484, 502–510, 517–525. -/
def peel (r : Finset P) (other : String → Finset P) : List String → List (Option String × Finset P)
  | [] => if r = ∅ then [] else [(none, r)]
  | m :: ms =>
    (if other m ∩ r = ∅ then [] else [(some m, other m ∩ r)]) ++ peel (r \ other m) other ms

/-- `lout -= lin` for all materials; fastercap_model_generator.py 491–494. -/
def subtractAll (r : Finset P) (other : String → Finset P) (ms : List String) : Finset P :=
  ms.foldl (fun r m => r \ other m) r

/-- The four emission loops of `finish_z`; fastercap_model_generator.py 470–525. -/
def emitFaces (nets mats : List String) (din dout : Mk → Finset P) (allCin allCout : Finset P) :
    List (Face × Finset P) :=
  mats.flatMap (fun mni =>
      (peel (din (.mat mni) \ allCout) (fun m => dout (.mat m)) mats).map (fun x => (Face.diel x.1 (some mni), x.2)))
    ++ mats.flatMap (fun mno =>
      let lout := subtractAll (dout (.mat mno) \ allCin) (fun m => din (.mat m)) mats
      if lout = ∅ then [] else [(Face.diel (some mno) none, lout)])
    ++ nets.flatMap (fun nn =>
      (peel (din (.net nn)) (fun m => dout (.mat m)) mats).map (fun x => (Face.bottom nn x.1, x.2)))
    ++ nets.flatMap (fun nn =>
      (peel (dout (.net nn) \ allCin) (fun m => din (.mat m)) mats).map (fun x => (Face.top nn x.1, x.2)))

/-- `finish_z`; fastercap_model_generator.py 398–525. -/
def Gen.finishZ (g : Gen P) : Gen P :=
  let a0 : Acc P := { current := g.current, state := g.state }
  let a1 := (g.nets.map Mk.net).foldl (legalize g.layersIn g.layersOut) a0
  let allCin := a1.allIn
  let allCout := a1.allOut
  let a2 := (g.mats.map Mk.mat).foldl (legalize g.layersIn g.layersOut) a1
  let keys := g.nets.map Mk.net ++ g.mats.map Mk.mat
  let errs := overlapCheck a2.state keys (keys.foldl (fun r k => r ∪ a2.state k) ∅)
  { g with
    current := a2.current
    state := a2.state
    overlapErrors := g.overlapErrors + errs
    horiz := g.horiz ++
      (emitFaces g.nets g.mats a2.din a2.dout allCin allCout).map (fun f => ⟨f.1, g.z.getD 0, f.2⟩) }

/-! ### `next_z` -/

/-- `Region.edges()`: the boundary of a region, every edge as the pair (cell inside, cell outside). `adj` lists the
pairs of cells with a common edge. -/
def edges (adj : Finset (P × P)) (r : Finset P) : Finset (P × P) := adj.filter (fun e => e.1 ∈ r ∧ e.2 ∉ r)

/-- `Edges & Edges`: parts of the first collection coincident with the second (in either direction). -/
def eAnd (x y : Finset (P × P)) : Finset (P × P) := x.filter (fun e => e ∈ y ∨ e.swap ∈ y)

/-- `Edges - Edges`: parts of the first collection not coincident with the second (in either direction). -/
def eSub (x y : Finset (P × P)) : Finset (P × P) := x.filter (fun e => ¬ (e ∈ y ∨ e.swap ∈ y))

/-- Loop over the outside materials for one inside material; fastercap_model_generator.py 550–563. -/
def dielWalls (adj : Finset (P × P)) (state : Mk → Finset P) (mni : String) (i : Nat) :
    List (String × Nat) → Finset (P × P) → List (WallKey × Finset (P × P))
  | [], linside => [(.diel none (some mni), linside)]
  | (mno, o) :: ms, linside =>
    if i = o then dielWalls adj state mni i ms linside
    else
      let loutside := edges adj (state (.mat mno))
      (if o > i then [(WallKey.diel (some mno) (some mni), (eAnd loutside linside).image Prod.swap)] else []) ++
        dielWalls adj state mni i ms (eSub linside loutside)

/-- Loop over the outside materials for one net; fastercap_model_generator.py 570–580. -/
def condWalls (adj : Finset (P × P)) (state : Mk → Finset P) (nn : String) :
    List String → Finset (P × P) → List (WallKey × Finset (P × P))
  | [], linside => [(.cond nn none, linside)]
  | mno :: ms, linside =>
    let loutside := edges adj (state (.mat mno))
    (WallKey.cond nn (some mno), (eAnd loutside linside).image Prod.swap) ::
      condWalls adj state nn ms (eSub linside loutside)

/-- All `generate_vdiel`/`generate_vcond` calls of one `next_z`; fastercap_model_generator.py 538–580. -/
def emitWalls (adj : Finset (P × P)) (nets mats : List String) (state : Mk → Finset P) :
    List (WallKey × Finset (P × P)) :=
  let allCond := edges adj (nets.foldl (fun r n => r ∪ state (.net n)) ∅)
  mats.zipIdx.flatMap (fun mi =>
      dielWalls adj state mi.1 mi.2 mats.zipIdx (eSub (edges adj (state (.mat mi.1))) allCond))
    ++ nets.flatMap (fun nn => condWalls adj state nn mats (edges adj (state (.net nn))))

/-- `next_z` (with `generate_v_surface` for the heights of the box); fastercap_model_generator.py 376–378, 527–582,
602–619. -/
def Gen.nextZ (adj : Finset (P × P)) (g : Gen P) (z : ℚ) : Gen P :=
  let g := { g with layersIn := fun _ => ∅, layersOut := fun _ => ∅ }
  match g.z with
  | none => { g with z := some z }
  | some z0 =>
    { g with
      walls := g.walls ++ (emitWalls adj g.nets g.mats g.state).map
        (fun w => ⟨w.1, w.2, ⌊z0 / g.dbu + 1 / 2⌋, ⌊z / g.dbu + 1 / 2⌋⟩)
      z := some z }

/-! ### `generate` -/

/-- Heights of all layers; fastercap_model_generator.py 173–178 (`sorted([*{*z}])`). -/
def Builder.heights (b : Builder P) : List Int :=
  let zs (ll : Layers P) := ll.flatMap (fun kv => kv.2.flatMap (fun l => [l.2.1, l.2.2]))
  ((zs b.dlayers ++ zs b.clayers).dedup).insertionSort (· ≤ ·)

/-- Body of the innermost loops of `generate`; fastercap_model_generator.py 192–196, 198–202. -/
def addLayer (zcurr : Int) (mk : Mk) (g : Gen P) (l : Finset P × Int × Int) : Gen P :=
  let g := if l.2.1 ≤ zcurr ∧ zcurr < l.2.2 then g.addIn mk l.1 else g
  if l.2.1 < zcurr ∧ zcurr ≤ l.2.2 then g.addOut mk l.1 else g

/-- The two loops over the layers; fastercap_model_generator.py 191–202. -/
def Builder.addLayers (b : Builder P) (zcurr : Int) (g : Gen P) : Gen P :=
  let g := b.clayers.foldl (fun g kv => kv.2.foldl (addLayer zcurr (.net kv.1)) g) g
  b.dlayers.foldl (fun g kv => kv.2.foldl (addLayer zcurr (.mat kv.1)) g) g

/-- Body of the loop over the heights; fastercap_model_generator.py 188–204. -/
def Builder.plane (adj : Finset (P × P)) (b : Builder P) (g : Gen P) (zcurr : Int) : Gen P :=
  (b.addLayers zcurr (g.nextZ adj (norm2z b.dbu zcurr))).finishZ

/-- `generate` without the final `finalize()` (area `Finalize`); fastercap_model_generator.py 172–207. -/
def Builder.generate (adj : Finset (P × P)) (b : Builder P) : Option (Gen P) :=
  let z := b.heights
  if z.length = 0 then none
  else
    let gen : Gen P := { dbu := b.dbu, nets := b.clayers.keys, mats := b.materials.keys }
    some (z.foldl (b.plane adj) gen)

end Verif.Sweep
