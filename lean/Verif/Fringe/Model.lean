import Verif.TechInfo.Model
import Verif.Summary.Model
import Verif.Overlap.Model
import Verif.Common.Firsts
import Mathlib.Analysis.SpecialFunctions.Trigonometric.Arctan

/-!
# Model of `klayout_pex/rcx25/c/sidewall_and_fringe_extractor.py` and `polygon_utils.py`

KLayout turns every edge of a layer onto the positive x axis, cuts it into intervals and reports the polygons in front of
each interval (`din = -1`, `dout = halo + 1`).  These neighbourhoods are inputs here, in the coordinates of the turned
edge.  A polygon is the finite set of the unit cells it covers, as in `Verif.Overlap`; the result of a boolean operation
is taken apart into polygons by KLayout, in an order that is not specified (`Kernel`).  Floats are rationals, and reals
where the arc tangent occurs.  Reporter and log are left out.  An exception ends the whole run.
-/

namespace Verif.Fringe

open TechInfo (Parasitics OverlapSpec SideOverlapSpec SidewallSpec substrateName)
open Summary (SidewallKey SidewallCap SideOverlapKey)
open Overlap (Cell Poly)

/-- `EdgeNeighborhood`, rcx25/types.py: edge intervals with the polygons in front of them per child index. -/
abbrev Neighborhood := List ((ℚ × ℚ) × Dict Nat (List Poly))

/-- `bbox().p1.y` of the polygon that covers the cells `s` (a polygon is never empty). -/
def yLow (s : Finset Cell) : ℤ := if h : (s.image Prod.snd).Nonempty then (s.image Prod.snd).min' h else 0

/-- `bbox().p2.y`: the upper border of the topmost cells. -/
def yHigh (s : Finset Cell) : ℤ := if h : (s.image Prod.snd).Nonempty then (s.image Prod.snd).max' h + 1 else 0

/-- `bbox().p1.x`. -/
def xLow (s : Finset Cell) : ℤ := if h : (s.image Prod.fst).Nonempty then (s.image Prod.fst).min' h else 0

/-- `bbox().p2.x`. -/
def xHigh (s : Finset Cell) : ℤ := if h : (s.image Prod.fst).Nonempty then (s.image Prod.fst).max' h + 1 else 0

/-- `nearest_edge_distance`, polygon_utils.py 37–47. -/
def nearestEdgeDistance (p : Poly) : ℤ :=
  let d := min (yLow p.cells) (yHigh p.cells)
  if d < 0 then 0 else d

/-- Comparison `a < b` of distances; `none` is `math.inf`. -/
def ltInf : Option ℤ → Option ℤ → Bool
  | none, _ => false
  | some _, none => true
  | some a, some b => decide (a < b)

/-- `find_polygon_with_nearest_edge`, polygon_utils.py 50–58; `none` is `math.inf`. -/
def findNearest (ps : List Poly) : Except String (Option ℤ × Poly) :=
  match ps with
  | [] => .error "IndexError"
  | p0 :: _ => .ok (ps.foldl (fun best p =>
      let d := nearestEdgeDistance p
      if ltInf (some d) best.1 then (some d, p) else best) (none, p0))

/-- `nearest_edge`, polygon_utils.py 61–63: the last edge that runs to the left.  For a box this is the lower edge, given
by its ordinate and its range of abscissae.  Simplification: a polygon that is not a box (the code warns that it does
not support these) is replaced by its bounding box. -/
def nearestEdge (p : Poly) : ℤ × ℤ × ℤ := (yLow p.cells, xLow p.cells, xHigh p.cells)

/-- The fields of the visitor, sidewall_and_fringe_extractor.py 105–127 (the two unused index ranges are left out). -/
structure Ctx where
  names : List String
  inside : Nat
  dbu : ℚ
  scale : Bool
  par : Parasitics

/-- How KLayout takes a region apart into polygons (`Region.each` after a boolean operation). -/
abbrev Kernel := Finset Cell → List (Finset Cell)

/-- Records of the extraction: a sidewall record, or a fringe record with its key and its capacitance (`SideOverlapCap`
with a real value). -/
inductive Rec where
  | sidewall (c : SidewallCap)
  | fringe (key : SideOverlapKey) (cap : ℝ)

/-- `emit_sidewall`, sidewall_and_fringe_extractor.py 256–311. -/
def emitSidewall (x : Ctx) (edgeNet : String) (iv : ℚ × ℚ) (p : Poly) : Except String (List SidewallCap) :=
  let layer := x.names.getD x.inside ""
  if edgeNet = p.net then .ok []
  else
    match (TechInfo.sidewallTable x.par).get? layer with
    | none => .error "KeyError"
    | some spec =>
      let length := (iv.2 - iv.1) * x.dbu
      let distance := (min (yLow p.cells) (yHigh p.cells) : ℤ) * x.dbu
      if distance + spec.offset = 0 then .error "ZeroDivisionError"
      else .ok [{ key := ⟨layer, edgeNet, p.net⟩
                  capValue := length * spec.cap / (distance + spec.offset) / 2 / 1000
                  distance := distance
                  length := length }]

open Classical in
/-- `fringe_cap`, sidewall_and_fringe_extractor.py 313–347. -/
noncomputable def fringeCap (x : Ctx) (length near far : ℝ) (overlap : OverlapSpec) (side : SideOverlapSpec) :
    Except String ℝ :=
  let nearUm : ℝ := near * x.dbu
  let farUm : ℝ := far * x.dbu
  let lengthUm : ℝ := length * x.dbu
  let alpha : ℝ := (overlap.cap : ℝ) * ((2 / 100) * (1 / 100) * (1 / 2) * 200)
  let cnear : ℝ := 2 / Real.pi * Real.arctan (alpha * nearUm)
  let cfar : ℝ := 2 / Real.pi * Real.arctan (alpha * farUm)
  if x.scale then
    let full : ℝ := 2 / Real.pi * Real.arctan (alpha * (x.par.sideHalo : ℝ))
    if full < 1 then
      if full = 0 then .error "ZeroDivisionError"
      else .ok ((cfar / full - cnear / full) * lengthUm * (side.cap : ℝ) / 1000)
    else .ok ((cfar - cnear) * lengthUm * (side.cap : ℝ) / 1000)
  else .ok ((cfar - cnear) * lengthUm * (side.cap : ℝ) / 1000)

/-- The second choice for the overlap specification, sidewall_and_fringe_extractor.py 382–383. -/
def overlapBelow (par : Parasitics) (inside outside : String) : Except String OverlapSpec := do
  let row ← ((TechInfo.overlapTable par).get? outside).elim (.error "KeyError") .ok
  (row.get? inside).elim (.error "KeyError") .ok

/-- The overlap specification, sidewall_and_fringe_extractor.py 379–383 (a message is always true). -/
def overlapOf (par : Parasitics) (inside outside : String) : Except String OverlapSpec := do
  let row ← ((TechInfo.overlapTable par).get? inside).elim (.error "KeyError") .ok
  (row.get? outside).elim (overlapBelow par inside outside) .ok

/-- The lookups of `emit_fringe`, sidewall_and_fringe_extractor.py 379–387 (`substrate_cap_by_layer_name` is read but its
value is not used). -/
def fringeSpecs (par : Parasitics) (inside outside : String) : Except String (OverlapSpec × SideOverlapSpec) := do
  let overlap ← overlapOf par inside outside
  let _ ← ((TechInfo.substrateByLayer par).get? inside).elim (.error "KeyError") .ok
  let table ← TechInfo.sideTable par
  let srow ← (table.get? inside).elim (.error "KeyError") .ok
  let side ← (srow.get? outside).elim (.error "KeyError") .ok
  return (overlap, side)

/-- `name` of the net that a shape on a layer counts for, sidewall_and_fringe_extractor.py 358–372. -/
def layerNet (layer net : String) : String := if layer = substrateName then substrateName else net

/-- The polygon loop of `emit_fringe`, sidewall_and_fringe_extractor.py 389–413: the polygons of other nets without their
shielded part, by net. -/
def unshielded (k : Kernel) (insideNet outside : String) (shield : Finset Cell) (ps : List Poly) :
    Dict String (List (Finset Cell)) :=
  ps.foldl (fun d p =>
    let net := layerNet outside p.net
    if insideNet = net then d
    else if shield = ∅ then Dict.push d net p.cells
    else (k (p.cells \ shield)).foldl (fun d q => Dict.push d net q) d) []

open Classical in
/-- The capacitance loop of `emit_fringe`, sidewall_and_fringe_extractor.py 415–466, over the pairs of net and polygon:
a polygon without extent ends the loop. -/
noncomputable def fringeLoop (x : Ctx) (inside insideNet outside : String) (iv : ℚ × ℚ) (overlap : OverlapSpec)
    (side : SideOverlapSpec) : List (String × Finset Cell) → Except String (List Rec)
  | [] => .ok []
  | (net, q) :: rest =>
    let near := if yLow q < 0 then 0 else yLow q
    let far := if yHigh q < 0 then 0 else yHigh q
    if far < near then .error "AssertionError"
    else if far = near then .ok []
    else do
      let cap ← fringeCap x ((iv.2 - iv.1 : ℚ) : ℝ) near far overlap side
      let recs ← fringeLoop x inside insideNet outside iv overlap side rest
      if cap > 1 / 10000 then return .fringe ⟨inside, insideNet, outside, net⟩ cap :: recs else return recs

/-- `emit_fringe`, sidewall_and_fringe_extractor.py 349–466. -/
noncomputable def emitFringe (x : Ctx) (k : Kernel) (outside edgeNet : String) (iv : ℚ × ℚ) (ps : List Poly)
    (shield : Finset Cell) : Except String (List Rec) := do
  let inside := x.names.getD x.inside ""
  let insideNet := layerNet inside edgeNet
  let specs ← fringeSpecs x.par inside outside
  fringeLoop x inside insideNet outside iv specs.1 specs.2
    ((unshielded k insideNet outside shield ps).flatMap fun e => e.2.map fun q => (e.1, q))

/-- State of the lateral loop: distance and polygon of the nearest lateral neighbour, and the records. -/
structure Lateral where
  nearest : Option (Option ℤ × Poly)
  recs : List SidewallCap

/-- Update of the nearest distance, sidewall_and_fringe_extractor.py 195–198 and 204–207. -/
def Lateral.update (l : Lateral) (d : Option ℤ) (p : Poly) : Lateral :=
  match l.nearest with
  | none => { l with nearest := some (d, p) }
  | some n => if ltInf d n.1 then { l with nearest := some (d, p) } else l

/-- One iteration of the lateral loop, sidewall_and_fringe_extractor.py 191–215. -/
def lateralStep (x : Ctx) (edgeNet : String) (iv : ℚ × ℚ) (l : Lateral) (e : Nat × List Poly) :
    Except String Lateral :=
  if e.1 = x.names.length then do
    let n ← findNearest e.2
    return l.update n.1 n.2
  else if x.inside = e.1 then do
    let n ← findNearest e.2
    let r ← emitSidewall x edgeNet iv n.2
    return { l.update n.1 n.2 with recs := l.recs ++ r }
  else return l

/-- `lateral_shield`, sidewall_and_fringe_extractor.py 217–224: from the nearest edge up to beyond the halo.  The upper
border `(side_halo + 10) / dbu` is rounded down. -/
noncomputable def lateralShield (x : Ctx) : Option (Option ℤ × Poly) → Finset Cell
  | none => ∅
  | some n =>
    let e := nearestEdge n.2
    Finset.Ico e.2.1 e.2.2 ×ˢ Finset.Ico e.1 ⌊(x.par.sideHalo + 10) / x.dbu⌋

/-- Cells of the polygons of one child, `layer_fringe_shields`, sidewall_and_fringe_extractor.py 176–179. -/
def childCells (nb : Dict Nat (List Poly)) (i : Nat) : Finset Cell :=
  (nb.getD i []).foldl (fun s p => s ∪ p.cells) ∅

/-- The region that shields layer `child` from the edge, sidewall_and_fringe_extractor.py 230–240. -/
def fringeShield (x : Ctx) (nb : Dict Nat (List Poly)) (lateral : Finset Cell) (child : Nat) : Finset Cell :=
  (if child < x.inside then List.range' (child + 1) (x.inside - (child + 1))
   else if x.inside < child then List.range' (x.inside + 1) (child - (x.inside + 1)) else []).foldl
    (fun s i => s ∪ childCells nb i) lateral

/-- The fringe loop, sidewall_and_fringe_extractor.py 226–254. -/
noncomputable def fringeStep (x : Ctx) (k : Kernel) (edgeNet : String) (iv : ℚ × ℚ) (nb : Dict Nat (List Poly))
    (lateral : Finset Cell) (recs : List Rec) (e : Nat × List Poly) : Except String (List Rec) :=
  if x.inside = e.1 then return recs
  else if e.1 < x.names.length then do
    let r ← emitFringe x k (x.names.getD e.1 "") edgeNet iv e.2 (fringeShield x nb lateral e.1)
    return recs ++ r
  else return recs

/-- Body of the interval loop of `on_edge`, sidewall_and_fringe_extractor.py 165–254. -/
noncomputable def onInterval (x : Ctx) (k : Kernel) (edgeNet : String) (iv : ℚ × ℚ) (nb : Dict Nat (List Poly)) :
    Except String (List Rec) :=
  if nb.isEmpty then return []
  else if iv.2 - iv.1 ≤ 1 then return []
  else do
    let l ← nb.foldlM (lateralStep x edgeNet iv) ⟨none, []⟩
    nb.foldlM (fringeStep x k edgeNet iv nb (lateralShield x l.nearest)) (l.recs.map .sidewall)

/-- `on_edge`, sidewall_and_fringe_extractor.py 146–254: all records of one edge. -/
noncomputable def onEdge (x : Ctx) (k : Kernel) (edgeNet : String) (n : Neighborhood) : Except String (List Rec) :=
  n.foldlM (fun recs e => do return recs ++ (← onInterval x k edgeNet e.1 e.2)) []

/-- `extract`, sidewall_and_fringe_extractor.py 66–100: `edges i` are the edges of layer `i` with their net and the
neighbourhoods that KLayout reports. -/
noncomputable def extract (names : List String) (dbu : ℚ) (scale : Bool) (par : Parasitics) (k : Kernel)
    (edges : Nat → List (String × Neighborhood)) : Except String (List Rec) :=
  (List.range names.length).foldlM (fun recs i => do
    let rs ← (edges i).foldlM (fun rs e => do return rs ++ (← onEdge ⟨names, i, dbu, scale, par⟩ k e.1 e.2)) []
    return recs ++ rs) []

end Verif.Fringe
