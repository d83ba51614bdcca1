import Verif.TechInfo.Model
import Verif.Summary.Model
import Mathlib.Data.Finset.Card
import Mathlib.Data.Int.Interval

/-!
# Model of `klayout_pex/rcx25/c/overlap_extractor.py`

A region is the finite set of the unit cells it covers (coordinates in database units), its area is their number.
Floats are rationals.  The reporter and the log are left out.  KLayout computes the neighbourhoods; they are inputs here:
a neighbourhood maps a layer index to the list of polygons of that layer near the visited one, in KLayout's order.
-/

namespace Verif.Overlap

open TechInfo (Parasitics OverlapSpec substrateName overlapTable)
open Summary (OverlapKey OverlapCap CellResults)

/-- A unit square of the layout grid, given by its lower left corner. -/
abbrev Cell := ℤ × ℤ

/-- `kdb.PolygonWithProperties`: the covered cells and the property `net` (always present in extracted layouts). -/
structure Poly where
  net : String
  cells : Finset Cell

/-- `PolygonNeighborhood`, rcx25/types.py. -/
abbrev Neighborhood := Dict Nat (List Poly)

/-- The fields of the visitor, overlap_extractor.py 76–89.  `self.layer_names[i]` is `names.getD i ""`: the index is in
range wherever the code uses it. -/
structure Ctx where
  names : List String
  dbu : ℚ
  par : Parasitics

/-- Local state of `neighbors`: the shielded region, the records added so far and whether `return` was executed. -/
structure St where
  shielded : Finset Cell
  out : List OverlapCap
  stopped : Bool

/-- The net name of the visited polygon, overlap_extractor.py 101–103. -/
def bottomNet (x : Ctx) (i : Nat) (p : Poly) : String :=
  if x.names.getD i "" = substrateName then substrateName else p.net

/-- Body of the inner loop, overlap_extractor.py 111–155.  The capacitance is `area · dbu² · C / 1000`. -/
def visitPoly (x : Ctx) (botName netBot : String) (bottom : Finset Cell) (topName : String) (st : St) (q : Poly) : St :=
  if st.stopped then st
  else if q.net = netBot then st
  else
    match (overlapTable x.par).get? topName with
    | none => { st with stopped := true }
    | some [] => { st with stopped := true }
    | some specs =>
      match Dict.get? specs botName with
      | none => { st with stopped := true }
      | some spec =>
        let area := (q.cells ∩ bottom) \ st.shielded
        let cap := (area.card : ℚ) * x.dbu ^ 2 * spec.cap / 1000
        { shielded := st.shielded ∪ q.cells
          out := if 0 < cap then
              st.out ++ [{ key := ⟨topName, q.net, botName, netBot⟩, capValue := cap, shieldedArea := 0,
                           unshieldedArea := 0 }]
            else st.out
          stopped := false }

/-- One pass of the outer loop, overlap_extractor.py 105–108. -/
def visitLayer (x : Ctx) (botName netBot : String) (bottom : Finset Cell) (nb : Neighborhood) (st : St) (j : Nat) : St :=
  if st.stopped then st
  else
    match nb.get? j with
    | none => st
    | some above => above.foldl (visitPoly x botName netBot bottom (x.names.getD j "")) st

/-- `neighbors`, overlap_extractor.py 91–155: the records added for the polygon `p` of layer `i`. -/
def neighbors (x : Ctx) (i : Nat) (p : Poly) (nb : Neighborhood) : List OverlapCap :=
  ((List.range' (i + 1) (x.names.length - (i + 1))).foldl
    (visitLayer x (x.names.getD i "") (bottomNet x i p) p.cells nb) ⟨∅, [], false⟩).out

/-- `extract`, overlap_extractor.py 54–73: all polygons of all layers are visited with the neighbourhoods that KLayout
determines (`nbh i p` for polygon `p` of layer `i`), the records go to the result tables. -/
def extract (x : Ctx) (regions : List (List Poly)) (nbh : Nat → Poly → Neighborhood) (r : CellResults) : CellResults :=
  regions.zipIdx.foldl (fun r lr =>
    lr.1.foldl (fun r p => (neighbors x lr.2 p (nbh lr.2 p)).foldl CellResults.addOverlapCap r) r) r

end Verif.Overlap
