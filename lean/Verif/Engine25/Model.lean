import Verif.Overlap.Model
import Verif.Fringe.Model
import Verif.PexMode.Model
import Verif.Rcx25Netlist.Model

/-!
# Model of the 2.5D engine as a whole: `klayout_pex/rcx25/extractor.py` with the extractors it calls

The parts are the models of `Overlap`, `Fringe`, `PexMode`, `Summary` and `Rcx25Netlist`; this file adds the layers of the
cell and puts the parts together.  What KLayout computes is a parameter (`KLayout`).  The report is left out.
-/

namespace Verif.Engine25

open TechInfo (Tech GDSPair StackLayer StackKind substrateName)
open Overlap (Cell Poly)
open Summary (RNetwork CellResults Op)
open PexMode (Mode CapOp)

/-- `kdb.Box`, given by its corners (never empty here). -/
structure Box where
  x1 : ℤ
  y1 : ℤ
  x2 : ℤ
  y2 : ℤ

/-- `Box.area`. -/
def Box.area (b : Box) : ℤ := (b.x2 - b.x1) * (b.y2 - b.y1)

/-- `Box.enlarged`. -/
def Box.enlarged (b : Box) (d : ℤ) : Box := ⟨b.x1 - d, b.y1 - d, b.x2 + d, b.y2 + d⟩

/-- The cells of a box. -/
noncomputable def Box.cells (b : Box) : Finset Cell := Finset.Ico b.x1 b.x2 ×ˢ Finset.Ico b.y1 b.y2

/-- The fields of `KLayoutExtractionContext` that the engine reads: `extracted_layers` (for every GDS pair the regions of
its source layers), the bounding boxes of the annotated and of the internal layout, the database unit, the cell name. -/
structure Context where
  cellName : String
  dbu : ℚ
  annotated : Box
  internal : Box
  extracted : Dict GDSPair (List (List Poly))

/-- `top_cell_bbox`, lvsdb_extractor.py 257–263. -/
def topBox (x : Context) : Box := if x.annotated.area > x.internal.area then x.annotated else x.internal

/-- `shapes_of_layer`, lvsdb_extractor.py 295–323. -/
def shapesOfPair (x : Context) (g : GDSPair) : Except String (Option (List Poly)) :=
  match x.extracted.get? g with
  | none => .ok none
  | some [] => .error "AssertionError"
  | some rs => .ok (some rs.flatten)

/-- `shapes_of_layer`, rcx25/extractor.py 78–88. -/
def shapesOfLayer (t : Tech) (x : Context) (name : String) : Except String (Option (List Poly)) :=
  match TechInfo.gdsPair t name with
  | none => .ok none
  | some g => shapesOfPair x g

/-- Body of the loop over the metal layers, rcx25/extractor.py 140–166.  The via regions collected there are not used
afterwards; looking them up can fail. -/
def addMetal (t : Tech) (x : Context) (d : Dict String (List Poly)) (l : StackLayer) :
    Except String (Dict String (List Poly)) := do
  let canonical ← ((TechInfo.gdsPair t l.name).bind fun g => (TechInfo.canonicalByPair t).get? g).elim
    (.error "KeyError") .ok
  let shapes ← shapesOfLayer t x l.name
  let d := shapes.elim d fun ps => d.upd canonical [] (· ++ ps)
  match l.kind with
  | .metal (some c) => do
    let _ ← shapesOfLayer t x c.name
    return d
  | _ => return d

/-- `process_metal_layers`, tech_info.py 146–151. -/
def metals (t : Tech) : List StackLayer :=
  t.stack.filter fun l => match l.kind with
    | .metal _ => true
    | _ => false

/-- `layer_regions_by_name`, rcx25/extractor.py 122–168.  The substrate carries no net; `halo` is `side_halo / dbu` as
KLayout converts it to an integer. -/
noncomputable def layerRegions (t : Tech) (x : Context) (halo : ℤ) : Except String (Dict String (List Poly)) :=
  (metals t).foldlM (addMetal t x) (Dict.set [] substrateName [⟨"", ((topBox x).enlarged halo).cells⟩])

/-- The technology with another side halo, as the option `--halo` sets it, kpex_cli.py 856–857. -/
def withHalo (t : Tech) (h : ℚ) : Tech := { t with parasitics := { t.parasitics with sideHalo := h } }

/-- What KLayout and the floating point unit do: the polygons of a region that are visited (merged per net), the
neighbourhood of a polygon and of the edges of a layer, boolean results as polygons, rounding of a real number. -/
structure KLayout where
  merged : List Poly → List Poly
  nbh : List (List Poly) → Nat → Poly → Overlap.Neighborhood
  edges : List (List Poly) → Nat → List (String × Fringe.Neighborhood)
  kernel : Fringe.Kernel
  rnd : ℝ → ℚ

/-- `OverlapExtractor.extract`, overlap_extractor.py 54–73: the records, in the order in which they are made
(`Overlap.extract` puts them into the table, see `overlap_recorded`). -/
def overlapOps (x : Overlap.Ctx) (regions : List (List Poly)) (nbh : Nat → Poly → Overlap.Neighborhood) : List CapOp :=
  regions.zipIdx.flatMap fun lr => lr.1.flatMap fun p => (Overlap.neighbors x lr.2 p (nbh lr.2 p)).map .overlap

/-- The record of the sidewall and fringe extractor as it goes to the tables, sidewall_and_fringe_extractor.py 308–311 and
451–459. -/
def recOp (rnd : ℝ → ℚ) : Fringe.Rec → CapOp
  | .sidewall c => .sidewall c
  | .fringe key cap => .sideoverlap ⟨key, rnd cap⟩

/-- `RCX25Extractor.extract`, rcx25/extractor.py 90–247.  `res` is what the R extractor returns. -/
noncomputable def extract (kl : KLayout) (t : Tech) (x : Context) (mode : Mode) (scale : Bool) (halo : ℤ)
    (res : Except String (List RNetwork)) : Except String (Dict String CellResults) := do
  let d ← layerRegions t x halo
  let regions := d.values.map kl.merged
  let ov := overlapOps ⟨d.keys, x.dbu, t.parasitics⟩ regions (kl.nbh regions)
  let fr := (Fringe.extract d.keys x.dbu scale t.parasitics kl.kernel (kl.edges regions)).map (·.map (recOp kl.rnd))
  PexMode.extract mode x.cellName (.ok ov) fr res

/-- The run of the engine up to the netlist, kpex_cli.py 676–700: extraction, then expansion of the netlist. -/
noncomputable def run (kl : KLayout) (cf : String → String) (t : Tech) (x : Context) (mode : Mode) (scale : Bool) (halo : ℤ)
    (res : Except String (List RNetwork)) (c : Netlist.Circuit) (bb : Bool) : Except String Netlist.Circuit := do
  let cells ← extract kl t x mode scale halo res
  Rcx25Netlist.expand cf c cells bb

end Verif.Engine25
