import Verif.Common.PyDict
import Mathlib.Data.String.Basic
import Mathlib.Algebra.Order.Ring.Rat
import Mathlib.Algebra.BigOperators.Group.List.Basic

/-!
# Model of `klayout_pex/rcx25/extraction_results.py`

Capacitance and resistance values are rationals instead of floats.  Net names are strings and never `None`: the
`__post_init__` checks that reject `None` (lines 90–98, 123–127) are therefore not represented.
-/

namespace Verif.Summary

/-- `SidewallKey`, extraction_results.py 46–50. -/
structure SidewallKey where
  layer : String
  net1 : String
  net2 : String
deriving DecidableEq, Repr

/-- `SidewallCap`, extraction_results.py 53–59 (the `tech_spec` reference is not used by the modelled code). -/
structure SidewallCap where
  key : SidewallKey
  capValue : ℚ
  distance : ℚ
  length : ℚ

/-- `OverlapKey`, extraction_results.py 62–67. -/
structure OverlapKey where
  layerTop : String
  netTop : String
  layerBot : String
  netBot : String
deriving DecidableEq, Repr

/-- `OverlapCap`, extraction_results.py 70–76 (without `tech_spec`). -/
structure OverlapCap where
  key : OverlapKey
  capValue : ℚ
  shieldedArea : ℚ
  unshieldedArea : ℚ

/-- `SideOverlapKey`, extraction_results.py 79–98. -/
structure SideOverlapKey where
  layerInside : String
  netInside : String
  layerOutside : String
  netOutside : String
deriving DecidableEq, Repr

/-- `SideOverlapCap`, extraction_results.py 101–107. -/
structure SideOverlapCap where
  key : SideOverlapKey
  capValue : ℚ

/-- `NetCoupleKey`, extraction_results.py 110–127. -/
structure NetCoupleKey where
  net1 : String
  net2 : String
deriving DecidableEq, Repr

/-- `NetCoupleKey.normed`, extraction_results.py 130–134.  Python compares `str` by code points, as does Lean. -/
def NetCoupleKey.normed (k : NetCoupleKey) : NetCoupleKey :=
  if k.net1 < k.net2 then k else ⟨k.net2, k.net1⟩

/-- `ExtractionSummary`, extraction_results.py 137–140. -/
structure ExtractionSummary where
  capacitances : Dict NetCoupleKey ℚ
  resistances : Dict NetCoupleKey ℚ

/-- `for k, v in items: table[k.normed()] += v` on a `defaultdict(float)`: the loop body shared by
extraction_results.py 147–150. -/
def addNormed (table : Dict NetCoupleKey ℚ) (items : Dict NetCoupleKey ℚ) : Dict NetCoupleKey ℚ :=
  items.foldl (fun d kv => d.upd kv.1.normed 0 (· + kv.2)) table

/-- `ExtractionSummary.merged`, extraction_results.py 142–152. -/
def ExtractionSummary.merged (summaries : List ExtractionSummary) : ExtractionSummary :=
  { capacitances := summaries.foldl (fun d s => addNormed d s.capacitances) []
    resistances := summaries.foldl (fun d s => addNormed d s.resistances) [] }

/-- `RNode` (protos/kpex/r/r_network.proto 47–55): only the two fields that the summary reads. -/
structure RNode where
  nodeId : Nat
  netName : String

/-- `RElement` (protos/kpex/r/r_network.proto): node references by id, resistance in ohm. -/
structure RElement where
  nodeA : Nat
  nodeB : Nat
  resistance : ℚ

/-- `RNetwork` (protos/kpex/r/r_network.proto). -/
structure RNetwork where
  nodes : List RNode
  elements : List RElement

/-- `CellExtractionResults`, extraction_results.py 155–163 (`r_extraction_result.networks` is the list of networks). -/
structure CellResults where
  cellName : String
  overlapTable : Dict OverlapKey (List OverlapCap) := []
  sidewallTable : Dict SidewallKey (List SidewallCap) := []
  sideoverlapTable : Dict SideOverlapKey (List SideOverlapCap) := []
  networks : List RNetwork := []

/-- `CellExtractionResults.add_overlap_cap`, extraction_results.py 165–166. -/
def CellResults.addOverlapCap (r : CellResults) (c : OverlapCap) : CellResults :=
  { r with overlapTable := r.overlapTable.upd c.key [] (· ++ [c]) }

/-- `CellExtractionResults.add_sidewall_cap`, extraction_results.py 168–169. -/
def CellResults.addSidewallCap (r : CellResults) (c : SidewallCap) : CellResults :=
  { r with sidewallTable := r.sidewallTable.upd c.key [] (· ++ [c]) }

/-- `CellExtractionResults.add_sideoverlap_cap`, extraction_results.py 171–172. -/
def CellResults.addSideoverlapCap (r : CellResults) (c : SideOverlapCap) : CellResults :=
  { r with sideoverlapTable := r.sideoverlapTable.upd c.key [] (· ++ [c]) }

/-- The table loop of `summarize` (extraction_results.py 175–178, 182–185, 189–192): for every key the values of its
entries are summed and added to the normalised net pair. -/
def summarizeTable {κ ε : Type} (couple : κ → NetCoupleKey) (value : ε → ℚ) (table : Dict κ (List ε)) :
    Dict NetCoupleKey ℚ :=
  table.foldl (fun d kv => d.upd (couple kv.1).normed 0 (· + (kv.2.map value).sum)) []

/-- One iteration of the element loop, extraction_results.py 200–205; an unknown node id is a `KeyError`. -/
def addElement (nodeById : Dict Nat RNode) (d : Dict NetCoupleKey ℚ) (e : RElement) :
    Except String (Dict NetCoupleKey ℚ) :=
  match nodeById.get? e.nodeA with
  | none => .error "KeyError"
  | some a =>
    match nodeById.get? e.nodeB with
    | none => .error "KeyError"
    | some b => .ok (d.upd (NetCoupleKey.mk a.netName b.netName).normed 0 (· + e.resistance))

/-- The network loop, extraction_results.py 198–205. -/
def summarizeNetworks (nets : List RNetwork) : Except String (Dict NetCoupleKey ℚ) :=
  nets.foldlM (fun d n =>
    n.elements.foldlM (addElement (Dict.ofList (n.nodes.map fun x => (x.nodeId, x)))) d) []

/-- `CellExtractionResults.summarize`, extraction_results.py 174–213. -/
def CellResults.summarize (r : CellResults) : Except String ExtractionSummary := do
  let overlap := summarizeTable (fun k => ⟨k.netBot, k.netTop⟩) OverlapCap.capValue r.overlapTable
  let sidewall := summarizeTable (fun k => ⟨k.net1, k.net2⟩) SidewallCap.capValue r.sidewallTable
  let sideoverlap := summarizeTable (fun k => ⟨k.netInside, k.netOutside⟩) SideOverlapCap.capValue r.sideoverlapTable
  let res ← summarizeNetworks r.networks
  return ExtractionSummary.merged [⟨overlap, []⟩, ⟨sidewall, []⟩, ⟨sideoverlap, []⟩, ⟨[], res⟩]

/-- `ExtractionResults.summarize`, extraction_results.py 216–222. -/
def summarizeAll (cells : Dict String CellResults) : Except String ExtractionSummary := do
  let subs ← cells.values.mapM CellResults.summarize
  return ExtractionSummary.merged subs

/-- The recording operations a client can perform on the results of one cell; `network` models the assignment of
extracted R networks (rcx25/extractor.py 245), one network at a time. -/
inductive Op where
  | overlap (c : OverlapCap)
  | sidewall (c : SidewallCap)
  | sideoverlap (c : SideOverlapCap)
  | network (n : RNetwork)

/-- Perform one recording operation. -/
def CellResults.apply (r : CellResults) : Op → CellResults
  | .overlap c => r.addOverlapCap c
  | .sidewall c => r.addSidewallCap c
  | .sideoverlap c => r.addSideoverlapCap c
  | .network n => { r with networks := r.networks ++ [n] }

/-- A history of recordings on a fresh `CellExtractionResults`. -/
def runCell (name : String) (h : List Op) : CellResults :=
  h.foldl CellResults.apply { cellName := name }

/-- Results of several cells, each with its own history (`cell_extraction_results[cell_name] = …`,
rcx25/extractor.py 109). -/
def runCells (hs : List (String × List Op)) : Dict String CellResults :=
  hs.foldl (fun d nh => d.set nh.1 (runCell nh.1 nh.2)) []

end Verif.Summary
