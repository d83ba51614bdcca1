import Verif.Common.PyDict
import Mathlib.Algebra.Order.Ring.Rat
import Mathlib.Data.String.Basic

/-!
# Model of `klayout_pex/tech_info.py`

The protocol buffer messages are records (`protos/kpex/tech/*.proto`), their repeated fields are lists and their
floating point fields are rationals.  Loading the JSON file (tech_info.py 44–57) is the protocol buffer library's work
and not modelled: the functions below start from the loaded message.
-/

namespace Verif.TechInfo

/-- `SubstrateCapacitance`, process_parasitics.proto (`area_capacitance`, `perimeter_capacitance`). -/
structure SubstrateCap where
  layer : String
  area : ℚ
  perimeter : ℚ
deriving DecidableEq, Repr

/-- `OverlapCapacitance`, process_parasitics.proto. -/
structure OverlapSpec where
  top : String
  bot : String
  cap : ℚ
deriving DecidableEq, Repr

/-- `SidewallCapacitance`, process_parasitics.proto. -/
structure SidewallSpec where
  layer : String
  cap : ℚ
  offset : ℚ
deriving DecidableEq, Repr

/-- `SideOverlapCapacitance`, process_parasitics.proto. -/
structure SideOverlapSpec where
  inLayer : String
  outLayer : String
  cap : ℚ
deriving DecidableEq, Repr

/-- `LayerResistance`, process_parasitics.proto (without the unused corner adjustment). -/
structure LayerResistance where
  layer : String
  resistance : ℚ
deriving DecidableEq, Repr

/-- `ContactResistance`, process_parasitics.proto. -/
structure ContactResistance where
  contactName : String
  deviceLayer : String
  resistance : ℚ
deriving DecidableEq, Repr

/-- `ViaResistance`, process_parasitics.proto. -/
structure ViaResistance where
  viaName : String
  resistance : ℚ
deriving DecidableEq, Repr

/-- `ProcessParasiticsInfo`, process_parasitics.proto. -/
structure Parasitics where
  sideHalo : ℚ := 0
  substrates : List SubstrateCap := []
  overlaps : List OverlapSpec := []
  sidewalls : List SidewallSpec := []
  sideoverlaps : List SideOverlapSpec := []
  layerResistances : List LayerResistance := []
  contactResistances : List ContactResistance := []
  viaResistances : List ViaResistance := []

/-- A GDS layer / datatype pair, tech_info.py 44. -/
abbrev GDSPair := Nat × Nat

/-- `LayerInfo.Purpose`, tech.proto: the cases the code distinguishes. -/
inductive Purpose where
  | nwell | nImplant | pImplant | contact | metal | via | other
deriving DecidableEq, Repr

/-- `ComputedLayerInfo.Kind`, tech.proto. -/
inductive Kind where
  | unspecified | regular | deviceCapacitor | deviceResistor | pin | label
deriving DecidableEq, Repr

/-- `LayerInfo`, tech.proto (pin and label pairs included, description left out). -/
structure LayerInfo where
  purpose : Purpose := .other
  name : String
  drw : GDSPair
  pin : GDSPair := (0, 0)
  label : GDSPair := (0, 0)
deriving DecidableEq, Repr

/-- `ComputedLayerInfo`, tech.proto. -/
structure ComputedLayer where
  kind : Kind := .regular
  info : LayerInfo
  original : String
deriving DecidableEq, Repr

/-- `ProcessStackInfo.Contact`, process_stack.proto: the fields that the resistance extraction reads. -/
structure Contact where
  name : String
  layerBelow : String
  metalAbove : String
  width : ℚ
deriving DecidableEq, Repr

/-- Type of a layer of the process stack as far as `TechInfo` reads its contact: an n-well or a diffusion always has a
(possibly empty) contact message, a metal layer has one or not (`HasField`). -/
inductive StackKind where
  | nwell (c : Contact)
  | diffusion (c : Contact)
  | metal (c : Option Contact)
  | other
deriving DecidableEq, Repr

/-- A layer of the process stack. -/
structure StackLayer where
  name : String
  kind : StackKind
deriving DecidableEq, Repr

/-- `Technology`, tech.proto. -/
structure Tech where
  layers : List LayerInfo := []
  computed : List ComputedLayer := []
  stack : List StackLayer := []
  parasitics : Parasitics := {}

/-- `internal_substrate_layer_name`, tech_info.py 364–366. -/
def substrateName : String := "VSUBS"

/-! ### Layers -/

/-- `gds_pair_for_computed_layer_name`, tech_info.py 65–68. -/
def gdsPairForComputed (t : Tech) : Dict String GDSPair :=
  Dict.ofList (t.computed.map fun l => (l.info.name, l.info.drw))

/-- `computed_layer_info_by_name`, tech_info.py 70–72. -/
def computedByName (t : Tech) : Dict String ComputedLayer :=
  Dict.ofList (t.computed.map fun l => (l.info.name, l))

/-- `computed_layer_info_by_gds_pair`, tech_info.py 74–79. -/
def computedByPair (t : Tech) : Dict GDSPair ComputedLayer :=
  Dict.ofList (t.computed.map fun l => (l.info.drw, l))

/-- `canonical_layer_name_by_gds_pair`, tech_info.py 81–86. -/
def canonicalByPair (t : Tech) : Dict GDSPair String :=
  Dict.ofList (t.computed.map fun l => (l.info.drw, l.original))

/-- `gds_pair_for_layer_name`, tech_info.py 99–101. -/
def gdsPairForLayer (t : Tech) : Dict String GDSPair :=
  Dict.ofList (t.layers.map fun l => (l.name, l.drw))

/-- `layer_info_by_gds_pair`, tech_info.py 103–105. -/
def layerByPair (t : Tech) : Dict GDSPair LayerInfo :=
  Dict.ofList (t.layers.map fun l => (l.drw, l))

/-- `gds_pair`, tech_info.py 254–261 (a pair is never falsy; the warning is not represented). -/
def gdsPair (t : Tech) (name : String) : Option GDSPair :=
  match (gdsPairForComputed t).get? name with
  | some p => some p
  | none =>
    match (gdsPairForLayer t).get? name with
    | some p => some p
    | none => none

/-- The contact message of a stack layer: a metal layer without one reads as an empty message. -/
def emptyContact : Contact := ⟨"", "", "", 0⟩

/-- `contact_by_contact_lvs_layer_name`, tech_info.py 237–252. -/
def contactByName (t : Tech) : Dict String Contact :=
  t.stack.foldl (fun d l =>
    match l.kind with
    | .nwell c => d.set c.name c
    | .diffusion c => d.set c.name c
    | .metal c => d.set (c.getD emptyContact).name (c.getD emptyContact)
    | .other => d) []

/-- `bottom_and_top_layer_name_by_via_computed_layer_name`, tech_info.py 263–282 (the unused look-up of the metal's GDS
pair only logs). -/
def bottomTopByVia (t : Tech) : Dict String (String × String) :=
  t.stack.foldl (fun d l =>
    match l.kind with
    | .metal (some c) => d.set c.name (c.layerBelow, c.metalAbove)
    | _ => d) []

/-! ### Resistances -/

/-- `layer_resistance_by_layer_name`, tech_info.py 285–287. -/
def layerResistance (t : Tech) : Dict String LayerResistance :=
  Dict.ofList (t.parasitics.layerResistances.map fun r => (r.layer, r))

/-- `contact_resistance_by_device_layer_name`, tech_info.py 289–291. -/
def contactResistance (t : Tech) : Dict String ContactResistance :=
  Dict.ofList (t.parasitics.contactResistances.map fun r => (r.deviceLayer, r))

/-- `via_resistance_by_layer_name`, tech_info.py 293–295. -/
def viaResistance (t : Tech) : Dict String ViaResistance :=
  Dict.ofList (t.parasitics.viaResistances.map fun r => (r.viaName, r))

/-- `milliohm_to_ohm`, tech_info.py 297–301. -/
def milliohmToOhm (m : ℚ) : ℚ := m / 1000

/-- `milliohm_by_cnt_to_ohm_by_square_for_contact`, tech_info.py 303–310. -/
def contactOhmBySquare (c : Contact) (r : ContactResistance) : ℚ := r.resistance / 1000 * c.width ^ 2

/-- `milliohm_by_cnt_to_ohm_by_square_for_via`, tech_info.py 312–317. -/
def viaOhmBySquare (c : Contact) (r : ViaResistance) : ℚ := r.resistance / 1000 * c.width ^ 2

/-! ### Capacitances -/

/-- `substrate_cap_by_layer_name`, tech_info.py 320–322. -/
def substrateByLayer (p : Parasitics) : Dict String SubstrateCap :=
  Dict.ofList (p.substrates.map fun s => (s.layer, s))

/-- `convert_substrate_to_overlap_cap`, tech_info.py 330–336. -/
def substrateToOverlap (s : SubstrateCap) : OverlapSpec := ⟨s.layer, substrateName, s.area⟩

/-- `convert_substrate_to_side_overlap_cap`, tech_info.py 374–380. -/
def substrateToSideOverlap (s : SubstrateCap) : SideOverlapSpec := ⟨s.layer, substrateName, s.perimeter⟩

/-- The first part of `overlap_cap_by_layer_names`, tech_info.py 338–342. -/
def overlapBase (p : Parasitics) : Dict String (Dict String OverlapSpec) :=
  Dict.ofList ((substrateByLayer p).map fun e => (e.1, [(substrateName, substrateToOverlap e.2)]))

/-- The second part of `overlap_cap_by_layer_names`, tech_info.py 344–350. -/
def overlapPairs (p : Parasitics) : Dict String (Dict String OverlapSpec) :=
  Dict.ofList (p.overlaps.map fun oc =>
    (oc.top, Dict.ofList ((p.overlaps.filter fun b => b.top == oc.top).map fun b => (b.bot, b))))

/-- One step of the merge loop, tech_info.py 352–357. -/
def overlapMerge (d : Dict String (Dict String OverlapSpec)) (k1 k2 : String) (v : OverlapSpec) :
    Dict String (Dict String OverlapSpec) :=
  match d.get? k1 with
  | none => d.set k1 [(k2, v)]
  | some e => d.set k1 (e.set k2 v)

/-- `overlap_cap_by_layer_names`, tech_info.py 324–358 (top layer, then bottom layer). -/
def overlapTable (p : Parasitics) : Dict String (Dict String OverlapSpec) :=
  (overlapPairs p).foldl (fun d e => e.2.foldl (fun d f => overlapMerge d e.1 f.1 f.2) d) (overlapBase p)

/-- `sidewall_cap_by_layer_name`, tech_info.py 360–362. -/
def sidewallTable (p : Parasitics) : Dict String SidewallSpec :=
  Dict.ofList (p.sidewalls.map fun s => (s.layer, s))

/-- The first part of `side_overlap_cap_by_layer_names`, tech_info.py 382–386. -/
def sideBase (p : Parasitics) : Dict String (Dict String SideOverlapSpec) :=
  Dict.ofList ((substrateByLayer p).map fun e => (e.1, [(substrateName, substrateToSideOverlap e.2)]))

/-- The second part of `side_overlap_cap_by_layer_names`, tech_info.py 388–394. -/
def sidePairs (p : Parasitics) : Dict String (Dict String SideOverlapSpec) :=
  Dict.ofList (p.sideoverlaps.map fun oc =>
    (oc.inLayer, Dict.ofList ((p.sideoverlaps.filter fun b => b.inLayer == oc.inLayer).map fun b => (b.outLayer, b))))

/-- One step of the merge loop, tech_info.py 398: `d[k1]` raises if there is no such entry. -/
def sideMerge (d : Dict String (Dict String SideOverlapSpec)) (k1 k2 : String) (v : SideOverlapSpec) :
    Except String (Dict String (Dict String SideOverlapSpec)) :=
  match d.get? k1 with
  | none => .error "KeyError"
  | some e => .ok (d.set k1 (e.set k2 v))

/-- `side_overlap_cap_by_layer_names`, tech_info.py 368–400 (inside layer, then outside layer). -/
def sideTable (p : Parasitics) : Except String (Dict String (Dict String SideOverlapSpec)) :=
  (sidePairs p).foldlM (fun d e => e.2.foldlM (fun d f => sideMerge d e.1 f.1 f.2) d) (sideBase p)

end Verif.TechInfo
