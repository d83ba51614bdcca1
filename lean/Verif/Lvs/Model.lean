import Verif.TechInfo.Model
import Verif.Shapes.Model
import Verif.Common.Firsts

/-!
# Model of `klayout_pex/klayout/lvsdb_extractor.py`

The LVS database is given by its layers and by the devices of its top circuit.  `build_all_nets` of KLayout copies the net
shapes of every layer of the map, flattened and with the property `net`, to the layer of the annotated layout; these
shapes are part of the input (`DbLayer.shapes`).  Protobuf messages are records.
-/

namespace Verif.Lvs

open TechInfo (Tech GDSPair Kind ComputedLayer LayerInfo computedByName computedByPair canonicalByPair layerByPair
  gdsPairForLayer gdsPairForComputed)
open Shapes (Polygon Pt RegionPb)

/-- A layer of the LVS database: its index, its name, the layer and datatype of the internal layout (if it has any) and
the net shapes. -/
structure DbLayer where
  index : Nat
  name : String
  info : Option GDSPair := none
  shapes : List Polygon
deriving DecidableEq

/-- The kinds that are left out with blackboxed devices, lvsdb_extractor.py 175–179 and 230–234. -/
def isDevice : Kind → Bool
  | .deviceResistor => true
  | .deviceCapacitor => true
  | _ => false

/-- The results of `build_LVS_layer_map` and the annotated layout: `map` is `layer_index_map`, `infos` are the GDS numbers
of the layers of the annotated layout by index, `regions` is `lvsdb_regions`. -/
structure LayerMap where
  map : Dict Nat Nat := []
  infos : List GDSPair := []
  regions : Dict Nat (List Polygon) := []

/-- One iteration of `build_LVS_layer_map`, lvsdb_extractor.py 170–193 (`annotated_layout.layer()` gives the next index). -/
def layerMapStep (t : Tech) (blackbox : Bool) (m : LayerMap) (l : DbLayer) : LayerMap :=
  if ((computedByName t).get? l.name).elim false (fun c => blackbox && isDevice c.kind) then m
  else
    match ((gdsPairForComputed t).get? l.name).or l.info with
    | none => m
    | some p =>
      { map := m.map.set l.index m.infos.length
        infos := m.infos ++ [p]
        regions := m.regions.set m.infos.length l.shapes }

/-- `build_LVS_layer_map`, lvsdb_extractor.py 154–195. -/
def buildLayerMap (t : Tech) (blackbox : Bool) (db : List DbLayer) : LayerMap := db.foldl (layerMapStep t blackbox) {}

/-- `KLayoutExtractedLayerInfo`, lvsdb_extractor.py 57–62. -/
structure ExtractedLayer where
  idx : Nat
  name : String
  pair : GDSPair
  shapes : List Polygon
deriving DecidableEq

/-- `KLayoutMergedExtractedLayerInfo`, lvsdb_extractor.py 65–68. -/
structure Merged where
  sources : List ExtractedLayer
  pair : GDSPair
deriving DecidableEq

/-- `extracted_layers` and `unnamed_layers`. -/
structure Layers where
  extracted : Dict GDSPair Merged := []
  unnamed : List ExtractedLayer := []

/-- One iteration of `nonempty_extracted_layers`, lvsdb_extractor.py 208–253, for the layer at position `e.2` of
`layer_names()` (and of `layer_indexes()`). -/
def nonemptyStep (t : Tech) (blackbox : Bool) (m : LayerMap) (acc : Layers) (e : DbLayer × Nat) : Layers :=
  match m.map.get? e.1.index with
  | none => acc
  | some n =>
    let shapes := m.regions.getD n []
    if shapes.length ≥ 1 then
      match (computedByName t).get? e.1.name with
      | none => { acc with unnamed := acc.unnamed ++ [⟨e.2, e.1.name, (1000 + e.2, 20), shapes⟩] }
      | some c =>
        if blackbox && isDevice c.kind then acc
        else
          let linfo : ExtractedLayer := ⟨e.2, e.1.name, c.info.drw, shapes⟩
          match acc.extracted.get? c.info.drw with
          | some entry =>
            { acc with extracted := acc.extracted.set c.info.drw { entry with sources := entry.sources ++ [linfo] } }
          | none => { acc with extracted := acc.extracted.set c.info.drw ⟨[linfo], c.info.drw⟩ }
    else acc

/-- `nonempty_extracted_layers`, lvsdb_extractor.py 197–255. -/
def nonemptyLayers (t : Tech) (blackbox : Bool) (m : LayerMap) (db : List DbLayer) : Layers :=
  db.zipIdx.foldl (nonemptyStep t blackbox m) {}

/-- `KLayoutExtractionContext`, lvsdb_extractor.py 71–85: technology, layer map and layers. -/
structure Context where
  tech : Tech
  layerMap : LayerMap
  layers : Layers

/-- `prepare_extraction`, lvsdb_extractor.py 87–152. -/
def prepare (t : Tech) (blackbox : Bool) (db : List DbLayer) : Context :=
  let m := buildLayerMap t blackbox db
  ⟨t, m, nonemptyLayers t blackbox m db⟩

/-- `shapes_of_net`, lvsdb_extractor.py 265–293: `shape.polygon` drops the properties. -/
def shapesOfNet (x : Context) (pair : GDSPair) (net : String) : Except String (Option (List Polygon)) :=
  match x.layers.extracted.get? pair with
  | none => .ok none
  | some lyr =>
    match lyr.sources with
    | [] => .error "AssertionError"
    | _ => .ok (some (lyr.sources.foldl (fun shapes sl => sl.shapes.foldl (fun shapes p =>
        if p.net = some net then shapes ++ [{ p with net := none }] else shapes) shapes) []))

/-- `shapes_of_layer`, lvsdb_extractor.py 295–323. -/
def shapesOfLayer (x : Context) (pair : GDSPair) : Except String (Option (List Polygon)) :=
  match x.layers.extracted.get? pair with
  | none => .ok none
  | some lyr =>
    match lyr.sources with
    | [] => .error "AssertionError"
    | [sl] => .ok (some sl.shapes)
    | _ => .ok (some (lyr.sources.foldl (fun shapes sl => sl.shapes.foldl (fun shapes p => shapes ++ [p]) shapes) []))

/-! ### Pins -/

/-- What the code asks KLayout: the layer of the annotated layout with a GDS pair (`Layout.layer(l, d)`), the texts of a
layer (none if there is no such layer) and whether a point lies in or on a polygon. -/
structure Env where
  layerOf : GDSPair → Nat
  texts : GDSPair → List (String × Pt)
  inside : Polygon → Pt → Bool

/-- `pins_of_layer`, lvsdb_extractor.py 325–334. -/
def pinsOfLayer (x : Context) (pair : GDSPair) : Except String (List Polygon) :=
  match (layerByPair x.tech).get? pair with
  | none => .error "KeyError"
  | some l =>
    match x.layers.extracted.get? l.pin with
    | none => .ok []
    | some lyr =>
      match lyr.sources with
      | [sl] => .ok sl.shapes
      | _ => .error "NotImplementedError"

/-- `labels_of_layer`, lvsdb_extractor.py 336–347. -/
def labelsOfLayer (x : Context) (v : Env) (pair : GDSPair) : Except String (List (String × Pt)) :=
  match (layerByPair x.tech).get? pair with
  | none => .error "KeyError"
  | some l => .ok (v.texts l.label)

/-- `LayerRef`, layer_ref.proto. -/
structure LayerRef where
  id : Nat := 0
  canonical : String := ""
  lvsName : String := ""
deriving DecidableEq, Repr

/-- `Pin`, pin.proto (`pin_region` is never set; the net of the label point equals the net of the pin). -/
structure Pin where
  label : String
  net : String
  layer : LayerRef
  point : Pt
deriving DecidableEq, Repr

/-- The search for the pin shape below a label, lvsdb_extractor.py 452–456; a shape without net gives `None`, which is not
accepted for a string field. -/
def pinNet (v : Env) (pins : List Polygon) (pos : Pt) : Except String String :=
  match pins.find? (fun p => v.inside p pos) with
  | none => .ok ""
  | some p =>
    match p.net with
    | none => .error "TypeError"
    | some n => .ok n

/-- The pins of one source layer, lvsdb_extractor.py 432–468. -/
def pinsOfSource (x : Context) (v : Env) (pair : GDSPair) (lyr : ExtractedLayer) : Except String (List Pin) := do
  let pins ← pinsOfLayer x pair
  let labels ← labelsOfLayer x v pair
  (labels.filter fun l => pins.any fun p => v.inside p l.2).mapM fun l => do
    let net ← pinNet v pins l.2
    let canonical ← ((canonicalByPair x.tech).get? lyr.pair).elim (.error "KeyError") .ok
    let c ← ((computedByPair x.tech).get? lyr.pair).elim (.error "KeyError") .ok
    return { label := l.1, net := net, layer := ⟨v.layerOf lyr.pair, canonical, c.info.name⟩, point := l.2 }

/-- The pins of one extracted layer with the pair they are stored under, lvsdb_extractor.py 421–468. -/
def pinsOfMerged (x : Context) (v : Env) (e : GDSPair × Merged) : Except String (List (GDSPair × Pin)) := do
  let canonical ← ((canonicalByPair x.tech).get? e.1).elim (.error "KeyError") .ok
  match (gdsPairForLayer x.tech).get? canonical with
  | none => return []
  | some pair =>
    if !(layerByPair x.tech).has pair then return []
    else
      let pins ← e.2.sources.mapM (pinsOfSource x v pair)
      return pins.flatten.map fun p => (pair, p)

/-- `pins_pb2_by_layer`, lvsdb_extractor.py 416–470. -/
def pinsByLayer (x : Context) (v : Env) : Except String (Dict GDSPair (List Pin)) := do
  let all ← x.layers.extracted.mapM (pinsOfMerged x v)
  return groupBy Prod.fst Prod.snd all.flatten

/-! ### Devices -/

/-- A terminal reference of a net (`NetTerminalRef`): device name, terminal id, and the shapes of the terminal by layer
index of the LVS database (`shapes_of_terminal`). -/
structure TermRef where
  device : String
  terminal : Nat
  shapes : Dict Nat (List Polygon)

/-- A net of the top circuit with its terminal references. -/
structure Net where
  name : String
  terminals : List TermRef

/-- A device of the top circuit: parameters (id, name, value) and terminals (id, name) of its class, and the net of every
terminal. -/
structure DbDevice where
  id : Nat
  name : String
  className : String
  abstractName : String
  params : List (Nat × String × ℚ)
  terminals : List (Nat × String)
  netFor : Nat → Option Net

/-- `LayerRegion`, layer_region.proto. -/
structure LayerRegion where
  layer : LayerRef
  region : RegionPb
deriving DecidableEq, Repr

/-- `Device.Terminal`, device.proto. -/
structure Terminal where
  deviceId : Nat
  terminalId : Nat
  name : String
  net : String
  regions : List LayerRegion
deriving DecidableEq, Repr

/-- `Device`, device.proto. -/
structure Device where
  id : Nat
  name : String
  className : String
  abstractName : String
  params : List (Nat × String × ℚ)
  terminals : List Terminal
deriving DecidableEq

/-- The region of a terminal on one layer, lvsdb_extractor.py 402–410 (the LVS layer name is not set). -/
def terminalRegion (x : Context) (e : Nat × List Polygon) : Except String LayerRegion := do
  let n ← (x.layerMap.map.get? e.1).elim (.error "KeyError") .ok
  let pair ← (x.layerMap.infos[n]?).elim (.error "IndexError") .ok
  let canonical ← ((canonicalByPair x.tech).get? pair).elim (.error "KeyError") .ok
  return ⟨{ id := n, canonical := canonical }, Shapes.regionToPb e.2 {}⟩

/-- The messages for one terminal definition, lvsdb_extractor.py 375–410.  For an unconnected terminal the log message
reads a field that a device message does not have (`d.name`), which raises. -/
def terminalsOf (x : Context) (d : DbDevice) (td : Nat × String) : Except String (List Terminal) :=
  match d.netFor td.1 with
  | none => .error "AttributeError"
  | some n =>
    (n.terminals.filter fun nt => nt.device == d.name && nt.terminal == td.1).mapM fun nt => do
      let regions ← nt.shapes.mapM (terminalRegion x)
      return ⟨d.id, td.1, td.2, n.name, regions⟩

/-- The message of one device, lvsdb_extractor.py 359–410. -/
def deviceOf (x : Context) (d : DbDevice) : Except String Device := do
  let ts ← d.terminals.mapM (terminalsOf x d)
  return ⟨d.id, d.name, d.className, d.abstractName, d.params, ts.flatten⟩

/-- `devices_by_name`, lvsdb_extractor.py 353–414. -/
def devicesByName (x : Context) (ds : List DbDevice) : Except String (Dict String Device) :=
  ds.foldlM (fun dd d => do return Dict.set dd d.name (← deviceOf x d)) []

end Verif.Lvs
