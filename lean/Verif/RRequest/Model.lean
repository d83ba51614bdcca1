import Verif.Lvs.Model

/-!
# Model of `klayout_pex/rcx25/r/r_extractor.py`

The request is built from the extraction context of `Verif.Lvs`.  KLayout's resistor extractor is external: its inputs are
computed here, its output (nodes and elements of a network) is given.
-/

namespace Verif.RRequest

open TechInfo (Tech GDSPair Kind Purpose Contact computedByPair canonicalByPair layerResistance contactByName
  contactResistance viaResistance bottomTopByVia gdsPair substrateName milliohmToOhm contactOhmBySquare viaOhmBySquare)
open Shapes (Polygon PolygonPb Pt RegionPb regionToPb klayoutPolygon klayoutRegion)
open Lvs (Context Env ExtractedLayer Merged LayerRef LayerRegion Pin Terminal Device pinsByLayer devicesByName DbDevice
  shapesOfNet)

/-- `RExtractorTech.Algorithm`, r_extractor_tech.proto. -/
inductive Algorithm where
  | squareCounting | tesselation
deriving DecidableEq, Repr

/-- The parameters of `RExtractor.__init__`, r_extractor.py 52–79. -/
structure Config where
  substrateAlgorithm : Algorithm
  wireAlgorithm : Algorithm
  delaunayB : ℚ
  delaunayAmax : ℚ
  viaMergeDistance : ℚ
  skipSimplify : Bool

/-- `RExtractorTech.Conductor`, r_extractor_tech.proto. -/
structure Conductor where
  layer : LayerRef
  algorithm : Algorithm
  minB : ℚ
  maxArea : ℚ
  resistance : ℚ
deriving DecidableEq

/-- `RExtractorTech.Via`, r_extractor_tech.proto, with the proto3 defaults; of the conductors only the id is ever set. -/
structure Via where
  layer : LayerRef := {}
  bottom : Nat := 0
  top : Nat := 0
  resistance : ℚ := 0
  mergeDistance : ℚ := 0
deriving DecidableEq

/-- `RExtractorTech`, r_extractor_tech.proto. -/
structure RTech where
  skipSimplify : Bool := false
  conductors : List Conductor := []
  vias : List Via := []
deriving DecidableEq

/-- The conductor of a source layer of an implant, r_extractor.py 117–127. -/
def implantConductor (v : Env) (cfg : Config) (canonical : String) (s : ExtractedLayer) : Conductor :=
  { layer := ⟨v.layerOf s.pair, canonical, s.name⟩, algorithm := cfg.substrateAlgorithm, minB := cfg.delaunayB
    maxArea := cfg.delaunayAmax, resistance := 0 }

/-- The conductor of a source layer of a metal, r_extractor.py 135–148: reading the resistance of `None` fails. -/
def metalConductor (t : Tech) (v : Env) (cfg : Config) (canonical : String) (s : ExtractedLayer) :
    Except String Conductor := do
  let r ← ((layerResistance t).get? canonical).elim (.error "AttributeError") .ok
  return { layer := ⟨v.layerOf s.pair, canonical, s.name⟩
           algorithm := if canonical = substrateName then cfg.substrateAlgorithm else cfg.wireAlgorithm
           minB := cfg.delaunayB, maxArea := cfg.delaunayAmax, resistance := milliohmToOhm r.resistance }

/-- The via of a source layer of a contact layer, r_extractor.py 152–183; unpacking a pair that is `None` fails. -/
def contactVia (t : Tech) (v : Env) (cfg : Config) (canonical : String) (s : ExtractedLayer) :
    Except String (List Via) :=
  match (contactByName t).get? s.name with
  | none => .ok []
  | some contact =>
    match (contactResistance t).get? contact.layerBelow with
    | none => .ok []
    | some cr => do
      let bot ← (gdsPair t contact.layerBelow).elim (.error "TypeError") .ok
      let top ← (gdsPair t contact.metalAbove).elim (.error "TypeError") .ok
      return [{ layer := ⟨v.layerOf s.pair, canonical, s.name⟩, bottom := v.layerOf bot, top := v.layerOf top
                resistance := contactOhmBySquare contact cr, mergeDistance := cfg.viaMergeDistance }]

/-- The via of a source layer of a via layer, r_extractor.py 191–217: the entry is added before the lookup of the bottom
and top layer. -/
def viaVia (t : Tech) (v : Env) (cfg : Config) (canonical : String) (r : TechInfo.ViaResistance) (s : ExtractedLayer) :
    Except String Via :=
  match (bottomTopByVia t).get? s.name with
  | none => .ok {}
  | some bt => do
    let bot ← (gdsPair t bt.1).elim (.error "TypeError") .ok
    let top ← (gdsPair t bt.2).elim (.error "TypeError") .ok
    let contact ← ((contactByName t).get? s.name).elim (.error "KeyError") .ok
    return { layer := ⟨v.layerOf s.pair, canonical, s.name⟩, bottom := v.layerOf bot, top := v.layerOf top
             resistance := viaOhmBySquare contact r, mergeDistance := cfg.viaMergeDistance }

/-- The entries for the source layers of a known, non-pin layer, r_extractor.py 105–217. -/
def purposeEntries (t : Tech) (v : Env) (cfg : Config) (p : Purpose) (canonical : String) (ss : List ExtractedLayer) :
    Except String RTech :=
  match p with
  | .nImplant => .ok { conductors := ss.map (implantConductor v cfg canonical) }
  | .pImplant => .ok { conductors := ss.map (implantConductor v cfg canonical) }
  | .metal => do return { conductors := ← ss.mapM (metalConductor t v cfg canonical) }
  | .contact => do return { vias := (← ss.mapM (contactVia t v cfg canonical)).flatten }
  | .via =>
    match (viaResistance t).get? canonical with
    | none => .ok {}
    | some r => do return { vias := ← ss.mapM (viaVia t v cfg canonical r) }
  | .nwell => .ok {}
  | .other => .ok {}

/-- The entries of one extracted layer, r_extractor.py 94–217. -/
def layerEntries (t : Tech) (v : Env) (cfg : Config) (e : GDSPair × Merged) : Except String RTech :=
  match (computedByPair t).get? e.1 with
  | none => .ok {}
  | some c => do
    let canonical ← ((canonicalByPair t).get? e.1).elim (.error "KeyError") .ok
    if c.kind = .pin then return {}
    else purposeEntries t v cfg c.info.purpose canonical e.2.sources

/-- `prepare_r_extractor_tech_pb`, r_extractor.py 83–219. -/
def prepareTech (x : Context) (v : Env) (cfg : Config) : Except String RTech := do
  let parts ← x.layers.extracted.mapM (layerEntries x.tech v cfg)
  return { skipSimplify := cfg.skipSimplify, conductors := parts.flatMap (·.conductors), vias := parts.flatMap (·.vias) }

/-! ### Request -/

/-- `RNetExtractionRequest`, pex_request.proto (the net name is the key of the dictionary of requests). -/
structure NetRequest where
  terminals : List Terminal := []
  pins : List Pin := []
  regions : List LayerRegion := []
deriving DecidableEq

/-- `RExtractionRequest`, pex_request.proto; the list of net requests is in the order of the dictionary
`net_request_by_name`, which holds the same messages. -/
structure Request where
  tech : RTech
  devices : List Device
  pins : List Pin
  nets : Dict String NetRequest

/-- `get_or_create_net_request`, r_extractor.py 236–242, followed by an update of the message. -/
def addTo (d : Dict String NetRequest) (net : String) (f : NetRequest → NetRequest) : Dict String NetRequest :=
  Dict.upd d net {} f

/-- Adding a region to the request of a net, r_extractor.py 269–274.  `emptyFalse` tells whether an empty region counts as
false in Python; both cases are covered. -/
def addRegion (x : Context) (v : Env) (emptyFalse : Bool) (net : String) (pair : GDSPair) (s : ExtractedLayer)
    (d : Dict String NetRequest) (r : List Polygon) : Except String (Dict String NetRequest) :=
  if emptyFalse && r.isEmpty then .ok d
  else do
    let canonical ← ((canonicalByPair x.tech).get? pair).elim (.error "KeyError") .ok
    return addTo d net fun q =>
      { q with regions := q.regions ++ [⟨⟨v.layerOf pair, canonical, s.name⟩, regionToPb r {}⟩] }

/-- The kinds of layers whose shapes are requested, r_extractor.py 263–266. -/
def hasShapes : Kind → Bool
  | .regular => true
  | .deviceCapacitor => true
  | .deviceResistor => true
  | .pin => false
  | .unspecified => false
  | .label => false

/-- The shapes of a net on a source layer, r_extractor.py 262–274. -/
def netShapes (x : Context) (v : Env) (emptyFalse : Bool) (net : String) (pair : GDSPair) (s : ExtractedLayer)
    (d : Dict String NetRequest) : Except String (Dict String NetRequest) :=
  match (computedByPair x.tech).get? s.pair with
  | none => .error "KeyError"
  | some li =>
    if hasShapes li.kind then do
      let r ← shapesOfNet x s.pair net
      r.elim (.ok d) (addRegion x v emptyFalse net pair s d)
    else .ok d

/-- `prepare_request`, r_extractor.py 221–275; `nets` are the names of the nets of the circuit with the name of the top
cell, or none if there is no such circuit. -/
def prepareRequest (x : Context) (v : Env) (cfg : Config) (emptyFalse : Bool) (ds : List DbDevice)
    (nets : Option (List String)) : Except String Request := do
  let tech ← prepareTech x v cfg
  let devices ← devicesByName x ds
  let pinsBy ← pinsByLayer x v
  let pins := pinsBy.values.flatten
  let d : Dict String NetRequest := pins.foldl (fun d p => addTo d p.net fun q => { q with pins := q.pins ++ [p] }) []
  let d := devices.values.foldl (fun d dev => dev.terminals.foldl (fun d t =>
    addTo d t.net fun q => { q with terminals := q.terminals ++ [t] }) d) d
  let nets ← nets.elim (.error "Exception") .ok
  let d ← nets.foldlM (fun d net => x.layers.extracted.foldlM (fun d e =>
    e.2.sources.foldlM (fun d s => netShapes x v emptyFalse net e.1 s d) d) d) d
  return ⟨tech, devices.values, pins, d⟩

/-! ### Extraction -/

/-- The arguments of `RNetExtractor.extract` and the tables of the ports, r_extractor.py 300–327. -/
structure RexInput where
  regions : Dict Nat (List Polygon) := []
  vertexPorts : Dict Nat (List Pt) := []
  polygonPorts : Dict Nat (List Polygon) := []
  vertexPins : Dict Nat (List (String × String)) := []
  polygonTerminals : Dict Nat (List Terminal) := []

/-- The terminals of a net, r_extractor.py 306–311. -/
def terminalPorts (norm : List Pt → List Pt) (ts : List Terminal) : List (Nat × Polygon × Terminal) :=
  ts.flatMap fun t => t.regions.flatMap fun r => r.region.polygons.map fun p => (r.layer.id, klayoutPolygon norm p, t)

/-- Inputs for the extraction of one net, r_extractor.py 300–327; `norm` is the constructor of `kdb.Polygon`. -/
def rexInput (norm : List Pt → List Pt) (q : NetRequest) : RexInput :=
  { polygonPorts := groupBy (·.1) (·.2.1) (terminalPorts norm q.terminals)
    polygonTerminals := groupBy (·.1) (·.2.2) (terminalPorts norm q.terminals)
    vertexPorts := groupBy (·.layer.id) (·.point) q.pins
    vertexPins := groupBy (·.layer.id) (fun p => (p.label, p.net)) q.pins
    regions := q.regions.foldl (fun d r => d.set r.layer.id (klayoutRegion norm r.region)) [] }

/-- `layer_names`, r_extractor.py 289–296. -/
def layerNames (t : RTech) : Dict Nat String :=
  t.vias.foldl (fun d v => d.set v.layer.id v.layer.canonical)
    (t.conductors.foldl (fun d c => d.set c.layer.id c.layer.canonical) [])

/-- The kinds of nodes of KLayout's network. -/
inductive NodeType where
  | internal | vertexPort | polygonPort
deriving DecidableEq, Repr

/-- A node of KLayout's network (its location is passed through and left out). -/
structure KNode where
  id : Nat
  name : String
  layer : Nat
  type : NodeType
  port : Nat

/-- An element of KLayout's network. -/
structure KElement where
  id : Nat
  a : Nat
  b : Nat
  resistance : ℚ

/-- A node of the result, r_network.proto. -/
structure ResNode where
  id : Nat
  name : String
  net : String
  layer : String
deriving DecidableEq, Repr

/-- A network of the result, r_network.proto. -/
structure ResNetwork where
  net : String
  nodes : List ResNode
  elements : List (Nat × Nat × Nat × ℚ)

/-- The net of a node, r_extractor.py 358–369; the port tables are `defaultdict`s, so an unknown layer gives an empty
list. -/
def nodeNet (i : RexInput) (n : KNode) : Except String String :=
  match n.type with
  | .vertexPort => (((i.vertexPins.getD n.layer [])[n.port]?).map Prod.snd).elim (.error "IndexError") .ok
  | .polygonPort => (((i.polygonTerminals.getD n.layer [])[n.port]?).map Terminal.net).elim (.error "IndexError") .ok
  | .internal => .ok n.name

/-- A node of the result, r_extractor.py 332–371. -/
def resNode (t : RTech) (i : RexInput) (n : KNode) : Except String ResNode := do
  let layer ← ((layerNames t).get? n.layer).elim (.error "KeyError") .ok
  let net ← nodeNet i n
  return ⟨n.id, n.name, net, layer⟩

/-- The result for one net, r_extractor.py 329–378; `out` is KLayout's network for the inputs. -/
def resNetwork (t : RTech) (norm : List Pt → List Pt) (rex : RexInput → List KNode × List KElement)
    (e : String × NetRequest) : Except String ResNetwork := do
  let i := rexInput norm e.2
  let nodes ← (rex i).1.mapM (resNode t i)
  return ⟨e.1, nodes, (rex i).2.map fun el => (el.id, el.a, el.b, el.resistance)⟩

/-- `extract`, r_extractor.py 278–380. -/
def extract (norm : List Pt → List Pt) (rex : RexInput → List KNode × List KElement) (q : Request) :
    Except String (List ResNetwork) := q.nets.mapM (resNetwork q.tech norm rex)

end Verif.RRequest
