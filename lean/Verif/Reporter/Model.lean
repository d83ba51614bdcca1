import Verif.Summary.Model
import Verif.RRequest.Model

/-!
# Model of `klayout_pex/rcx25/extraction_reporter.py`

A KLayout report is what the calls leave behind: the categories that were created, named by their path, and the shapes put
into them, in this order.  Nothing is assumed about how KLayout treats a second category with the same name under the same
parent; both have the same path.  `path` is KLayout's text for a path (`RdbCategory.path()`), the key of the counters.
Shapes of KLayout are values of an unspecified type `σ`.  The number formats are parameters.
-/

namespace Verif.Reporter

open Summary (OverlapCap SidewallCap SideOverlapCap CellResults)
open Lvs (Pin Terminal Device)
open Shapes (Polygon Pt)
open RRequest (RTech NetRequest Request)

/-- How numbers and paths are written: `str(round(x, 3))`, `str(round(x, 6))`, `str(x)` and `RdbCategory.path()`. -/
structure Text where
  round3 : ℚ → String
  round6 : ℚ → String
  num : ℚ → String
  path : List String → String

/-- The shapes of the report: shapes of KLayout that are passed through, the marker boxes, the arrows between two nodes and
the regions of a request. -/
inductive Shape (σ : Type) where
  | given (s : σ)
  | box (x1 y1 x2 y2 : ℤ)
  | arrow (a b : Pt)
  | region (ps : List Polygon)

/-- What happens to the report database: a category is created, or shapes are put into a category. -/
inductive Event (σ : Type) where
  | category (path : List String)
  | items (path : List String) (shapes : List (Shape σ))

/-- `ExtractionReporter`, extraction_reporter.py 47–56: the report, the counters (a `defaultdict(int)`), and the categories
that were already created as cached properties. -/
structure Report (σ : Type) where
  events : List (Event σ) := []
  counter : Dict String Nat := []
  cached : List (List String) := []

variable {σ : Type}

/-- `self.report.create_category(parent, name)`. -/
def create (r : Report σ) (path : List String) : Report σ := { r with events := r.events ++ [.category path] }

/-- A cached property, extraction_reporter.py 58–124: the category is created at the first use. -/
def cachedCat (r : Report σ) (path : List String) : Report σ :=
  if path ∈ r.cached then r else { create r path with cached := path :: r.cached }

/-- `self.category_name_counter[category.path()] += 1`. -/
def count (t : Text) (r : Report σ) (path : List String) : Report σ :=
  { r with counter := r.counter.upd (t.path path) 0 (· + 1) }

/-- `self.category_name_counter[category.path()]`. -/
def number (t : Text) (r : Report σ) (path : List String) : Nat := r.counter.getD (t.path path) 0

/-- `output_shapes`, extraction_reporter.py 129–138. -/
def outputShapes (r : Report σ) (path : List String) (shapes : List (Shape σ)) : Report σ :=
  let r := create r path
  { r with events := r.events ++ [.items path shapes] }

/-- `output_overlap`, extraction_reporter.py 140–160. -/
def outputOverlap (t : Text) (r : Report σ) (c : OverlapCap) (bottom top : σ) (area : List σ) : Report σ :=
  let p0 := ["[C] Overlap"]
  let p1 := p0 ++ ["top_layer=" ++ c.key.layerTop]
  let p2 := p1 ++ ["bot_layer=" ++ c.key.layerBot]
  let p3 := p2 ++ [c.key.netTop ++ " – " ++ c.key.netBot]
  let r := create (create (create (cachedCat r p0) p1) p2) p3
  let r := count t r p3
  let p4 := p3 ++ ["#" ++ toString (number t r p3) ++ " " ++ t.round3 c.capValue ++ " fF"]
  let r := create r p4
  let r := outputShapes r (p4 ++ ["Top Polygon"]) [.given top]
  let r := outputShapes r (p4 ++ ["Bottom Polygon"]) [.given bottom]
  outputShapes r (p4 ++ ["Overlap Area"]) (area.map .given)

/-- `output_sidewall`, extraction_reporter.py 162–181. -/
def outputSidewall (t : Text) (r : Report σ) (c : SidewallCap) (inside outside : σ) : Report σ :=
  let p0 := ["[C] Sidewall"]
  let p1 := p0 ++ ["layer=" ++ c.key.layer]
  let p2 := p1 ++ ["inside=" ++ c.key.net1]
  let p3 := p2 ++ ["outside=" ++ c.key.net2]
  let r := create (create (create (cachedCat r p0) p1) p2) p3
  let r := count t r p3
  outputShapes r (p3 ++ ["#" ++ toString (number t r p3) ++ ": len " ++ t.num c.length ++ " µm, distance " ++
    t.num c.distance ++ " µm, " ++ t.round3 c.capValue ++ " fF"]) [.given inside, .given outside]

/-- `output_sideoverlap`, extraction_reporter.py 183–212. -/
def outputSideoverlap (t : Text) (r : Report σ) (c : SideOverlapCap) (inside outside : σ) (shield : Option σ) : Report σ :=
  let p0 := ["[C] Fringe / Side Overlap"]
  let p1 := p0 ++ ["inside_layer=" ++ c.key.layerInside]
  let p2 := p1 ++ ["inside_net=" ++ c.key.netInside]
  let p3 := p2 ++ ["outside_layer=" ++ c.key.layerOutside]
  let p4 := p3 ++ ["outside_net=" ++ c.key.netOutside]
  let r := create (create (create (create (cachedCat r p0) p1) p2) p3) p4
  let r := count t r p4
  let p5 := p4 ++ ["#" ++ toString (number t r p4) ++ ": " ++ t.round3 c.capValue ++ " fF"]
  let r := create r p5
  let r := outputShapes r (p5 ++ ["Inside Edge"]) [.given inside]
  let r := outputShapes r (p5 ++ ["Outside Polygon"]) [.given outside]
  match shield with
  | none => r
  | some s => outputShapes r (p5 ++ ["Lateral Shield"]) [.given s]

/-- `output_edge_neighborhood`, extraction_reporter.py 214–239, used in debug mode only; the interval is given by its text.
`names[child] or 'None'`: the text for an empty layer name is `None`, too. -/
def outputNeighborhood (t : Text) (r : Report σ) (layer net : String) (names : List String) (edge : σ)
    (n : List (String × List (Nat × List σ))) : Report σ :=
  let p0 := ["[C] Edge Neighborhood Visitor"]
  let p1 := p0 ++ ["inside_layer=" ++ layer]
  let p2 := p1 ++ ["inside_net=" ++ net]
  n.foldl (fun r e =>
    let p3 := p2 ++ ["Edge Interval: " ++ e.1]
    let r := count t (create r p3) p3
    let p4 := p3 ++ ["#" ++ toString (number t r p3)]
    let r := outputShapes (create r p4) (p4 ++ ["Edge"]) [.given edge]
    e.2.foldl (fun r ch =>
      let name := names.getD ch.1 ""
      outputShapes r (p4 ++ ["Child " ++ toString ch.1 ++ ": " ++ if name = "" then "None" else name])
        (ch.2.map .given)) r) (create (create (cachedCat r p0) p1) p2)

/-! ### Recording and reporting -/

/-- What the visitors of the 2.5D extraction do with a capacitance, and the debug output of an edge. -/
inductive Act (σ : Type) where
  | overlap (c : OverlapCap) (bottom top : σ) (area : List σ)
  | sidewall (c : SidewallCap) (inside outside : σ)
  | sideoverlap (c : SideOverlapCap) (inside outside : σ) (shield : Option σ)
  | neighborhood (layer net : String) (names : List String) (edge : σ) (n : List (String × List (Nat × List σ)))

/-- The capacitance goes to the results and to the report: overlap_extractor.py 148–153,
sidewall_and_fringe_extractor.py 305–311 and 458–466; debug output: sidewall_and_fringe_extractor.py 158–163. -/
def act (t : Text) (s : CellResults × Report σ) : Act σ → CellResults × Report σ
  | .overlap c bottom top area => (s.1.addOverlapCap c, outputOverlap t s.2 c bottom top area)
  | .sidewall c inside outside => (s.1.addSidewallCap c, outputSidewall t s.2 c inside outside)
  | .sideoverlap c inside outside shield => (s.1.addSideoverlapCap c, outputSideoverlap t s.2 c inside outside shield)
  | .neighborhood layer net names edge n => (s.1, outputNeighborhood t s.2 layer net names edge n)

/-- The capacitance part of `extract_cell` on new results and a new report, extractor.py 85–135 and 170–195. -/
def acts (t : Text) (cell : String) (h : List (Act σ)) : CellResults × Report σ :=
  h.foldl (act t) ({ cellName := cell }, {})

/-! ### The resistor network -/

/-- `Location`, location.proto. -/
inductive Loc where
  | point (p : Pt)
  | box (x1 y1 x2 y2 : ℤ)
  | unspecified
deriving DecidableEq, Repr

/-- `RNode`, r_network.proto. -/
structure Node where
  id : Nat
  name : String
  net : String
  layer : String
  loc : Loc

/-- `RElement`, r_network.proto. -/
structure Element where
  a : Nat
  b : Nat
  resistance : ℚ

/-- `RNetwork`, r_network.proto. -/
structure Network where
  net : String
  nodes : List Node
  elements : List Element

/-- `marker_box_for_pb_point`, extraction_reporter.py 378–387. -/
def markerPoint (p : Pt) : ℤ × ℤ × ℤ × ℤ := (p.1 - 5, p.2 - 5, p.1 + 5, p.2 + 5)

/-- `marker_box_for_node_location`, extraction_reporter.py 389–399; `kdb.Box` orders the coordinates. -/
def marker : Loc → Except String (ℤ × ℤ × ℤ × ℤ)
  | .point p => .ok (markerPoint p)
  | .box x1 y1 x2 y2 => .ok (min x1 x2, min y1 y2, max x1 x2, max y1 y2)
  | .unspecified => .error "NotImplementedError"

/-- `Box.center()`; half a unit is rounded down. -/
def center (b : ℤ × ℤ × ℤ × ℤ) : Pt := (b.1 + (b.2.2.1 - b.1) / 2, b.2.1 + (b.2.2.2 - b.2.1) / 2)

/-- `output_node`, extraction_reporter.py 411–418. -/
def outputNode (r : Report σ) (category : List String) (n : Node) : Except String (Report σ) := do
  let b ← marker n.loc
  return outputShapes r (category ++ [n.name ++ ", port net " ++ n.net ++ ", layer " ++ n.layer])
    [.box b.1 b.2.1 b.2.2.1 b.2.2.2]

/-- The text of a resistance, extraction_reporter.py 427–430. -/
def ohms (t : Text) (x : ℚ) : String :=
  if x ≥ 1 / 1000 then t.round3 x ++ " Ω" else t.round6 (x * 1000) ++ " mΩ"

/-- `output_element`, extraction_reporter.py 420–436, with `marker_arrow_between_nodes`, 401–409. -/
def outputElement (t : Text) (byId : Dict Nat Node) (category : List String) (r : Report σ) (e : Element) :
    Except String (Report σ) := do
  let a ← (byId.get? e.a).elim (.error "KeyError") .ok
  let b ← (byId.get? e.b).elim (.error "KeyError") .ok
  let ba ← marker a.loc
  let bb ← marker b.loc
  return outputShapes r
    (category ++ [a.name ++ " (" ++ a.layer ++ ") ↔︎ " ++ b.name ++ " (" ++ b.layer ++ "): " ++ ohms t e.resistance])
    [.arrow (center ba) (center bb)]

/-- `output_rex_result_network`, extraction_reporter.py 360–371. -/
def outputNetwork (t : Text) (r : Report σ) (n : Network) : Except String (Report σ) := do
  let p0 := ["[R] Extraction Result"]
  let p1 := p0 ++ ["Networks"]
  let p2 := p1 ++ ["Net " ++ n.net]
  let r := create (cachedCat (cachedCat r p0) p1) p2
  let r := create (create r (p2 ++ ["Nodes"])) (p2 ++ ["Elements"])
  let r ← n.nodes.foldlM (fun r n => outputNode r (p2 ++ ["Nodes"]) n) r
  let byId : Dict Nat Node := n.nodes.foldl (fun d n => d.set n.id n) []
  n.elements.foldlM (outputElement t byId (p2 ++ ["Elements"])) r

/-- `output_rex_result`, extraction_reporter.py 373–376. -/
def outputResult (t : Text) (r : Report σ) (ns : List Network) : Except String (Report σ) :=
  ns.foldlM (outputNetwork t) r

/-! ### The request for the resistor extraction -/

/-- `output_rex_tech`, extraction_reporter.py 319–339. -/
def outputTech (t : Text) (r : Report σ) (x : RTech) : Except String (Report σ) := do
  let byId : Dict Nat Lvs.LayerRef := x.conductors.foldl (fun d c => d.set c.layer.id c.layer) []
  let p := ["[R] Extraction Request", "[R] Extraction Tech"]
  let r := cachedCat (cachedCat r ["[R] Extraction Request"]) p
  let r := create r (p ++ ["Skip simplify: " ++ if x.skipSimplify then "True" else "False"])
  let r := create (create r (p ++ ["Conductors"])) (p ++ ["Vias"])
  let r := x.conductors.foldl (fun r c => create r (p ++ ["Conductors", toString c.layer.id ++ ": " ++ c.layer.canonical ++
    " (LVS " ++ c.layer.lvsName ++ "), " ++ t.round3 c.resistance ++ " mΩ/µm^2"])) r
  x.vias.foldlM (fun r v => do
    let bot ← (byId.get? v.bottom).elim (.error "KeyError") .ok
    let top ← (byId.get? v.top).elim (.error "KeyError") .ok
    return create r (p ++ ["Vias", toString v.layer.id ++ ": " ++ v.layer.canonical ++ " (LVS " ++ v.layer.lvsName ++ ", " ++
      bot.canonical ++ "↔︎" ++ top.canonical ++ "), " ++ t.round3 v.resistance ++ " mΩ/µm^2"])) r

/-- `output_device_terminals`, extraction_reporter.py 246–257; `norm` is the constructor of `kdb.Polygon`. -/
def outputTerminals (norm : List Pt → List Pt) (r : Report σ) (ts : List Terminal) (category : List String) : Report σ :=
  ts.foldl (fun r s => s.regions.foldl (fun r l =>
    outputShapes r (category ++ [s.name ++ ": net " ++ s.net ++ ", layer " ++ l.layer.canonical])
      [.region (Shapes.klayoutRegion norm l.region)]) r) r

/-- `output_device`, extraction_reporter.py 259–270. -/
def outputDevice (t : Text) (norm : List Pt → List Pt) (r : Report σ) (d : Device) : Report σ :=
  let p0 := ["[R] Extraction Request", "Devices"]
  let r := cachedCat (cachedCat r ["[R] Extraction Request"]) p0
  let p := p0 ++ [d.name ++ ": " ++ d.className]
  let r := create (create r p) (p ++ ["Params"])
  let r := d.params.foldl (fun r q => create r (p ++ ["Params", q.2.1 ++ ": " ++ t.num q.2.2])) r
  outputTerminals norm (create r (p ++ ["Terminals"])) d.terminals (p ++ ["Terminals"])

/-- `output_pins` and `output_pb_pin`, extraction_reporter.py 272–283. -/
def outputPins (r : Report σ) (pins : List Pin) (category : List String) : Report σ :=
  pins.foldl (fun r q =>
    let p := category ++ [q.label ++ " (net " ++ q.net ++ " on layer " ++ q.layer.canonical ++ ")"]
    let b := markerPoint q.point
    outputShapes (create r p) (p ++ ["label point"]) [.box b.1 b.2.1 b.2.2.1 b.2.2.2]) r

/-- `output_net_extraction_request`, extraction_reporter.py 341–350. -/
def outputNetRequest (norm : List Pt → List Pt) (r : Report σ) (q : String × NetRequest) : Report σ :=
  let p0 := ["[R] Extraction Request", "Network Extraction Request"]
  let r := cachedCat (cachedCat r ["[R] Extraction Request"]) p0
  let p := p0 ++ ["Net " ++ q.1]
  let r := create (create (create (create r p) (p ++ ["Pins"])) (p ++ ["Device Terminals"])) (p ++ ["Layer Regions"])
  let r := outputPins r q.2.pins (p ++ ["Pins"])
  let r := outputTerminals norm r q.2.terminals (p ++ ["Device Terminals"])
  q.2.regions.foldl (fun r l => outputShapes r (p ++ ["Layer Regions", "Layer " ++ l.layer.canonical])
    [.region (Shapes.klayoutRegion norm l.region)]) r

/-- `output_rex_request`, extraction_reporter.py 352–358. -/
def outputRequest (t : Text) (norm : List Pt → List Pt) (r : Report σ) (q : Request) : Except String (Report σ) := do
  let r ← outputTech t r q.tech
  let r := q.devices.foldl (outputDevice t norm) r
  let r := cachedCat (cachedCat r ["[R] Extraction Request"]) ["[R] Extraction Request", "Pins"]
  let r := outputPins r q.pins ["[R] Extraction Request", "Pins"]
  return q.nets.foldl (outputNetRequest norm) r

end Verif.Reporter
