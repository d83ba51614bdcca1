import Mathlib.Data.Rat.Defs
import Verif.Common.PyDict
import Verif.Common.PyStr

/-!
# Model of `klayout_pex/netlistsvg/netlist_json.py`

The JSON document is modelled by its ports and cells.  The texts of values (`round(…, 3)` of a number) are an arbitrary
function of the number.
-/

namespace Verif.NetJson

/-- A net: `expanded_name()` and `name`. -/
structure Net where
  expanded : Str
  name : Str
deriving DecidableEq

/-- `net.expanded_name() or net.name`, netlist_json.py 43. -/
def Net.key (n : Net) : Str := if n.expanded = [] then n.name else n.expanded

/-- The writer's state, netlist_json.py 38–40. -/
structure Writer where
  nextId : Nat := 0
  ids : Dict Str Nat := []

/-- `_get_or_create_id`, netlist_json.py 42–49. -/
def Writer.getId (w : Writer) (n : Net) : Writer × Nat :=
  match w.ids.get? n.key with
  | some i => (w, i)
  | none => (⟨w.nextId + 1, w.ids.set n.key w.nextId⟩, w.nextId)

/-- A pin of the circuit; `net` is `None` if it is not connected. -/
structure Pin where
  name : Str
  net : Option Net

/-- A subcircuit instance: the name and cell index of the circuit, and for each pin its id and the net. -/
structure Sub where
  name : Str
  cellIndex : Nat
  pins : List (Nat × Option Net)

inductive Kind where
  | cap | res | other
deriving DecidableEq

/-- A device: class, `expanded_name() or name`, the nets of the terminals A and B, and its capacitance or resistance. -/
structure Device where
  kind : Kind
  name : Str
  a : Option Net
  b : Option Net
  value : ℚ

structure Circuit where
  pins : List Pin
  subs : List Sub
  devices : List Device

/-- A cell of the document: type, connections and value. -/
structure Cell where
  type : Str
  connections : Dict Str Nat
  value : Str
deriving DecidableEq

structure Json where
  ports : Dict Str Nat
  cells : Dict Str Cell
deriving DecidableEq

/-- `dict_for_ports`, netlist_json.py 51–63 (`bits` has one entry; `direction` is constant). -/
def ports (w : Writer) (d : Dict Str Nat) : List Pin → Except String (Writer × Dict Str Nat)
  | [] => .ok (w, d)
  | p :: ps =>
    match p.net with
    | none => .error "AttributeError"
    | some n => ports (w.getId n).1 (d.set p.name (w.getId n).2) ps

/-- The loop over the pins of a subcircuit, netlist_json.py 81–87. -/
def conns (w : Writer) (d : Dict Str Nat) : List (Nat × Option Net) → Except String (Writer × Dict Str Nat)
  | [] => .ok (w, d)
  | p :: ps =>
    match p.2 with
    | none => .error "AttributeError"
    | some n => conns (w.getId n).1 (d.set ((toString p.1).toList ++ '=' :: n.expanded) (w.getId n).2) ps

/-- The loop over the subcircuits, netlist_json.py 75–97. -/
def subs (w : Writer) (d : Dict Str Cell) : List Sub → Except String (Writer × Dict Str Cell)
  | [] => .ok (w, d)
  | s :: ss =>
    match conns w [] s.pins with
    | .error m => .error m
    | .ok (w', c) => subs w' (d.set (s.name ++ (toString s.cellIndex).toList) ⟨'$' :: s.name, c, []⟩) ss

/-- The loop over the devices, netlist_json.py 99–138. -/
def devices (capText resText : ℚ → Str) (w : Writer) (d : Dict Str Cell) : List Device → Except String (Writer × Dict Str Cell)
  | [] => .ok (w, d)
  | x :: xs =>
    match x.kind, x.a, x.b with
    | .other, _, _ => .error "NotImplementedError"
    | .cap, some a, some b =>
      let r := w.getId a
      let r' := r.1.getId b
      devices capText resText r'.1 (d.set ('C' :: x.name)
        ⟨"c_v".toList, Dict.ofList [("A".toList, r.2), ("B".toList, r'.2)], capText (x.value * 10 ^ 15) ++ "f".toList⟩) xs
    | .res, some a, some b =>
      let r := w.getId a
      let r' := r.1.getId b
      devices capText resText r'.1 (d.set ('R' :: x.name)
        ⟨"r_v".toList, Dict.ofList [("A".toList, r.2), ("B".toList, r'.2)], resText x.value⟩) xs
    | _, _, _ => .error "AttributeError"

/-- The loop over the ground names, netlist_json.py 140–158. -/
def grounds (w : Writer) (k : Nat) (d : Dict Str Cell) : List Str → Dict Str Cell
  | [] => d
  | g :: gs =>
    match w.ids.get? g with
    | none => grounds w k d gs
    | some i => grounds w (k + 1)
        (d.set ("gnd".toList ++ if k = 0 then [] else (toString k).toList) ⟨"gnd".toList, Dict.ofList [("A".toList, i)], g⟩) gs

/-- `netlist_json_dict`, netlist_json.py 162–173 (with `dict_for_cells` 65–160). -/
def netlistJson (capText resText : ℚ → Str) (c : Circuit) : Except String Json :=
  match ports {} [] c.pins with
  | .error m => .error m
  | .ok (w1, p) =>
    match subs w1 [] c.subs with
    | .error m => .error m
    | .ok (w2, d2) =>
      match devices capText resText w2 d2 c.devices with
      | .error m => .error m
      | .ok (w3, d3) => .ok ⟨p, grounds w3 0 d3 ["VSUBS".toList, "GND".toList]⟩

end Verif.NetJson
