import Verif.Netlist.Model
import Mathlib.Algebra.BigOperators.Group.List.Basic

/-!
# Model of `klayout_pex/klayout/netlist_expander.py` (`NetlistExpander.expand`)

Capacitances are rationals.  Removal of devices while `each_device` is being iterated (lines 48–51) is modelled as
removal of all devices; what KLayout's iterator really does when the current element is deleted is outside of the model.
-/

namespace Verif.Maxwell

open Netlist

/-- `CapacitanceMatrix`, common/capacitance_matrix.py 31–34. -/
structure CapMatrix where
  names : List String
  rows : List (List ℚ)

/-- `CapacitanceMatrix.dimension`, common/capacitance_matrix.py 42–44. -/
def CapMatrix.dimension (m : CapMatrix) : Nat := m.names.length

/-- The part of the name after `g<digits>_`, i.e. group 1 of `re.compile(r'^g\d+_(.*)$').match(nn)`, netlist_expander.py
67–70.  `\d` is taken as an ASCII digit.  `.` does not match a line feed and `$` also matches before a final one. -/
def axisName (nn : String) : Option String :=
  match nn.toList with
  | 'g' :: cs =>
    match cs.dropWhile Char.isDigit with
    | '_' :: rest =>
      if (cs.takeWhile Char.isDigit).isEmpty then none
      else if rest.dropWhile (· != '\n') = [] ∨ rest.dropWhile (· != '\n') = ['\n'] then
        some (String.ofList (rest.takeWhile (· != '\n')))
      else none
    | _ => none
  | _ => none

/-- netlist_expander.py 68–74 for one axis; `m.group(1)` on a missing match is an `AttributeError`. -/
def axisNet (name2net : Dict String Nat) (nn : String) : Except String Nat :=
  match axisName nn with
  | none => .error "AttributeError"
  | some s =>
    match name2net.get? s with
    | none => .error "No net found"
    | some n => .ok n

/-- The name `Cext_{i}_{j}`, netlist_expander.py 84. -/
def capName (i j : Nat) : String := "Cext_" ++ toString i ++ "_" ++ toString j

/-- The capacitor of netlist_expander.py 84–87. -/
def capDevice (i j n1 n2 : Nat) (v : ℚ) : Device :=
  twoTerminal .capacitor "PEX_CAP" (capName i j) n1 n2 "C" v

/-- `add_parasitic_cap`, netlist_expander.py 78–93 (with `cap_threshold = 0.0`). -/
def addParasiticCap (ds : List Device) (i j n1 n2 : Nat) (v : ℚ) : Except String (List Device) :=
  if v > 0 then
    if n1 = n2 then .error "Invalid attempt to create cap between same net"
    else .ok (ds ++ [capDevice i j n1 n2 v])
  else .ok ds

/-- `l[i]` for a list index that must exist. -/
def index {α : Type} (l : List α) (i : Nat) : Except String α :=
  match l[i]? with
  | some x => .ok x
  | none => .error "IndexError"

/-- Body of the inner loop, netlist_expander.py 110–118; the state is `cap_ii` and the devices. -/
def innerStep (nets : List Nat) (row : List ℚ) (i : Nat) (st : ℚ × List Device) (j : Nat) :
    Except String (ℚ × List Device) :=
  if i = j then .ok st
  else do
    let rj ← index row j
    let v := -rj
    let cii := st.1 - v
    if j > i then
      let ds ← addParasiticCap st.2 i j (← index nets i) (← index nets j) v
      return (cii, ds)
    else return (cii, st.2)

/-- Body of the outer loop, netlist_expander.py 107–122. -/
def outerStep (m : CapMatrix) (nets : List Nat) (ds : List Device) (i : Nat) : Except String (List Device) := do
  let row ← index m.rows i
  let cii ← index row i
  let st ← (List.range m.dimension).foldlM (innerStep nets row i) (cii, ds)
  if i > 0 then addParasiticCap st.2 i i (← index nets i) (← index nets 0) st.1
  else return st.2

/-- The 0 Ω resistors of netlist_expander.py 138–146. -/
def shortDevice (name : String) (a b : Nat) : Device := twoTerminal .resistor "PEX_RES" name a b "R" 0

/-- netlist_expander.py 47–60: the devices are dropped and the nets `FC_GND` and `VSUBS` are created. -/
def prepare (c : Circuit) (blackbox : Bool) : Circuit :=
  let c := if blackbox then c else { c with devices := [] }
  ((c.createNet "FC_GND").1.createNet "VSUBS").1

/-- `NetlistExpander.expand`, netlist_expander.py 40–148. -/
def expand (c : Circuit) (m : CapMatrix) (blackbox : Bool) : Except String Circuit := do
  let c1 := prepare c blackbox
  let fcGnd := c.nets.length
  let vsubs := c.nets.length + 1
  let tbl := c1.name2net
  let nets ← m.names.mapM (axisNet tbl)
  let ds ← (List.range m.dimension).foldlM (outerStep m nets) c1.devices
  let c2 : Circuit := { c1 with devices := ds }
  let (c3, gnd) := match tbl.get? "GND" with
    | some g => (c2, g)
    | none => c2.createNet "GND"
  return { c3 with devices := c3.devices ++ [shortDevice "Rext_FC_GND_GND" fcGnd gnd, shortDevice "Rext_VSUBS_GND" vsubs gnd] }

end Verif.Maxwell
