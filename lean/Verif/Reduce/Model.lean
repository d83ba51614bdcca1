import Verif.Netlist.Model
import Mathlib.Algebra.Order.Field.Rat

/-!
# Model of `klayout_pex/klayout/netlist_reducer.py` and `klayout_pex/klayout/netlist_csv.py`

A netlist is a list of named circuits.  Netlists are mutable objects: `Store` maps references to contents.
`combine_devices` (KLayout, merges parallel and serial devices) is a parameter.
-/

namespace Verif.Reduce

open Netlist

/-- A `kdb.Netlist`: circuits by name. -/
abbrev NL := List (String × Circuit)

/-- All netlist objects. -/
abbrev Store := Nat → NL

/-- `netlist.circuit_by_name(name)`. -/
def circuitByName (nl : NL) (name : String) : Option Circuit := (nl.find? fun p => p.1 = name).map Prod.snd

/-- Change the circuit that `circuitByName` finds. -/
def modifyCircuit (nl : NL) (name : String) (f : Circuit → Circuit) : NL :=
  match nl with
  | [] => []
  | p :: ps => if p.1 = name then (p.1, f p.2) :: ps else p :: modifyCircuit ps name f

/-- Devices with their object identity. -/
abbrev Tagged := List (Device × Nat)

/-- Body of the collecting loop, netlist_reducer.py 45–57. -/
def collectStep (thr : ℚ) (acc : List Nat) (d : Device × Nat) : Except String (List Nat) :=
  if d.1.kind.isCapacitor then
    match d.1.params.get? "C" with
    | none => .error "no parameter C"
    | some v => if v < thr then .ok (acc ++ [d.2]) else .ok acc
  else .ok acc

/-- `circuit.remove_device(d)`. -/
def removeDevice (ds : Tagged) (id : Nat) : Tagged := ds.filter fun d => d.2 ≠ id

/-- The two loops of `reduce` on the devices of the top circuit, netlist_reducer.py 43–61. -/
def dropSmall (thr : ℚ) (devs : List Device) : Except String (List Device) := do
  let ids ← devs.zipIdx.foldlM (collectStep thr) []
  return (ids.foldl removeDevice devs.zipIdx).map Prod.fst

/-- `NetlistReducer.reduce`, netlist_reducer.py 35–63; the new netlist object has the unused reference `fresh`. -/
def reduce (combine : NL → NL) (st : Store) (fresh netlist : Nat) (top : String) (thr : ℚ) : Except String (Store × Nat) :=
  let st := Function.update st fresh (st netlist)
  let st := Function.update st fresh (combine (st fresh))
  match circuitByName (st fresh) top with
  | none => .error "AttributeError"
  | some c => do
    let ds ← dropSmall thr c.devices
    return (Function.update st fresh (modifyCircuit (st fresh) top fun c => { c with devices := ds }), fresh)

/-- The default threshold `0.05e-15`, netlist_reducer.py 37. -/
def defaultThreshold : ℚ := 5 / 100000000000000000

/-! ### CSV -/

/-- A row of the CSV file, netlist_csv.py 39, 59. -/
structure Row where
  device : String
  net1 : String
  net2 : String
  femto : ℚ
deriving DecidableEq

/-- The net at a terminal; `None.name` is an `AttributeError`. -/
def netName (c : Circuit) (d : Device) (t : String) : Except String String :=
  match d.terms.get? t with
  | none => .error "AttributeError"
  | some n =>
    match c.nets[n]? with
    | none => .error "AttributeError"
    | some s => .ok s

/-- Body of the loop, netlist_csv.py 44–59; `round2` is `round(·, 2)`; a net is shown by the text kept for it. -/
def csvStep (round2 : ℚ → ℚ) (c : Circuit) (acc : List Row) (d : Device) : Except String (List Row) :=
  if d.kind.isCapacitor then
    if d.clsName ≠ "PEX_CAP" then .ok acc
    else
      match d.params.get? "C" with
      | none => .error "KeyError"
      | some cap => do
        let n1 ← netName c d "A"
        let n2 ← netName c d "B"
        return acc ++ [⟨d.name, n1, n2, round2 (cap * 1000000000000000)⟩]
  else .ok acc

/-- `NetlistCSVWriter.write_csv`, netlist_csv.py 34–59: the rows after the header. -/
def writeCsv (round2 : ℚ → ℚ) (nl : NL) (top : String) : Except String (List Row) :=
  match circuitByName nl top with
  | none => .error "AttributeError"
  | some c => c.devices.foldlM (csvStep round2 c) []

end Verif.Reduce
