import Verif.Common.PyDict
import Mathlib.Algebra.Order.Ring.Rat

/-!
# Netlists as the code uses them (`kdb.Netlist`, `kdb.Circuit`, `kdb.Net`, `kdb.Device`)

`kdb` objects are external.  Only the top circuit is represented: the code does not touch the other circuits.

* The identity of a `kdb.Net` is its position in the net list of the circuit; `create_net` appends.  The text stored
  for a net is its `expanded_name()`.
* A device has the kind of its device class (the `kdb.DeviceClass…` Python class), the name of that class, its own name,
  its terminals (by net identity) and its parameters.  `create_device` appends.
* `netlist.dup()` is the identity, because values are immutable in the model: every function returns a new circuit and
  the caller's circuit is not changed.
-/

namespace Verif.Netlist

/-- The `kdb.DeviceClass…` classes that the code distinguishes. -/
inductive Kind where
  | resistor | resistorWithBulk | capacitor | capacitorWithBulk | inductor
  | bjt3 | bjt4 | diode | mos3 | mos4 | other
deriving DecidableEq, Repr

/-- `isinstance(dc, kdb.DeviceClassCapacitor)`: the class with bulk terminal derives from the one without. -/
def Kind.isCapacitor : Kind → Bool
  | .capacitor | .capacitorWithBulk => true
  | _ => false

/-- `isinstance(dc, kdb.DeviceClassResistor)`. -/
def Kind.isResistor : Kind → Bool
  | .resistor | .resistorWithBulk => true
  | _ => false

/-- A device. -/
structure Device where
  kind : Kind
  clsName : String
  name : String
  terms : Dict String Nat := []
  params : Dict String ℚ := []
deriving DecidableEq, Repr

/-- `device.connect_terminal(t, net)`. -/
def Device.connect (d : Device) (t : String) (n : Nat) : Device := { d with terms := d.terms.set t n }

/-- `device.set_parameter(p, v)`. -/
def Device.setParam (d : Device) (p : String) (v : ℚ) : Device := { d with params := d.params.set p v }

/-- The top circuit. -/
structure Circuit where
  nets : List String
  devices : List Device
deriving DecidableEq, Repr

/-- `circuit.create_net(name)`. -/
def Circuit.createNet (c : Circuit) (name : String) : Circuit × Nat :=
  ({ c with nets := c.nets ++ [name] }, c.nets.length)

/-- `{n.expanded_name(): n for n in top_circuit.each_net()}`. -/
def Circuit.name2net (c : Circuit) : Dict String Nat := Dict.ofList c.nets.zipIdx

/-- A new two-terminal device, as created by `create_device` and the following `connect_terminal`/`set_parameter`. -/
def twoTerminal (k : Kind) (cls name : String) (a b : Nat) (p : String) (v : ℚ) : Device :=
  (((Device.mk k cls name [] []).connect "A" a).connect "B" b).setParam p v

end Verif.Netlist
