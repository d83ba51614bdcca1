import Verif.Common.PyDict
import Mathlib.Algebra.Order.Ring.Rat
import Mathlib.Algebra.Order.Field.Rat
import Mathlib.Algebra.BigOperators.Group.List.Basic
import Mathlib.Data.List.Sort
import Mathlib.Logic.Function.Basic

/-!
# Model of `klayout_pex/rcx25/r/conductance.py` and `klayout_pex/rcx25/r/resistor_network.py`

`Conductance` objects are mutable and compared by identity in Python.  They live in a heap (`heap`), a `Ref` is the
object's identity.  Floats are rationals.  A Python exception is a value of `Except`; the partially updated state at the
moment of the exception is not represented.
-/

namespace Verif.RNet

/-! ## conductance.py -/

/-- The numerical threshold `1e-10` of conductance.py 54 and resistor_network.py 257. -/
def tiny : ℚ := 1 / 10000000000

/-- Value computed by `Conductance.add_parallel`, conductance.py 46–48. -/
def parallelC (a b : ℚ) : ℚ := a + b

/-- Value computed by `Conductance.add_serial`, conductance.py 53–58. -/
def serialC (a b : ℚ) : ℚ :=
  if |a| < tiny ∨ |b| < tiny then 0 else 1 / (1 / a + 1 / b)

/-- Identity of a `Conductance` object. -/
abbrev Ref := Nat

/-- The heap of `Conductance` objects: the current `cond` of every object. -/
abbrev Heap := Ref → ℚ

/-- `a.add_parallel(b)`, conductance.py 46–48: updates the receiver in place. -/
def Heap.addParallel (h : Heap) (a b : Ref) : Heap := Function.update h a (parallelC (h a) (h b))

/-- `a.add_serial(b)`, conductance.py 53–58: updates the receiver in place. -/
def Heap.addSerial (h : Heap) (a b : Ref) : Heap := Function.update h a (serialC (h a) (h b))

/-- `a.parallel(b)`, conductance.py 50–51 with `copy` 43–44: `fresh` is the identity of the copy, which is returned. -/
def Heap.parallel (h : Heap) (fresh a b : Ref) : Heap := Heap.addParallel (Function.update h fresh (h a)) fresh b

/-- `a.serial(b)`, conductance.py 60–61 with `copy` 43–44. -/
def Heap.serial (h : Heap) (fresh a b : Ref) : Heap := Heap.addSerial (Function.update h fresh (h a)) fresh b

/-! ## resistor_network.py -/

/-- `kdb.Point`: integer coordinates. -/
abbrev Point := ℤ × ℤ

/-- One entry `(Conductance, NodeID)` of a star list. -/
abbrev Entry := Ref × Nat

/-- `ResistorNetwork`, resistor_network.py 42–67, together with the heap of conductances and its allocation counter. -/
structure Net where
  nodes : Dict Point Nat := []
  locations : Dict Nat Point := []
  s : Dict (Nat × Nat) Ref := []
  nodeToS : Dict Nat (List Entry) := []
  nextId : Nat := 0
  precious : List Nat := []
  nodeNames : Dict Nat String := []
  heap : Heap := fun _ => 0
  nextRef : Ref := 0

/-- `ResistorNetwork.check`, resistor_network.py 134–175: number of errors found (the logging is not modelled; the
sorting does not influence the count). -/
def Net.check (n : Net) : Nat :=
  (n.locations.map fun kv => if n.nodes.has kv.2 then 0 else 1).sum
  + (n.nodes.map fun kv => if n.locations.has kv.2 then 0 else 1).sum
  + (n.s.map fun kv =>
      (if n.s.has (kv.1.2, kv.1.1) then 0 else 1) +
      match n.nodeToS.get? kv.1.1, n.nodeToS.get? kv.1.2 with
      | none, _ => 1
      | some _, none => 1
      | some sa, some sb =>
        (if (kv.2, kv.1.2) ∈ sa then 0 else 1) + (if (kv.2, kv.1.1) ∈ sb then 0 else 1)).sum
  + (n.nodeToS.map fun kv => (kv.2.map fun e => if n.s.has (kv.1, e.2) then 0 else 1).sum).sum

/-- `ResistorNetwork.node_id`, resistor_network.py 184–195. -/
def Net.nodeId (n : Net) (p : Point) : Net × Nat :=
  match n.nodes.get? p with
  | some i => (n, i)
  | none => ({ n with nodes := n.nodes.set p n.nextId, locations := n.locations.set n.nextId p,
                      nextId := n.nextId + 1 }, n.nextId)

/-- `ResistorNetwork.name`, resistor_network.py 203–207. -/
def Net.name (n : Net) (i : Nat) (nm : String) : Net := { n with nodeNames := n.nodeNames.set i nm }

/-- `ResistorNetwork.mark_precious`, resistor_network.py 209–215. -/
def Net.markPrecious (n : Net) (i : Nat) : Net := { n with precious := i :: n.precious }

/-- `ResistorNetwork.add_cond`, resistor_network.py 226–241; `r` is the `Conductance` object passed by the caller. -/
def Net.addCondRef (n : Net) (a b : Nat) (r : Ref) : Net :=
  match n.s.get? (a, b) with
  | some r₀ => { n with heap := n.heap.addParallel r₀ r }
  | none =>
    { n with
      s := (n.s.set (a, b) r).set (b, a) r
      nodeToS := (n.nodeToS.upd a [] (· ++ [(r, b)])).upd b [] (· ++ [(r, a)]) }

/-- `add_cond(a, b, Conductance(c))`: the caller creates a new object for every call. -/
def Net.addCond (n : Net) (a b : Nat) (c : ℚ) : Net :=
  { n with heap := Function.update n.heap n.nextRef c, nextRef := n.nextRef + 1 }.addCondRef a b n.nextRef

/-- `del d[k]`. -/
def delKey {κ ν : Type} [DecidableEq κ] (d : Dict κ ν) (k : κ) : Except String (Dict κ ν) :=
  if d.has k then .ok (d.del k) else .error "KeyError"

/-- `if other in self.node_to_s: self.node_to_s[other].remove(e)`, resistor_network.py 274–275 and 293–294. -/
def removeEntry (t : Dict Nat (List Entry)) (other : Nat) (e : Entry) : Except String (Dict Nat (List Entry)) :=
  match t.get? other with
  | none => .ok t
  | some l => if e ∈ l then .ok (t.set other (l.erase e)) else .error "ValueError"

/-- Loop body shared by `remove_node` (resistor_network.py 274–277) and `connect_nodes` (293–296). -/
def Net.unlink (n : Net) (i : Nat) (e : Entry) : Except String Net := do
  let t ← removeEntry n.nodeToS e.2 (e.1, i)
  let s ← delKey n.s (i, e.2)
  let s ← delKey s (e.2, i)
  return { n with nodeToS := t, s := s }

/-- The last three statements of `remove_node` (278–280) and of `connect_nodes` (297–299). -/
def Net.forget (n : Net) (i : Nat) : Except String Net := do
  let t ← delKey n.nodeToS i
  match n.locations.get? i with
  | none => .error "KeyError"
  | some p =>
    let ns ← delKey n.nodes p
    return { n with nodeToS := t, nodes := ns, locations := n.locations.del i }

/-- `ResistorNetwork.remove_node`, resistor_network.py 266–280.  The loop runs over the star list as it was at the
start; Python iterates over the live list, which differs only if the node is connected to itself, and then both raise
`KeyError` in the second `del`. -/
def Net.removeNode (n : Net) (i : Nat) : Except String Net :=
  match n.nodeToS.get? i with
  | none => .ok n
  | some star => do
    let n' ← star.foldlM (fun n e => n.unlink i e) n
    n'.forget i

/-- Loop body of `connect_nodes`, resistor_network.py 291–296. -/
def Net.moveEntry (n : Net) (a b : Nat) (e : Entry) : Except String Net :=
  (if e.2 ≠ a then n.addCondRef a e.2 e.1 else n).unlink b e

/-- `ResistorNetwork.connect_nodes`, resistor_network.py 282–299. -/
def Net.connectNodes (n : Net) (a b : Nat) : Except String Net :=
  match n.nodeToS.get? b with
  | none => .ok n
  | some star => do
    let n' ← star.foldlM (fun n e => n.moveEntry a b e) n
    n'.forget b

/-- The pairs `(star[i], star[j])` with `i < j` in the order of the nested loops, resistor_network.py 258–261. -/
def pairs {α : Type} : List α → List (α × α)
  | [] => []
  | x :: l => l.map (fun y => (x, y)) ++ pairs l

/-- Loop body of `eliminate_node`, resistor_network.py 260–263: reads the conductances from the heap as it is now. -/
def Net.meshStep (sSum : ℚ) (n : Net) (p : Entry × Entry) : Net :=
  n.addCond p.1.2 p.2.2 (n.heap p.1.1 * n.heap p.2.1 / sSum)

/-- `s_sum`, resistor_network.py 254–256. -/
def Net.starSum (n : Net) (star : List Entry) : ℚ := (star.map fun e => n.heap e.1).sum

/-- `ResistorNetwork.eliminate_node`, resistor_network.py 243–264. -/
def Net.eliminateNode (n : Net) (i : Nat) : Except String Net :=
  match n.nodeToS.get? i with
  | none => .ok n
  | some star =>
    let sSum := n.starSum star
    let n' := if |sSum| > tiny then (pairs star).foldl (Net.meshStep sSum) n else n
    n'.removeNode i

/-- `to_eliminate` as collected in resistor_network.py 317–322. -/
def Net.toEliminate (n : Net) (nmax : Nat) : List Nat :=
  (n.nodeToS.keys.insertionSort (· ≤ ·)).filter fun i =>
    i ∉ n.precious ∧ (n.nodeToS.getD i []).length ≤ nmax

/-- One step of the `nmax_next` computation, resistor_network.py 319–324. -/
def Net.nmaxStep (n : Net) (nmax : Nat) (best : Option Nat) (i : Nat) : Option Nat :=
  if i ∉ n.precious ∧ ¬ (n.nodeToS.getD i []).length ≤ nmax then
    match best with
    | none => some (n.nodeToS.getD i []).length
    | some m => if (n.nodeToS.getD i []).length < m then some (n.nodeToS.getD i []).length else some m
  else best

/-- `nmax_next` as computed in resistor_network.py 316 and 323–324. -/
def Net.nmaxNext (n : Net) (nmax : Nat) : Option Nat :=
  (n.nodeToS.keys.insertionSort (· ≤ ·)).foldl (n.nmaxStep nmax) none

/-- The two nested `while` loops of `eliminate_all`, resistor_network.py 310–335; `fuel` bounds the number of passes
through the inner loop body, `none` says that it was exhausted.  An inner loop that leaves with
`nmax = nmax_next ≠ None` is re-entered by the outer loop. -/
def Net.elimLoop : (fuel nmax : Nat) → Net → Except String (Option Net)
  | 0, _, _ => .ok none
  | fuel + 1, nmax, n =>
    match n.toEliminate nmax with
    | [] =>
      match n.nmaxNext nmax with
      | none => .ok (some n)
      | some m => elimLoop fuel m n
    | i :: is => do
      let n' ← (i :: is).foldlM (fun n i => n.eliminateNode i) n
      elimLoop fuel nmax n'

/-- `ResistorNetwork.eliminate_all`, resistor_network.py 301–335, with fuel that is shown to be sufficient. -/
def Net.eliminateAll (n : Net) : Except String Net := do
  match ← Net.elimLoop (2 * n.nodeToS.length + 1) 3 n with
  | some n' => .ok n'
  | none => .error "does not terminate"

/-- The public operations of a network. -/
inductive Op where
  | nodeId (p : Point)
  | name (i : Nat) (nm : String)
  | markPrecious (i : Nat)
  | addCond (a b : Nat) (c : ℚ)
  | connectNodes (a b : Nat)
  | removeNode (i : Nat)
  | eliminateNode (i : Nat)
  | eliminateAll

/-- Perform one operation. -/
def Net.step (n : Net) : Op → Except String Net
  | .nodeId p => .ok (n.nodeId p).1
  | .name i nm => .ok (n.name i nm)
  | .markPrecious i => .ok (n.markPrecious i)
  | .addCond a b c => .ok (n.addCond a b c)
  | .connectNodes a b => n.connectNodes a b
  | .removeNode i => n.removeNode i
  | .eliminateNode i => n.eliminateNode i
  | .eliminateAll => n.eliminateAll

/-- A history of operations on an empty network. -/
def run (h : List Op) : Except String Net := h.foldlM Net.step {}

end Verif.RNet
