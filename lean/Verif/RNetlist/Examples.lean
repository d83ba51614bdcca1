import Verif.RNetlist.Props

/-!
# Concrete runs with resistances (C122)
-/

namespace Verif.RNetlist

open RRequest
open Lvs (DbDevice Net prepare box)
open Netlist

/-- A transistor with source and drain on net `A`, its gate on net `B`. -/
def netA : Net := ⟨"A", [⟨"M1", 0, [(1, [box 0 0 1 1 none])]⟩, ⟨"M1", 1, [(1, [box 4 0 5 1 none])]⟩]⟩

def netB : Net := ⟨"B", [⟨"M1", 2, [(1, [box 2 0 3 1 none])]⟩]⟩

def device : DbDevice :=
  { id := 1, name := "M1", className := "nfet", abstractName := "D$nfet", params := []
    terminals := [(0, "S"), (1, "D"), (2, "G")], netFor := fun i => if i = 2 then some netB else some netA }

def circuit : Circuit := ⟨["A", "B"], [⟨.mos3, "nfet", "M1", [("S", 0), ("D", 0), ("G", 1)], []⟩]⟩

/-- The polygon ports. -/
def ports (i : RexInput) : List KNode :=
  i.polygonPorts.flatMap fun e => e.2.zipIdx.map fun p => ⟨p.2, "P" ++ toString p.2, e.1, .polygonPort, p.2⟩

/-- An extractor that finds 5 Ω between consecutive ports. -/
def lineRex (i : RexInput) : List KNode × List KElement :=
  (ports i, (ports i).zipIdx.tail.map fun k => ⟨k.2, k.2 - 1, k.2, 5⟩)

/-- An extractor that finds 5 Ω between each port and an inner node. -/
def starRex (name : RexInput → String) (i : RexInput) : List KNode × List KElement :=
  (ports i ++ [⟨100, name i, 2, .internal, 0⟩], (ports i).map fun k => ⟨k.id, k.id, 100, 5⟩)

/-- Names that differ between the two nets. -/
def byCount (i : RexInput) : String := "$" ++ toString (ports i).length

def request : Except String Request :=
  prepareRequest (prepare stackTech true stackDb) stackEnv exCfg true [device] (some ["A", "B"])

/-- **C122 is violated**: the extractor finds 5 Ω between source and drain, but in the netlist both stay at the same net, and
the resistor has both ends there. -/
theorem resistance_between_ports_lost : ∃ q c', request = .ok q ∧
    run id .R "TOP" (.ok []) (.ok []) id lineRex q circuit true = .ok c' ∧
    (∃ e ∈ q.nets, e.1 = "A" ∧ ∃ el ∈ (lineRex (rexInput id e.2)).2, el.resistance = 5 ∧ el.a ≠ el.b ∧
      ∀ i ∈ [el.a, el.b], ∃ k ∈ (lineRex (rexInput id e.2)).1, k.id = i ∧ k.type = .polygonPort) ∧
    c'.devices.map (fun d => (d.name, d.terms)) = [("M1", [("S", 0), ("D", 0), ("G", 1)]), ("ext_1", [("A", 0), ("B", 0)])] :=
  ⟨_, _, rfl, rfl, by decide +kernel, by decide +kernel⟩

/-- **C122 is violated if KLayout numbers inner nodes per net**: the inner nodes of the nets `A` and `B` are both named `$0`,
and the netlist connects `A` with `B` through this node. -/
theorem inner_names_join_nets : ∃ q c', request = .ok q ∧
    run id .R "TOP" (.ok []) (.ok []) id (starRex fun _ => "$0") q circuit true = .ok c' ∧
    c'.nets[0]? = some "A" ∧ c'.nets[1]? = some "B" ∧ Relation.ReflTransGen (Bridge c') 0 1 := by
  refine ⟨_, _, rfl, rfl, by decide +kernel, by decide +kernel, ?_⟩
  refine (Relation.ReflTransGen.single (b := 4) ?_).tail ?_
  · unfold Bridge; decide +kernel
  · unfold Bridge; decide +kernel

/-- The hypotheses of `resistor_iff_element`, `nets_stay_apart_partial` and `ports_of_a_net_merged` are met by the example with
different names: two nets, each with an inner node and resistors. -/
example : ∃ q c', request = .ok q ∧
    run id .R "TOP" (.ok []) (.ok []) id (starRex byCount) q circuit true = .ok c' ∧
    (∀ e ∈ q.nets, ((starRex byCount (rexInput id e.2)).1.map (·.id)).Nodup) ∧
    ProperNames q (fun r => starRex byCount (rexInput id r)) ∧ q.nets.map Prod.fst = ["A", "B"] ∧
    (stackDb.map (·.index)).Nodup ∧ (∀ d ∈ circuit.devices, d.clsName ≠ "R") ∧ circuit.nets.Nodup ∧
    (c'.devices.filter fun d => d.clsName = "R").length = 2 := by
  refine ⟨_, _, rfl, rfl, by decide +kernel, ⟨?_, ?_⟩, by decide +kernel, by decide, by decide, by decide, by decide +kernel⟩
  · decide +kernel
  · decide +kernel

end Verif.RNetlist
