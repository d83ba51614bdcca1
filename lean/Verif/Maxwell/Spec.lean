import Verif.Maxwell.Model
import Mathlib.Algebra.BigOperators.Group.Finset.Basic

/-!
# Specification: what a set of capacitors looks like from outside

The nodal capacitance matrix of a set of two-terminal capacitors: the charge on net `a` when net `b` is at 1 V and all
other nets are at 0 V.
-/

namespace Verif.Maxwell

open Netlist

/-- The capacitors that the expander added. -/
def parasitics (c : Circuit) : List Device := c.devices.filter fun d => d.clsName = "PEX_CAP"

/-- The device connects the nets `a` and `b`. -/
def Joins (d : Device) (a b : Nat) : Prop :=
  (d.terms.get? "A" = some a ∧ d.terms.get? "B" = some b) ∨ (d.terms.get? "A" = some b ∧ d.terms.get? "B" = some a)

/-- Exactly one terminal of the device is on net `a`. -/
def Loads (d : Device) (a : Nat) : Prop :=
  (d.terms.get? "A" = some a ∧ d.terms.get? "B" ≠ some a) ∨ (d.terms.get? "A" ≠ some a ∧ d.terms.get? "B" = some a)

instance (d : Device) (a b : Nat) : Decidable (Joins d a b) := by unfold Joins; infer_instance
instance (d : Device) (a : Nat) : Decidable (Loads d a) := by unfold Loads; infer_instance

/-- Entry of the nodal capacitance matrix of a list of capacitors. -/
def nodal (ds : List Device) (a b : Nat) : ℚ :=
  if a = b then (ds.map fun d => if Loads d a then d.params.getD "C" 0 else 0).sum
  else -(ds.map fun d => if Joins d a b then d.params.getD "C" 0 else 0).sum

/-- Entry of the solver's matrix. -/
def CapMatrix.entry (m : CapMatrix) (i j : Nat) : ℚ := (m.rows.getD i []).getD j 0

/-- As many rows and columns as conductor names. -/
def Square (m : CapMatrix) : Prop := m.rows.length = m.dimension ∧ ∀ r ∈ m.rows, r.length = m.dimension

/-- A Maxwell capacitance matrix: symmetric, couplings not positive, and the capacitance to the outside (the row sum)
not negative. -/
structure IsMaxwell (m : CapMatrix) : Prop where
  square : Square m
  symm : ∀ i j, i < m.dimension → j < m.dimension → m.entry i j = m.entry j i
  nonpos : ∀ i j, i < m.dimension → j < m.dimension → i ≠ j → m.entry i j ≤ 0
  remainder : ∀ i, i < m.dimension → 0 ≤ ∑ j ∈ Finset.range m.dimension, m.entry i j

/-- The axes of the matrix are labelled, as FasterCap does, `g<number>_<net name>`, with distinct names of nets. -/
structure AxesNamed (c : Circuit) (m : CapMatrix) (num : Nat → Nat) (nm : Nat → String) : Prop where
  label : ∀ i < m.dimension, m.names[i]? = some ("g" ++ toString (num i) ++ "_" ++ nm i)
  oneLine : ∀ i < m.dimension, '\n' ∉ (nm i).toList
  distinct : ∀ i j, i < m.dimension → j < m.dimension → nm i = nm j → i = j
  net : ∀ i < m.dimension, nm i ∈ c.nets ∨ nm i = "FC_GND" ∨ nm i = "VSUBS"

/-- A capacitor with positive value between two distinct nets. -/
structure GoodCap (d : Device) : Prop where
  kind : d.kind = .capacitor
  cls : d.clsName = "PEX_CAP"
  ends : ∃ a b, d.terms.get? "A" = some a ∧ d.terms.get? "B" = some b ∧ a ≠ b
  value : ∃ v, d.params.get? "C" = some v ∧ 0 < v

end Verif.Maxwell
