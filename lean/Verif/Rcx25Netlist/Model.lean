import Verif.Netlist.Model
import Verif.Summary.Model
import Mathlib.Data.List.Sort

/-!
# Model of `klayout_pex/rcx25/netlist_expander.py` (`RCX25NetlistExpander.expand`) and of the CSV report of the
2.5D engine (`klayout_pex/kpex_cli.py` 697–707)

`str.casefold` (Unicode tables) is a parameter.  Python's `sorted` is a stable sort, modelled by insertion sort.
-/

namespace Verif.Rcx25Netlist

open Netlist Summary

/-- `NetCoupleKey.__lt__`, extraction_results.py 117–120: lexicographic comparison of the casefolded names. -/
def keyLt (casefold : String → String) (a b : NetCoupleKey) : Prop :=
  casefold a.net1 < casefold b.net1 ∨ (casefold a.net1 = casefold b.net1 ∧ casefold a.net2 < casefold b.net2)

instance (cf : String → String) (a b : NetCoupleKey) : Decidable (keyLt cf a b) := by unfold keyLt; infer_instance

/-- `sorted(table.items())`, netlist_expander.py 87–88 and kpex_cli.py 704, 706.  Items of a dictionary have different keys,
so the comparison of two `(key, value)` tuples is decided by the keys. -/
def sortedItems (cf : String → String) (d : Dict NetCoupleKey ℚ) : List (NetCoupleKey × ℚ) :=
  d.insertionSort fun a b => ¬ keyLt cf b.1 a.1

/-- netlist_expander.py 47–67: only devices whose class is exactly a capacitor class are removed. -/
def dropCaps (c : Circuit) (blackbox : Bool) : Circuit :=
  if blackbox then c
  else { c with devices := c.devices.filter fun d => ¬ (d.kind = .capacitor ∨ d.kind = .capacitorWithBulk) }

/-- `add_net_if_needed`, netlist_expander.py 93–96. -/
def addNetIfNeeded (st : Circuit × Dict String Nat) (name : String) : Circuit × Dict String Nat :=
  if st.2.has name then st
  else
    let (c, n) := st.1.createNet name
    (c, st.2.set name n)

/-- The two loops, netlist_expander.py 99–104, for one list of items. -/
def addNets (st : Circuit × Dict String Nat) (items : List (NetCoupleKey × ℚ)) : Circuit × Dict String Nat :=
  items.foldl (fun st kv => addNetIfNeeded (addNetIfNeeded st kv.1.net1) kv.1.net2) st

/-- One device of the loops netlist_expander.py 106–116 and 118–128. -/
def itemDevice (k : Kind) (cls param : String) (tbl : Dict String Nat) (x : (NetCoupleKey × ℚ) × Nat) :
    Except String Device :=
  match tbl.get? x.1.1.net1, tbl.get? x.1.1.net2 with
  | some a, some b => .ok (twoTerminal k cls ("ext_" ++ toString (x.2 + 1)) a b param x.1.2)
  | _, _ => .error "KeyError"

/-- `RCX25NetlistExpander.expand`, netlist_expander.py 40–130. -/
def expand (cf : String → String) (c : Circuit) (cells : Dict String CellResults) (blackbox : Bool) :
    Except String Circuit := do
  let c1 := (((dropCaps c blackbox).createNet "FC_GND").1.createNet "VSUBS").1
  let summary ← summarizeAll cells
  let capItems := sortedItems cf summary.capacitances
  let resItems := sortedItems cf summary.resistances
  let st := addNets (addNets (c1, c1.name2net) capItems) resItems
  let caps ← capItems.zipIdx.mapM (itemDevice .capacitor "C" "C" st.2)
  let ress ← resItems.zipIdx.mapM (itemDevice .resistor "R" "R" st.2)
  return { st.1 with devices := st.1.devices ++ caps ++ ress }

/-- A row of the CSV report, kpex_cli.py 703–707. -/
structure CsvRow where
  device : String
  net1 : String
  net2 : String
  cap : Option ℚ
  res : Option ℚ

/-- The rows written by kpex_cli.py 704–707; `round3` is Python's `round(·, 3)`. -/
def rowsOf (cf : String → String) (round3 : ℚ → ℚ) (summary : ExtractionSummary) : List CsvRow :=
  (sortedItems cf summary.capacitances).zipIdx.map
      (fun x => ⟨"C" ++ toString (x.2 + 1), x.1.1.net1, x.1.1.net2, some (round3 x.1.2), none⟩)
    ++ (sortedItems cf summary.resistances).zipIdx.map
      (fun x => ⟨"R" ++ toString (x.2 + 1), x.1.1.net1, x.1.1.net2, none, some (round3 x.1.2)⟩)

/-- kpex_cli.py 701–707. -/
def csvRows (cf : String → String) (round3 : ℚ → ℚ) (cells : Dict String CellResults) : Except String (List CsvRow) := do
  let summary ← summarizeAll cells
  return rowsOf cf round3 summary

end Verif.Rcx25Netlist
