import Verif.Common.PyStr
import Mathlib.Algebra.Order.Ring.Rat
import Mathlib.Algebra.Order.Field.Rat
import Mathlib.Logic.Function.Basic

/-!
# Model of `klayout_pex/common/capacitance_matrix.py`

The nested list of values is a mutable object: a matrix holds a reference into a heap, so that a write through one matrix
is visible through every matrix with the same reference.  The rows of one matrix are assumed not to be the same list
object.  Values are rationals.
-/

namespace Verif.CapMatrix

/-- The nested lists. -/
abbrev Heap := Nat → List (List ℚ)

/-- `CapacitanceMatrix`, capacitance_matrix.py 31–34; `rows` is the reference to the nested list. -/
structure Obj where
  names : List Str
  rows : Nat

/-- `copy.deepcopy(self)`, capacitance_matrix.py 74: a new nested list at the unused reference `fresh`. -/
def deepcopy (h : Heap) (fresh : Nat) (o : Obj) : Heap × Obj :=
  (Function.update h fresh (h o.rows), { o with rows := fresh })

/-- `self[i][j]`, capacitance_matrix.py 36–37. -/
def getCell (h : Heap) (o : Obj) (i j : Nat) : Except String ℚ :=
  match (h o.rows)[i]? with
  | none => .error "IndexError"
  | some row =>
    match row[j]? with
    | none => .error "IndexError"
    | some v => .ok v

/-- `c[i][j] = v`. -/
def setCell (h : Heap) (o : Obj) (i j : Nat) (v : ℚ) : Except String Heap :=
  match (h o.rows)[i]? with
  | none => .error "IndexError"
  | some row =>
    if j < row.length then .ok (Function.update h o.rows ((h o.rows).set i (row.set j v)))
    else .error "IndexError"

/-- Body of the inner loop, capacitance_matrix.py 77–84. -/
def innerStep (self c : Obj) (i : Nat) (h : Heap) (j : Nat) : Except String Heap :=
  if j ≤ i then .ok h
  else do
    let v1 ← getCell h self i j
    let v2 ← getCell h self j i
    let avg := (v1 + v2) / 2
    let h ← setCell h c i j avg
    setCell h c j i avg

/-- `averaged_off_diagonals`, capacitance_matrix.py 73–85: the heap afterwards and the result. -/
def averagedOffDiagonals (h : Heap) (fresh : Nat) (self : Obj) : Except String (Heap × Obj) := do
  let (h1, c) := deepcopy h fresh self
  let h2 ← (List.range (h self.rows).length).foldlM
    (fun h i => (List.range self.names.length).foldlM (innerStep self c i) h) h1
  return (h2, c)

/-! ### CSV -/

/-- A matrix as a value. -/
structure Matrix where
  names : List Str
  rows : List (List ℚ)
deriving DecidableEq

/-- `f.readlines()`: the lines with their line end; only `\n` ends a line (text mode maps the other line ends to it). -/
def readlines : Str → List Str
  | [] => []
  | c :: s =>
    if c = '\n' then ['\n'] :: readlines s
    else match readlines s with
      | [] => [[c]]
      | l :: ls => (c :: l) :: ls

/-- One row of numbers, capacitance_matrix.py 56; `flt` is `float(·)`. -/
def parseRow (flt : Str → Option ℚ) (sep : Char) (line : Str) : Except String (List ℚ) :=
  match ((splitOn sep line).map strip).mapM flt with
  | some vs => .ok vs
  | none => .error "ValueError"

/-- `parse_csv`, capacitance_matrix.py 46–59, on the content of the file; the separator is a single character. -/
def parseCsv (flt : Str → Option ℚ) (sep : Char) (text : Str) : Except String Matrix :=
  match readlines text with
  | header :: l :: ls => do
    let names := (splitOn sep header).map strip
    let rows ← (l :: ls).mapM (parseRow flt sep)
    return ⟨names, rows⟩
  | _ => .error "Capacitance Matrix CSV must at least have 2 lines"

/-- `write_csv`, capacitance_matrix.py 61–71: the content of the file; `fmt` is `'%.12g' % ·`. -/
def writeCsv (fmt : ℚ → Str) (sep : Char) (m : Matrix) : Str :=
  joinWith sep m.names ++ ['\n'] ++ (m.rows.map fun row => joinWith sep (row.map fmt) ++ ['\n']).flatten

end Verif.CapMatrix
