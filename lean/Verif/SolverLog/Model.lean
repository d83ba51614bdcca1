import Verif.Common.PyStr
import Verif.Common.Text
import Mathlib.Algebra.Order.Ring.Rat
import Mathlib.Algebra.Order.Field.Rat

/-!
# Model of the solver log parsers

* `fastercap_parse_capacitance_matrix`, klayout_pex/fastercap/fastercap_runner.py 105–129
* `fastcap_parse_capacitance_matrix`, klayout_pex/fastcap/fastcap_runner.py 112–143

A log is the list of its lines without line ends.  `float(text)` is a parameter `flt`; `none` stands for `ValueError`.
`\d` and `\w` are restricted to ASCII.
-/

namespace Verif.SolverLog

/-- `CapacitanceMatrix`, common/capacitance_matrix.py 31–34. -/
structure Matrix where
  names : List Str
  rows : List (List ℚ)
deriving DecidableEq

/-- Python's `l[i]`, where a negative index counts from the end. -/
def pyIndex {α : Type} (l : List α) (i : Int) : Except String α :=
  let j := if i < 0 then i + l.length else i
  if j < 0 then .error "IndexError"
  else match l[j.toNat]? with
    | some x => .ok x
    | none => .error "IndexError"

/-- Remove a known prefix. -/
def stripPrefix (p s : Str) : Option Str := if p.isPrefixOf s then some (s.drop p.length) else none

/-- `line.strip() == "Capacitance matrix is:"`, fastercap_runner.py 112. -/
def isHeader (line : Str) : Bool := strip line == "Capacitance matrix is:".toList

/-- `re.match(r'^Dimension (\d+) x (\d+)$', line)` and `int(m.group(1))`, fastercap_runner.py 113–116. -/
def parseDim (line : Str) : Option Nat :=
  match stripPrefix "Dimension ".toList line with
  | none => none
  | some r =>
    let ds := r.takeWhile Char.isDigit
    match stripPrefix " x ".toList (r.dropWhile Char.isDigit) with
    | none => none
    | some r2 =>
      if ds.isEmpty || r2.isEmpty || !r2.all Char.isDigit then none else some (Nat.ofDigitChars 10 ds 0)

/-- Conversion of the cells of a row, fastercap_runner.py 123–124 and fastcap_runner.py 137–138. -/
def rowOfCells (flt : Str → Option ℚ) (cells : List Str) : Except String (Str × List ℚ) :=
  match cells with
  | [] => .error "IndexError"
  | name :: rest =>
    match rest.mapM flt with
    | none => .error "ValueError"
    | some vs => .ok (name, vs.map (· / 1000000))

/-- One row, fastercap_runner.py 120–125. -/
def parseRow (flt : Str → Option ℚ) (line : Str) : Except String (Str × List ℚ) :=
  rowOfCells flt (((splitOn ' ' (strip line)).map strip).filter (fun c => c ≠ []))

/-- The rows `i` in `reversed(range(idx-1-dim, idx-1))`, in this order: fastercap_runner.py 119–126 and
fastcap_runner.py 130–140. -/
def readRows (row : Str → Except String (Str × List ℚ)) (rlines : List Str) (idx dim : Nat) : Except String Matrix := do
  let rs ← (List.range dim).mapM fun (k : Nat) => do row (← pyIndex rlines ((idx : Int) - 2 - (k : Int)))
  return ⟨rs.map Prod.fst, rs.map Prod.snd⟩

/-- `fastercap_parse_capacitance_matrix`, fastercap_runner.py 105–129. -/
def fastercapParse (flt : Str → Option ℚ) (lines : List Str) : Except String Matrix :=
  let rlines := lines.reverse
  match rlines.findIdx? isHeader with
  | none => .error "Could not extract capacitance matrix"
  | some idx => do
    match parseDim (← pyIndex rlines ((idx : Int) - 1)) with
    | none => .error "Could not parse capacitor matrix dimensions"
    | some dim => readRows (parseRow flt) rlines idx dim

/-- `\w`, ASCII. -/
def isWord (c : Char) : Bool := c.isAlphanum || c == '_'

/-- The section header of FastCap2, fastcap_runner.py 119. -/
def isSection (line : Str) : Bool := "CAPACITANCE MATRIX, ".toList.isPrefixOf line

/-- The unit named by the header, fastcap_runner.py 120–123; the code does not use it any further. -/
def sectionUnit (line : Str) : Option Str :=
  match stripPrefix "CAPACITANCE MATRIX, ".toList line with
  | none => none
  | some r => if (r.takeWhile isWord).isEmpty then none else some (r.takeWhile isWord)

/-- One row, fastcap_runner.py 131–139 (the warning about an unexpected row index is not modelled). -/
def parseRow2 (flt : Str → Option ℚ) (line : Str) : Except String (Str × List ℚ) :=
  match (splitOn ' ' (strip line)).map strip with
  | a :: _ :: rest => rowOfCells flt ((a :: rest).filter (fun c => c ≠ []))
  | _ => .error "IndexError"

/-- `fastcap_parse_capacitance_matrix`, fastcap_runner.py 112–143. -/
def fastcapParse (flt : Str → Option ℚ) (lines : List Str) : Except String Matrix :=
  let rlines := lines.reverse
  match rlines.findIdx? isSection with
  | none => .error "Could not extract capacitance matrix"
  | some idx => do
    match sectionUnit (← pyIndex rlines idx) with
    | none => .error "Could not parse capacitor unit"
    | some _ =>
      let dim := (splitWs (strip (← pyIndex rlines ((idx : Int) - 1)))).length
      readRows (parseRow2 flt) rlines idx dim

end Verif.SolverLog
