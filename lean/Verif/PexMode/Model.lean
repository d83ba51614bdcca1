import Verif.Summary.Model

/-!
# Model of `klayout_pex/rcx25/pex_mode.py` and of the skeleton of `klayout_pex/rcx25/extractor.py`

What the capacitance and resistance extractors find is a parameter: a list of recordings, or an exception.
-/

namespace Verif.PexMode

open Summary

/-- The members of the enumeration `PEXMode`, pex_mode.py 28–31.  `DEFAULT = "CC"` has the value of `CC`, and is therefore
an alias of `CC`, not a further member (Python `enum`). -/
inductive Mode where
  | CC | RC | R
deriving DecidableEq, Repr

/-- `PEXMode.DEFAULT`, pex_mode.py 32. -/
def Mode.default : Mode := .CC

/-- `PEXMode(text)`: lookup by value, as done by argparse for `--mode`, kpex_cli.py 288–290. -/
def Mode.ofText : String → Option Mode
  | "CC" => some .CC
  | "RC" => some .RC
  | "R" => some .R
  | _ => none

/-- `PEXMode.need_capacitance`, pex_mode.py 34–41. -/
def Mode.needCapacitance : Mode → Bool
  | .CC | .RC => true
  | .R => false

/-- `PEXMode.need_resistance`, pex_mode.py 43–50. -/
def Mode.needResistance : Mode → Bool
  | .R | .RC => true
  | .CC => false

/-- What the capacitance extractors record. -/
inductive CapOp where
  | overlap (c : OverlapCap)
  | sidewall (c : SidewallCap)
  | sideoverlap (c : SideOverlapCap)

def CapOp.toOp : CapOp → Op
  | .overlap c => .overlap c
  | .sidewall c => .sidewall c
  | .sideoverlap c => .sideoverlap c

/-- `extract_cell`, extractor.py 170–247: `overlap` and `fringe` are what `OverlapExtractor.extract` and
`SidewallAndFringeExtractor.extract` record, `res` is the result of `RExtractor.extract`. -/
def extractCell (mode : Mode) (overlap fringe : Except String (List CapOp)) (res : Except String (List RNetwork))
    (results : CellResults) : Except String CellResults := do
  let results ←
    if mode.needCapacitance then do
      let ops1 ← overlap
      let results := (ops1.map CapOp.toOp).foldl CellResults.apply results
      let ops2 ← fringe
      pure ((ops2.map CapOp.toOp).foldl CellResults.apply results)
    else pure results
  if mode.needResistance then do
    let nets ← res
    return { results with networks := nets }
  else return results

/-- `RCX25Extractor.extract`, extractor.py 88–113 (report file not represented). -/
def extract (mode : Mode) (cell : String) (overlap fringe : Except String (List CapOp))
    (res : Except String (List RNetwork)) : Except String (Dict String CellResults) := do
  let r ← extractCell mode overlap fringe res { cellName := cell }
  return Dict.set [] cell r

end Verif.PexMode
