import Verif.SolverLog.Model
import Verif.CapMatrix.Model
import Verif.Maxwell.Model
import Verif.Reduce.Model

/-!
# Model of the field-solver flow after the solver run

`KpexCLI.run_fastercap_extraction`, klayout_pex/kpex_cli.py 533–551, and `run_fastcap_extraction`, 650–662: the functions
modelled in `SolverLog`, `CapMatrix`, `Maxwell` and `Reduce` are called one after the other.  The raw and averaged matrix files
are written in between (`CapMatrix.writeCsv`) and are not read back.
-/

namespace Verif.Pipeline

open Netlist

/-- kpex_cli.py 536–545 (and 653–662): averaging and expansion of a parsed matrix. -/
def afterParse (c : Circuit) (bb : Bool) (m : SolverLog.Matrix) : Except String Circuit := do
  let (h, o) ← CapMatrix.averagedOffDiagonals (fun _ => m.rows) 1 ⟨m.names, 0⟩
  Maxwell.expand c ⟨o.names.map String.ofList, h o.rows⟩ bb

/-- kpex_cli.py 533–551: the expanded netlist and the CSV report. -/
def fasterCapFlow (flt : Str → Option ℚ) (round2 : ℚ → ℚ) (top : String) (c : Circuit) (bb : Bool) (log : List Str) :
    Except String (Circuit × List Reduce.Row) := do
  let m ← SolverLog.fastercapParse flt log
  let c' ← afterParse c bb m
  let rows ← Reduce.writeCsv round2 [(top, c')] top
  return (c', rows)

/-- kpex_cli.py 650–662: the expanded netlist of the FastCap2 flow, which writes no CSV report. -/
def fastCapFlow (flt : Str → Option ℚ) (c : Circuit) (bb : Bool) (log : List Str) : Except String Circuit := do
  let m ← SolverLog.fastcapParse flt log
  afterParse c bb m

end Verif.Pipeline
