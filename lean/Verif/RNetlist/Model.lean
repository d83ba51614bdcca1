import Verif.RRequest.Model
import Verif.PexMode.Model
import Verif.Rcx25Netlist.Model

/-!
# Model of a run with resistances: request, KLayout's resistor extractor, summary, netlist

`klayout_pex/rcx25/extractor.py` 196–247, `klayout_pex/kpex_cli.py` 687–727.
-/

namespace Verif.RNetlist

open RRequest (RexInput KNode KElement ResNetwork Request)
open Shapes (Pt)

/-- What `summarize` reads of a network of the result (extraction_results.py 198–205): ids and net names of the nodes,
ends and resistances of the elements. -/
def message (R : ResNetwork) : Summary.RNetwork :=
  ⟨R.nodes.map fun n => ⟨n.id, n.net⟩, R.elements.map fun e => ⟨e.2.1, e.2.2.1, e.2.2.2⟩⟩

/-- The extraction of resistances (extractor.py 210–213, 245) followed by the netlist (kpex_cli.py 687–727): `overlap` and
`fringe` are what the capacitance extractors record, `rex` is KLayout's `RNetExtractor.extract`. -/
def run (cf : String → String) (mode : PexMode.Mode) (cell : String)
    (overlap fringe : Except String (List PexMode.CapOp)) (norm : List Pt → List Pt)
    (rex : RexInput → List KNode × List KElement) (q : Request) (c : Netlist.Circuit) (bb : Bool) :
    Except String Netlist.Circuit := do
  let cells ← PexMode.extract mode cell overlap fringe ((RRequest.extract norm rex q).map (·.map message))
  Rcx25Netlist.expand cf c cells bb

end Verif.RNetlist
