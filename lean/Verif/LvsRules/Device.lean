import Verif.LvsRules.Model

/-!
# Devices of the LVS scripts

A statement `extract_devices(mos4("…"), { "SD" => …, "G" => … })` of the scripts gives the kind of device, its model and the
layers in which KLayout looks for its parts and puts its terminals.
-/

namespace Verif.LvsRules

/-- A statement `extract_devices` (sky130.lvs 1965–2535, rule_decks/*_extraction.lvs): the extractor, the model, and the
layers with the name of their role and the text of the expression. -/
structure DeviceRule where
  extractor : String
  model : String
  layers : List (String × String × Expr)

/-- The layer of a role. KLayout's extractors take the layer of the first of these roles that the statement gives
(`dbNetlistDeviceExtractorClasses.cc`, not part of the repository: the terminal `tA` of a diode is put on the layer `P` if
the statement does not give `tA`). -/
def DeviceRule.layer (d : DeviceRule) (roles : List String) : Option Expr :=
  roles.findSome? fun r => (d.layers.find? fun x => x.1 == r).map fun x => x.2.2

/-- The name of the layer of a role. -/
def DeviceRule.layerName (d : DeviceRule) (roles : List String) : Option String :=
  roles.findSome? fun r => (d.layers.find? fun x => x.1 == r).map fun x => x.2.1

end Verif.LvsRules
