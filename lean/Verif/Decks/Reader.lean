import Mathlib.Data.List.Infix
import Mathlib.Data.Rat.Defs
import Mathlib.Tactic.Ring
import Verif.Decks.Options

/-!
# Reading schematics for LVS of sg13g2

pdk/ihp_sg13g2/libs.tech/kpex/rule_decks/custom_reader.lvs 84–346 (`element` and what it calls), the device classes of
custom_devices.lvs and custom_mim_extractor.lvs 27–53, globals.lvs 66–69.
-/

namespace Verif.Decks

/-! ### Device classes -/

/-- `RBA::DeviceClass`: name, terminals and parameters. -/
structure DeviceClass where
  name : Str := []
  terminals : List Str
  params : List String
deriving DecidableEq

/-- `s.downcase`. -/
def lower (s : Str) : Str := s.map Char.toLower

/-- `model.downcase.include?(x)`. -/
def has (model : Str) (x : String) : Bool := decide (x.toList <:+: lower model)

/-- `RES_DEV.any? { |res| model.downcase.start_with?(res) }`; globals.lvs 69. -/
def isRes (model : Str) : Bool := ["rsil", "rppd", "rhigh"].any fun x => decide (x.toList <+: lower model)

/-- `"#{model}_#{i}"`. -/
def numbered (model : Str) (i : Nat) : Str := model ++ '_' :: (toString i).toList

/-- `"#{model}_sub"`. -/
def subOf (model : Str) : Str := model ++ "_sub".toList

/-- `(1..num).map { |i| "#{name}_#{i}" }`; custom_devices.lvs 36–41. -/
def numberedTerminals (name : Str) (num : Nat) : List Str := (List.range num).map fun i => numbered name (i + 1)

/-- `RBA::DeviceClassMOS4Transistor`. -/
def mos4 : DeviceClass where
  terminals := ["S", "G", "D", "B"].map String.toList
  params := ["L", "W", "AS", "AD", "PS", "PD"]

/-- `RBA::DeviceClassResistor`. -/
def resistor : DeviceClass where
  terminals := ["A", "B"].map String.toList
  params := ["R", "L", "W", "A", "P"]

/-- `RBA::DeviceClassResistorWithBulk`. -/
def resistorBulk : DeviceClass where
  terminals := ["A", "B", "W"].map String.toList
  params := ["R", "L", "W", "A", "P"]

/-- `RBA::DeviceClassDiode`. -/
def diode : DeviceClass where
  terminals := ["A", "C"].map String.toList
  params := ["A", "P"]

/-- `DeviceCustomRes`; custom_devices.lvs 50–70. -/
def customRes (name : Str) (num : Nat) : DeviceClass where
  terminals := numberedTerminals name num
  params := ["w", "l", "ps", "b", "m"]

/-- `CustomBJT3`; custom_devices.lvs 73–85. -/
def customBjt3 : DeviceClass where
  terminals := ["C", "B", "E"].map String.toList
  params := ["AE", "PE", "NE", "AB", "PB", "AC", "PC", "m"]

/-- `CustomBJT4`; custom_devices.lvs 88–100. -/
def customBjt4 : DeviceClass where
  terminals := ["C", "B", "E", "S"].map String.toList
  params := ["AE", "PE", "NE", "AB", "PB", "AC", "PC", "m"]

/-- `DeviceCustomInd`; custom_devices.lvs 103–126. -/
def customInd (name : Str) (num : Nat) : DeviceClass where
  terminals := numberedTerminals name num ++ [subOf name]
  params := ["w", "s", "d", "nr_r"]

/-- `DeviceCustomVaractor`; custom_devices.lvs 129–140. -/
def customVaractor (name : Str) (num : Nat) : DeviceClass where
  terminals := numberedTerminals name num ++ [subOf name]
  params := ["w", "l"]

/-- `EnDiode`; custom_devices.lvs 153–172. -/
def enDiode : DeviceClass where
  terminals := ["A", "C"].map String.toList
  params := ["A", "P", "m"]

/-- `Esd3Term`; custom_devices.lvs 199–206. -/
def esd3 : DeviceClass where
  terminals := ["C", "B", "E"].map String.toList
  params := ["m"]

/-- `Esd2Term`; custom_devices.lvs 209–216. -/
def esd2 : DeviceClass where
  terminals := ["A", "C"].map String.toList
  params := ["m"]

/-- `DeviceCustomMIM`; custom_mim_extractor.lvs 28–53. -/
def customMim (name : Str) : DeviceClass where
  terminals := ["mim_top", "mim_btm"].map String.toList ++ if has name "rfcmim" then ["mim_sub".toList] else []
  params := ["w", "l", "A", "P", "m"] ++ if has name "rfcmim" then ["wfeed"] else []

/-! ### The reader -/

/-- The elements of `CUSTOM_READER`; globals.lvs 66. The others are left to KLayout. -/
inductive Ele where
  | M | C | R | Q | L | D
deriving DecidableEq, Repr

/-- The parameters of an element, by their names in capitals. Numbers are exact. -/
abbrev Params := String → Option ℚ

/-- An element of the schematic. -/
structure Element where
  ele : Ele
  name : Str
  model : Str
  nets : List Str
  params : Params

/-- A device of the netlist. A terminal may be left open. -/
structure Device where
  cls : DeviceClass
  name : Str
  conns : List (Str × Option Str)
  params : List (String × ℚ)

/-- `create_capacitor`; custom_reader.lvs 131–143. -/
def createCapacitor (model : Str) (n : Nat) : Except String DeviceClass :=
  if has model "varicap" then if n = 4 then .ok (customVaractor model (n - 1)) else .error "ArgumentError"
  else if n = 2 ∨ n = 3 then .ok (customMim model) else .error "ArgumentError"

/-- `create_diode`; custom_reader.lvs 146–154. -/
def createDiode (model : Str) : DeviceClass :=
  if has model "diodev" || has model "schottky" then esd3 else if has model "nmoscl" then esd2 else enDiode

/-- `create_resistor`; custom_reader.lvs 157–169. -/
def createResistor (model : Str) (n : Nat) : Except String DeviceClass :=
  if isRes model then .ok (customRes model n)
  else if n = 2 ∧ has model "tap" then .ok diode
  else if n = 2 then .ok resistor
  else if n = 3 then .ok resistorBulk
  else .error "ArgumentError"

/-- `create_bjt`; custom_reader.lvs 172–178. -/
def createBjt (model : Str) : DeviceClass := if has model "pnp" then customBjt3 else customBjt4

/-- The class of an element before it gets its name; custom_reader.lvs 112–121. -/
def classFor (ele : Ele) (model : Str) (n : Nat) : Except String DeviceClass :=
  match ele with
  | .M => .ok mos4
  | .C => createCapacitor model n
  | .R => createResistor model n
  | .Q => .ok (createBjt model)
  | .L => .ok (customInd model (n - 1))
  | .D => .ok (createDiode model)

/-- `create_device_class`; custom_reader.lvs 111–128. -/
def createClass (ele : Ele) (model : Str) (n : Nat) : Except String DeviceClass :=
  (classFor ele model n).map fun c => { c with name := model }

/-- `gen_term_names`; custom_reader.lvs 233–235. -/
def termNames (model : Str) (n : Nat) : List Str := (List.range n).map fun i => numbered model (i + 1)

/-- `gen_mim_terms`; custom_reader.lvs 238–245. -/
def mimTerms (model : Str) : List Str :=
  ["mim_top".toList, "mim_btm".toList] ++ if has model "rfcmim" then ["mim_sub".toList] else []

/-- `gen_term_with_sub`; custom_reader.lvs 248–251. -/
def termsWithSub (model : Str) (n : Nat) : List Str := ((List.range (n - 1)).map fun i => numbered model (i + 1)) ++ [subOf model]

/-- `terminal_list_for_element`; custom_reader.lvs 195–230. -/
def terminalList (ele : Ele) (model : Str) (n : Nat) : List Str :=
  match ele with
  | .M => ["D", "G", "S", "B"].map String.toList
  | .Q => if has model "pnp" then ["C", "B", "E"].map String.toList else ["C", "B", "E", "S"].map String.toList
  | .C => if has model "varicap" then termsWithSub model n else mimTerms model
  | .R =>
    if isRes model then termNames model n
    else if has model "tap" then ["C", "A"].map String.toList
    else if n = 3 then ["A", "B", "W"].map String.toList else ["A", "B"].map String.toList
  | .D =>
    if has model "diodevdd" then ["B", "E", "C"].map String.toList
    else if has model "diodevss" then ["C", "E", "B"].map String.toList
    else if has model "schottky" then ["E", "B", "C"].map String.toList
    else if has model "nmoscl" then ["C", "A"].map String.toList
    else ["A", "C"].map String.toList
  | .L => termsWithSub model n

/-- `connect_terminals`; custom_reader.lvs 186–192. KLayout raises an exception for a terminal that the class does not have;
`nets[index]` is `nil`, an open terminal, behind the end. -/
def connectTerminals (cls : DeviceClass) (terms : List Str) (nets : List Str) : Except String (List (Str × Option Str)) :=
  if terms.all cls.terminals.contains then .ok (terms.zipIdx.map fun t => (t.1, nets[t.2]?)) else .error "RuntimeError"

/-- `params[x] || d`. -/
def orElse (p : Params) (x : String) (d : ℚ) : ℚ := (p x).getD d

/-- `params[a] || ((params[w] || 0.0) * (params[l] || 0.0))`. -/
def areaOf (p : Params) (a w l : String) : ℚ := (p a).getD (orElse p w 0 * orElse p l 0)

/-- `params[q] || (((params[w] || 0.0) + (params[l] || 0.0)) * 2)`. -/
def perimeterOf (p : Params) (q w l : String) : ℚ := (p q).getD ((orElse p w 0 + orElse p l 0) * 2)

/-- `map_mos_params`; custom_reader.lvs 279–282. -/
def mosParams (p : Params) : List (String × ℚ) :=
  [("W", orElse p "W" 0 * orElse p "M" 1 * 10 ^ 6), ("L", orElse p "L" 0 * 10 ^ 6)]

/-- `map_bjt_params`; custom_reader.lvs 285–295. -/
def bjtParams (model : Str) (p : Params) : List (String × ℚ) :=
  (if has model "pnp" then [("AE", areaOf p "A" "W" "L" * 10 ^ 12), ("PE", perimeterOf p "P" "W" "L" * 10 ^ 6)]
    else [("AE", areaOf p "AE" "WE" "LE" * 10 ^ 12), ("PE", perimeterOf p "PE" "WE" "LE" * 10 ^ 6)]) ++
  [("NE", (p "M").getD (orElse p "NE" 1)), ("m", (p "M").getD (orElse p "NE" 1))]

/-- `map_diode_params`; custom_reader.lvs 298–304. -/
def diodeParams (model : Str) (p : Params) : List (String × ℚ) :=
  (if has model "diodev" || has model "schottky" || has model "nmoscl" then []
    else [("A", areaOf p "A" "W" "L" * 10 ^ 12), ("P", perimeterOf p "P" "W" "L" * 10 ^ 6)]) ++ [("m", orElse p "M" 1)]

/-- `map_capacitor_params`; custom_reader.lvs 307–319. -/
def capacitorParams (model : Str) (p : Params) : List (String × ℚ) :=
  [("w", orElse p "W" 0 * 10 ^ 6), ("l", orElse p "L" 0 * 10 ^ 6)] ++
  (if has model "cap_cmim" then [("m", (p "M").getD (orElse p "MF" 1))] else []) ++
  (if has model "mim" then [("A", areaOf p "A" "W" "L" * 10 ^ 12), ("P", perimeterOf p "P" "W" "L" * 10 ^ 6)] else []) ++
  if has model "rfcmim" then [("wfeed", orElse p "WFEED" 0 * 10 ^ 6)] else []

/-- `map_resistor_params`; custom_reader.lvs 322–337. -/
def resistorParams (model : Str) (p : Params) : List (String × ℚ) :=
  if has model "tap" then
    [("A", areaOf p "A" "W" "L" * 10 ^ 12),
      ("P", (p "P").getD ((p "PERIM").getD ((orElse p "W" 0 + orElse p "L" 0) * 2)) * 10 ^ 6)]
  else if isRes model then
    [("w", orElse p "W" 0 * 10 ^ 6), ("l", orElse p "L" 0 * 10 ^ 6), ("ps", orElse p "PS" 0 * 10 ^ 6), ("b", orElse p "B" 0),
      ("m", orElse p "M" 1)]
  else
    [("W", (p "W").getD (orElse p "WIDTH" 0) * orElse p "M" 1 * 10 ^ 6),
      ("L", (p "L").getD (orElse p "LENGTH" 0) * orElse p "S" 1 * 10 ^ 6),
      ("R", orElse p "R" 0 * orElse p "S" 1 / orElse p "M" 1)]

/-- `map_inductor_params`; custom_reader.lvs 340–345. -/
def inductorParams (p : Params) : List (String × ℚ) :=
  [("w", orElse p "W" 0 * 10 ^ 6), ("s", orElse p "S" 0 * 10 ^ 6), ("d", orElse p "D" 0 * 10 ^ 6), ("nr_r", orElse p "NR_R" 0)]

/-- `map_params`; custom_reader.lvs 259–276. -/
def mapParams (ele : Ele) (model : Str) (p : Params) : List (String × ℚ) :=
  match ele with
  | .M => mosParams p
  | .Q => bjtParams model p
  | .C => capacitorParams model p
  | .R => resistorParams model p
  | .D => diodeParams model p
  | .L => inductorParams p

/-- The parameters of a device. KLayout raises an exception for a parameter that the class does not have. -/
def setParams (cls : DeviceClass) (ps : List (String × ℚ)) : Except String (List (String × ℚ)) :=
  if ps.all fun p => cls.params.contains p.1 then .ok ps else .error "RuntimeError"

/-- `process_device`; custom_reader.lvs 95–102. The classes of the netlist so far, and with the new one. -/
def processDevice (classes : List DeviceClass) (e : Element) : Except String (List DeviceClass × Device) := do
  let (cls, classes) ← match classes.find? fun c => c.name == e.model with
    | some c => pure (c, classes)
    | none => do
      let c ← createClass e.ele e.model e.nets.length
      pure (c, classes ++ [c])
  let conns ← connectTerminals cls (terminalList e.ele e.model e.nets.length) e.nets
  let ps ← setParams cls (mapParams e.ele e.model e.params)
  return (classes, ⟨cls, e.name, conns, ps⟩)

/-- The elements of a schematic, one after the other. -/
def readAll : List DeviceClass → List Element → Except String (List DeviceClass × List Device)
  | cs, [] => .ok (cs, [])
  | cs, e :: es => do
    let (cs, d) ← processDevice cs e
    let (cs, ds) ← readAll cs es
    return (cs, d :: ds)

end Verif.Decks
