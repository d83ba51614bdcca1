import Verif.Common.PyDict
import Verif.Common.PyStr
import Mathlib.Data.Rat.Floor

/-!
# Model of the Magic wrapper: `klayout_pex/magic/*.py`

Text is a list of characters.  The regular expressions of the parser are sequences of tokens; `\w` and `\d` are restricted
to ASCII.  Files are given as names with their lines; reading and writing never fails.
-/

namespace Verif.Magic

/-! ### Regular expressions -/

/-- `\w` (ASCII). -/
def isWord (c : Char) : Bool := c.isAlphanum || c = '_'

/-- `[\w\\.]`. -/
def isName (c : Char) : Bool := isWord c || c = '\\' || c = '.'

/-- `[\d\\.]`. -/
def isNum (c : Char) : Bool := c.isDigit || c = '\\' || c = '.'

/-- The parts of the regular expressions: a literal, one or more characters of a class, the same with an optional minus
sign, and `.*`. -/
inductive Tok where
  | lit (w : Str)
  | cls (p : Char → Bool)
  | signed (p : Char → Bool)
  | rest

/-- Greedy match of one or more characters of a class. -/
def scanCls (p : Char → Bool) (s : Str) : Option (Str × Str) :=
  if s.takeWhile p = [] then none else some (s.takeWhile p, s.dropWhile p)

/-- The same with an optional minus sign. -/
def scanSigned (p : Char → Bool) : Str → Option (Str × Str)
  | [] => none
  | c :: r => if c = '-' then (scanCls p r).map fun e => ('-' :: e.1, e.2) else scanCls p (c :: r)

/-- Match of one part at the start of the text: the matched text and what follows.  There is no backtracking because in
every expression below a class is followed by a literal that starts with a character outside of the class. -/
def scan : Tok → Str → Option (Str × Str)
  | .lit w, s => if w.isPrefixOf s then some (w, s.drop w.length) else none
  | .cls p, s => scanCls p s
  | .signed p, s => scanSigned p s
  | .rest, s => some (s, [])

/-- `re.match(r'^…$', s)`: the texts of all parts. -/
def fullMatch : List Tok → Str → Option (List Str)
  | [], s => if s = [] then some [] else none
  | t :: ts, s =>
    match scan t s with
    | none => none
    | some (a, r) => (fullMatch ts r).map (a :: ·)

/-- Literal of a string. -/
def L (w : String) : Tok := .lit w.toList

/-- ` (?P<x>-?\d+)` -/
def coord : List Tok := [L " ", .signed Char.isDigit]

/-- `^port "(?P<net>\w+)" (?P<nr>\d+) … (?P<layer>\w+)$`, magic_ext_file_parser.py 92–94. -/
def portRe : List Tok :=
  [L "port \"", .cls isWord, L "\" ", .cls Char.isDigit] ++ coord ++ coord ++ coord ++ coord ++ [L " ", .cls isWord]

/-- `^(node|substrate) "(?P<net>\w+)" …`, magic_ext_file_parser.py 103–105; `key` is one of the two words. -/
def nodeRe (key : String) : List Tok :=
  [L (key ++ " \""), .cls isWord, L "\" ", .cls Char.isDigit, L " ", .cls Char.isDigit] ++ coord ++ coord ++
    [L " ", .cls isWord, L " ", .rest]

/-- `^device (?P<type>\w+) …`, magic_ext_file_parser.py 114–116. -/
def deviceRe : List Tok :=
  [L "device ", .cls isWord, L " ", .cls isWord] ++ coord ++ coord ++ coord ++ coord ++ [L " ", .rest]

/-- `^rnode "(?P<name>[\w\\.]+)" …`, magic_ext_file_parser.py 135–137. -/
def rnodeRe : List Tok := [L "rnode \"", .cls isName, L "\""] ++ coord ++ coord ++ coord ++ coord ++ [L " 0"]

/-- `^resist "(?P<node1>[\w\\.]+)" "(?P<node2>[\w\\.]+)" (?P<value>-?[\d\\.]+)$`, magic_ext_file_parser.py 145–147. -/
def resistRe : List Tok := [L "resist \"", .cls isName, L "\" \"", .cls isName, L "\" ", .signed isNum]

/-! ### Numbers -/

/-- `int` of digits. -/
def natOf (s : Str) : Nat := Nat.ofDigitChars 10 s 0

/-- `int` of digits with an optional minus sign. -/
def intOf : Str → ℤ
  | '-' :: r => -(natOf r : ℤ)
  | s => natOf s

/-- `float` of digits and at most one point, with at least one digit; anything else is a `ValueError`. -/
def unsignedOf (s : Str) : Except String ℚ :=
  let a := s.takeWhile Char.isDigit
  match s.dropWhile Char.isDigit with
  | [] => if a = [] then .error "ValueError" else .ok (natOf a)
  | c :: b =>
    if c = '.' ∧ b.all Char.isDigit ∧ (a ≠ [] ∨ b ≠ []) then .ok (natOf a + natOf b / 10 ^ b.length) else .error "ValueError"

/-- `float` of the value of a resistor. -/
def floatOf : Str → Except String ℚ
  | '-' :: r => (unsignedOf r).map (- ·)
  | s => unsignedOf s

/-! ### Data, magic_ext_data_structures.py 34–128 -/

/-- `Port` -/
structure Port where
  net : Str
  xBot : ℤ
  yBot : ℤ
  xTop : ℤ
  yTop : ℤ
  layer : Str
deriving DecidableEq

/-- `Node` -/
structure Node where
  net : Str
  intR : Nat
  finC : Nat
  xBot : ℤ
  yBot : ℤ
  layer : Str
deriving DecidableEq

/-- The values of `DeviceType`. -/
def deviceTypes : List Str :=
  ["fet", "mosfet", "asymmetric", "bjt", "devres", "devcap", "devcaprev", "vsource", "diode", "pdiode", "ndiode", "subckt",
    "rsubckt", "msubckt", "csubckt"].map String.toList

/-- `Device`, with the type as its text. -/
structure Device where
  type : Str
  model : Str
  xBot : ℤ
  yBot : ℤ
  xTop : ℤ
  yTop : ℤ
deriving DecidableEq

/-- `ExtData` -/
structure ExtData where
  ports : List Port
  nodes : List Node
  devices : List Device
deriving DecidableEq

/-- `ResNode` -/
structure ResNode where
  name : Str
  intR : ℤ
  finC : ℤ
  xBot : ℤ
  yBot : ℤ
deriving DecidableEq

/-- `Resistor` -/
structure Resistor where
  node1 : Str
  node2 : Str
  value : ℚ
deriving DecidableEq

/-- `ResExtData` -/
structure ResExtData where
  rnodes : List ResNode
  resistors : List Resistor
deriving DecidableEq

/-! ### Parsing of lines -/

/-- `ports.append(Port(…))`, magic_ext_file_parser.py 95–101. -/
def portOf (line : Str) : Option Port :=
  match fullMatch portRe (strip line) with
  | some [_, net, _, _, _, x1, _, y1, _, x2, _, y2, _, layer] =>
    some ⟨net, intOf x1, intOf y1, intOf x2, intOf y2, layer⟩
  | _ => none

/-- `nodes.append(Node(…))`, magic_ext_file_parser.py 106–112. -/
def nodeOf (line : Str) : Option Node :=
  match (fullMatch (nodeRe "node") (strip line)).or (fullMatch (nodeRe "substrate") (strip line)) with
  | some [_, net, _, r, _, c, _, x, _, y, _, layer, _, _] => some ⟨net, natOf r, natOf c, intOf x, intOf y, layer⟩
  | _ => none

/-- `devices.append(Device(…))`, magic_ext_file_parser.py 117–125: an unknown type is a `ValueError`. -/
def deviceOf (line : Str) : Except String (Option Device) :=
  match fullMatch deviceRe (strip line) with
  | some [_, ty, _, model, _, x1, _, y1, _, x2, _, y2, _, _] =>
    if ty ∈ deviceTypes then .ok (some ⟨ty, model, intOf x1, intOf y1, intOf x2, intOf y2⟩) else .error "ValueError"
  | _ => .ok none

/-- `parse_magic_ext_file`, magic_ext_file_parser.py 82–126. -/
def parseExt (lines : List Str) : Except String ExtData := do
  let devices ← lines.mapM deviceOf
  return ⟨lines.filterMap portOf, lines.filterMap nodeOf, devices.filterMap id⟩

/-- `rnodes.append(ResNode(…))`, magic_ext_file_parser.py 138–143. -/
def rnodeOf (line : Str) : Option ResNode :=
  match fullMatch rnodeRe (strip line) with
  | some [_, name, _, _, r, _, c, _, x, _, y, _] => some ⟨name, intOf r, intOf c, intOf x, intOf y⟩
  | _ => none

/-- `resistors.append(Resistor(…))`, magic_ext_file_parser.py 148–151. -/
def resistorOf (line : Str) : Except String (Option Resistor) :=
  match fullMatch resistRe (strip line) with
  | some [_, a, _, b, _, v] => (floatOf v).map fun v => some ⟨a, b, v⟩
  | _ => .ok none

/-- `parse_magic_res_ext_file`, magic_ext_file_parser.py 129–153. -/
def parseResExt (lines : List Str) : Except String ResExtData := do
  let resistors ← lines.mapM resistorOf
  return ⟨lines.filterMap rnodeOf, resistors.filterMap id⟩

/-! ### Files -/

/-- `re.match(r'(?P<cell>.*?)(?P<res>\.res)?\.ext', name)`: the cell and whether it is a file with resistors; the cell is
the shortest possible one, and what follows `.ext` does not matter. -/
def splitName : Str → Option (Str × Bool)
  | [] => none
  | c :: s =>
    if ".res.ext".toList.isPrefixOf (c :: s) then some ([], true)
    else if ".ext".toList.isPrefixOf (c :: s) then some ([], false)
    else if c = '\n' then none
    else (splitName s).map fun e => (c :: e.1, e.2)

/-- A directory: names of files with their lines, in the order in which `glob` lists them. -/
abbrev Dir := List (Str × List Str)

/-- `run_dir.glob('*.ext')`. -/
def extFiles (d : Dir) : Dir := d.filter fun f => ".ext".toList.isSuffixOf f.1

/-- The two tables of paths, magic_ext_file_parser.py 46–63 (the table maps the cell to the lines of the file). -/
def filePaths (d : Dir) : Dict Str (List Str) × Dict Str (List Str) :=
  (extFiles d).foldl (fun t f =>
    match splitName f.1 with
    | none => t
    | some (cell, true) => (t.1, t.2.set cell f.2)
    | some (cell, false) => (t.1.set cell f.2, t.2)) ([], [])

/-- `CellExtData` -/
structure CellExtData where
  ext : ExtData
  res : Option ResExtData
deriving DecidableEq

/-- Data of one cell, magic_ext_file_parser.py 70–73. -/
def cellData (res : Dict Str (List Str)) (f : Str × List Str) : Except String (Str × CellExtData) := do
  let ext ← parseExt f.2
  match res.get? f.1 with
  | none => return (f.1, ⟨ext, none⟩)
  | some lines => do
    let r ← parseResExt lines
    return (f.1, ⟨ext, some r⟩)

/-- `parse_magic_pex_run`, magic_ext_file_parser.py 43–79. -/
def parseRun (d : Dir) : Except String (List (Str × CellExtData)) :=
  let t := filePaths d
  if t.1 = [] then .error "Could not find any *.ext files to analyze" else t.1.mapM (cellData t.2)

/-! ### Report -/

/-- A box in database units. -/
structure Box where
  x1 : ℤ
  y1 : ℤ
  x2 : ℤ
  y2 : ℤ
deriving DecidableEq

/-- Shapes of the report under one category (the path below `MAGIC Extraction`) of a cell. -/
structure Entry where
  cell : Str
  group : String
  name : Str
  boxes : List Box

/-- `p.x_bot / dbu_to_um / self.dbu`, as KLayout converts it to an integer (`rnd`). -/
def toDbu (rnd : ℚ → ℤ) (dbu : ℚ) (v : ℤ) : ℤ := rnd (v / 200 / dbu)

/-- `kdb.Box(…)` of two corners (Magic lists the lower left one first; KLayout would reorder them). -/
def boxOf (rnd : ℚ → ℤ) (dbu : ℚ) (x1 y1 x2 y2 : ℤ) : Box :=
  ⟨toDbu rnd dbu x1, toDbu rnd dbu y1, toDbu rnd dbu x2, toDbu rnd dbu y2⟩

/-- `box_for_point_dbu`, magic_log_analyzer.py 70–71. -/
def boxAt (rnd : ℚ → ℤ) (dbu : ℚ) (x y : ℤ) : Box :=
  ⟨toDbu rnd dbu x, toDbu rnd dbu y, rnd (x / 200 / dbu + 20), rnd (y / 200 / dbu + 20)⟩

/-- `f"{net} ({layer})"` -/
def netLayer (net layer : Str) : Str := net ++ " (".toList ++ layer ++ ")".toList

/-- The resistors of a cell, magic_log_analyzer.py 102–122.  The value of a resistor is printed by `pr`. -/
def resEntries (rnd : ℚ → ℤ) (pr : ℚ → Str) (dbu : ℚ) (cell : Str) : Option ResExtData → List Entry
  | none => []
  | some r =>
    (r.rnodes.map fun n => ⟨cell, "Resistor Nodes", n.name, [boxAt rnd dbu n.xBot n.yBot]⟩) ++
    (r.resistors.zipIdx.map fun e =>
      ⟨cell, "Resistors", "#".toList ++ (toString e.2).toList ++ " ".toList ++ e.1.node1 ++ "↔︎".toList ++ e.1.node2 ++
          " = ".toList ++ pr e.1.value ++ " Ω".toList,
        ((r.rnodes.filter fun n => decide (n.name = e.1.node1)) ++
          (r.rnodes.filter fun n => decide (n.name = e.1.node2))).map fun n => boxAt rnd dbu n.xBot n.yBot⟩)

/-- `analyze_cell`, magic_log_analyzer.py 57–122. -/
def analyzeCell (rnd : ℚ → ℤ) (pr : ℚ → Str) (dbu : ℚ) (cell : Str) (c : CellExtData) : List Entry :=
  (c.ext.ports.map fun p =>
    ⟨cell, "Ports", netLayer p.net p.layer, [boxOf rnd dbu p.xBot p.yBot p.xTop p.yTop]⟩) ++
  (c.ext.nodes.map fun n => ⟨cell, "Nodes", netLayer n.net n.layer, [boxAt rnd dbu n.xBot n.yBot]⟩) ++
  (c.ext.devices.map fun d => ⟨cell, "Devices", "Type=".toList ++ d.type ++ " Model=".toList ++ d.model,
    [boxOf rnd dbu d.xBot d.yBot d.xTop d.yTop]⟩) ++
  resEntries rnd pr dbu cell c.res

/-- `analyze`, magic_log_analyzer.py 52–55. -/
def analyze (rnd : ℚ → ℤ) (pr : ℚ → Str) (dbu : ℚ) (cells : List (Str × CellExtData)) : List Entry :=
  cells.flatMap fun e => analyzeCell rnd pr dbu e.1 e.2

/-- The report of a Magic run, kpex_cli.py 611–621: all files in the run directory are read. -/
def report (rnd : ℚ → ℤ) (pr : ℚ → Str) (dbu : ℚ) (d : Dir) : Except String (List Entry) :=
  (parseRun d).map (analyze rnd pr dbu)

/-! ### Script -/

/-- `MagicPEXMode` -/
inductive Mode where
  | CC
  | RC
  | R
deriving DecidableEq

/-- The parameters of `prepare_magic_script`: paths are absolute, numbers and modes are given as Python prints them. -/
structure ScriptArgs where
  version : Str
  gds : Str
  cell : Str
  runDir : Str
  netlist : Str
  mode : Mode
  cth : Str
  rth : Str
  tol : Str
  halo : Option ℚ
  short : Str
  merge : Str

/-- Python's `round`: half to even. -/
def roundEven (q : ℚ) : ℤ :=
  if q - ⌊q⌋ < 1 / 2 then ⌊q⌋ else if 1 / 2 < q - ⌊q⌋ then ⌊q⌋ + 1 else if ⌊q⌋ % 2 = 0 then ⌊q⌋ else ⌊q⌋ + 1

/-- Python's text of an integer. -/
def showInt (z : ℤ) : Str := if z < 0 then '-' :: (toString z.natAbs).toList else (toString z.natAbs).toList

/-- The lines all modes start with, magic_runner.py 82–93. -/
def scriptHead (a : ScriptArgs) : List Str :=
  ["# Generated by kpex ".toList ++ a.version,
    "crashbackups stop".toList,
    "drc off".toList,
    "gds read ".toList ++ a.gds,
    "load ".toList ++ a.cell,
    "select top cell".toList,
    "flatten ".toList ++ a.cell ++ "_flat".toList,
    "load ".toList ++ a.cell ++ "_flat".toList,
    "cellname delete ".toList ++ a.cell ++ " -noprompt".toList,
    "cellname rename ".toList ++ a.cell ++ "_flat ".toList ++ a.cell,
    "select top cell".toList,
    "extract path ".toList ++ a.runDir] ++
  match a.halo with
  | none => []
  | some h => ["extract halo ".toList ++ showInt (roundEven (h * 200))]

/-- The lines all modes end with, magic_runner.py 98–101. -/
def scriptTail (a : ScriptArgs) : List Str :=
  ["ext2spice subcircuits top on".toList,
    "ext2spice format ngspice".toList,
    "ext2spice -p ".toList ++ a.runDir ++ " -o ".toList ++ a.netlist,
    "quit -noprompt".toList]

/-- The lines of the script, magic_runner.py 78–156. -/
def scriptLines (a : ScriptArgs) : List Str :=
  match a.mode with
  | .CC => scriptHead a ++
      ["extract all".toList,
        "ext2spice short ".toList ++ a.short,
        "ext2spice merge ".toList ++ a.merge,
        "ext2spice cthresh ".toList ++ a.cth] ++ scriptTail a
  | .RC => scriptHead a ++
      ["extract do resistance".toList,
        "extract all".toList,
        "ext2sim labels on".toList,
        "ext2sim".toList,
        "extresist tolerance ".toList ++ a.tol,
        "extresist all".toList,
        "ext2spice short ".toList ++ a.short,
        "ext2spice merge ".toList ++ a.merge,
        "ext2spice cthresh ".toList ++ a.cth,
        "ext2spice rthresh ".toList ++ a.rth,
        "ext2spice extresist on".toList] ++ scriptTail a ++ [[]]
  | .R => scriptHead a ++
      ["extract do resistance".toList,
        "extract no capacitance".toList,
        "extract no coupling".toList,
        "extract all".toList,
        "ext2sim labels on".toList,
        "ext2sim".toList,
        "extresist tolerance ".toList ++ a.tol,
        "extresist all".toList,
        "ext2spice short ".toList ++ a.short,
        "ext2spice merge ".toList ++ a.merge,
        "ext2spice rthresh ".toList ++ a.rth,
        "ext2spice extresist on".toList] ++ scriptTail a ++ [[]]

/-- The text of the script, `prepare_magic_script`, magic_runner.py 60–159. -/
def script (a : ScriptArgs) : Str := joinWith '\n' (scriptLines a)

end Verif.Magic
