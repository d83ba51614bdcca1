import Verif.Options.Model

/-!
# Model of the checks of the command line (`KpexCLI.validate_args`, kpex_cli.py 312–473) and of `KpexCLI.main` (840–945)

The files are an oracle.  Not modelled: `argparse` itself, logging, and the directories and the dummy schematic which
`validate_args` writes.  `str.upper()` is modelled for ASCII letters.
-/

namespace Verif.CliArgs

/-- What the files say. -/
structure World where
  /-- `os.path.isfile` -/
  isFile : Str → Bool
  /-- `shutil.which` -/
  which : Str → Bool
  /-- names of all cells and of the top cells of a layout file -/
  cells : Str → List Str
  tops : Str → List Str
  /-- name of the internal top cell of an LVS database -/
  lvsTop : Str → Option Str

/-- The parsed arguments which `validate_args` looks at; `tech` and `script` are those of the PDK (314–316). -/
structure Args where
  exe : Str
  tech : Str
  script : Str
  runMagic : Bool
  runFastcap : Bool
  runFastercap : Bool
  run25d : Bool
  gds : Option Str
  lvsdb : Option Str
  cell : Option Str
  schematic : Option Str
  logLevel : Str
  diel : Str
  outDir : Str
  cacheDir : Option Str

/-- The calls of `error(…)`. -/
inductive Err where
  | noKlayout | noTech | noScript | magicNeedsGds | noEngine | noInput | noGdsFile | noSuchCell | noTopCell | noLvsdbFile
  | noSchematic | badLogLevel
deriving DecidableEq

inductive Mode where
  | gds | lvsdb
deriving DecidableEq

/-- The attributes which `validate_args` sets; `none`: not set. -/
structure Config where
  mode : Option Mode
  cell : Option Str
  /-- `effective_gds_path`: the file given, or (if true) the file with the exported cell -/
  gds : Option (Str × Bool)
  outPath : Option Str
  /-- `effective_schematic_path` -/
  schematic : Option Str
  cacheDir : Str
  filter : Option Options.Pattern
deriving DecidableEq

inductive Outcome where
  | accepted (c : Config)
  /-- `ArgumentValidationError` -/
  | rejected (es : List Err)
  /-- `AttributeError` or `TypeError` -/
  | crash
deriving DecidableEq

/-- `input_file_stem`, kpex_cli.py 319–321. -/
def stem (path : Str) : Str := (splitOn '.' ((splitOn '/' path).getLast?.getD [])).head?.getD []

/-- Truth value of an optional text: `None` and the empty text are false. -/
def truthy : Option Str → Option Str
  | none => none
  | some [] => none
  | some (c :: s) => some (c :: s)

/-- kpex_cli.py 323–335. -/
def toolErrors (w : World) (a : Args) : List Err :=
  (if w.isFile a.exe || w.which a.exe then [] else [.noKlayout]) ++
  (if w.isFile a.tech then [] else [.noTech]) ++
  (if w.isFile a.script then [] else [.noScript])

/-- The `match` statement, kpex_cli.py 340–360. -/
def engineErrors (a : Args) : List Err :=
  match a.runMagic, a.runFastcap, a.runFastercap, a.run25d, a.gds, a.lvsdb with
  | true, _, _, _, none, _ => [.magicNeedsGds]
  | false, false, false, false, _, _ => [.noEngine]
  | _, _, _, _, none, none => [.noInput]
  | _, _, _, _, _, _ => []

/-- What 362–424 determine: errors, mode, cell, layout file; `none`: the crash of `found_cell.write` (400). -/
def input (w : World) (a : Args) : Option (List Err × Option Mode × Option Str × Option (Str × Bool)) :=
  match truthy a.gds with
  | some g =>
    if w.isFile g then
      match truthy a.cell with
      | some c =>
        if w.tops g = [c] then
          some (if c ∈ w.cells g then [] else [.noSuchCell], some .gds, some c, some (g, false))
        else if c ∈ w.cells g then some ([], some .gds, some c, some (g, true))
        else none
      | none =>
        match w.tops g with
        | [t] => some ([], some .gds, some t, some (g, false))
        | _ => some ([.noTopCell], some .gds, some "TOP".toList, some (g, false))
    else some ([.noGdsFile], some .gds, none, none)
  | none =>
    match a.lvsdb with
    | some l => if w.isFile l then (w.lvsTop l).map fun t => ([], some .lvsdb, some t, none)
      else some ([.noLvsdbFile], some .lvsdb, none, none)
    | none => some ([], none, none, none)

/-- `args.output_dir_path`, kpex_cli.py 426–436. -/
def outPath (a : Args) (mode : Option Mode) (cell : Option Str) : Option Str :=
  match mode, cell with
  | some .gds, some c => some (a.outDir ++ '/' :: (stem (a.gds.getD []) ++ "__".toList ++ c))
  | some .lvsdb, some c => some (a.outDir ++ '/' :: (stem (a.lvsdb.getD []) ++ "__".toList ++ c))
  | _, _ => none

/-- `args.effective_schematic_path` with its error, kpex_cli.py 438–453. -/
def schematic (w : World) (a : Args) (mode : Option Mode) (cell : Option Str) : List Err × Option Str :=
  match mode, cell with
  | some .gds, some c =>
    match truthy a.schematic with
    | some s => (if w.isFile s then [] else [.noSchematic], some s)
    | none => ([], (outPath a mode cell).map fun d => d ++ '/' :: (c ++ "_dummy_schematic.spice".toList))
  | _, _ => ([], none)

/-- The names of `LogLevel`, log/logger.py 33–42. -/
def logLevels : List Str := ["ALL".toList, "DEBUG".toList, "SUBPROCESS".toList, "VERBOSE".toList, "INFO".toList, "WARNING".toList,
  "ERROR".toList, "CRITICAL".toList, "DEFAULT".toList]

/-- kpex_cli.py 455–460. -/
def logErrors (a : Args) : List Err := if a.logLevel.map Char.toUpper ∈ logLevels then [] else [.badLogLevel]

/-- `validate_args`, kpex_cli.py 312–473.  The handler for a filter that cannot be parsed (462–467) calls `error` with a text
without placeholder and an argument for it; the console handler raises a `TypeError` for such a message (see `Logging`). -/
def validate (w : World) (a : Args) : Outcome :=
  match input w a with
  | none => .crash
  | some (es, mode, cell, gds) =>
    match Options.parse a.diel with
    | .error _ => .crash
    | .ok p =>
      let errs := toolErrors w a ++ engineErrors a ++ es ++ (schematic w a mode cell).1 ++ logErrors a
      if errs = [] then .accepted ⟨mode, cell, gds, outPath a mode cell, (schematic w a mode cell).2,
        a.cacheDir.getD (a.outDir ++ "/.kpex_cache".toList), some p⟩
      else .rejected errs

/-- The parts of a run. -/
inductive Step where
  | magic | lvsdb | noLayers | solverInput | fastercap | fastcap | k25d
deriving DecidableEq

/-- `main`, kpex_cli.py 856–945, for accepted arguments: which parts run, if none of them fails.
`layers`: does the database contain extracted layers? -/
def mainSteps (a : Args) (layers : Bool) : List Step :=
  (if a.runMagic then [.magic] else []) ++
  if !(a.runFastcap || a.runFastercap || a.run25d) then []
  else .lvsdb ::
    if !layers then [.noLayers]
    else
      (if a.runFastcap || a.runFastercap then
        .solverInput :: ((if a.runFastercap then [.fastercap] else []) ++ (if a.runFastcap then [.fastcap] else []))
        else []) ++
      (if a.run25d then [.k25d] else [])

end Verif.CliArgs
