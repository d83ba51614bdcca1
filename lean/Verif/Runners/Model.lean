import Verif.Runners.Path
import Verif.Common.PyDict

/-!
# Model of the external programs and of the flow around them

`run_fastercap`, `run_fastcap`, `run_magic` and `run_klayout_lvs` start a program, copy its output to a log file and look at
its exit code. A program is a function of its arguments and of the world it finds; what it writes (apart from its output) is
done when it ends, and it leaves the log file alone. Numbers are given by their text. Failures to decode the output, to
write to a full disk and the like are not modelled.
-/

namespace Verif.Runners

/-- The working directory of the process, the directories and files, and the lines shown on the console. -/
structure World where
  cwd : Place
  dirs : List Place
  files : Dict Place Str
  console : List Str
deriving DecidableEq

/-- Something that happens: a result or an exception, and a new world. -/
abbrev Act (α : Type) := World → Except String α × World

/-- One after the other; exceptions end the sequence. -/
def andThen {α β : Type} (a : Act α) (f : α → Act β) : Act β := fun w =>
  match a w with
  | (.error e, w') => (.error e, w')
  | (.ok x, w') => f x w'

/-- A value, or an exception. -/
def lift {α : Type} (r : Except String α) : Act α := fun w => (r, w)

/-- `os.chdir(p)` -/
def chdir (p : Str) : Act Unit := fun w =>
  if p = [] ∨ locate w.cwd p ∉ w.dirs then (.error "FileNotFoundError", w)
  else (.ok (), { w with cwd := locate w.cwd p })

/-- `with open(p, 'w') as f: f.write(text)` -/
def writeFile (p text : Str) : Act Unit := fun w =>
  if p = [] ∨ (locate w.cwd p).dropLast ∉ w.dirs then (.error "FileNotFoundError", w)
  else if locate w.cwd p ∈ w.dirs then (.error "IsADirectoryError", w)
  else (.ok (), { w with files := Dict.set w.files (locate w.cwd p) text })

/-- `with open(p, 'r') as f: f.read()` -/
def readFile (p : Str) : Act Str := fun w =>
  if p = [] then (.error "FileNotFoundError", w)
  else match Dict.get? w.files (locate w.cwd p) with
    | none => (.error "FileNotFoundError", w)
    | some text => (.ok text, w)

/-- What a program leaves behind when it has ended. -/
structure Exit where
  output : Str
  code : ℤ
  files : Dict Place Str

/-- A program: `subprocess.Popen(args)`; the exception is the one for a program that is not found. -/
abbrev Prog := List Str → World → Except String Exit

/-- `universal_newlines=True`: all kinds of line ends become `\n`. -/
def universal : Str → Str
  | [] => []
  | '\r' :: '\n' :: s => '\n' :: universal s
  | c :: s => (if c = '\r' then '\n' else c) :: universal s

/-- The lines as `readline` returns them: with their end, the last one possibly without. -/
def readlines : Str → List Str
  | [] => []
  | c :: s =>
    if c = '\n' then ['\n'] :: readlines s
    else match readlines s with
      | [] => [[c]]
      | l :: ls => (c :: l) :: ls

/-- The common part of the four runners: fastercap_runner.py 71–102, fastcap_runner.py 75–103, magic_runner.py 179–209,
lvs_runner.py 73–99. The arguments are joined for a message first, which needs them to be text. `strict` says whether a
failure is an exception (not so in lvs_runner.py). -/
def runLogged (prog : Prog) (strict : Bool) (args : List (Option Str)) (log : Str) : Act Unit := fun w =>
  match args.mapM id with
  | none => (.error "TypeError", w)
  | some argv =>
    match prog argv w with
    | .error e => (.error e, w)
    | .ok x =>
      let ls := readlines (universal x.output)
      match writeFile log ls.flatten { w with files := x.files } with
      | (.error e, w') => (.error e, w')
      | (.ok (), w') =>
        let w'' := { w' with console := w'.console ++ ls.map List.dropLast }
        if x.code ≠ 0 ∧ strict = true then (.error "Exception", w'') else (.ok (), w'')

/-- The parameters of `run_fastercap`; numbers by their text. -/
structure FasterCapArgs where
  tolerance : Str
  dCoeff : Str
  mesh : Str
  ooc : Option Str
  autoPreconditioner : Bool
  galerkin : Bool
  jacobi : Bool

/-- fastercap_runner.py 48–72 -/
def fasterCapArgs (exe lst : Str) (a : FasterCapArgs) : List Str :=
  [exe, "-b".toList, "-i".toList, "-v".toList, "-a".toList ++ a.tolerance, "-d".toList ++ a.dCoeff, "-m".toList ++ a.mesh] ++
  (match a.ooc with
    | some f => ["-f".toList ++ f]
    | none => []) ++
  (if a.autoPreconditioner then ["-ap".toList] else []) ++
  (if a.galerkin then ["-g".toList] else []) ++
  (if a.jacobi then ["-pj".toList] else []) ++
  [lst]

/-- `run_fastercap`; fastercap_runner.py 38–102. -/
def runFasterCap (prog : Prog) (exe lst log : Str) (a : FasterCapArgs) : Act Unit :=
  runLogged prog true ((fasterCapArgs exe lst a).map some) log

/-- The parameters of `run_fastcap`; numbers by their text. -/
structure FastCapArgs where
  order : Str
  depth : Str
  permittivity : Str
  tolerance : Str

/-- The defaults, which the command line tool uses; fastcap_runner.py 45–48. -/
def fastCapDefaults : FastCapArgs := ⟨"2".toList, "auto".toList, "1.0".toList, "0.01".toList⟩

/-- fastcap_runner.py 58–72 -/
def fastCapArgs (exe lst : Str) (a : FastCapArgs) : List Str :=
  [exe, "-o".toList ++ a.order] ++
  (if a.depth ≠ "auto".toList then ["-d".toList ++ a.depth] else []) ++
  ["-p".toList ++ a.permittivity, "-t".toList ++ a.tolerance, "-l".toList ++ lst]

/-- `run_fastcap`; fastcap_runner.py 42–103. The working directory is changed and not changed back. -/
def runFastCap (prog : Prog) (exe lst log : Str) (a : FastCapArgs) : Act Unit := fun w =>
  let workDir := dirname lst
  let log' := abspath w.cwd log
  let lst' := basename lst
  andThen (chdir workDir) (fun _ => runLogged prog true ((fastCapArgs exe lst' a).map some) log') w

/-- `run_magic`; magic_runner.py 166–209. The path of the configuration file may be missing (`None`). -/
def runMagic (prog : Prog) (exe : Str) (magicrc : Option Str) (script log : Str) : Act Unit :=
  runLogged prog true [some exe, some "-dnull".toList, some "-noconsole".toList, some "-rcfile".toList, magicrc, some script] log

/-- The fixed settings of `run_klayout_lvs`; lvs_runner.py 56–71, in two parts around `verbose`. -/
def lvsFixed1 : List Str := ["thr=22".toList, "run_mode=deep".toList, "spice_net_names=true".toList,
  "spice_comments=false".toList, "scale=false".toList]
def lvsFixed2 : List Str := ["schematic_simplify=false".toList, "net_only=false".toList, "top_lvl_pins=true".toList,
  "combine=false".toList, "combine_devices=false".toList, "purge=false".toList, "purge_nets=false".toList,
  "no_simplify=true".toList]

/-- lvs_runner.py 49–72 -/
def lvsArgs (cwd : Place) (exe script gds schematic lvsdb : Str) (verbose : Bool) : List Str :=
  [exe, "-b".toList, "-r".toList, script] ++
  (["input=".toList ++ abspath cwd gds, "report=".toList ++ abspath cwd lvsdb, "schematic=".toList ++ abspath cwd schematic] ++
    lvsFixed1 ++ ["verbose=".toList ++ (if verbose then "true".toList else "false".toList)] ++ lvsFixed2).flatMap
      fun s => ["-rd".toList, s]

/-- `run_klayout_lvs`; lvs_runner.py 41–99. -/
def runLvs (prog : Prog) (exe script gds schematic log lvsdb : Str) (verbose : Bool) : Act Unit := fun w =>
  runLogged prog false ((lvsArgs w.cwd exe script gds schematic lvsdb verbose).map some) log w

/-- What is made of the output of a solver: reading the matrix and the texts of the files written from it, as modelled in the
areas `SolverLog`, `CapMatrix`, `Maxwell` and `Reduce`. -/
structure Solver (M : Type) where
  parse : Str → Except String M
  raw : M → Except String Str
  avg : M → Except String Str
  csv : M → Except String Str
  expanded : M → Except String Str
  reduced : M → Except String Str

/-- A file is computed and written. -/
def emit (p : Str) (text : Except String Str) : Act Unit := andThen (lift text) (writeFile p)

/-- The lines of a file are shown; kpex_cli.py 558–562. -/
def showLines (text : Str) : Act Unit := fun w =>
  (.ok (), { w with console := w.console ++ (readlines text).map List.dropLast })

/-- `run_fastcap_extraction`; kpex_cli.py 632–676. -/
def fastCapFlow {M : Type} (prog : Prog) (s : Solver M) (exe out cell lst : Str) : Act Unit :=
  let path (name : String) : Str := join out (cell ++ name.toList)
  andThen (runFastCap prog exe lst (path "_FastCap2_Output.txt") fastCapDefaults) fun _ =>
  andThen (readFile (path "_FastCap2_Output.txt")) fun text =>
  andThen (lift (s.parse text)) fun m =>
  andThen (emit (path "_FastCap2_Result_Matrix_Raw.csv") (s.raw m)) fun _ =>
  andThen (emit (path "_FastCap2_Result_Matrix_Avg.csv") (s.avg m)) fun _ =>
  andThen (emit (path "_FastCap2_Expanded_Netlist.cir") (s.expanded m)) fun _ =>
  emit (path "_FastCap2_Reduced_Netlist.cir") (s.reduced m)

/-- `run_fastercap_extraction`; kpex_cli.py 505–573. The report is shown on the console after it is written (558–562). -/
def fasterCapFlow {M : Type} (prog : Prog) (s : Solver M) (exe out cell lst : Str) (a : FasterCapArgs) : Act Unit :=
  let path (name : String) : Str := join out (cell ++ name.toList)
  andThen (runFasterCap prog exe lst (path "_FasterCap_Output.txt") a) fun _ =>
  andThen (readFile (path "_FasterCap_Output.txt")) fun text =>
  andThen (lift (s.parse text)) fun m =>
  andThen (emit (path "_FasterCap_Result_Matrix_Raw.csv") (s.raw m)) fun _ =>
  andThen (emit (path "_FasterCap_Result_Matrix_Avg.csv") (s.avg m)) fun _ =>
  andThen (emit (path "_FasterCap_Expanded_Netlist.csv") (s.csv m)) fun _ =>
  andThen (readFile (path "_FasterCap_Expanded_Netlist.csv")) fun csv =>
  andThen (showLines csv) fun _ =>
  andThen (emit (path "_FasterCap_Expanded_Netlist.cir") (s.expanded m)) fun _ =>
  emit (path "_FasterCap_Reduced_Netlist.cir") (s.reduced m)

/-- The path of the list file: `build_fastercap_input`, kpex_cli.py 488–491, and fastercap_model_generator.py 745. -/
def lstPath (out : Str) : Str := join (join out "FasterCap_Input_Files".toList) "FasterCap_Input_.lst".toList

end Verif.Runners
