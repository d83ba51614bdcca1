import Verif.Common.PyStr

/-!
# Model of the log files of a run (`KpexCLI.setup_logging`, kpex_cli.py 745–788)

The file system maps a path (directory and file name) to the file's messages and its change time in seconds.
`stamp` is `datetime.fromtimestamp(t).strftime('%Y-%m-%d_%H-%M-%S')`, an arbitrary function here (what is needed about it
is a hypothesis of the theorems).  A run writes its messages before the log is moved at one time (`start`) and the later ones
at another (`stop`); the messages are the same in both logs (the second one adds a prefix to each line).
-/

namespace Verif.LogFiles

structure File where
  content : List Str
  ctime : Nat
deriving DecidableEq

abbrev Path := Str × Str

abbrev FS := Path → Option File

def put (fs : FS) (p : Path) (f : Option File) : FS := fun q => if q = p then f else fs q

/-- `logging.FileHandler(path)`: opens for appending, creating the file if needed (kpex_cli.py 748). -/
def openLog (now : Nat) (p : Path) (fs : FS) : FS :=
  match fs p with
  | some _ => fs
  | none => put fs p (some ⟨[], now⟩)

/-- Messages are appended to the file. -/
def write (now : Nat) (p : Path) (msgs : List Str) (fs : FS) : FS :=
  match fs p with
  | some f => put fs p (some ⟨f.content ++ msgs, now⟩)
  | none => fs

/-- `shutil.move(src, dst)` within a file system: the file gets the new name, replacing a file of that name; its change time
is set. -/
def move (now : Nat) (src dst : Path) (fs : FS) : FS :=
  match fs src with
  | some f => put (put fs src none) dst (some ⟨f.content, now⟩)
  | none => fs

/-- `f"{new_path[:-4]}_{timestamp}.bak.log"`, kpex_cli.py 766. -/
def backupName (log : Str) (timestamp : Str) : Str := log.take (log.length - 4) ++ '_' :: timestamp ++ ".bak.log".toList

/-- `reregister_log_file_handler`, kpex_cli.py 755–769. -/
def reregister (stamp : Nat → Str) (now : Nat) (base out log : Str) (fs : FS) : FS :=
  move now (base, log) (out, log)
    (match fs (out, log) with
     | some f => move now (out, log) (out, backupName log (stamp f.ctime)) fs
     | none => fs)

/-- The names of the logs, kpex_cli.py 772–773. -/
def plain : Str := "kpex_plain.log".toList
def formatted : Str := "kpex.log".toList

/-- A run of the tool: the `--out_dir`, the directory of the run if it is determined, whether the arguments are valid, the
messages before and after the log is moved. -/
structure Run where
  base : Str
  out : Option Str
  valid : Bool
  pre : List Str
  post : List Str
  start : Nat
  stop : Nat

/-- The effect of a run on the log files, kpex_cli.py 771–788: without output directory the run ends with an exception
(validation failed, or attribute error), and the logs stay where they are. -/
def run (stamp : Nat → Str) (r : Run) (fs : FS) : FS :=
  let fs := openLog r.start (r.base, formatted) (openLog r.start (r.base, plain) fs)
  let fs := write r.start (r.base, formatted) r.pre (write r.start (r.base, plain) r.pre fs)
  match r.out with
  | none => fs
  | some out =>
    let fs := reregister stamp r.start r.base out plain fs
    let fs := reregister stamp r.start r.base out formatted fs
    if r.valid then write r.stop (out, formatted) r.post (write r.stop (out, plain) r.post fs) else fs

def runs (stamp : Nat → Str) (rs : List Run) (fs : FS) : FS := rs.foldl (fun fs r => run stamp r fs) fs

end Verif.LogFiles
