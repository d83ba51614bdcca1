import Verif.Common.PyStr

/-!
# Model of the choice of the LVS database (`KpexCLI.create_lvsdb`, kpex_cli.py 795–838)

A number stands for the content of a layout.  The database which KLayout LVS writes is determined by the content of the layout,
the cell and the setup, a number that stands for the LVS script and the schematic.  Whether KLayout writes the database is an
input: `run_klayout_lvs` (klayout/lvs_runner.py 40–99) only warns if KLayout fails.
-/

namespace Verif.LvsCache

/-- An LVS database: what it was made from. -/
structure Db where
  content : Nat
  cell : Str
  setup : Nat
deriving DecidableEq

/-- `input_file_stem` for a layout, kpex_cli.py 319–321: the base name up to the first dot. -/
def stem (path : Str) : Str := (splitOn '.' ((splitOn '/' path).getLast?.getD [])).head?.getD []

/-- The arguments of a run with `--gds`, and what happens while it takes place. -/
structure Run where
  /-- `--out_dir`, an absolute path -/
  base : Str
  /-- `--cache-dir` -/
  cacheDir : Option Str
  pdk : Str
  /-- `--gds`, an absolute path -/
  gds : Str
  /-- the effective cell name -/
  cell : Str
  /-- the LVS script and the schematic -/
  setup : Nat
  cacheLvs : Bool
  /-- does KLayout write the database, if it is called? -/
  lvsWrites : Bool
  /-- is the layout written while KLayout LVS is running, with which content and when? -/
  meanwhile : Option (Nat × Nat)

/-- `args.cache_dir_path`, kpex_cli.py 469–470. -/
def Run.cachePath (r : Run) : Str := r.cacheDir.getD (r.base ++ "/.kpex_cache".toList)

/-- `lvsdb_cache_path`, kpex_cli.py 804–806: `{cache dir}/{pdk}/{path of the layout}/{cell}.lvsdb.gz`, by its components. -/
def Run.cacheKey (r : Run) : Str × Str × Str × Str := (r.cachePath, r.pdk, r.gds, r.cell)

/-- `lvsdb_path`, kpex_cli.py 427–436, 803: `{out dir}/{stem}__{cell}/{cell}.lvsdb.gz`, by its components (the name of the file
gives the cell, and then the name of the directory the stem). -/
def Run.outKey (r : Run) : Str × Str × Str := (r.base, stem r.gds, r.cell)

/-- The relevant files: layouts with content and modification time; databases in the output directories; databases in cache
directories with modification time. -/
structure State where
  gds : Str → Option (Nat × Nat)
  out : Str × Str × Str → Option Db
  cache : Str × Str × Str × Str → Option (Db × Nat)

/-- A file is written or removed. -/
def put {κ ν : Type} [DecidableEq κ] (f : κ → Option ν) (k : κ) (v : Option ν) : κ → Option ν :=
  fun k' => if k' = k then v else f k'

/-- `lvs_needed`, kpex_cli.py 808–820. -/
def lvsNeeded (r : Run) (mtime : Nat) (s : State) : Bool :=
  if r.cacheLvs then
    match s.cache r.cacheKey with
    | none => true
    | some (_, t) => decide (t ≤ mtime)
  else true

/-- The call of KLayout, kpex_cli.py 822–830. -/
def runLvs (r : Run) (content : Nat) (s : State) : State :=
  { s with
    out := if r.lvsWrites then put s.out r.outKey (some ⟨content, r.cell, r.setup⟩) else s.out
    gds := r.meanwhile.elim s.gds (fun v => put s.gds r.gds (some v)) }

/-- Copying to the cache, kpex_cli.py 831–835. -/
def store (r : Run) (now : Nat) (s : State) : Except String State :=
  if r.cacheLvs then
    match s.out r.outKey with
    | none => .error "FileNotFoundError"
    | some db => .ok { s with cache := put s.cache r.cacheKey (some (db, now)) }
  else .ok s

/-- `lvsdb.read(lvsdb_path)`, kpex_cli.py 837. -/
def read (r : Run) (s : State) : Except String Db :=
  match s.out r.outKey with
  | none => .error "Unable to open file"
  | some db => .ok db

/-- `create_lvsdb`, kpex_cli.py 795–838, ending at time `now`: the new state, and the database the extraction uses. -/
def createLvsdb (r : Run) (now : Nat) (s : State) : State × Except String Db :=
  match s.gds r.gds with
  | none => (s, .error "GDS does not exist")
  | some (content, mtime) =>
    if lvsNeeded r mtime s then
      match store r now (runLvs r content s) with
      | .error m => (runLvs r content s, .error m)
      | .ok s' => (s', read r s')
    else (s, read r s)

/-- What happens to the files. -/
inductive Op where
  /-- the layout is written -/
  | edit (gds : Str) (content : Nat)
  /-- a layout is put in place with a given modification time (`cp -p`) -/
  | restore (gds : Str) (content mtime : Nat)
  | run (r : Run)
  /-- files are deleted -/
  | removeGds (gds : Str)
  | removeOut (key : Str × Str × Str)
  | removeCache (key : Str × Str × Str × Str)

def step (now : Nat) (s : State) : Op → State
  | .edit g c => { s with gds := put s.gds g (some (c, now)) }
  | .restore g c t => { s with gds := put s.gds g (some (c, t)) }
  | .run r => (createLvsdb r now s).1
  | .removeGds g => { s with gds := put s.gds g none }
  | .removeOut k => { s with out := put s.out k none }
  | .removeCache k => { s with cache := put s.cache k none }

/-- A history: operations with their times, from empty directories. -/
def play (ops : List (Nat × Op)) : State := ops.foldl (fun s o => step o.1 s o.2) ⟨fun _ => none, fun _ => none, fun _ => none⟩

end Verif.LvsCache
