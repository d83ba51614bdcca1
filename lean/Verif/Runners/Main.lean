import Verif.Runners.Props

/-!
# Examples, the sequence of engines and the environment (C76–C78)
-/

namespace Verif.Runners

/-! ### Examples for the flows -/

/-- A solver that prints one line and succeeds. -/
def okProg : Prog := fun _ w => .ok ⟨"C 1\n".toList, 0, w.files⟩

/-- Results that are derived from the log. -/
def exSolver : Solver Str :=
  { parse := fun t => if t = "C 1\n".toList then .ok t else .error "Exception"
    raw := fun m => .ok ('r' :: m), avg := fun m => .ok ('a' :: m), csv := fun m => .ok ('c' :: m)
    expanded := fun m => .ok ('e' :: m), reduced := fun m => .ok ('d' :: m) }

/-- Working directory `/h`, output directory `/h/o` with the directory of the input files. -/
def exWorld : World :=
  { cwd := [['h']], dirs := [[], [['h']], [['h'], ['o']], [['h'], ['o'], "FasterCap_Input_Files".toList]], files := [],
    console := [] }

/-- With an absolute output directory, FastCap2 succeeds and writes its log and four results. -/
theorem exWorld_absolute : (fastCapFlow okProg exSolver "fastcap".toList "/h/o".toList ['x'] (lstPath "/h/o".toList) exWorld).1 =
      .ok () ∧
    (fastCapFlow okProg exSolver "fastcap".toList "/h/o".toList ['x'] (lstPath "/h/o".toList) exWorld).2.files.length = 5 := by
  constructor <;> decide +kernel

/-- The hypotheses of the flow theorems hold for this world. -/
theorem exWorld_meets : (∀ c ∈ exWorld.cwd, Name c) ∧ locate exWorld.cwd "/h/o".toList = [['h'], ['o']] ∧
    locate exWorld.cwd ['o'] = [['h'], ['o']] ∧ [['h'], ['o']] ∈ exWorld.dirs ∧
    [['h'], ['o']] ++ ["FasterCap_Input_Files".toList] ∈ exWorld.dirs ∧
    ∀ f, [['h'], ['o']] ++ [['x'] ++ f] ∉ exWorld.dirs := by
  refine ⟨?_, by decide +kernel, by decide +kernel, by decide +kernel, by decide +kernel, ?_⟩
  · intro c hc
    have : c = ['h'] := by simpa [exWorld] using hc
    subst this
    exact ⟨by decide, by decide, by decide, by decide⟩
  · intro f h
    have h' : [['h'], ['o'], 'x' :: f] ∈ exWorld.dirs := h
    simp [exWorld] at h'

/-- The same with a relative output directory: FastCap2 ends with an exception, and FasterCap does not. -/
theorem exWorld_relative : (fastCapFlow okProg exSolver "fastcap".toList ['o'] ['x'] (lstPath ['o']) exWorld).1 =
      .error "FileNotFoundError" ∧
    (fasterCapFlow okProg exSolver "FasterCap".toList ['o'] ['x'] (lstPath ['o'])
      ⟨"0.05".toList, "0.5".toList, "0.5".toList, some ['2'], true, false, false⟩ exWorld).1 = .ok () := by
  constructor <;> decide +kernel

/-! ### The sequence of engines (C77) -/

/-- The steps of `main` that do something outside of the program's memory. -/
inductive Step
  | magic | lvs | input | fastercap | fastcap | rcx25
deriving DecidableEq

/-- The requested engines. -/
structure Request where
  magic : Bool
  fastercap : Bool
  fastcap : Bool
  rcx25 : Bool

/-- `main`; kpex_cli.py 861–948. Reading the technology, preparing the context and writing the layouts of the layers are part
of the step `lvs`, which also ends the program if there are no extracted layers (kpex_cli.py 906–917). -/
def main (r : Request) (run : Step → Act Unit) : Act Unit :=
  andThen (if r.magic then run .magic else lift (.ok ())) fun _ =>
  if !(r.fastcap || r.fastercap || r.rcx25) then lift (.ok ())
  else
    andThen (run .lvs) fun _ =>
    andThen (if r.fastcap || r.fastercap then
        andThen (run .input) fun _ =>
        andThen (if r.fastercap then run .fastercap else lift (.ok ())) fun _ =>
        (if r.fastcap then run .fastcap else lift (.ok ()))
      else lift (.ok ())) fun _ =>
    (if r.rcx25 then run .rcx25 else lift (.ok ()))

/-- Steps one after the other until one of them fails. -/
def inOrder (run : Step → Act Unit) : List Step → Act Unit
  | [] => fun w => (.ok (), w)
  | s :: l => fun w =>
    match run s w with
    | (.ok (), w') => inOrder run l w'
    | (.error e, w') => (.error e, w')

/-- C77: exactly the requested engines run, Magic first and the 2.5D engine last; LVS runs once if any engine but Magic is
requested, the input of the field solvers is made once; a failure ends everything. -/
theorem main_exact (r : Request) (run : Step → Act Unit) (w : World) : ∃ l, main r run w = inOrder run l w ∧
    l.Sublist [.magic, .lvs, .input, .fastercap, .fastcap, .rcx25] ∧
    (.magic ∈ l ↔ r.magic = true) ∧ (.fastercap ∈ l ↔ r.fastercap = true) ∧ (.fastcap ∈ l ↔ r.fastcap = true) ∧
    (.rcx25 ∈ l ↔ r.rcx25 = true) ∧
    (.lvs ∈ l ↔ r.fastercap = true ∨ r.fastcap = true ∨ r.rcx25 = true) ∧
    (.input ∈ l ↔ r.fastercap = true ∨ r.fastcap = true) := by
  have hcons : ∀ (s : Step) (l : List Step) (k : Act Unit), (∀ w, k w = inOrder run l w) →
      ∀ w, andThen (run s) (fun _ => k) w = inOrder run (s :: l) w := by
    intro s l k hk w
    unfold andThen
    simp only [inOrder]
    cases run s w with
    | mk res w' => cases res <;> simp [hk]
  have hone : ∀ s w, run s w = inOrder run [s] w := by
    intro s w
    simp only [inOrder]
    cases h : run s w with
    | mk res w' => cases res <;> rfl
  have hassoc : ∀ (a : Act Unit) (f : Unit → Act Unit) (g : Unit → Act Unit),
      andThen (andThen a f) g = andThen a (fun x => andThen (f x) g) := by
    intro a f g
    funext w
    unfold andThen
    cases a w with
    | mk res w' => cases res <;> rfl
  have hskip : ∀ (k : Unit → Act Unit), andThen (lift (.ok ())) k = k () := fun _ => rfl
  have hnil : ∀ w, lift (.ok ()) w = inOrder run [] w := fun _ => rfl
  obtain ⟨a, b, c, d⟩ := r
  refine ⟨(if a then [.magic] else []) ++ ((if b || c || d then [.lvs] else []) ++ ((if b || c then [.input] else []) ++
    ((if b then [.fastercap] else []) ++ ((if c then [.fastcap] else []) ++ (if d then [.rcx25] else []))))), ?_, ?_⟩
  · revert w
    cases a <;> cases b <;> cases c <;> cases d <;>
      simp only [main, hskip, hassoc, Bool.or_false, Bool.or_true, Bool.not_true, Bool.not_false, Bool.false_eq_true, if_true,
        if_false, List.nil_append, List.append_nil, List.cons_append] <;>
      first
        | exact hnil
        | exact hone _
        | (repeat first
            | exact hone _
            | exact hnil
            | apply hcons)
  · cases a <;> cases b <;> cases c <;> cases d <;> decide

/-! ### The environment (C78) -/

/-- The environment variables; env.py 32–38. -/
inductive Var
  | fastcapExe | fastercapExe | klayoutExe | magicExe | pdkPath | pdk
deriving DecidableEq

/-- `EnvVar.value`; env.py 33–38. -/
def Var.name : Var → String
  | .fastcapExe => "KPEX_FASTCAP_EXE"
  | .fastercapExe => "KPEX_FASTERCAP_EXE"
  | .klayoutExe => "KPEX_KLAYOUT_EXE"
  | .magicExe => "KPEX_MAGIC_EXE"
  | .pdkPath => "PDKPATH"
  | .pdk => "PDK"

/-- `EnvVar.default_value`; env.py 40–52. -/
def Var.dflt (windows : Bool) : Var → Option String
  | .fastcapExe => some "fastcap"
  | .fastercapExe => some "FasterCap"
  | .klayoutExe => some (if windows then "klayout_app" else "klayout")
  | .magicExe => some "magic"
  | .pdkPath => none
  | .pdk => none

/-- All members of the enumeration, in order. -/
def Var.all : List Var := [.fastcapExe, .fastercapExe, .klayoutExe, .magicExe, .pdkPath, .pdk]

/-- `Env.from_os_environ`; env.py 72–80. -/
def fromOsEnviron (windows : Bool) (environ : Dict String String) : Dict Var (Option String) :=
  Var.all.foldl (fun d v => Dict.set d v
    (match Dict.get? environ v.name with
      | some x => some x
      | none => v.dflt windows)) []

/-- The default of `--magicrc`; kpex_cli.py 254–257. -/
def defaultMagicrc (cwd : Place) (environ : Dict String String) : Except String (Option Str) :=
  match Dict.get? environ "PDKPATH" with
  | none => .ok none
  | some p =>
    match Dict.get? environ "PDK" with
    | none => .error "KeyError"
    | some k => .ok (some (abspath cwd (p.toList ++ "/libs.tech/magic/".toList ++ k.toList ++ ".magicrc".toList)))

/-- What `parse_args` takes from the environment; kpex_cli.py 254–260, 303–307. `magicrcArg` is the argument of `--magicrc`. -/
structure Programs where
  fastcap : Option String
  fastercap : Option String
  klayout : Option String
  magic : Option String
  magicrc : Option Str
deriving DecidableEq

/-- `env[…]`: a `KeyError` for a variable that is not there. -/
def lookup (d : Dict Var (Option String)) (v : Var) : Except String (Option String) :=
  match Dict.get? d v with
  | some x => .ok x
  | none => .error "KeyError"

/-- kpex_cli.py 138–309, the part that depends on the environment. -/
def programs (windows : Bool) (cwd : Place) (environ : Dict String String) (magicrcArg : Option Str) :
    Except String Programs := do
  let env := fromOsEnviron windows environ
  let rc ← defaultMagicrc cwd environ
  return { fastcap := ← lookup env .fastcapExe
           fastercap := ← lookup env .fastercapExe
           klayout := ← lookup env .klayoutExe
           magic := ← lookup env .magicExe
           magicrc := magicrcArg.or rc }

/-- C78, partial: if not `PDKPATH` is set without `PDK`, every program is the one that its variable names, or else the usual
name of the program; the configuration file of Magic is the given one, or the one of the PDK if `PDKPATH` and `PDK` are set. -/
theorem programs_exact_partial (windows : Bool) (cwd : Place) (environ : Dict String String) (arg : Option Str)
    (h : Dict.get? environ "PDK" = none → Dict.get? environ "PDKPATH" = none) :
    ∃ p, programs windows cwd environ arg = .ok p ∧
      p.fastcap = some ((Dict.get? environ "KPEX_FASTCAP_EXE").getD "fastcap") ∧
      p.fastercap = some ((Dict.get? environ "KPEX_FASTERCAP_EXE").getD "FasterCap") ∧
      p.klayout = some ((Dict.get? environ "KPEX_KLAYOUT_EXE").getD (if windows then "klayout_app" else "klayout")) ∧
      p.magic = some ((Dict.get? environ "KPEX_MAGIC_EXE").getD "magic") ∧
      (∀ f, arg = some f → p.magicrc = some f) ∧
      (arg = none → ∀ path pdk, Dict.get? environ "PDKPATH" = some path → Dict.get? environ "PDK" = some pdk →
        ∃ f, p.magicrc = some f ∧ ∀ cwd', (∀ c ∈ cwd, Name c) →
          locate cwd' f = locate cwd (path.toList ++ "/libs.tech/magic/".toList ++ pdk.toList ++ ".magicrc".toList)) ∧
      (arg = none → Dict.get? environ "PDKPATH" = none → p.magicrc = none) := by
  have hrc : ∃ rc, defaultMagicrc cwd environ = .ok rc := by
    unfold defaultMagicrc
    cases h1 : Dict.get? environ "PDKPATH" with
    | none => exact ⟨none, rfl⟩
    | some p =>
      cases h2 : Dict.get? environ "PDK" with
      | none => rw [h h2] at h1; cases h1
      | some k => exact ⟨_, rfl⟩
  obtain ⟨rc, hrc⟩ := hrc
  have hget : ∀ v, lookup (fromOsEnviron windows environ) v = .ok
      (match Dict.get? environ v.name with
      | some x => some x
      | none => v.dflt windows) := by
    intro v
    unfold lookup fromOsEnviron Var.all
    simp only [List.foldl_cons, List.foldl_nil, Dict.get?_set]
    cases v <;> simp
  have hopt : ∀ (o : Option String) (d : String), (match o with
      | some x => some x
      | none => some d) = some (o.getD d) := by
    intro o d; cases o <;> rfl
  refine ⟨_, by simp only [programs, hrc, hget]; rfl, ?_, ?_, ?_, ?_, ?_, ?_, ?_⟩
  · exact hopt _ _
  · exact hopt _ _
  · exact hopt _ _
  · exact hopt _ _
  · rintro f rfl
    rfl
  · rintro rfl path pdk h1 h2
    simp only [defaultMagicrc, h1, h2] at hrc
    cases hrc
    exact ⟨_, rfl, fun cwd' hc => locate_abspath hc cwd' _⟩
  · rintro rfl h1
    simp only [defaultMagicrc, h1] at hrc
    cases hrc
    rfl

/-- Finding: with `PDKPATH` and without `PDK` every call fails, also those that do not use Magic or that give `--magicrc`. -/
theorem pdkpath_without_pdk (windows : Bool) (cwd : Place) (environ : Dict String String) (arg : Option Str) (path : String)
    (h1 : Dict.get? environ "PDKPATH" = some path) (h2 : Dict.get? environ "PDK" = none) :
    programs windows cwd environ arg = .error "KeyError" := by
  simp [programs, defaultMagicrc, h1, h2, bind, Except.bind]

/-- Finding: an empty variable counts as set: the name of the program is empty. -/
theorem empty_variable : (programs false [] [("KPEX_MAGIC_EXE", "")] none).map Programs.magic = .ok (some "") := by
  decide

/-- Finding: without a configuration file, Magic is not started: the call fails with a `TypeError`. -/
theorem magic_without_rc (prog : Prog) (script log : Str) (w : World) :
    ((programs false [] [] none).map fun p => (runMagic prog ((p.magic.getD "").toList) p.magicrc script log w).1) =
      .ok (.error "TypeError") := by
  rfl

/-- An environment that meets the hypothesis. -/
theorem env_meets : (programs false [['h']] [("PDKPATH", "/pdk"), ("PDK", "sky130A"), ("KPEX_MAGIC_EXE", "/opt/magic")]
      none) = .ok ⟨some "fastcap", some "FasterCap", some "klayout", some "/opt/magic",
        some "/pdk/libs.tech/magic/sky130A.magicrc".toList⟩ := by
  decide +kernel

end Verif.Runners
