import Verif.Runners.Rcx25Run

/-!
# How each external program is started, and what becomes of its output (C74, C75)
-/

namespace Verif.Runners

/-! ### Specification -/

/-- `run` starts the program with the command line `argv` in the situation `w`, and with nothing else: if the program cannot be
started, its exception ends the run and nothing has changed. Otherwise all its output is in the file `log`, whatever the exit
code, the console shows the lines, and no other file is touched but by the program itself. An exit code other than 0 is an
exception if `strict`, and has no effect else. -/
structure Starts (run : Prog → Except String Unit × World) (argv : List Str) (w : World) (log : Place) (strict : Bool) : Prop where
  notFound : ∀ prog e, prog argv w = .error e → run prog = (.error e, w)
  logged : ∀ prog x, prog argv w = .ok x → Writable w log → ∃ text, SameText x.output text ∧
    (run prog).1 = (if x.code ≠ 0 ∧ strict = true then .error "Exception" else .ok ()) ∧
    (run prog).2.files = Dict.set x.files log text ∧ (run prog).2.cwd = w.cwd ∧ (run prog).2.dirs = w.dirs ∧
    ∀ lines : List Str, (∀ l ∈ lines, '\n' ∉ l) → SameText x.output (lines.flatMap fun l => l ++ ['\n']) →
      (run prog).2.console = w.console ++ lines

/-! ### Proofs -/

theorem starts (argv : List Str) (w : World) (log : Str) (hl : log ≠ []) (strict : Bool) :
    Starts (fun prog => runLogged prog strict (argv.map some) log w) argv w (locate w.cwd log) strict where
  notFound prog e h := run_not_found prog strict argv log w e h
  logged prog x hx hw := by
    obtain ⟨text, w', h1, h2, h3, h4, h5⟩ := run_logged prog strict argv log w x hx hl hw
    refine ⟨text, h1, by rw [h2], by rw [h2]; exact h5, by rw [h2]; exact h3, by rw [h2]; exact h4, fun lines hn ho => ?_⟩
    exact run_console prog strict argv log w x hx hl hw lines hn ho

/-! ### Theorems -/

/-- **C74 and C75 for FasterCap.** It is started with the list file as its last argument and with exactly the requested
options. -/
theorem fastercap_started (exe lst log : Str) (hl : log ≠ []) (a : FasterCapArgs) (h1 : Num a.tolerance) (h2 : Num a.dCoeff)
    (h3 : Num a.mesh) (w : World) :
    ∃ opts, Starts (fun prog => runFasterCap prog exe lst log a w) (exe :: opts ++ [lst]) w (locate w.cwd log) true ∧ opts.Nodup ∧
      (∀ t, Num t → ('-' :: 'a' :: t ∈ opts ↔ t = a.tolerance)) ∧
      (∀ t, ('-' :: 'd' :: t ∈ opts ↔ t = a.dCoeff)) ∧
      (∀ t, ('-' :: 'm' :: t ∈ opts ↔ t = a.mesh)) ∧
      (∀ t, ('-' :: 'f' :: t ∈ opts ↔ a.ooc = some t)) ∧
      ("-ap".toList ∈ opts ↔ a.autoPreconditioner = true) ∧
      ("-g".toList ∈ opts ↔ a.galerkin = true) ∧
      ("-pj".toList ∈ opts ↔ a.jacobi = true) ∧
      "-b".toList ∈ opts ∧
      ∀ o ∈ opts, o ∈ ["-b".toList, "-i".toList, "-v".toList, "-ap".toList, "-g".toList, "-pj".toList] ∨
        ∃ c t, o = '-' :: c :: t ∧ c ∈ ['a', 'd', 'm', 'f'] := by
  obtain ⟨opts, h, rest⟩ := fastercap_command exe lst a h1 h2 h3
  refine ⟨opts, ?_, rest⟩
  rw [← h]
  exact starts _ w log hl true

/-- **C74 and C75 for FastCap2.** It is started with exactly the requested options in the directory of the list file, which it
gets by its name; the log is where it was asked for before the change of directory. -/
theorem fastcap_started (exe dir name log : Str) (a : FastCapArgs) (w : World) (hcwd : ∀ c ∈ w.cwd, Name c) (hn : Name name)
    (hd : dir ≠ []) (hdir : locate w.cwd dir ∈ w.dirs) :
    ∃ opts, Starts (fun prog => runFastCap prog exe (dir ++ '/' :: name) log a w) (exe :: opts) { w with cwd := locate w.cwd dir }
        (locate w.cwd log) true ∧ opts.Nodup ∧
      (∀ t, ('-' :: 'o' :: t ∈ opts ↔ t = a.order)) ∧
      (∀ t, ('-' :: 'd' :: t ∈ opts ↔ t = a.depth ∧ a.depth ≠ "auto".toList)) ∧
      (∀ t, ('-' :: 'p' :: t ∈ opts ↔ t = a.permittivity)) ∧
      (∀ t, ('-' :: 't' :: t ∈ opts ↔ t = a.tolerance)) ∧
      (∀ t, ('-' :: 'l' :: t ∈ opts ↔ t = name)) ∧
      ∀ o ∈ opts, ∃ c t, o = '-' :: c :: t ∧ c ∈ ['o', 'd', 'p', 't', 'l'] := by
  have h : ∀ prog, runFastCap prog exe (dir ++ '/' :: name) log a w =
      runLogged prog true ((fastCapArgs exe name a).map some) (abspath w.cwd log) { w with cwd := locate w.cwd dir } := by
    intro prog
    obtain ⟨g1, g2⟩ := locate_dirname w.cwd (f := name) hd hn.2.1
    unfold runFastCap andThen chdir
    simp only
    rw [if_neg (by rintro (h | h); exacts [g2 h, h (g1 ▸ hdir)]), basename_append dir hn.2.1]
    simp only [g1]
  refine ⟨["-o".toList ++ a.order] ++ (if a.depth ≠ "auto".toList then ["-d".toList ++ a.depth] else []) ++
    ["-p".toList ++ a.permittivity, "-t".toList ++ a.tolerance, "-l".toList ++ name], ?_, ?_, ?_, ?_, ?_, ?_, ?_, ?_⟩
  · have hs := starts (fastCapArgs exe name a) { w with cwd := locate w.cwd dir } (abspath w.cwd log) (abspath_ne_nil _ _) true
    simp only [locate_abspath hcwd] at hs
    rw [show (fun prog => runFastCap prog exe (dir ++ '/' :: name) log a w) = _ from funext h]
    exact hs
  all_goals generalize "auto".toList = auto
  · split_ifs <;> simp
  · intro t; split_ifs <;> simp
  · intro t; split_ifs with h <;> simp [h]
  · intro t; split_ifs <;> simp
  · intro t; split_ifs <;> simp
  · intro t; split_ifs <;> simp
  · split_ifs <;> simp

/-- **C74 and C75 for Magic.** It is started with the configuration file and the script. -/
theorem magic_started (exe rc script log : Str) (hl : log ≠ []) (w : World) :
    Starts (fun prog => runMagic prog exe (some rc) script log w)
      [exe, "-dnull".toList, "-noconsole".toList, "-rcfile".toList, rc, script] w (locate w.cwd log) true :=
  starts [exe, "-dnull".toList, "-noconsole".toList, "-rcfile".toList, rc, script] w log hl true

/-- **C75 for Magic, without configuration file.** Whatever the program, it is not started. -/
theorem magic_not_started (prog : Prog) (exe script log : Str) (w : World) :
    runMagic prog exe none script log w = (.error "TypeError", w) := rfl

/-- **C74 (partial) and C75 for KLayout LVS.** It is started with every setting once, and with the three files by paths that are
valid in any working directory. Missing for C74: its failure is no exception (`strict` is false). -/
theorem lvs_started_partial (exe script gds sch log db : Str) (hl : log ≠ []) (v : Bool) (w : World)
    (hcwd : ∀ c ∈ w.cwd, Name c) :
    ∃ settings : List (Str × Str), Starts (fun prog => runLvs prog exe script gds sch log db v w)
        ([exe, "-b".toList, "-r".toList, script] ++ settings.flatMap (fun kv => ["-rd".toList, kv.1 ++ '=' :: kv.2])) w
        (locate w.cwd log) false ∧
      (settings.map Prod.fst).Nodup ∧ (∀ kv ∈ settings, '=' ∉ kv.1) ∧
      (∃ g d s, ("input".toList, g) ∈ settings ∧ ("report".toList, d) ∈ settings ∧ ("schematic".toList, s) ∈ settings ∧
        ∀ cwd', locate cwd' g = locate w.cwd gds ∧ locate cwd' d = locate w.cwd db ∧ locate cwd' s = locate w.cwd sch) ∧
      ("verbose".toList, if v then "true".toList else "false".toList) ∈ settings ∧
      ("run_mode".toList, "deep".toList) ∈ settings ∧ ("combine".toList, "false".toList) ∈ settings ∧
      ("purge".toList, "false".toList) ∈ settings ∧ ("top_lvl_pins".toList, "true".toList) ∈ settings := by
  obtain ⟨settings, h, rest⟩ := lvs_command w.cwd hcwd exe script gds sch db v
  refine ⟨settings, ?_, rest⟩
  rw [← h]
  exact starts _ w log hl false

/-! ### Example -/

/-- The hypotheses hold for FasterCap and FastCap2 in the world of the other examples, and the log can be written. -/
example : Num "0.05".toList ∧ Name "FasterCap_Input_.lst".toList ∧ (∀ c ∈ exWorld.cwd, Name c) ∧
    locate exWorld.cwd "o/FasterCap_Input_Files".toList ∈ exWorld.dirs ∧
    Writable { exWorld with cwd := locate exWorld.cwd "o/FasterCap_Input_Files".toList } (locate exWorld.cwd "o/x_FastCap2_Output.txt".toList) := by
  refine ⟨⟨'0', _, rfl, Or.inl rfl⟩, ?_, exWorld_meets.1, by decide, ?_⟩
  · unfold Name; decide
  · unfold Writable; decide

end Verif.Runners
