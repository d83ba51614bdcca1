import Verif.Runners.Model

/-!
# C74–C76: external programs, their command lines and their results
-/

namespace Verif.Runners

/-! ### Specification -/

/-- The second text is the first one with every kind of line end (`\r\n`, `\r`, `\n`) written as `\n`. -/
inductive SameText : Str → Str → Prop
  | nil : SameText [] []
  | crlf {s t : Str} : SameText s t → SameText ('\r' :: '\n' :: s) ('\n' :: t)
  | cr {s t : Str} : s.head? ≠ some '\n' → SameText s t → SameText ('\r' :: s) ('\n' :: t)
  | other {c : Char} {s t : Str} : c ≠ '\r' → SameText s t → SameText (c :: s) (c :: t)

/-- A file can be created at the place. -/
def Writable (w : World) (q : Place) : Prop := q.dropLast ∈ w.dirs ∧ q ∉ w.dirs

/-- The files of FasterCap and of FastCap2 in the output directory, after the name of the cell. -/
def fasterCapFiles : List String := ["_FasterCap_Output.txt", "_FasterCap_Result_Matrix_Raw.csv", "_FasterCap_Result_Matrix_Avg.csv",
  "_FasterCap_Expanded_Netlist.csv", "_FasterCap_Expanded_Netlist.cir", "_FasterCap_Reduced_Netlist.cir"]
def fastCapFiles : List String := ["_FastCap2_Output.txt", "_FastCap2_Result_Matrix_Raw.csv", "_FastCap2_Result_Matrix_Avg.csv",
  "_FastCap2_Expanded_Netlist.cir", "_FastCap2_Reduced_Netlist.cir"]

/-! ### Logs (C74) -/

theorem universal_same (s : Str) : SameText s (universal s) := by
  fun_induction universal s with
  | case1 => exact .nil
  | case2 s ih => exact .crlf ih
  | case3 c s h ih =>
    by_cases hc : c = '\r'
    · subst hc
      rw [if_pos rfl]
      refine .cr ?_ ih
      intro h0
      cases s with
      | nil => simp at h0
      | cons d s =>
        simp only [List.head?_cons, Option.some.injEq] at h0
        exact h s rfl (by rw [h0])
    · rw [if_neg hc]
      exact .other hc ih

/-- There is only one such text. -/
theorem sameText_unique {s t t' : Str} (h : SameText s t) (h' : SameText s t') : t = t' := by
  induction h generalizing t' with
  | nil => cases h'; rfl
  | crlf _ ih =>
    cases h' with
    | crlf h => rw [ih h]
    | cr hn _ => simp at hn
    | other hc _ => exact absurd rfl hc
  | cr hn _ ih =>
    cases h' with
    | crlf h => simp at hn
    | cr _ h => rw [ih h]
    | other hc _ => exact absurd rfl hc
  | other hc _ ih =>
    cases h' with
    | crlf h => exact absurd rfl hc
    | cr _ h => exact absurd rfl hc
    | other _ h => rw [ih h]

theorem readlines_flatten (s : Str) : (readlines s).flatten = s := by
  induction s with
  | nil => rfl
  | cons c s ih =>
    simp only [readlines]
    by_cases h : c = '\n'
    · rw [if_pos h, List.flatten_cons, ih, h]
      rfl
    · rw [if_neg h]
      cases hs : readlines s with
      | nil => rw [hs] at ih; simp [← ih]
      | cons l ls => rw [hs] at ih; simp [← ih]

theorem mapM_some (l : List Str) : (l.map some).mapM id = some l := by
  induction l with
  | nil => rfl
  | cons a l ih => simp [List.mapM_cons, ih]

theorem writeFile_ok {w : World} {p : Str} (text : Str) (hp : p ≠ []) (hw : Writable w (locate w.cwd p)) :
    writeFile p text w = (.ok (), { w with files := Dict.set w.files (locate w.cwd p) text }) := by
  unfold writeFile
  rw [if_neg (by rintro (h | h); exacts [hp h, h hw.1]), if_neg hw.2]

/-- C74: the log file has the complete output of the program, whatever the exit code; nothing else is written but what the
program wrote itself. An exit code other than 0 is an exception, except for LVS. -/
theorem run_logged (prog : Prog) (strict : Bool) (argv : List Str) (log : Str) (w : World) (x : Exit)
    (hx : prog argv w = .ok x) (hl : log ≠ []) (hw : Writable w (locate w.cwd log)) :
    ∃ text w', SameText x.output text ∧
      runLogged prog strict (argv.map some) log w =
        (if x.code ≠ 0 ∧ strict = true then .error "Exception" else .ok (), w') ∧
      w'.cwd = w.cwd ∧ w'.dirs = w.dirs ∧ w'.files = Dict.set x.files (locate w.cwd log) text := by
  unfold runLogged
  rw [mapM_some]
  simp only [hx, readlines_flatten]
  rw [writeFile_ok (w := { w with files := x.files }) _ hl hw]
  refine ⟨_, { w with
      files := Dict.set x.files (locate w.cwd log) (universal x.output)
      console := w.console ++ (readlines (universal x.output)).map List.dropLast }, universal_same _, ?_, rfl, rfl, rfl⟩
  simp only
  split_ifs <;> rfl

/-- What the console shows: the lines of the output. -/
theorem run_console (prog : Prog) (strict : Bool) (argv : List Str) (log : Str) (w : World) (x : Exit)
    (hx : prog argv w = .ok x) (hl : log ≠ []) (hw : Writable w (locate w.cwd log))
    (lines : List Str) (hn : ∀ l ∈ lines, '\n' ∉ l) (ho : SameText x.output (lines.flatMap fun l => l ++ ['\n'])) :
    (runLogged prog strict (argv.map some) log w).2.console = w.console ++ lines := by
  have hread : ∀ ls : List Str, (∀ l ∈ ls, '\n' ∉ l) →
      (readlines (ls.flatMap fun l => l ++ ['\n'])).map List.dropLast = ls := by
    intro ls
    induction ls with
    | nil => intro _; rfl
    | cons l ls ih =>
      intro h
      have h1 : ∀ (l : Str) (s : Str), '\n' ∉ l → readlines (l ++ '\n' :: s) = (l ++ ['\n']) :: readlines s := by
        intro l s
        induction l with
        | nil => intro _; simp [readlines]
        | cons c l ih =>
          intro hc
          simp only [List.mem_cons, not_or] at hc
          rw [List.cons_append]
          simp only [readlines]
          rw [if_neg (Ne.symm hc.1), ih hc.2]
          simp
      rw [List.flatMap_cons, List.append_assoc, List.cons_append, List.nil_append,
        h1 _ _ (h l (by simp)), List.map_cons, ih fun k hk => h k (by simp [hk])]
      simp
  unfold runLogged
  rw [mapM_some]
  simp only [hx, readlines_flatten]
  rw [writeFile_ok (w := { w with files := x.files }) _ hl hw, sameText_unique (universal_same x.output) ho]
  simp only [hread lines hn]
  split_ifs <;> rfl

/-- The exception of a program that is not found passes through; nothing is written. -/
theorem run_not_found (prog : Prog) (strict : Bool) (argv : List Str) (log : Str) (w : World) (e : String)
    (hx : prog argv w = .error e) : runLogged prog strict (argv.map some) log w = (.error e, w) := by
  unfold runLogged
  rw [mapM_some]
  simp only [hx]

/-- C74 for the solvers and Magic: a run without exception means that the program was found and had exit code 0. -/
theorem strict_success (prog : Prog) (argv : List Str) (log : Str) (w w' : World)
    (h : runLogged prog true (argv.map some) log w = (.ok (), w')) :
    ∃ x text, prog argv w = .ok x ∧ x.code = 0 ∧ SameText x.output text ∧
      Dict.get? w'.files (locate w.cwd log) = some text := by
  unfold runLogged at h
  rw [mapM_some] at h
  simp only at h
  cases hx : prog argv w with
  | error e => rw [hx] at h; simp at h
  | ok x =>
    rw [hx] at h
    simp only [readlines_flatten] at h
    cases hwf : writeFile log (universal x.output) { w with files := x.files } with
    | mk r w1 =>
      rw [hwf] at h
      cases r with
      | error e => simp at h
      | ok u =>
        simp only at h
        split_ifs at h with hc
        · simp at h
        · refine ⟨x, universal x.output, rfl, by simpa using hc, universal_same _, ?_⟩
          unfold writeFile at hwf
          split_ifs at hwf with h1 h2
          · simp at hwf
          · simp at hwf
          · simp only [Prod.mk.injEq, true_and] at h hwf
            rw [← h, ← hwf]
            simp

/-- Finding: a failed LVS run is no exception: the flow goes on. -/
theorem lvs_failure_ignored (w : World) (log : Str) (hl : log ≠ []) (hw : Writable w (locate w.cwd log))
    (exe script gds sch db : Str) (v : Bool) :
    (runLvs (fun _ w => .ok ⟨"ERROR\n".toList, 1, w.files⟩) exe script gds sch log db v w).1 = .ok () := by
  unfold runLvs
  obtain ⟨_, _, _, h, _⟩ := run_logged (fun _ w => .ok ⟨"ERROR\n".toList, 1, w.files⟩) false
    (lvsArgs w.cwd exe script gds sch db v) log w ⟨"ERROR\n".toList, 1, w.files⟩ rfl hl hw
  rw [h]
  simp

/-- Finding: the last character of an output without final line end is not shown. -/
theorem console_cut : (runLogged (fun _ w => .ok ⟨"Total 12".toList, 0, w.files⟩) true [some "p".toList] "/l".toList
    ⟨[], [[]], [], []⟩).2.console = ["Total 1".toList] := by decide

/-! ### Command lines (C75) -/

/-- The text of a number: it begins with a digit or a sign. -/
def Num (t : Str) : Prop := ∃ c s, t = c :: s ∧ (c.isDigit ∨ c = '-')

theorem num_ne_p {t : Str} (h : Num t) : t ≠ ['p'] := by
  rintro rfl
  obtain ⟨c, s, h1, h2⟩ := h
  cases h1
  rcases h2 with h | h
  · exact absurd h (by decide)
  · exact absurd h (by decide)

theorem num_ne_nil {t : Str} (h : Num t) : t ≠ [] := by
  rintro rfl
  obtain ⟨c, s, h1, _⟩ := h
  cases h1

/-- FasterCap is called with the list file as its last argument and with exactly the requested options. -/
theorem fastercap_command (exe lst : Str) (a : FasterCapArgs) (h1 : Num a.tolerance) (h2 : Num a.dCoeff) (h3 : Num a.mesh) :
    ∃ opts, fasterCapArgs exe lst a = exe :: opts ++ [lst] ∧ opts.Nodup ∧
      (∀ t, Num t → ('-' :: 'a' :: t ∈ opts ↔ t = a.tolerance)) ∧
      (∀ t, ('-' :: 'd' :: t ∈ opts ↔ t = a.dCoeff)) ∧
      (∀ t, ('-' :: 'm' :: t ∈ opts ↔ t = a.mesh)) ∧
      (∀ t, ('-' :: 'f' :: t ∈ opts ↔ a.ooc = some t)) ∧
      ("-ap".toList ∈ opts ↔ a.autoPreconditioner = true) ∧
      ("-g".toList ∈ opts ↔ a.galerkin = true) ∧
      ("-pj".toList ∈ opts ↔ a.jacobi = true) ∧
      "-b".toList ∈ opts ∧
      ∀ o ∈ opts, o ∈ ["-b".toList, "-i".toList, "-v".toList, "-ap".toList, "-g".toList, "-pj".toList] ∨
        ∃ c t, o = '-' :: c :: t ∧ c ∈ ['a', 'd', 'm', 'f'] := by
  obtain ⟨tol, d, m, ooc, ap, g, pj⟩ := a
  have hp := num_ne_p h1
  simp only at h1 hp
  refine ⟨["-b".toList, "-i".toList, "-v".toList, "-a".toList ++ tol, "-d".toList ++ d, "-m".toList ++ m] ++
    ((match ooc with | some f => ["-f".toList ++ f] | none => []) ++
    ((if ap then ["-ap".toList] else []) ++ ((if g then ["-g".toList] else []) ++
    (if pj then ["-pj".toList] else [])))), ?_, ?_, ?_, ?_, ?_, ?_, ?_, ?_, ?_, ?_, ?_⟩
  · cases ooc <;> simp [fasterCapArgs, List.append_assoc]
  · cases ooc <;> cases ap <;> cases g <;> cases pj <;> simp [hp]
  · intro t ht
    have := num_ne_p ht
    cases ooc <;> cases ap <;> cases g <;> cases pj <;> simp [this]
  · intro t
    cases ooc <;> cases ap <;> cases g <;> cases pj <;> simp
  · intro t
    cases ooc <;> cases ap <;> cases g <;> cases pj <;> simp
  · intro t
    cases ooc <;> cases ap <;> cases g <;> cases pj <;> simp [eq_comm]
  · cases ooc <;> cases ap <;> cases g <;> cases pj <;> simp [Ne.symm hp]
  · cases ooc <;> cases ap <;> cases g <;> cases pj <;> simp
  · cases ooc <;> cases ap <;> cases g <;> cases pj <;> simp
  · simp
  · cases ooc <;> cases ap <;> cases g <;> cases pj <;> simp

/-- FastCap is called with exactly the requested options, and with the list file by its name in the directory of this file,
which is made the working directory. -/
theorem fastcap_command (prog : Prog) (exe dir name log : Str) (a : FastCapArgs) (w : World) (hn : Name name)
    (hd : dir ≠ []) (hdir : locate w.cwd dir ∈ w.dirs) :
    ∃ argv, runFastCap prog exe (dir ++ '/' :: name) log a w =
        runLogged prog true (argv.map some) (abspath w.cwd log) { w with cwd := locate w.cwd dir } ∧
      (∃ opts, argv = exe :: opts ∧ opts.Nodup ∧
        (∀ t, ('-' :: 'o' :: t ∈ opts ↔ t = a.order)) ∧
        (∀ t, ('-' :: 'd' :: t ∈ opts ↔ t = a.depth ∧ a.depth ≠ "auto".toList)) ∧
        (∀ t, ('-' :: 'p' :: t ∈ opts ↔ t = a.permittivity)) ∧
        (∀ t, ('-' :: 't' :: t ∈ opts ↔ t = a.tolerance)) ∧
        (∀ t, ('-' :: 'l' :: t ∈ opts ↔ t = name)) ∧
        ∀ o ∈ opts, ∃ c t, o = '-' :: c :: t ∧ c ∈ ['o', 'd', 'p', 't', 'l']) := by
  obtain ⟨h1, h2⟩ := locate_dirname w.cwd (f := name) hd hn.2.1
  refine ⟨fastCapArgs exe name a, ?_, ["-o".toList ++ a.order] ++
    (if a.depth ≠ "auto".toList then ["-d".toList ++ a.depth] else []) ++
    ["-p".toList ++ a.permittivity, "-t".toList ++ a.tolerance, "-l".toList ++ name], ?_, ?_, ?_, ?_, ?_, ?_, ?_, ?_⟩
  · unfold runFastCap andThen chdir
    simp only
    rw [if_neg (by rintro (h | h); exacts [h2 h, h (h1 ▸ hdir)]), basename_append dir hn.2.1]
    simp only [h1]
  · simp [fastCapArgs]
  all_goals generalize "auto".toList = auto
  · split_ifs <;> simp
  · intro t; split_ifs <;> simp
  · intro t; split_ifs with h <;> simp [h]
  · intro t; split_ifs <;> simp
  · intro t; split_ifs <;> simp
  · intro t; split_ifs <;> simp
  · split_ifs <;> simp

/-- Magic is called with the script, and with the configuration file if there is one; without one the call fails before
Magic is started. -/
theorem magic_command (prog : Prog) (exe : Str) (rc : Option Str) (script log : Str) (w : World) :
    runMagic prog exe rc script log w =
      match rc with
      | some r => runLogged prog true
          ([exe, "-dnull".toList, "-noconsole".toList, "-rcfile".toList, r, script].map some) log w
      | none => (.error "TypeError", w) := by
  cases rc with
  | some r => rfl
  | none => rfl

/-- KLayout LVS gets every setting once, and the three files by paths that are valid in any working directory. -/
theorem lvs_command (cwd : Place) (hc : ∀ c ∈ cwd, Name c) (exe script gds sch db : Str) (v : Bool) :
    ∃ settings : List (Str × Str), lvsArgs cwd exe script gds sch db v =
        [exe, "-b".toList, "-r".toList, script] ++ settings.flatMap (fun kv => ["-rd".toList, kv.1 ++ '=' :: kv.2]) ∧
      (settings.map Prod.fst).Nodup ∧ (∀ kv ∈ settings, '=' ∉ kv.1) ∧
      (∃ g d s, ("input".toList, g) ∈ settings ∧ ("report".toList, d) ∈ settings ∧ ("schematic".toList, s) ∈ settings ∧
        ∀ cwd', locate cwd' g = locate cwd gds ∧ locate cwd' d = locate cwd db ∧ locate cwd' s = locate cwd sch) ∧
      ("verbose".toList, if v then "true".toList else "false".toList) ∈ settings ∧
      ("run_mode".toList, "deep".toList) ∈ settings ∧ ("combine".toList, "false".toList) ∈ settings ∧
      ("purge".toList, "false".toList) ∈ settings ∧ ("top_lvl_pins".toList, "true".toList) ∈ settings := by
  refine ⟨[("input".toList, abspath cwd gds), ("report".toList, abspath cwd db), ("schematic".toList, abspath cwd sch),
    ("thr".toList, "22".toList), ("run_mode".toList, "deep".toList), ("spice_net_names".toList, "true".toList),
    ("spice_comments".toList, "false".toList), ("scale".toList, "false".toList),
    ("verbose".toList, if v then "true".toList else "false".toList), ("schematic_simplify".toList, "false".toList),
    ("net_only".toList, "false".toList), ("top_lvl_pins".toList, "true".toList), ("combine".toList, "false".toList),
    ("combine_devices".toList, "false".toList), ("purge".toList, "false".toList), ("purge_nets".toList, "false".toList),
    ("no_simplify".toList, "true".toList)], ?_, ?_, ?_, ?_, ?_, ?_, ?_, ?_, ?_⟩
  · cases v <;> rfl
  · simp only [List.map_cons, List.map_nil]
    decide
  · intro kv hkv
    have : kv.1 ∈ ["input".toList, "report".toList, "schematic".toList, "thr".toList, "run_mode".toList,
        "spice_net_names".toList, "spice_comments".toList, "scale".toList, "verbose".toList, "schematic_simplify".toList,
        "net_only".toList, "top_lvl_pins".toList, "combine".toList, "combine_devices".toList, "purge".toList,
        "purge_nets".toList, "no_simplify".toList] := List.mem_map_of_mem (f := Prod.fst) hkv
    revert this
    generalize kv.1 = k
    revert k
    decide
  · refine ⟨_, _, _, .head _, .tail _ (.head _), .tail _ (.tail _ (.head _)), fun cwd' => ?_⟩
    exact ⟨locate_abspath hc cwd' gds, locate_abspath hc cwd' db, locate_abspath hc cwd' sch⟩
  all_goals simp only [List.mem_cons, Prod.mk.injEq, true_or, or_true, and_true]

/-! ### Results of the field solvers (C76) -/

theorem name_append {cell : Str} (hc : '/' ∉ cell) (s : String) (hs : '/' ∉ s.toList) (hl : 3 ≤ s.toList.length) :
    Name (cell ++ s.toList) := by
  refine ⟨?_, ?_, ?_, ?_⟩
  · intro h
    have := congrArg List.length h
    simp only [List.length_append, List.length_nil] at this
    omega
  · simp [hc, hs]
  · intro h
    have := congrArg List.length h
    simp only [List.length_append, List.length_cons, List.length_nil] at this
    omega
  · intro h
    have := congrArg List.length h
    simp only [List.length_append, List.length_cons, List.length_nil] at this
    omega

theorem locate_file (cwd : Place) (out : Str) {f : Str} (hf : Name f) :
    locate cwd (join out f) = locate cwd out ++ [f] := by
  rw [locate_join _ _ _ (head_of_name hf), locate_name _ hf]

theorem join_ne_nil (out : Str) {f : Str} (hf : Name f) : join out f ≠ [] := by
  unfold join
  have := hf.1
  split_ifs <;> simp [this]

theorem emit_ok {w : World} {p text : Str} (hp : p ≠ []) (hw : Writable w (locate w.cwd p)) :
    emit p (.ok text) w = (.ok (), { w with files := Dict.set w.files (locate w.cwd p) text }) := by
  unfold emit andThen lift
  simp only
  exact writeFile_ok _ hp hw

theorem readFile_ok {w : World} {p text : Str} (hp : p ≠ []) (hf : Dict.get? w.files (locate w.cwd p) = some text) :
    readFile p w = (.ok text, w) := by
  unfold readFile
  rw [if_neg hp, hf]

theorem andThen_ok {α β : Type} {a : Act α} {f : α → Act β} {w w' : World} {x : α} (h : a w = (.ok x, w')) :
    andThen a f w = f x w' := by
  unfold andThen
  rw [h]

theorem andThen_error {α β : Type} {a : Act α} {f : α → Act β} {w w' : World} {e : String} (h : a w = (.error e, w')) :
    andThen a f w = (.error e, w') := by
  unfold andThen
  rw [h]

/-- Writing a file keeps the working directory and the directories. -/
theorem emit_step {c : Place} {d : List Place} {fs : Dict Place Str} {con : List Str} {out f text : Str} {o : Place}
    {β : Type} (k : Unit → Act β) (hf : Name f) (ho : locate c out = o) (hod : o ∈ d) (hnd : o ++ [f] ∉ d) :
    andThen (emit (join out f) (.ok text)) k ⟨c, d, fs, con⟩ = k () ⟨c, d, Dict.set fs (o ++ [f]) text, con⟩ := by
  have hl : locate c (join out f) = o ++ [f] := by rw [locate_file _ _ hf, ho]
  rw [andThen_ok (emit_ok (w := ⟨c, d, fs, con⟩) (text := text) (join_ne_nil out hf)
    (by rw [hl]; exact ⟨by simpa using hod, hnd⟩))]
  simp only [hl]

theorem emit_last {c : Place} {d : List Place} {fs : Dict Place Str} {con : List Str} {out f text : Str} {o : Place}
    (hf : Name f) (ho : locate c out = o) (hod : o ∈ d) (hnd : o ++ [f] ∉ d) :
    emit (join out f) (.ok text) ⟨c, d, fs, con⟩ = (.ok (), ⟨c, d, Dict.set fs (o ++ [f]) text, con⟩) := by
  have hl : locate c (join out f) = o ++ [f] := by rw [locate_file _ _ hf, ho]
  rw [emit_ok (w := ⟨c, d, fs, con⟩) (text := text) (join_ne_nil out hf)
    (by rw [hl]; exact ⟨by simpa using hod, hnd⟩)]
  simp only [hl]

theorem read_step {c : Place} {d : List Place} {fs : Dict Place Str} {con : List Str} {out f text : Str} {o : Place}
    {β : Type} (k : Str → Act β) (hf : Name f) (ho : locate c out = o) (ht : Dict.get? fs (o ++ [f]) = some text) :
    andThen (readFile (join out f)) k ⟨c, d, fs, con⟩ = k text ⟨c, d, fs, con⟩ := by
  have hl : locate c (join out f) = o ++ [f] := by rw [locate_file _ _ hf, ho]
  rw [andThen_ok (readFile_ok (w := ⟨c, d, fs, con⟩) (join_ne_nil out hf) (by rw [hl]; exact ht))]

theorem show_step {c : Place} {d : List Place} {fs : Dict Place Str} {con : List Str} {text : Str} {β : Type}
    (k : Unit → Act β) : andThen (showLines text) k ⟨c, d, fs, con⟩ =
      k () ⟨c, d, fs, con ++ (readlines text).map List.dropLast⟩ := rfl

theorem lift_step {α β : Type} {w : World} {x : α} (k : α → Act β) : andThen (lift (.ok x)) k w = k x w := rfl

/-- The run of a solver within a flow. -/
theorem run_step {β : Type} (prog : Prog) (argv : List Str) (w : World) (x : Exit) (out f : Str) (o : Place)
    (k : Unit → Act β) (hf : Name f) (hx : prog argv w = .ok x) (hcode : x.code = 0) (ho : locate w.cwd out = o)
    (hod : o ∈ w.dirs) (hnd : o ++ [f] ∉ w.dirs) :
    ∃ text w', SameText x.output text ∧ w'.cwd = w.cwd ∧ w'.dirs = w.dirs ∧
      w'.files = Dict.set x.files (o ++ [f]) text ∧
      andThen (runLogged prog true (argv.map some) (join out f)) k w = k () w' := by
  have hl : locate w.cwd (join out f) = o ++ [f] := by rw [locate_file _ _ hf, ho]
  obtain ⟨text, w', h1, h2, h3, h4, h5⟩ := run_logged prog true argv (join out f) w x hx (join_ne_nil out hf)
    (by rw [hl]; exact ⟨by simpa using hod, hnd⟩)
  rw [hcode] at h2
  simp only [ne_eq, not_true_eq_false, false_and, if_false] at h2
  exact ⟨text, w', h1, h3, h4, by rw [h5, hl], andThen_ok h2⟩

/-- C76, FasterCap: after a successful run, the log and the five results of this log are in the output directory, which
may be given by an absolute or relative path; other files are as the solver left them. -/
theorem fastercap_results {M : Type} (prog : Prog) (s : Solver M) (exe out cell lst : Str) (a : FasterCapArgs) (w : World)
    (x : Exit) (o : Place) (m : M) (raw avg csv exp red : Str)
    (hcell : '/' ∉ cell) (ho : locate w.cwd out = o) (hod : o ∈ w.dirs) (hnd : ∀ f ∈ fasterCapFiles, o ++ [cell ++ f.toList] ∉ w.dirs)
    (hx : prog (fasterCapArgs exe lst a) w = .ok x) (hcode : x.code = 0)
    (hm : ∀ text, SameText x.output text → s.parse text = .ok m)
    (h1 : s.raw m = .ok raw) (h2 : s.avg m = .ok avg) (h3 : s.csv m = .ok csv) (h4 : s.expanded m = .ok exp)
    (h5 : s.reduced m = .ok red) :
    ∃ w' text, fasterCapFlow prog s exe out cell lst a w = (.ok (), w') ∧ SameText x.output text ∧
      Dict.get? w'.files (o ++ [cell ++ "_FasterCap_Output.txt".toList]) = some text ∧
      Dict.get? w'.files (o ++ [cell ++ "_FasterCap_Result_Matrix_Raw.csv".toList]) = some raw ∧
      Dict.get? w'.files (o ++ [cell ++ "_FasterCap_Result_Matrix_Avg.csv".toList]) = some avg ∧
      Dict.get? w'.files (o ++ [cell ++ "_FasterCap_Expanded_Netlist.csv".toList]) = some csv ∧
      Dict.get? w'.files (o ++ [cell ++ "_FasterCap_Expanded_Netlist.cir".toList]) = some exp ∧
      Dict.get? w'.files (o ++ [cell ++ "_FasterCap_Reduced_Netlist.cir".toList]) = some red ∧
      (∀ q, (∀ f ∈ fasterCapFiles, q ≠ o ++ [cell ++ f.toList]) → Dict.get? w'.files q = Dict.get? x.files q) ∧
      w'.cwd = w.cwd ∧ w'.dirs = w.dirs := by
  unfold fasterCapFlow runFasterCap
  simp only
  obtain ⟨text, w1, t1, t2, t3, t4, t5⟩ := run_step prog (fasterCapArgs exe lst a) w x out _ o
    (fun _ => andThen (readFile (join out (cell ++ "_FasterCap_Output.txt".toList))) fun text =>
      andThen (lift (s.parse text)) fun m =>
      andThen (emit (join out (cell ++ "_FasterCap_Result_Matrix_Raw.csv".toList)) (s.raw m)) fun _ =>
      andThen (emit (join out (cell ++ "_FasterCap_Result_Matrix_Avg.csv".toList)) (s.avg m)) fun _ =>
      andThen (emit (join out (cell ++ "_FasterCap_Expanded_Netlist.csv".toList)) (s.csv m)) fun _ =>
      andThen (readFile (join out (cell ++ "_FasterCap_Expanded_Netlist.csv".toList))) fun csv =>
      andThen (showLines csv) fun _ =>
      andThen (emit (join out (cell ++ "_FasterCap_Expanded_Netlist.cir".toList)) (s.expanded m)) fun _ =>
      emit (join out (cell ++ "_FasterCap_Reduced_Netlist.cir".toList)) (s.reduced m))
    (name_append hcell "_FasterCap_Output.txt" (by decide) (by decide)) hx hcode ho hod (hnd _ (by decide))
  obtain ⟨c, d, fs, con⟩ := w1
  simp only at t2 t3 t4
  rw [← t2] at ho
  rw [← t3] at hod hnd
  rw [t5, read_step _ (name_append hcell "_FasterCap_Output.txt" (by decide) (by decide)) ho
    (by rw [t4, Dict.get?_set, if_pos rfl]), hm text t1, lift_step, h1, h2, h3, h4, h5]
  rw [emit_step _ (name_append hcell "_FasterCap_Result_Matrix_Raw.csv" (by decide) (by decide)) ho hod (hnd _ (by decide)),
    emit_step _ (name_append hcell "_FasterCap_Result_Matrix_Avg.csv" (by decide) (by decide)) ho hod (hnd _ (by decide)),
    emit_step _ (name_append hcell "_FasterCap_Expanded_Netlist.csv" (by decide) (by decide)) ho hod (hnd _ (by decide)),
    read_step (text := csv) _ (name_append hcell "_FasterCap_Expanded_Netlist.csv" (by decide) (by decide)) ho
      (by rw [Dict.get?_set, if_pos rfl]),
    show_step,
    emit_step _ (name_append hcell "_FasterCap_Expanded_Netlist.cir" (by decide) (by decide)) ho hod (hnd _ (by decide)),
    emit_last (name_append hcell "_FasterCap_Reduced_Netlist.cir" (by decide) (by decide)) ho hod (hnd _ (by decide))]
  refine ⟨_, text, rfl, t1, ?_, ?_, ?_, ?_, ?_, ?_, ?_, t2, t3⟩
  iterate 6 simp [Dict.get?_set, t4]
  intro q hq
  simp only [fasterCapFiles, List.forall_mem_cons] at hq
  obtain ⟨q1, q2, q3, q4, q5, q6, -⟩ := hq
  simp only [Dict.get?_set, t4, if_neg (Ne.symm q1), if_neg (Ne.symm q2), if_neg (Ne.symm q3), if_neg (Ne.symm q4),
    if_neg (Ne.symm q5), if_neg (Ne.symm q6)]

theorem lstPath_eq (out : Str) : ∃ d, lstPath out = d ++ '/' :: "FasterCap_Input_.lst".toList ∧ d ≠ [] ∧
    ∀ cwd, locate cwd d = locate cwd out ++ ["FasterCap_Input_Files".toList] := by
  have hn : Name "FasterCap_Input_Files".toList := ⟨by decide, by decide, by decide, by decide⟩
  have hl : Name "FasterCap_Input_.lst".toList := ⟨by decide, by decide, by decide, by decide⟩
  have hlast : (join out "FasterCap_Input_Files".toList).getLast? ≠ some '/' := by
    unfold join
    rw [if_neg (head_of_name hn)]
    split_ifs
    · rw [List.getLast?_append, show "FasterCap_Input_Files".toList.getLast? = some 's' by decide, Option.some_or]
      decide
    · rw [List.getLast?_append,
        show ('/' :: "FasterCap_Input_Files".toList).getLast? = some 's' by decide, Option.some_or]
      decide
  refine ⟨join out "FasterCap_Input_Files".toList, ?_, join_ne_nil out hn, fun cwd => locate_file cwd out hn⟩
  unfold lstPath
  rw [join, if_neg (head_of_name hl), if_neg (by rintro (h | h); exacts [join_ne_nil out hn h, hlast h])]

/-- The start of the FastCap flow: the working directory becomes the one of the list file, and the log is written to the
output directory as it was understood before. -/
theorem fastcap_start {β : Type} (prog : Prog) (exe out f : Str) (a : FastCapArgs) (w : World) (x : Exit) (o : Place)
    (k : Unit → Act β) (hcwd : ∀ c ∈ w.cwd, Name c) (hf : Name f) (ho : locate w.cwd out = o) (hod : o ∈ w.dirs)
    (hwork : o ++ ["FasterCap_Input_Files".toList] ∈ w.dirs) (hnd : o ++ [f] ∉ w.dirs)
    (hx : prog (fastCapArgs exe "FasterCap_Input_.lst".toList a)
      { w with cwd := o ++ ["FasterCap_Input_Files".toList] } = .ok x) :
    ∃ text w', SameText x.output text ∧ w'.cwd = o ++ ["FasterCap_Input_Files".toList] ∧ w'.dirs = w.dirs ∧
      w'.files = Dict.set x.files (o ++ [f]) text ∧
      andThen (runFastCap prog exe (lstPath out) (join out f) a) k w =
        if x.code = 0 then k () w' else (.error "Exception", w') := by
  obtain ⟨d, hd, hne, hloc⟩ := lstPath_eq out
  have hl : Name "FasterCap_Input_.lst".toList := ⟨by decide, by decide, by decide, by decide⟩
  have hdl : locate w.cwd d = o ++ ["FasterCap_Input_Files".toList] := by rw [hloc, ho]
  obtain ⟨h1, h2⟩ := locate_dirname w.cwd (f := "FasterCap_Input_.lst".toList) hne hl.2.1
  have hab : locate (o ++ ["FasterCap_Input_Files".toList]) (abspath w.cwd (join out f)) = o ++ [f] := by
    rw [locate_abspath hcwd, locate_file _ _ hf, ho]
  have habne : abspath w.cwd (join out f) ≠ [] := by
    unfold abspath
    split
    · simp
    · rename_i q hq
      rw [locate_file _ _ hf, ho] at *
      cases o <;> simp
  obtain ⟨text, w', t1, t2, t3, t4, t5⟩ := run_logged prog true
    (fastCapArgs exe "FasterCap_Input_.lst".toList a) (abspath w.cwd (join out f))
    { w with cwd := o ++ ["FasterCap_Input_Files".toList] } x hx habne
    (by rw [hab]; exact ⟨by simpa using hod, hnd⟩)
  refine ⟨text, w', t1, t3, t4, by rw [t5, hab], ?_⟩
  have hrun : runFastCap prog exe (lstPath out) (join out f) a w =
      ((if x.code ≠ 0 ∧ true = true then .error "Exception" else .ok ()), w') := by
    unfold runFastCap
    rw [← t2]
    simp only
    rw [hd, basename_append d hl.2.1]
    unfold andThen chdir
    simp only
    rw [if_neg (by rintro (h | h); exacts [h2 h, h (by rw [h1, hdl]; exact hwork)])]
    simp only [h1, hdl]
  by_cases hc : x.code = 0
  · rw [if_pos hc]
    rw [if_neg (by simp [hc])] at hrun
    exact andThen_ok hrun
  · rw [if_neg hc]
    rw [if_pos ⟨hc, rfl⟩] at hrun
    exact andThen_error hrun

/-- C76, FastCap2, partial: with an output directory given by an absolute path, the log and the four results of this log are
in this directory after a successful run, and other files are as the solver left them. -/
theorem fastcap_results_partial {M : Type} (prog : Prog) (s : Solver M) (exe out cell : Str) (w : World)
    (x : Exit) (o : Place) (m : M) (raw avg exp red : Str)
    (hcwd : ∀ c ∈ w.cwd, Name c) (habs : out.head? = some '/')
    (hcell : '/' ∉ cell) (ho : locate w.cwd out = o) (hod : o ∈ w.dirs) (hnd : ∀ f ∈ fastCapFiles, o ++ [cell ++ f.toList] ∉ w.dirs)
    (hwork : o ++ ["FasterCap_Input_Files".toList] ∈ w.dirs)
    (hx : prog (fastCapArgs exe "FasterCap_Input_.lst".toList fastCapDefaults)
      { w with cwd := o ++ ["FasterCap_Input_Files".toList] } = .ok x) (hcode : x.code = 0)
    (hm : ∀ text, SameText x.output text → s.parse text = .ok m)
    (h1 : s.raw m = .ok raw) (h2 : s.avg m = .ok avg) (h4 : s.expanded m = .ok exp)
    (h5 : s.reduced m = .ok red) :
    ∃ w' text, fastCapFlow prog s exe out cell (lstPath out) w = (.ok (), w') ∧ SameText x.output text ∧
      Dict.get? w'.files (o ++ [cell ++ "_FastCap2_Output.txt".toList]) = some text ∧
      Dict.get? w'.files (o ++ [cell ++ "_FastCap2_Result_Matrix_Raw.csv".toList]) = some raw ∧
      Dict.get? w'.files (o ++ [cell ++ "_FastCap2_Result_Matrix_Avg.csv".toList]) = some avg ∧
      Dict.get? w'.files (o ++ [cell ++ "_FastCap2_Expanded_Netlist.cir".toList]) = some exp ∧
      Dict.get? w'.files (o ++ [cell ++ "_FastCap2_Reduced_Netlist.cir".toList]) = some red ∧
      (∀ q, (∀ f ∈ fastCapFiles, q ≠ o ++ [cell ++ f.toList]) → Dict.get? w'.files q = Dict.get? x.files q) ∧
      w'.cwd = o ++ ["FasterCap_Input_Files".toList] ∧ w'.dirs = w.dirs := by
  unfold fastCapFlow
  simp only
  obtain ⟨text, w1, t1, t2, t3, t4, t5⟩ := fastcap_start prog exe out _ fastCapDefaults w x o
    (fun _ => andThen (readFile (join out (cell ++ "_FastCap2_Output.txt".toList))) fun text =>
      andThen (lift (s.parse text)) fun m =>
      andThen (emit (join out (cell ++ "_FastCap2_Result_Matrix_Raw.csv".toList)) (s.raw m)) fun _ =>
      andThen (emit (join out (cell ++ "_FastCap2_Result_Matrix_Avg.csv".toList)) (s.avg m)) fun _ =>
      andThen (emit (join out (cell ++ "_FastCap2_Expanded_Netlist.cir".toList)) (s.expanded m)) fun _ =>
      emit (join out (cell ++ "_FastCap2_Reduced_Netlist.cir".toList)) (s.reduced m))
    hcwd (name_append hcell "_FastCap2_Output.txt" (by decide) (by decide)) ho hod hwork (hnd _ (by decide)) hx
  obtain ⟨c, d, fs, con⟩ := w1
  simp only at t2 t3 t4
  rw [locate_absolute habs w.cwd c] at ho
  rw [← t3] at hod hnd
  rw [t5, if_pos hcode, read_step _ (name_append hcell "_FastCap2_Output.txt" (by decide) (by decide)) ho
    (by rw [t4, Dict.get?_set, if_pos rfl]), hm text t1, lift_step, h1, h2, h4, h5]
  rw [emit_step _ (name_append hcell "_FastCap2_Result_Matrix_Raw.csv" (by decide) (by decide)) ho hod (hnd _ (by decide)),
    emit_step _ (name_append hcell "_FastCap2_Result_Matrix_Avg.csv" (by decide) (by decide)) ho hod (hnd _ (by decide)),
    emit_step _ (name_append hcell "_FastCap2_Expanded_Netlist.cir" (by decide) (by decide)) ho hod (hnd _ (by decide)),
    emit_last (name_append hcell "_FastCap2_Reduced_Netlist.cir" (by decide) (by decide)) ho hod (hnd _ (by decide))]
  refine ⟨_, text, rfl, t1, ?_, ?_, ?_, ?_, ?_, ?_, t2, t3⟩
  iterate 5 simp [Dict.get?_set, t4]
  intro q hq
  simp only [fastCapFiles, List.forall_mem_cons] at hq
  obtain ⟨q1, q2, q3, q4, q5, -⟩ := hq
  simp only [Dict.get?_set, t4, if_neg (Ne.symm q1), if_neg (Ne.symm q2), if_neg (Ne.symm q3), if_neg (Ne.symm q4),
    if_neg (Ne.symm q5)]

/-- A solver that fails leaves nothing but its log: no results of an earlier run are replaced, none are made up. -/
theorem fastcap_failure {M : Type} (prog : Prog) (s : Solver M) (exe out cell : Str) (w : World) (x : Exit) (o : Place)
    (hcwd : ∀ c ∈ w.cwd, Name c) (hcell : '/' ∉ cell) (ho : locate w.cwd out = o) (hod : o ∈ w.dirs)
    (hnd : ∀ f ∈ fastCapFiles, o ++ [cell ++ f.toList] ∉ w.dirs) (hwork : o ++ ["FasterCap_Input_Files".toList] ∈ w.dirs)
    (hx : prog (fastCapArgs exe "FasterCap_Input_.lst".toList fastCapDefaults)
      { w with cwd := o ++ ["FasterCap_Input_Files".toList] } = .ok x) (hcode : x.code ≠ 0) :
    ∃ w' text, fastCapFlow prog s exe out cell (lstPath out) w = (.error "Exception", w') ∧ SameText x.output text ∧
      ∀ q, Dict.get? w'.files q =
        if q = o ++ [cell ++ "_FastCap2_Output.txt".toList] then some text else Dict.get? x.files q := by
  unfold fastCapFlow
  simp only
  obtain ⟨text, w1, t1, t2, t3, t4, t5⟩ := fastcap_start prog exe out _ fastCapDefaults w x o
    (fun _ => andThen (readFile (join out (cell ++ "_FastCap2_Output.txt".toList))) fun text =>
      andThen (lift (s.parse text)) fun m =>
      andThen (emit (join out (cell ++ "_FastCap2_Result_Matrix_Raw.csv".toList)) (s.raw m)) fun _ =>
      andThen (emit (join out (cell ++ "_FastCap2_Result_Matrix_Avg.csv".toList)) (s.avg m)) fun _ =>
      andThen (emit (join out (cell ++ "_FastCap2_Expanded_Netlist.cir".toList)) (s.expanded m)) fun _ =>
      emit (join out (cell ++ "_FastCap2_Reduced_Netlist.cir".toList)) (s.reduced m))
    hcwd (name_append hcell "_FastCap2_Output.txt" (by decide) (by decide)) ho hod hwork (hnd _ (by decide)) hx
  refine ⟨w1, text, by rw [t5, if_neg hcode], t1, fun q => ?_⟩
  rw [t4, Dict.get?_set]
  simp only [eq_comm]

/-- Finding: with a relative output directory (such as the default `output`) the FastCap2 flow always ends with an exception,
even though the solver succeeded and its log is complete: the results are looked for below the directory of the list file. -/
theorem fastcap_relative {M : Type} (prog : Prog) (s : Solver M) (exe out cell : Str) (w : World)
    (hcwd : ∀ c ∈ w.cwd, Name c) (hrel : out.head? ≠ some '/') (hup : ['.', '.'] ∉ splitOn '/' out)
    (hcell : '/' ∉ cell) (o : Place) (ho : locate w.cwd out = o) (hod : o ∈ w.dirs)
    (hnd : ∀ f ∈ fastCapFiles, o ++ [cell ++ f.toList] ∉ w.dirs)
    (hwork : o ++ ["FasterCap_Input_Files".toList] ∈ w.dirs)
    (x : Exit) (hx : prog (fastCapArgs exe "FasterCap_Input_.lst".toList fastCapDefaults)
      { w with cwd := o ++ ["FasterCap_Input_Files".toList] } = .ok x) (hcode : x.code = 0)
    (hno : ∀ rest, Dict.get? x.files (o ++ "FasterCap_Input_Files".toList :: rest ++
      [cell ++ "_FastCap2_Output.txt".toList]) = none) :
    (fastCapFlow prog s exe out cell (lstPath out) w).1 = .error "FileNotFoundError" := by
  unfold fastCapFlow
  simp only
  have hnm := name_append hcell "_FastCap2_Output.txt" (by decide) (by decide)
  obtain ⟨text, w1, t1, t2, t3, t4, t5⟩ := fastcap_start prog exe out _ fastCapDefaults w x o
    (fun _ => andThen (readFile (join out (cell ++ "_FastCap2_Output.txt".toList))) fun text =>
      andThen (lift (s.parse text)) fun m =>
      andThen (emit (join out (cell ++ "_FastCap2_Result_Matrix_Raw.csv".toList)) (s.raw m)) fun _ =>
      andThen (emit (join out (cell ++ "_FastCap2_Result_Matrix_Avg.csv".toList)) (s.avg m)) fun _ =>
      andThen (emit (join out (cell ++ "_FastCap2_Expanded_Netlist.cir".toList)) (s.expanded m)) fun _ =>
      emit (join out (cell ++ "_FastCap2_Reduced_Netlist.cir".toList)) (s.reduced m))
    hcwd hnm ho hod hwork (hnd _ (by decide)) hx
  have hgrow : ∀ (l : List Str), ['.', '.'] ∉ l → ∀ acc : Place, ∃ rest, l.foldl step acc = acc ++ rest := by
    intro l
    induction l with
    | nil => intro _ acc; exact ⟨[], by simp⟩
    | cons a l ih =>
      intro h acc
      simp only [List.mem_cons, not_or] at h
      rw [List.foldl_cons, step]
      split_ifs with h1 h2
      · exact ih h.2 acc
      · exact absurd h2.symm h.1
      · obtain ⟨r, hr⟩ := ih h.2 (acc ++ [a])
        exact ⟨a :: r, by rw [hr]; simp⟩
  have hloc : ∃ rest, locate w1.cwd out = o ++ "FasterCap_Input_Files".toList :: rest := by
    obtain ⟨r, hr⟩ := hgrow _ hup w1.cwd
    refine ⟨r, ?_⟩
    unfold locate
    rw [if_neg hrel, hr, t2]
    simp
  obtain ⟨rest, hrest⟩ := hloc
  rw [t5, if_pos hcode]
  have hread : readFile (join out (cell ++ "_FastCap2_Output.txt".toList)) w1 = (.error "FileNotFoundError", w1) := by
    unfold readFile
    rw [if_neg (join_ne_nil out hnm), locate_file _ _ hnm, hrest, t4, Dict.get?_set, if_neg, hno rest]
    intro h
    have := congrArg List.length h
    simp only [List.length_append, List.length_cons, List.length_nil] at this
    omega
  rw [andThen_error hread]

/-- **C75.** The command of FastCap as the engine starts it. -/
theorem fastcap_words (exe lst : Str) : fastCapArgs exe lst fastCapDefaults =
    [exe, "-o2".toList, "-p1.0".toList, "-t0.01".toList, "-l".toList ++ lst] := by
  simp only [fastCapArgs, fastCapDefaults]
  rfl

end Verif.Runners
