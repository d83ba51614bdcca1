import Verif.Runners.MagicRun

/-!
# The command line tool for the logs of Magic (C109)

Model of `_parse_args` and `main` of `magic/magic_log_analyzer.py`, 121–166, after argparse. The text of a report database is a parameter.
-/

namespace Verif.Runners

/-! ### Model -/

/-- `_parse_args` after argparse, 144–150: the default path of the report is computed and thrown away, so it stays unset. -/
def analyzerArgs (dir : Str) (out : Option Str) : Act (Option Str) := fun w =>
  if dir = [] ∨ locate w.cwd dir ∉ w.dirs then (.error "ArgumentValidationError", w)
  else
    let _default := out.getD (join dir "report.rdb.gz".toList)
    (.ok out, w)

/-- `report.save`: KLayout takes no `None` as a string. -/
def saveReport (text : Except String Str) : Option Str → Act Unit
  | some p => emit p text
  | none => lift (.error "TypeError")

/-- `main`, 155–166; the database unit is 1 nm. -/
def analyzerMain (e : MagicEnv) (dir : Str) (out : Option Str) : Act Unit :=
  andThen (analyzerArgs dir out) fun p =>
  andThen (fun w => lift (Magic.parseRun (listing w (locate w.cwd dir))) w) fun cells =>
  saveReport (e.save (Magic.analyze e.rnd e.pr (1 / 1000) cells)) p

/-! ### Theorems -/

/-- **C109.** With `--out`, the tool writes one file, the report of exactly what the extraction files in the directory say, and it
does so for every directory with extraction files that can be read. When it fails, no file changes. -/
theorem analyzer_report_partial (e : MagicEnv) (dir p : Str) (w : World) (hdir : dir ≠ []) (hd : locate w.cwd dir ∈ w.dirs)
    (hp : p ≠ []) (hw : Writable w (locate w.cwd p)) :
    ∃ d, Listed w.files (locate w.cwd dir) d ∧
      (∀ w', analyzerMain e dir (some p) w = (.ok (), w') → ∃ es rep,
        (Magic.CleanDir d → (∀ z : ℤ, e.rnd z = z) → ReportOf e.pr (1 / 1000) d es) ∧ e.save es = .ok rep ∧
        w' = { w with files := Dict.set w.files (locate w.cwd p) rep }) ∧
      (∀ m w', analyzerMain e dir (some p) w = (.error m, w') → w' = w) ∧
      (Magic.CleanDir d → Readable d → (∀ es, ∃ rep, e.save es = .ok rep) → ∃ w', analyzerMain e dir (some p) w = (.ok (), w')) := by
  have hargs : analyzerArgs dir (some p) w = (.ok (some p), w) := by
    unfold analyzerArgs
    rw [if_neg (fun h => h.elim hdir (fun h => h hd))]
  have hmain : analyzerMain e dir (some p) w = andThen (fun w => lift (Magic.parseRun (listing w (locate w.cwd dir))) w) (fun cells =>
      saveReport (e.save (Magic.analyze e.rnd e.pr (1 / 1000) cells)) (some p)) w := by
    unfold analyzerMain
    rw [andThen_ok hargs]
  refine ⟨listing w (locate w.cwd dir), listing_listed _ _, fun w' h => ?_, fun m w' h => ?_, fun hcd hrd hsave => ?_⟩
  · rw [hmain] at h
    cases hpr : Magic.parseRun (listing w (locate w.cwd dir)) with
    | error m => rw [lift_error hpr] at h; cases h
    | ok cells =>
      rw [lift_ok hpr] at h
      cases hsv : e.save (Magic.analyze e.rnd e.pr (1 / 1000) cells) with
      | error m => rw [hsv] at h; cases h
      | ok rep =>
        rw [hsv] at h
        have h : emit p (.ok rep) w = _ := h
        rw [emit_ok hp hw] at h
        cases h
        refine ⟨_, rep, fun hcd hz => ?_, hsv, rfl⟩
        refine Magic.report_exact_partial hcd hz (k := 5) (by norm_num) e.pr ?_
        unfold Magic.report
        rw [hpr]
        rfl
  · rw [hmain] at h
    cases hpr : Magic.parseRun (listing w (locate w.cwd dir)) with
    | error m => rw [lift_error hpr] at h; cases h; rfl
    | ok cells =>
      rw [lift_ok hpr] at h
      cases hsv : e.save (Magic.analyze e.rnd e.pr (1 / 1000) cells) with
      | error m => rw [hsv] at h; cases h; rfl
      | ok rep =>
        rw [hsv] at h
        have h : emit p (.ok rep) w = _ := h
        rw [emit_ok hp hw] at h
        cases h
  · obtain ⟨cells, hpr⟩ := (Magic.run_exact_partial hcd).1.2 hrd
    obtain ⟨rep, hrep⟩ := hsave (Magic.analyze e.rnd e.pr (1 / 1000) cells)
    rw [hmain, lift_ok hpr, hrep]
    exact ⟨_, emit_ok hp hw⟩

/-- C109: a directory that does not exist is refused. -/
theorem analyzer_no_directory (e : MagicEnv) (dir : Str) (out : Option Str) (w : World) (hd : dir = [] ∨ locate w.cwd dir ∉ w.dirs) :
    analyzerMain e dir out w = (.error "ArgumentValidationError", w) := by
  unfold analyzerMain
  refine andThen_error ?_
  unfold analyzerArgs
  rw [if_pos hd]

/-- C109 does not hold without `--out`: the announced default is never used, and every call ends with an error, without a report. -/
theorem analyzer_default_fails (e : MagicEnv) (dir : Str) (w : World) : ∃ m, analyzerMain e dir none w = (.error m, w) := by
  by_cases hd : dir = [] ∨ locate w.cwd dir ∉ w.dirs
  · exact ⟨_, analyzer_no_directory e dir none w hd⟩
  · have hargs : analyzerArgs dir none w = (.ok none, w) := by
      unfold analyzerArgs
      rw [if_neg hd]
    unfold analyzerMain
    rw [andThen_ok hargs]
    cases hpr : Magic.parseRun (listing w (locate w.cwd dir)) with
    | error m => exact ⟨m, lift_error hpr⟩
    | ok cells =>
      rw [lift_ok hpr]
      exact ⟨_, rfl⟩

/-! ### Example -/

/-- A directory with one extraction file. -/
example : (analyzerMain magicEnvEx "out/magic_CC".toList (some "r.rdb".toList) magicWorld).1 = .ok () ∧
    (analyzerMain magicEnvEx "out/magic_CC".toList (some "r.rdb".toList) magicWorld).2.files =
      Dict.set magicWorld.files ["home".toList, "r.rdb".toList] "inv\n".toList ∧
    locate magicWorld.cwd "out/magic_CC".toList ∈ magicWorld.dirs ∧ Writable magicWorld (locate magicWorld.cwd "r.rdb".toList) ∧
    (analyzerMain magicEnvEx "out/magic_CC".toList none magicWorld).1 = .error "TypeError" :=
  ⟨by decide +kernel, by decide +kernel, by decide, by unfold Writable; decide, by decide +kernel⟩

end Verif.Runners
