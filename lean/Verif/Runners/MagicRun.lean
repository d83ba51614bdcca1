import Verif.Runners.Svg
import Verif.Magic.Props
import Verif.Magic.Script

/-!
# The Magic engine (C101)

Model of `KpexCLI.run_magic_extraction`, kpex_cli.py 575–630, from the script to the report, on top of the models of
`prepare_magic_script` and of the files of a run (area `Magic`) and of `run_magic` (C74). Reading the layout for its database unit
and writing the report database are parameters; messages are left out, apart from the netlist.
-/

namespace Verif.Runners

/-! ### Model -/

/-- The arguments the engine uses; numbers by their text. -/
structure MagicArgs where
  gdsMode : Bool
  out : Str
  cell : Str
  gds : Str
  exe : Str
  rc : Option Str
  version : Str
  mode : Magic.Mode
  cth : Str
  rth : Str
  tol : Str
  halo : Option ℚ
  short : Str
  merge : Str

/-- What is outside of the program: the database unit of a layout, the text of a report database, the rounding of coordinates and
the text of a number. -/
structure MagicEnv where
  dbu : Str → World → Except String ℚ
  save : List Magic.Entry → Except String Str
  rnd : ℚ → ℤ
  pr : ℚ → Str

/-- The text of a mode (`StrEnum`), magic_runner.py 39–42. -/
def modeText : Magic.Mode → Str
  | .CC => "CC".toList
  | .RC => "RC".toList
  | .R => "R".toList

/-- `glob` in a directory and the lines of the files: magic_ext_file_parser.py 47, 90–91. -/
def listing (w : World) (D : Place) : Magic.Dir :=
  w.files.filterMap fun f => if f.1.dropLast = D then f.1.getLast?.map fun n => (n, readlines (universal f.2)) else none

/-- The arguments of the script: the three paths are made absolute, magic_runner.py 72–74. -/
def scriptArgs (cwd : Place) (a : MagicArgs) (dir net : Str) : Magic.ScriptArgs :=
  ⟨a.version, abspath cwd a.gds, a.cell, abspath cwd dir, abspath cwd net, a.mode, a.cth, a.rth, a.tol, a.halo, a.short, a.merge⟩

/-- `run_magic_extraction`, kpex_cli.py 575–630. -/
def magicFlow (prog : Prog) (e : MagicEnv) (a : MagicArgs) : Act Unit := fun w =>
  if a.gdsMode = false then (.ok (), w)
  else
    let dir := join a.out ("magic_".toList ++ modeText a.mode)
    let log := join dir (a.cell ++ "_MAGIC_".toList ++ modeText a.mode ++ "_Output.txt".toList)
    let script := join dir (a.cell ++ "_MAGIC_".toList ++ modeText a.mode ++ "_Script.tcl".toList)
    let net := join dir (a.cell ++ ".pex.spice".toList)
    let rep := join dir (a.cell ++ "_MAGIC_report.rdb.gz".toList)
    andThen (makedirs dir) (fun _ =>
      andThen (fun w => writeFile script (Magic.script (scriptArgs w.cwd a dir net)) w) fun _ =>
      andThen (runMagic prog a.exe a.rc script log) fun _ =>
      andThen (fun w => lift (Magic.parseRun (listing w (locate w.cwd dir))) w) fun cells =>
      andThen (fun w => lift (e.dbu a.gds w) w) fun dbu =>
      andThen (emit rep (e.save (Magic.analyze e.rnd e.pr dbu cells))) fun _ =>
      andThen (readFile net) fun text =>
      fun w => (.ok (), { w with console := w.console ++ [universal text] })) w

/-! ### Specification -/

/-- The four files of a run in its directory. -/
def logName (a : MagicArgs) : Str := a.cell ++ "_MAGIC_".toList ++ modeText a.mode ++ "_Output.txt".toList
def scriptName (a : MagicArgs) : Str := a.cell ++ "_MAGIC_".toList ++ modeText a.mode ++ "_Script.tcl".toList
def netName (a : MagicArgs) : Str := a.cell ++ ".pex.spice".toList
def reportName (a : MagicArgs) : Str := a.cell ++ "_MAGIC_report.rdb.gz".toList

/-- The directory of the run. -/
def runPlace (a : MagicArgs) (cwd : Place) : Place := locate cwd a.out ++ ["magic_".toList ++ modeText a.mode]

/-- The directory of the run can be made: nothing but directories on the way, and the files in it are no directories. -/
structure MagicDir (a : MagicArgs) (w : World) : Prop where
  way : ∀ d, d <+: runPlace a w.cwd → Dict.get? w.files d = none
  log : runPlace a w.cwd ++ [logName a] ∉ w.dirs
  script : runPlace a w.cwd ++ [scriptName a] ∉ w.dirs
  report : runPlace a w.cwd ++ [reportName a] ∉ w.dirs

/-- The world in which Magic is started: the directory is there and the script in it, nothing else has changed. -/
structure ScriptReady (a : MagicArgs) (w w1 : World) (text : Str) : Prop where
  cwd : w1.cwd = w.cwd
  dirs : ∀ d, d ∈ w1.dirs ↔ d ∈ w.dirs ∨ d <+: runPlace a w.cwd
  script : Dict.get? w1.files (runPlace a w.cwd ++ [scriptName a]) = some text
  others : ∀ q, q ≠ runPlace a w.cwd ++ [scriptName a] → Dict.get? w1.files q = Dict.get? w.files q

/-- A directory as Python lists it: its files with their lines. -/
def Listed (files : Dict Place Str) (D : Place) (d : Magic.Dir) : Prop :=
  ∀ n lines, (n, lines) ∈ d ↔ ∃ text t, (D ++ [n], text) ∈ files ∧ SameText text t ∧ lines = readlines t

/-- What the script is made for: the layout, the directory and the netlist by paths that hold in any working directory, and the
other arguments as they are. -/
structure ScriptFor (a : MagicArgs) (cwd : Place) (s : Magic.ScriptArgs) : Prop where
  gds : ∀ cwd', locate cwd' s.gds = locate cwd a.gds
  dir : ∀ cwd', locate cwd' s.runDir = runPlace a cwd
  net : ∀ cwd', locate cwd' s.netlist = runPlace a cwd ++ [netName a]
  cell : s.cell = a.cell
  mode : s.mode = a.mode
  numbers : s.cth = a.cth ∧ s.rth = a.rth ∧ s.tol = a.tol ∧ s.halo = a.halo
  modes : s.short = a.short ∧ s.merge = a.merge

/-- The entries show what the extraction files of the directory say (C69): those of every cell, at their places. -/
def ReportOf (pr : ℚ → Str) (dbu : ℚ) (d : Magic.Dir) (es : List Magic.Entry) : Prop :=
  (∀ e ∈ es, (∃ lines, (Magic.mainName e.cell, lines) ∈ d) ∧
    e.group ∈ ["Ports", "Nodes", "Devices", "Resistor Nodes", "Resistors"]) ∧
  ∀ c lines, Magic.Clean c → (Magic.mainName c, lines) ∈ d →
    (∀ ps, Magic.Collected Magic.PortLine lines ps → List.Forall₂ (Magic.PortShown dbu) ps (Magic.shown es c "Ports")) ∧
    (∀ ns, Magic.Collected Magic.NodeLine lines ns → List.Forall₂ (Magic.NodeShown dbu) ns (Magic.shown es c "Nodes")) ∧
    (∀ ds, Magic.Collected Magic.DeviceLine lines ds → List.Forall₂ (Magic.DeviceShown dbu) ds (Magic.shown es c "Devices")) ∧
    (∀ rl, (Magic.resName c, rl) ∈ d → ∀ ns rs, Magic.Collected Magic.RNodeLine rl ns → Magic.Collected Magic.ResistLine rl rs →
      List.Forall₂ (Magic.ResNodeShown dbu) ns (Magic.shown es c "Resistor Nodes") ∧
      List.Forall₂ (Magic.ResistorShown pr dbu ns) rs.zipIdx (Magic.shown es c "Resistors")) ∧
    ((∀ rl, (Magic.resName c, rl) ∉ d) → Magic.shown es c "Resistor Nodes" = [] ∧ Magic.shown es c "Resistors" = [])

/-- The extraction files can be read: there is one, the types of the devices and the values of the resistors are known. -/
def Readable (d : Magic.Dir) : Prop :=
  (∃ c lines, Magic.Clean c ∧ (Magic.mainName c, lines) ∈ d) ∧
    ∀ c lines, Magic.Clean c → (Magic.mainName c, lines) ∈ d →
      Magic.KnownDevices lines ∧ ∀ rl, (Magic.resName c, rl) ∈ d → Magic.ReadableValues rl

/-! ### Theorems -/

theorem name_cell {cell s : Str} (hc : '/' ∉ cell) (hs : '/' ∉ s) (hl : 3 ≤ s.length) : Name (cell ++ s) := by
  refine ⟨?_, ?_, ?_, ?_⟩
  · intro h
    have := congrArg List.length h
    simp only [List.length_append, List.length_nil] at this
    omega
  · simp [hc, hs]
  · intro h
    have := congrArg List.length h
    simp only [List.length_append, List.length_cons, List.length_nil] at this
    omega
  · intro h
    have := congrArg List.length h
    simp only [List.length_append, List.length_cons, List.length_nil] at this
    omega

theorem name_mode (m : Magic.Mode) : Name ("magic_".toList ++ modeText m) := by
  cases m <;> (unfold Name; decide)

theorem listing_listed (w : World) (D : Place) : Listed w.files D (listing w D) := by
  intro n lines
  unfold listing
  rw [List.mem_filterMap]
  constructor
  · rintro ⟨⟨q, t⟩, hm, h⟩
    simp only at h
    split_ifs at h with hq
    cases hl : q.getLast? with
    | none => rw [hl] at h; cases h
    | some m =>
      rw [hl] at h
      simp only [Option.map_some, Option.some.injEq, Prod.mk.injEq] at h
      obtain ⟨rfl, rfl⟩ := h
      have : q = D ++ [m] := by
        rw [← hq]
        exact (List.dropLast_append_getLast? m (by rw [hl]; rfl)).symm
      exact ⟨t, universal t, this ▸ hm, universal_same t, rfl⟩
  · rintro ⟨text, t, hm, hs, rfl⟩
    refine ⟨(D ++ [n], text), hm, ?_⟩
    simp only [List.dropLast_concat, if_true, List.getLast?_concat, Option.map_some, Option.some.injEq, Prod.mk.injEq, true_and]
    rw [sameText_unique hs (universal_same text)]

/-- The directory and the script, up to the start of Magic. -/
theorem magic_start (prog : Prog) (e : MagicEnv) (a : MagicArgs) (w : World) (hg : a.gdsMode = true) (hcell : '/' ∉ a.cell)
    (hd : MagicDir a w) (hcwd : ∀ c ∈ w.cwd, Name c) :
    ∃ w1 dir s, ScriptReady a w w1 (Magic.script s) ∧ ScriptFor a w.cwd s ∧ locate w.cwd dir = runPlace a w.cwd ∧
      w1.console = w.console ∧
      magicFlow prog e a w =
        andThen (runMagic prog a.exe a.rc (join dir (scriptName a)) (join dir (logName a))) (fun _ =>
          andThen (fun w => lift (Magic.parseRun (listing w (locate w.cwd dir))) w) fun cells =>
          andThen (fun w => lift (e.dbu a.gds w) w) fun dbu =>
          andThen (emit (join dir (reportName a)) (e.save (Magic.analyze e.rnd e.pr dbu cells))) fun _ =>
          andThen (readFile (join dir (netName a))) fun text =>
          fun w => (.ok (), { w with console := w.console ++ [universal text] })) w1 := by
  obtain ⟨D, hDdef⟩ : ∃ D, D = runPlace a w.cwd := ⟨_, rfl⟩
  obtain ⟨dir, hdirdef⟩ : ∃ d, d = join a.out ("magic_".toList ++ modeText a.mode) := ⟨_, rfl⟩
  have hdir : locate w.cwd dir = D := by rw [hdirdef, hDdef, locate_file _ _ (name_mode _)]; rfl
  have hmk := makedirs_ok (hdirdef ▸ join_ne_nil a.out (name_mode _)) hdir (hDdef ▸ hd.way)
  obtain ⟨dirs, hdirsdef⟩ : ∃ ds, ds = w.dirs ++ D.inits.filter (· ∉ w.dirs) := ⟨_, rfl⟩
  rw [← hdirsdef] at hmk
  have hdirs : ∀ d, d ∈ dirs ↔ d ∈ w.dirs ∨ d <+: D := by
    intro d
    simp only [hdirsdef, List.mem_append, List.mem_filter, List.mem_inits, decide_eq_true_eq]
    tauto
  have hDd : D ∈ dirs := (hdirs D).2 (Or.inr (List.prefix_refl _))
  have hns : Name (scriptName a) := by
    unfold scriptName
    rw [List.append_assoc, List.append_assoc]
    cases a.mode <;> exact name_cell hcell (by decide) (by decide)
  have hnn : Name (netName a) := name_cell hcell (by decide) (by decide)
  have hsl : locate w.cwd (join dir (scriptName a)) = D ++ [scriptName a] := by rw [locate_file _ _ hns, hdir]
  have hsn : D ++ [scriptName a] ∉ dirs := by
    intro h
    rcases (hdirs _).1 h with h | h
    · exact hd.script (hDdef ▸ h)
    · have := h.length_le
      rw [List.length_append, List.length_singleton] at this
      omega
  obtain ⟨s, hs⟩ : ∃ s, s = scriptArgs w.cwd a dir (join dir (netName a)) := ⟨_, rfl⟩
  have hb1 := writeFile_ok (w := { w with dirs := dirs }) (Magic.script s) (join_ne_nil dir hns)
    (by rw [show World.cwd { w with dirs := dirs } = w.cwd from rfl, hsl]
        exact ⟨by rw [List.dropLast_concat]; exact hDd, hsn⟩)
  rw [show World.cwd { w with dirs := dirs } = w.cwd from rfl, hsl] at hb1
  refine ⟨{ w with dirs := dirs, files := Dict.set w.files (D ++ [scriptName a]) (Magic.script s) }, dir, s,
    ⟨rfl, ?_, ?_, fun q hq => ?_⟩, ?_, hdir.trans hDdef, rfl, ?_⟩
  · rw [← hDdef]; exact hdirs
  · rw [← hDdef]; exact Dict.get?_set_self _ _ _
  · rw [← hDdef] at hq
    exact Dict.get?_set_ne _ _ (Ne.symm hq)
  · rw [hs]
    exact ⟨fun c => locate_abspath hcwd c _, fun c => (locate_abspath hcwd c _).trans (hdir.trans hDdef),
      fun c => (locate_abspath hcwd c _).trans (by rw [locate_file _ _ hnn, hdir, hDdef]), rfl, rfl, ⟨rfl, rfl, rfl, rfl⟩, rfl, rfl⟩
  · unfold magicFlow
    rw [if_neg (by rw [hg]; decide)]
    simp only [← hdirdef]
    rw [andThen_ok hmk]
    refine (andThen_ok (a := fun w => writeFile (join dir (scriptName a))
      (Magic.script (scriptArgs w.cwd a dir (join dir (netName a)))) w) (hs ▸ hb1)).trans ?_
    rw [hs]
    rfl

theorem lift_ok {α β : Type} {f : World → Except String α} {k : α → Act β} {w : World} {x : α} (h : f w = .ok x) :
    andThen (fun w => lift (f w) w) k w = k x w := by
  unfold andThen lift
  simp only [h]

theorem lift_error {α β : Type} {f : World → Except String α} {k : α → Act β} {w : World} {m : String} (h : f w = .error m) :
    andThen (fun w => lift (f w) w) k w = (.error m, w) := by
  unfold andThen lift
  simp only [h]

theorem magic_eq_logged {prog : Prog} {exe rc script log : Str} {o : Option Str} (h : o = some rc) :
    runMagic prog exe o script log =
      runLogged prog true ([exe, "-dnull".toList, "-noconsole".toList, "-rcfile".toList, rc, script].map some) log := by
  rw [h]
  rfl

/-- **C101 (partial).** For a layout, Magic is started once, with a script in the directory of the run that is made for the
arguments (`Magic.Faithful`, C70). If it cannot be started, or ends with a code other than 0, the run ends with an exception; in
the second case the output is in the log. Otherwise the run succeeds only if the netlist is there, which is then shown, and the
report database shows what the extraction files in the directory say; it does succeed if the files can be read and the report
can be written.
Missing: files of an earlier run are taken for results of this one, see `magic_stale`; and without a layout nothing is done, and
the run still succeeds, see `magic_no_layout`. -/
theorem magic_run_partial (prog : Prog) (e : MagicEnv) (a : MagicArgs) (w : World) (hg : a.gdsMode = true) (rc : Str)
    (hrc : a.rc = some rc) (hcell : '/' ∉ a.cell) (hd : MagicDir a w) (hcwd : ∀ c ∈ w.cwd, Name c) :
    ∃ w1 text s script, ScriptReady a w w1 text ∧ ScriptFor a w.cwd s ∧
      (Magic.PlainArgs s → Magic.Faithful s (Magic.commands text)) ∧
      locate w.cwd script = runPlace a w.cwd ++ [scriptName a] ∧
      (∀ err, prog [a.exe, "-dnull".toList, "-noconsole".toList, "-rcfile".toList, rc, script] w1 = .error err →
        magicFlow prog e a w = (.error err, w1)) ∧
      ∀ x, prog [a.exe, "-dnull".toList, "-noconsole".toList, "-rcfile".toList, rc, script] w1 = .ok x →
        ∃ log w2, SameText x.output log ∧ w2.cwd = w.cwd ∧ w2.dirs = w1.dirs ∧
          w2.files = Dict.set x.files (runPlace a w.cwd ++ [logName a]) log ∧
          (x.code ≠ 0 → magicFlow prog e a w = (.error "Exception", w2)) ∧
          (x.code = 0 → ∃ d, Listed w2.files (runPlace a w.cwd) d ∧
            (∀ w', magicFlow prog e a w = (.ok (), w') → ∃ dbu es rep net t, e.dbu a.gds w2 = .ok dbu ∧
              (Magic.CleanDir d → (∀ z : ℤ, e.rnd z = z) → (∃ k : ℤ, 200 * dbu * k = 1) → ReportOf e.pr dbu d es) ∧
              e.save es = .ok rep ∧ Dict.get? w2.files (runPlace a w.cwd ++ [netName a]) = some net ∧ SameText net t ∧
              w'.cwd = w.cwd ∧ w'.dirs = w2.dirs ∧ w'.console = w2.console ++ [t] ∧
              w'.files = Dict.set w2.files (runPlace a w.cwd ++ [reportName a]) rep) ∧
            (Magic.CleanDir d → Readable d → (∃ dbu, e.dbu a.gds w2 = .ok dbu) → (∀ es, ∃ rep, e.save es = .ok rep) →
              (∃ net, Dict.get? w2.files (runPlace a w.cwd ++ [netName a]) = some net) →
              ∃ w', magicFlow prog e a w = (.ok (), w'))) := by
  obtain ⟨w1, dir, s, hr, hf, hdir, -, hmain⟩ := magic_start prog e a w hg hcell hd hcwd
  obtain ⟨D, hD⟩ : ∃ D, D = runPlace a w.cwd := ⟨_, rfl⟩
  have hns : Name (scriptName a) := by
    unfold scriptName
    rw [List.append_assoc, List.append_assoc]
    cases a.mode <;> exact name_cell hcell (by decide) (by decide)
  have hnl : Name (logName a) := by
    unfold logName
    rw [List.append_assoc, List.append_assoc]
    cases a.mode <;> exact name_cell hcell (by decide) (by decide)
  have hnn : Name (netName a) := name_cell hcell (by decide) (by decide)
  have hnr : Name (reportName a) := name_cell hcell (by decide) (by decide)
  have hl : ∀ {f : Str}, Name f → locate w.cwd (join dir f) = D ++ [f] := by
    intro f hf; rw [locate_file _ _ hf, hdir, hD]
  have hDd : D ∈ w1.dirs := (hr.dirs D).2 (Or.inr (hD ▸ List.prefix_refl _))
  have hfile : ∀ f, D ++ [f] ∉ w.dirs → D ++ [f] ∉ w1.dirs := by
    intro f hf h
    rcases (hr.dirs _).1 h with h | h
    · exact hf h
    · have := h.length_le
      rw [← hD, List.length_append, List.length_singleton] at this
      omega
  rw [magic_eq_logged hrc] at hmain
  refine ⟨w1, _, s, join dir (scriptName a), hr, hf, Magic.script_faithful_partial, by rw [hl hns, hD], fun err herr => ?_,
    fun x hx => ?_⟩
  · rw [hmain, andThen_error (run_not_found prog true _ _ _ err herr)]
  obtain ⟨log, w2, h1, h2, h3, h4, h5⟩ := run_logged prog true _ (join dir (logName a)) w1 x hx (join_ne_nil _ hnl)
    (by rw [hr.cwd, hl hnl]
        exact ⟨by rw [List.dropLast_concat]; exact hDd, hfile _ (hD ▸ hd.log)⟩)
  rw [hr.cwd, hl hnl] at h5
  rw [hr.cwd] at h3
  refine ⟨log, w2, h1, h3, h4, hD ▸ h5, fun hx0 => ?_, fun hx0 => ?_⟩
  · rw [if_pos ⟨hx0, rfl⟩] at h2
    rw [hmain, andThen_error h2]
  rw [if_neg (fun h => h.1 hx0)] at h2
  rw [andThen_ok h2] at hmain
  refine ⟨listing w2 D, hD ▸ listing_listed w2 D, fun w' hw' => ?_, fun hcd hrd hdbu hsave hnet => ?_⟩
  · rw [hw'] at hmain
    cases hp : Magic.parseRun (listing w2 (locate w2.cwd dir)) with
    | error m => rw [lift_error hp] at hmain; cases hmain
    | ok cells =>
      rw [lift_ok hp] at hmain
      cases hdb : e.dbu a.gds w2 with
      | error m => rw [lift_error hdb] at hmain; cases hmain
      | ok dbu =>
        rw [lift_ok hdb] at hmain
        cases hsv : e.save (Magic.analyze e.rnd e.pr dbu cells) with
        | error m => rw [hsv] at hmain; cases hmain
        | ok rep =>
          rw [hsv, andThen_ok (emit_ok (w := w2) (join_ne_nil _ hnr)
            (by rw [h3, hl hnr]
                exact ⟨by rw [List.dropLast_concat, h4]; exact hDd, by rw [h4]; exact hfile _ (hD ▸ hd.report)⟩))] at hmain
          rw [h3, hl hnr] at hmain
          have hne : D ++ [reportName a] ≠ D ++ [netName a] := by
            intro h
            have h := List.append_cancel_left (List.cons.inj (List.append_cancel_left h)).1
            exact absurd h (by decide)
          cases hn : Dict.get? w2.files (D ++ [netName a]) with
          | none =>
            exfalso
            rw [andThen_error (e := "FileNotFoundError")] at hmain
            · cases hmain
            · unfold readFile
              rw [if_neg (join_ne_nil _ hnn)]
              simp only [hl hnn, Dict.get?_set_ne _ _ hne, hn]
              rfl
          | some net =>
            rw [andThen_ok (readFile_ok (text := net) (join_ne_nil _ hnn)
              (by simp only [hl hnn, Dict.get?_set_ne _ _ hne, hn]))] at hmain
            cases hmain
            refine ⟨dbu, _, rep, net, universal net, rfl, fun hcd hz hk => ?_, hsv, hD ▸ hn, universal_same _, rfl, rfl, rfl,
              hD ▸ rfl⟩
            obtain ⟨k, hk⟩ := hk
            refine Magic.report_exact_partial hcd hz hk e.pr ?_
            unfold Magic.report
            rw [h3, hdir, ← hD] at hp
            rw [hp]
            rfl
  · obtain ⟨dbu, hdbu⟩ := hdbu
    obtain ⟨net, hnet⟩ := hnet
    obtain ⟨cells, hp⟩ := (Magic.run_exact_partial hcd).1.2 hrd
    obtain ⟨rep, hrep⟩ := hsave (Magic.analyze e.rnd e.pr dbu cells)
    have hp' : Magic.parseRun (listing w2 (locate w2.cwd dir)) = .ok cells := by rw [h3, hdir, ← hD]; exact hp
    have hne : D ++ [reportName a] ≠ D ++ [netName a] := by
      intro h
      have h := List.append_cancel_left (List.cons.inj (List.append_cancel_left h)).1
      exact absurd h (by decide)
    rw [hmain, lift_ok hp', lift_ok hdbu, hrep, andThen_ok (emit_ok (w := w2) (join_ne_nil _ hnr)
            (by rw [h3, hl hnr]
                exact ⟨by rw [List.dropLast_concat, h4]; exact hDd, by rw [h4]; exact hfile _ (hD ▸ hd.report)⟩))]
    rw [h3, hl hnr, andThen_ok (readFile_ok (text := net) (join_ne_nil _ hnn)
              (by simp only [hl hnn, Dict.get?_set_ne _ _ hne]; exact hD ▸ hnet))]
    exact ⟨_, rfl⟩

/-- C101 does not hold without a layout: nothing is done, and the run is a success. -/
theorem magic_no_layout (prog : Prog) (e : MagicEnv) (a : MagicArgs) (w : World) (hg : a.gdsMode = false) :
    magicFlow prog e a w = (.ok (), w) := by
  unfold magicFlow
  rw [if_pos hg]

/-- C101: without a configuration file Magic is not started, and the run ends with an exception. -/
theorem magic_no_config (prog : Prog) (e : MagicEnv) (a : MagicArgs) (w : World) (hg : a.gdsMode = true) (hrc : a.rc = none)
    (hcell : '/' ∉ a.cell) (hd : MagicDir a w) (hcwd : ∀ c ∈ w.cwd, Name c) :
    ∃ w1 text, ScriptReady a w w1 text ∧ magicFlow prog e a w = (.error "TypeError", w1) := by
  obtain ⟨w1, dir, s, hr, -, -, -, hmain⟩ := magic_start prog e a w hg hcell hd hcwd
  refine ⟨w1, _, hr, ?_⟩
  rw [hmain]
  refine andThen_error ?_
  rw [magic_command, hrc]

/-- C101 does not hold for files of earlier runs: if Magic ends with code 0 and writes nothing at all, and the run succeeds,
then the netlist that is shown was there before. It does succeed in the example below. -/
theorem magic_stale (prog : Prog) (e : MagicEnv) (a : MagicArgs) (w : World) (hg : a.gdsMode = true) (rc : Str)
    (hrc : a.rc = some rc) (hcell : '/' ∉ a.cell) (hd : MagicDir a w) (hcwd : ∀ c ∈ w.cwd, Name c)
    (hidle : ∀ argv w, ∃ out, prog argv w = .ok ⟨out, 0, w.files⟩) (w' : World) (h : magicFlow prog e a w = (.ok (), w')) :
    ∃ net t, Dict.get? w.files (runPlace a w.cwd ++ [netName a]) = some net ∧ SameText net t ∧ w'.console.getLast? = some t := by
  obtain ⟨w1, text, s, script, hr, -, -, -, -, hx⟩ := magic_run_partial prog e a w hg rc hrc hcell hd hcwd
  obtain ⟨out, ho⟩ := hidle [a.exe, "-dnull".toList, "-noconsole".toList, "-rcfile".toList, rc, script] w1
  obtain ⟨log, w2, -, -, -, h5, -, h6⟩ := hx _ ho
  obtain ⟨d, -, h7, -⟩ := h6 rfl
  obtain ⟨dbu, es, rep, net, t, -, -, -, h8, h9, -, -, h10, -⟩ := h7 w' h
  refine ⟨net, t, ?_, h9, by rw [h10]; simp⟩
  rw [h5, Dict.get?_set_ne, hr.others] at h8
  · exact h8
  · intro h
    have h := (List.cons.inj (List.append_cancel_left h)).1
    unfold netName scriptName at h
    simp only [List.append_assoc] at h
    have h := List.append_cancel_left h
    revert h
    cases a.mode <;> decide
  · intro h
    have h := (List.cons.inj (List.append_cancel_left h)).1
    unfold netName logName at h
    simp only [List.append_assoc] at h
    have h := List.append_cancel_left h
    revert h
    cases a.mode <;> decide

/-! ### A concrete case -/

/-- Cell `inv` of `inv.gds`, mode CC. -/
def magicArgsEx : MagicArgs where
  gdsMode := true
  out := "out".toList
  cell := "inv".toList
  gds := "inv.gds".toList
  exe := "magic".toList
  rc := some "/pdk/sky130A.magicrc".toList
  version := "0.2".toList
  mode := .CC
  cth := "0.02".toList
  rth := "50".toList
  tol := "1".toList
  halo := none
  short := "none".toList
  merge := "none".toList

/-- A database unit of 1 nm; the report is the list of its entries' cells. -/
def magicEnvEx : MagicEnv where
  dbu := fun _ _ => .ok (1 / 1000)
  save := fun es => .ok (es.flatMap fun e => e.cell ++ ['\n'])
  rnd := fun q => q.floor
  pr := fun _ => []

def magicPlace : Place := ["home".toList, "out".toList, "magic_CC".toList]

/-- A world with the results of an earlier run. -/
def magicWorld : World where
  cwd := ["home".toList]
  dirs := [[], ["home".toList], ["home".toList, "out".toList], magicPlace]
  files := [(magicPlace ++ ["inv.ext".toList], "port \"A\" 1 0 0 1 1 m1\n".toList),
    (magicPlace ++ ["inv.pex.spice".toList], "* old\n".toList)]
  console := []

/-- A program that does nothing. -/
def idleProg : Prog := fun _ w => .ok ⟨[], 0, w.files⟩

/-- A program that writes another netlist. -/
def workingProg : Prog := fun _ w => .ok ⟨"done\n".toList, 0, Dict.set w.files (magicPlace ++ ["inv.pex.spice".toList]) "* new\n".toList⟩

theorem magic_ex_dir : MagicDir magicArgsEx magicWorld where
  way := by
    intro d hd
    have h : runPlace magicArgsEx magicWorld.cwd = magicPlace := by decide
    rw [h, ← List.mem_inits] at hd
    revert d
    decide
  log := by decide
  script := by decide
  report := by decide

theorem magic_ex_cwd : ∀ c ∈ magicWorld.cwd, Name c := by
  intro c hc
  rw [show magicWorld.cwd = ["home".toList] from rfl, List.mem_singleton] at hc
  rw [hc]
  unfold Name
  decide

/-- The new netlist is shown after the output of the program. -/
example : (magicFlow workingProg magicEnvEx magicArgsEx magicWorld).1 = .ok () ∧
    (magicFlow workingProg magicEnvEx magicArgsEx magicWorld).2.console = ["done".toList, "* new\n".toList] := by decide +kernel

/-- A program that does nothing: the run is a success, with the old netlist. -/
theorem magic_stale_ex : (magicFlow idleProg magicEnvEx magicArgsEx magicWorld).1 = .ok () ∧
    (magicFlow idleProg magicEnvEx magicArgsEx magicWorld).2.console = ["* old\n".toList] := by decide +kernel

example : ∃ net t, Dict.get? magicWorld.files (runPlace magicArgsEx magicWorld.cwd ++ [netName magicArgsEx]) = some net ∧
    SameText net t ∧ (magicFlow idleProg magicEnvEx magicArgsEx magicWorld).2.console.getLast? = some t :=
  magic_stale idleProg magicEnvEx magicArgsEx magicWorld rfl _ rfl (by decide) magic_ex_dir magic_ex_cwd (fun _ _ => ⟨_, rfl⟩) _
    (Prod.ext magic_stale_ex.1 rfl)

/-- All arguments of the script are plain words. -/
example : Magic.PlainArgs (scriptArgs magicWorld.cwd magicArgsEx "out/magic_CC".toList "out/magic_CC/inv.pex.spice".toList) := by
  unfold Magic.PlainArgs Magic.Plain
  refine ⟨?_, ?_, ?_, ?_, ?_, ?_, ?_, ?_, ?_, ?_⟩ <;> decide +kernel

/-- **C101.** Runs of different modes work in different directories. -/
theorem modes_apart (a a' : MagicArgs) (cwd : Place) (h : a.out = a'.out) (hm : a.mode ≠ a'.mode) :
    runPlace a cwd ≠ runPlace a' cwd := by
  unfold runPlace
  rw [h]
  intro he
  have := List.append_cancel_left he
  revert hm this
  generalize a.mode = m
  generalize a'.mode = m'
  cases m <;> cases m' <;> decide

end Verif.Runners
