import Verif.Runners.Props

/-!
# The netlist tool: drawing a netlist (C98)

Model of `netlist_cli.py` and `netlistsvg_runner.py`. Parsing of the command line by `argparse` is not modelled, nor the
preview in a browser. Reading the SPICE file is a parameter: it gives the top circuits, each with its name and the text of its
JSON document (see the area `NetJson`) or the exception of the writer.
-/

namespace Verif.Runners

/-! ### Model -/

/-- The arguments of `netlist svg`; netlist_cli.py 93–106. -/
structure SvgArgs where
  input : Str
  exe : Str
  output : Option Str
  cell : Option Str

/-- What the tool finds: the programs in the search path (`shutil.which`), the top circuits of a netlist file, the lower case of
a name, and the path of the skin. -/
structure SvgEnv where
  which : Str → Option Str
  read : Str → World → Except String (List (Str × Except String Str))
  lower : Str → Str
  skin : Str

/-- `os.makedirs(p, exist_ok=True)` -/
def makedirs (p : Str) : Act Unit := fun w =>
  if p = [] then (.error "FileNotFoundError", w)
  else if ∃ d ∈ (locate w.cwd p).inits, (Dict.get? w.files d).isSome = true then (.error "FileExistsError", w)
  else (.ok (), { w with dirs := w.dirs ++ (locate w.cwd p).inits.filter (· ∉ w.dirs) })

/-- `validate_args`; netlist_cli.py 117–140. The command may be missing. -/
def validateSvg (e : SvgEnv) (cmd : Option SvgArgs) : Act SvgArgs := fun w =>
  match cmd with
  | none => (.error "SystemExit(1)", w)
  | some a =>
    if (Dict.get? w.files (locate w.cwd a.exe)).isSome = true ∨ (e.which a.exe).isSome = true then (.ok a, w)
    else (.error "ArgumentValidationError", w)

/-- `run_netlistsvg`; netlistsvg_runner.py 39–88 (without messages and timing). -/
def runSvg (prog : Prog) (exe skin json out : Str) (layout : Option Str) (log : Str) : Act Unit :=
  runLogged prog true (([exe, "-o".toList, out, "--skin".toList, skin] ++
    (match layout with
      | some l => ["--layout".toList, l]
      | none => []) ++ [json]).map some) log

/-- `write_json`; netlist_json.py 172–178: the file is opened before the document is made. -/
def writeJson (p : Str) (doc : Except String Str) : Act Unit :=
  andThen (writeFile p []) fun _ => emit p doc

/-- `NetlistCLI.run_netlistsvg`; netlist_cli.py 142–189. -/
def svgCommand (prog : Prog) (e : SvgEnv) (a : SvgArgs) : Act Unit := fun w =>
  match e.read a.input w with
  | .error err => (.error err, w)
  | .ok [] => (.error "SystemExit(1)", w)
  | .ok (_ :: _ :: _) => (.error "SystemExit(2)", w)
  | .ok [top] =>
    let dir := join "netlist_run".toList (e.lower top.1)
    let json := join dir "yosys_netlist.json".toList
    let log := join dir "netlistsvg_log.txt".toList
    let out := match a.output with
      | some o => o
      | none => join dir (basename a.input ++ ".svg".toList)
    andThen (makedirs dir) (fun _ => andThen (writeJson json top.2) fun _ => runSvg prog a.exe e.skin json out none log) w

/-- `main`; netlist_cli.py 214–228 (without parsing and set-up of the logging). -/
def svgMain (prog : Prog) (e : SvgEnv) (cmd : Option SvgArgs) : Act Unit :=
  andThen (validateSvg e cmd) (svgCommand prog e)

/-! ### Specification -/

/-- The tool for drawing is a file or found in the search path. -/
def Found (e : SvgEnv) (a : SvgArgs) (w : World) : Prop :=
  (∃ text, Dict.get? w.files (locate w.cwd a.exe) = some text) ∨ ∃ p, e.which a.exe = some p

/-- The directory of the run can be made: nothing but directories on the way, and the files in it are no directories. -/
structure RunDir (w : World) (D : Place) : Prop where
  way : ∀ d, d <+: D → Dict.get? w.files d = none
  json : D ++ ["yosys_netlist.json".toList] ∉ w.dirs
  log : D ++ ["netlistsvg_log.txt".toList] ∉ w.dirs

/-- The world in which the program for drawing is started: the directory is there and the document in it, nothing else has
changed. -/
structure Prepared (w w1 : World) (D : Place) (doc : Str) : Prop where
  cwd : w1.cwd = w.cwd
  dirs : ∀ d, d ∈ w1.dirs ↔ d ∈ w.dirs ∨ d <+: D
  json : Dict.get? w1.files (D ++ ["yosys_netlist.json".toList]) = some doc
  others : ∀ q, q ≠ D ++ ["yosys_netlist.json".toList] → Dict.get? w1.files q = Dict.get? w.files q

/-! ### Theorems -/

theorem validate_found {e : SvgEnv} {a : SvgArgs} {w : World} (h : Found e a w) : validateSvg e (some a) w = (.ok a, w) := by
  unfold validateSvg
  simp only
  rw [if_pos]
  rcases h with ⟨t, h⟩ | ⟨p, h⟩
  · left; rw [h]; rfl
  · right; rw [h]; rfl

theorem locate_two (cwd : Place) {a b : Str} (ha : Name a) (hb : Name b) : locate cwd (join a b) = cwd ++ [a, b] := by
  rw [locate_file _ _ hb, locate_name _ ha]
  simp

theorem makedirs_ok {w : World} {p : Str} {D : Place} (hp : p ≠ []) (hD : locate w.cwd p = D)
    (h : ∀ d, d <+: D → Dict.get? w.files d = none) :
    makedirs p w = (.ok (), { w with dirs := w.dirs ++ D.inits.filter (· ∉ w.dirs) }) := by
  subst hD
  unfold makedirs
  rw [if_neg hp, if_neg]
  rintro ⟨d, h1, h2⟩
  rw [h d ((List.mem_inits _ _).1 h1)] at h2
  cases h2

theorem name_json : Name "yosys_netlist.json".toList := by unfold Name; decide

theorem name_log : Name "netlistsvg_log.txt".toList := by unfold Name; decide

theorem name_run : Name "netlist_run".toList := by unfold Name; decide

/-- What `run_netlistsvg` does, without an own layout file. -/
theorem runSvg_eq (prog : Prog) (exe skin json out log : Str) :
    runSvg prog exe skin json out none log =
      runLogged prog true ([exe, "-o".toList, out, "--skin".toList, skin, json].map some) log := rfl

theorem basename_plain {f : Str} (hf : '/' ∉ f) : basename f = f := by
  unfold basename
  rw [List.takeWhile_eq_self_iff.2, List.reverse_reverse]
  intro c hc
  have : c ∈ f := by simpa using hc
  simp only [bne_iff_ne, ne_eq]
  rintro rfl
  exact hf this

/-- **C98 (partial).** If the tool is found and the netlist has exactly one top circuit, the tool is started once, with the path
for the drawing and the path of the document of this circuit, which has been written; its output goes to the log, and an exit
code other than 0 is an exception. The drawing goes to the given path, or to the directory of the run.
Missing: `--cell` is not observed, see `svg_cell_ignored`. -/
theorem svg_draws_partial (prog : Prog) (e : SvgEnv) (a : SvgArgs) (w : World) (hf : Found e a w) (name doc : Str)
    (hread : e.read a.input w = .ok [(name, .ok doc)]) (hn : Name (e.lower name))
    (hd : RunDir w (w.cwd ++ ["netlist_run".toList, e.lower name])) :
    ∃ w1 json out, Prepared w w1 (w.cwd ++ ["netlist_run".toList, e.lower name]) doc ∧
      locate w.cwd json = w.cwd ++ ["netlist_run".toList, e.lower name, "yosys_netlist.json".toList] ∧
      (∀ o, a.output = some o → out = o) ∧
      (a.output = none → ∀ dir f, a.input = dir ++ f → '/' ∉ f → (dir = [] ∨ ∃ d, dir = d ++ ['/']) →
        locate w.cwd out = w.cwd ++ ["netlist_run".toList, e.lower name, f ++ ".svg".toList]) ∧
      (∀ err, prog [a.exe, "-o".toList, out, "--skin".toList, e.skin, json] w1 = .error err →
        svgMain prog e (some a) w = (.error err, w1)) ∧
      ∀ x, prog [a.exe, "-o".toList, out, "--skin".toList, e.skin, json] w1 = .ok x →
        ∃ text w', SameText x.output text ∧
          svgMain prog e (some a) w = (if x.code = 0 then .ok () else .error "Exception", w') ∧
          w'.cwd = w.cwd ∧ w'.dirs = w1.dirs ∧
          w'.files = Dict.set x.files (w.cwd ++ ["netlist_run".toList, e.lower name, "netlistsvg_log.txt".toList]) text := by
  obtain ⟨D, hDdef⟩ : ∃ D, D = w.cwd ++ ["netlist_run".toList, e.lower name] := ⟨_, rfl⟩
  have hcons : ∀ f : Str, w.cwd ++ ["netlist_run".toList, e.lower name, f] = D ++ [f] := by
    intro f; rw [hDdef]; simp
  rw [← hDdef] at hd ⊢
  simp only [hcons]
  obtain ⟨dir, hdirdef⟩ : ∃ d, d = join "netlist_run".toList (e.lower name) := ⟨_, rfl⟩
  have hdir : locate w.cwd dir = D := by rw [hdirdef, hDdef]; exact locate_two _ name_run hn
  have hmk := makedirs_ok (hdirdef ▸ join_ne_nil "netlist_run".toList hn) hdir hd.way
  obtain ⟨dirs, hdirsdef⟩ : ∃ ds, ds = w.dirs ++ D.inits.filter (· ∉ w.dirs) := ⟨_, rfl⟩
  rw [← hdirsdef] at hmk
  have hdirs : ∀ d, d ∈ dirs ↔ d ∈ w.dirs ∨ d <+: D := by
    intro d
    simp only [hdirsdef, List.mem_append, List.mem_filter, List.mem_inits, decide_eq_true_eq]
    tauto
  have hDd : D ∈ dirs := (hdirs D).2 (Or.inr (List.prefix_refl _))
  have hfile : ∀ f, D ++ [f] ∉ w.dirs → D ++ [f] ∉ dirs := by
    intro f hf h
    rcases (hdirs _).1 h with h | h
    · exact hf h
    · have := h.length_le
      rw [List.length_append, List.length_singleton] at this
      omega
  have hl : ∀ {f : Str}, Name f → locate w.cwd (join dir f) = D ++ [f] := by
    intro f hf; rw [locate_file _ _ hf, hdir]
  obtain ⟨json, hjdef⟩ : ∃ j, j = join dir "yosys_netlist.json".toList := ⟨_, rfl⟩
  have hb1 := writeFile_ok (w := { w with dirs := dirs }) [] (join_ne_nil dir name_json)
    (by rw [show World.cwd { w with dirs := dirs } = w.cwd from rfl, hl name_json]
        exact ⟨by rw [List.dropLast_concat]; exact hDd, hfile _ hd.json⟩)
  obtain ⟨fs, hfs⟩ : ∃ fs, fs = Dict.set w.files (D ++ ["yosys_netlist.json".toList]) [] := ⟨_, rfl⟩
  rw [show World.cwd { w with dirs := dirs } = w.cwd from rfl, hl name_json] at hb1
  simp only [← hfs] at hb1
  have hb2 : emit (join dir "yosys_netlist.json".toList) (.ok doc) ⟨w.cwd, dirs, fs, w.console⟩ = _ :=
    emit_last name_json hdir hDd (hfile _ hd.json)
  obtain ⟨w1, hw1⟩ : ∃ w1 : World, w1 = ⟨w.cwd, dirs, Dict.set fs (D ++ ["yosys_netlist.json".toList]) doc, w.console⟩ := ⟨_, rfl⟩
  rw [← hw1] at hb2
  obtain ⟨out, hout⟩ : ∃ o, o = (match a.output with
        | some o => o
        | none => join dir (basename a.input ++ ".svg".toList)) := ⟨_, rfl⟩
  have hmain : svgMain prog e (some a) w = runSvg prog a.exe e.skin json out none (join dir "netlistsvg_log.txt".toList) w1 := by
    unfold svgMain
    rw [andThen_ok (validate_found hf)]
    unfold svgCommand
    rw [hread]
    simp only [← hdirdef, ← hout, ← hjdef]
    rw [andThen_ok hmk, andThen_ok (x := ()) (w' := w1)]
    unfold writeJson
    rw [hjdef, andThen_ok hb1, hb2]
  have hc1 : w1.cwd = w.cwd := by rw [hw1]
  refine ⟨w1, json, out, ⟨hc1, ?_, ?_, fun q hq => ?_⟩, ?_, ?_, ?_, fun err herr => ?_, fun x hx => ?_⟩
  · rw [hw1]; exact hdirs
  · rw [hw1]; exact Dict.get?_set_self _ _ _
  · rw [hw1, hfs]
    show Dict.get? (Dict.set (Dict.set w.files _ _) _ _) q = _
    rw [Dict.get?_set_ne _ _ (Ne.symm hq), Dict.get?_set_ne _ _ (Ne.symm hq)]
  · rw [hjdef, hl name_json]
  · intro o ho; rw [hout, ho]
  · intro ho dir' f hin hfs' hdir'
    rw [hout, ho]
    simp only
    have hbase : basename a.input = f := by
      rcases hdir' with rfl | ⟨d, rfl⟩
      · rw [hin, List.nil_append]
        exact basename_plain hfs'
      · rw [hin, List.append_assoc]
        exact basename_append d hfs'
    rw [hbase]
    exact hl (name_append hfs' ".svg" (by decide) (by decide))
  · rw [hmain, runSvg_eq, run_not_found prog true _ _ _ err herr]
  · obtain ⟨text, w', h1, h2, h3, h4, h5⟩ := run_logged prog true _ (join dir "netlistsvg_log.txt".toList) w1 x hx
      (join_ne_nil _ name_log)
      (by rw [hc1, hl name_log, hw1]
          exact ⟨by rw [List.dropLast_concat]; exact hDd, hfile _ hd.log⟩)
    refine ⟨text, w', h1, ?_, h3.trans hc1, h4, ?_⟩
    · rw [hmain, runSvg_eq, h2]
      by_cases hx0 : x.code = 0
      · rw [if_neg (fun h => h.1 hx0), if_pos hx0]
      · rw [if_pos ⟨hx0, rfl⟩, if_neg hx0]
    · rw [h5, hc1, hl name_log]

/-- C98: without a top circuit, and with more than one, nothing is drawn: the status is 1 or 2, and nothing is written. -/
theorem svg_not_one (prog : Prog) (e : SvgEnv) (a : SvgArgs) (w : World) (hf : Found e a w)
    (tops : List (Str × Except String Str)) (hread : e.read a.input w = .ok tops) (hlen : tops.length ≠ 1) :
    svgMain prog e (some a) w = (.error (if tops = [] then "SystemExit(1)" else "SystemExit(2)"), w) := by
  unfold svgMain
  rw [andThen_ok (validate_found hf)]
  unfold svgCommand
  rw [hread]
  match tops, hlen with
  | [], _ => rfl
  | [t], h => exact absurd rfl h
  | _ :: _ :: _, _ => rfl

/-- C98 does not hold for `--cell`: with two or more top circuits the message asks for this argument, and the command ends with
status 2 also if it is given, be it the name of one of them. -/
theorem svg_cell_fails (prog : Prog) (e : SvgEnv) (a : SvgArgs) (w : World) (hf : Found e a w)
    (tops : List (Str × Except String Str)) (hread : e.read a.input w = .ok tops) (hlen : 2 ≤ tops.length) (cell : Str) :
    svgMain prog e (some { a with cell := some cell }) w = (.error "SystemExit(2)", w) := by
  rw [svg_not_one prog e { a with cell := some cell } w hf tops hread (by omega), if_neg]
  rintro rfl
  simp at hlen

/-- C98: whatever is given with `--cell`, the effect is the same. -/
theorem svg_cell_ignored (prog : Prog) (e : SvgEnv) (a : SvgArgs) (w : World) (cell : Option Str) :
    svgMain prog e (some { a with cell := cell }) w = svgMain prog e (some a) w := by
  unfold svgMain andThen validateSvg svgCommand
  simp only
  split_ifs <;> rfl

/-- C98: if the tool is not found, nothing is read or written. -/
theorem svg_not_found (prog : Prog) (e : SvgEnv) (a : SvgArgs) (w : World) (hf : ¬ Found e a w) :
    svgMain prog e (some a) w = (.error "ArgumentValidationError", w) := by
  unfold svgMain
  refine andThen_error ?_
  unfold validateSvg
  simp only
  rw [if_neg]
  intro h
  refine hf ?_
  rcases h with h | h
  · exact Or.inl (Option.isSome_iff_exists.1 h)
  · exact Or.inr (Option.isSome_iff_exists.1 h)

/-- C98: if the document cannot be made, the tool is not started; an empty file remains in its place. -/
theorem svg_no_document (prog : Prog) (e : SvgEnv) (a : SvgArgs) (w : World) (hf : Found e a w) (name : Str) (err : String)
    (hread : e.read a.input w = .ok [(name, .error err)]) (hn : Name (e.lower name))
    (hd : RunDir w (w.cwd ++ ["netlist_run".toList, e.lower name])) :
    ∃ w1, svgMain prog e (some a) w = (.error err, w1) ∧ Prepared w w1 (w.cwd ++ ["netlist_run".toList, e.lower name]) [] := by
  obtain ⟨D, hDdef⟩ : ∃ D, D = w.cwd ++ ["netlist_run".toList, e.lower name] := ⟨_, rfl⟩
  rw [← hDdef] at hd ⊢
  obtain ⟨dir, hdirdef⟩ : ∃ d, d = join "netlist_run".toList (e.lower name) := ⟨_, rfl⟩
  have hdir : locate w.cwd dir = D := by rw [hdirdef, hDdef]; exact locate_two _ name_run hn
  have hmk := makedirs_ok (hdirdef ▸ join_ne_nil "netlist_run".toList hn) hdir hd.way
  obtain ⟨dirs, hdirsdef⟩ : ∃ ds, ds = w.dirs ++ D.inits.filter (· ∉ w.dirs) := ⟨_, rfl⟩
  rw [← hdirsdef] at hmk
  have hdirs : ∀ d, d ∈ dirs ↔ d ∈ w.dirs ∨ d <+: D := by
    intro d
    simp only [hdirsdef, List.mem_append, List.mem_filter, List.mem_inits, decide_eq_true_eq]
    tauto
  have hDd : D ∈ dirs := (hdirs D).2 (Or.inr (List.prefix_refl _))
  have hfile : ∀ f, D ++ [f] ∉ w.dirs → D ++ [f] ∉ dirs := by
    intro f hf h
    rcases (hdirs _).1 h with h | h
    · exact hf h
    · have := h.length_le
      rw [List.length_append, List.length_singleton] at this
      omega
  have hl : locate w.cwd (join dir "yosys_netlist.json".toList) = D ++ ["yosys_netlist.json".toList] := by
    rw [locate_file _ _ name_json, hdir]
  have hb1 := writeFile_ok (w := { w with dirs := dirs }) [] (join_ne_nil dir name_json)
    (by rw [show World.cwd { w with dirs := dirs } = w.cwd from rfl, hl]
        exact ⟨by rw [List.dropLast_concat]; exact hDd, hfile _ hd.json⟩)
  rw [show World.cwd { w with dirs := dirs } = w.cwd from rfl, hl] at hb1
  refine ⟨⟨w.cwd, dirs, Dict.set w.files (D ++ ["yosys_netlist.json".toList]) [], w.console⟩, ?_,
    ⟨rfl, hdirs, Dict.get?_set_self _ _ _, fun q hq => Dict.get?_set_ne _ _ (Ne.symm hq)⟩⟩
  · unfold svgMain
    rw [andThen_ok (validate_found hf)]
    unfold svgCommand
    rw [hread]
    simp only [← hdirdef]
    rw [andThen_ok hmk]
    refine andThen_error ?_
    unfold writeJson
    rw [andThen_ok hb1]
    rfl

/-! ### A concrete case -/

/-- A netlist with the circuit `TOP`, the tool found in the search path. -/
def svgEnvEx : SvgEnv where
  which := fun s => if s = "netlistsvg".toList then some "/usr/bin/netlistsvg".toList else none
  read := fun _ _ => .ok [("TOP".toList, .ok "{}".toList)]
  lower := fun _ => "top".toList
  skin := "/skin.svg".toList

/-- The arguments `svg a/inv.spice`. -/
def svgArgsEx : SvgArgs := ⟨"a/inv.spice".toList, "netlistsvg".toList, none, none⟩

def svgWorld : World := ⟨["home".toList], [[], ["home".toList]], [], []⟩

/-- A tool that writes what it is called with to its output. -/
def svgProgEx : Prog := fun argv w => .ok ⟨argv.flatMap (· ++ ['\n']), 0, w.files⟩

theorem svg_ex_found : Found svgEnvEx svgArgsEx svgWorld := Or.inr ⟨"/usr/bin/netlistsvg".toList, by decide⟩

theorem svg_ex_dir : RunDir svgWorld (svgWorld.cwd ++ ["netlist_run".toList, svgEnvEx.lower "TOP".toList]) where
  way := fun _ _ => rfl
  json := by decide
  log := by decide

example : ∃ w1 json out, Prepared svgWorld w1 (svgWorld.cwd ++ ["netlist_run".toList, "top".toList]) "{}".toList ∧
    locate svgWorld.cwd out = svgWorld.cwd ++ ["netlist_run".toList, "top".toList, "inv.spice.svg".toList] ∧
    ∃ x, svgProgEx ["netlistsvg".toList, "-o".toList, out, "--skin".toList, "/skin.svg".toList, json] w1 = .ok x := by
  obtain ⟨w1, json, out, h1, -, -, h2, -⟩ := svg_draws_partial svgProgEx svgEnvEx svgArgsEx svgWorld svg_ex_found "TOP".toList "{}".toList rfl
    (by unfold Name; decide) svg_ex_dir
  exact ⟨w1, json, out, h1, h2 rfl "a/".toList "inv.spice".toList (by decide) (by decide) (Or.inr ⟨"a".toList, by decide⟩), _, rfl⟩

/-- A netlist with two top circuits. -/
def svgTwo : SvgEnv := { svgEnvEx with read := fun _ _ => .ok [("A".toList, .ok []), ("B".toList, .ok [])] }

/-- Two top circuits, one of them named with `--cell`. -/
example : svgMain svgProgEx svgTwo (some { svgArgsEx with cell := some "B".toList }) svgWorld = (.error "SystemExit(2)", svgWorld) :=
  svg_cell_fails svgProgEx svgTwo svgArgsEx svgWorld svg_ex_found _ rfl (Nat.le_refl 2) _

end Verif.Runners
