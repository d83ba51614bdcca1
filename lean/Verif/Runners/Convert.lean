import Verif.Runners.Svg
import Verif.LayerMap.Shipped
import Verif.Logging.Model

/-!
# The command for converting layouts (C102)

Model of `main` and `validate_args` of convert_layout_pdk.py, around the conversion itself (area `LayerMap`). Parsing of the command
line by `argparse` is not modelled: `--in` and `--out` are required and have a value. Reading a layout (flattened) from the content
of a file and the content of a written layout are parameters. There are no symbolic links. Messages and the listing of the layers
are left out.
-/

namespace Verif.Runners

open LayerMap (Layout Converted known sky sg sky130ToSg13g2)

/-! ### Model -/

/-- The arguments, convert_layout_pdk.py 152–168. -/
structure ConvArgs where
  level : Str
  dump : Bool
  input : Str
  output : Str

/-- The names the logging library of Python accepts for a level: its own, and those added in log/logger.py 109–110. -/
def pythonLevels : List Str :=
  ["CRITICAL", "FATAL", "ERROR", "WARN", "WARNING", "INFO", "DEBUG", "NOTSET"].map String.toList ++ Logging.levels.map Logging.Level.name

/-- `setup_logging`, convert_layout_pdk.py 197–198, with the text of the argument: `Logger.setLevel` raises for an unknown name. -/
def setLevel (level : Str) : Act Unit := fun w => if level ∈ pythonLevels then (.ok (), w) else (.error "ValueError", w)

/-- `os.path.isfile` -/
def isFile (w : World) (p : Str) : Prop := p ≠ [] ∧ (Dict.get? w.files (locate w.cwd p)).isSome = true

instance (w : World) (p : Str) : Decidable (isFile w p) := by unfold isFile; infer_instance

/-- `validate_args`, convert_layout_pdk.py 170–194: the second check is for the directory of the input. -/
def validateConv (a : ConvArgs) : Act Unit := fun w =>
  let e1 := (Logging.byName (a.level.map Char.toUpper)).isNone
  let e2 := !a.dump && !decide (isFile w a.input)
  let e3 := !a.dump && !decide ((locate w.cwd a.input).dropLast ∈ w.dirs)
  if e1 || e2 || e3 then (.error "Exception", w) else (.ok (), w)

/-- `main`, convert_layout_pdk.py 303–403. -/
noncomputable def convertMain {σ : Type} (read : Str → Except String (Layout σ)) (write : Layout σ → Str) (a : ConvArgs) : Act Unit :=
  andThen (setLevel a.level) fun _ w =>
    match validateConv a w with
    | (.error _, w) => (.error "SystemExit(1)", w)
    | (.ok _, w) =>
      if a.dump then (.error "SystemExit(0)", w)
      else
        andThen (readFile a.input) (fun text =>
          andThen (lift (read text)) fun lay =>
          andThen (lift (LayerMap.convert sky sg lay)) fun out =>
          writeFile a.output (write out)) w

/-! ### Theorems -/

/-- The eight names of the levels. -/
def levelNames : List Str := ["ALL", "DEBUG", "SUBPROCESS", "VERBOSE", "INFO", "WARNING", "ERROR", "CRITICAL"].map String.toList

theorem level_ok {l : Str} (h : l ∈ levelNames) (w : World) :
    setLevel l w = (.ok (), w) ∧ (Logging.byName (l.map Char.toUpper)).isNone = false := by
  have h1 : ∀ l ∈ levelNames, l ∈ pythonLevels := by decide
  have h2 : ∀ l ∈ levelNames, (Logging.byName (l.map Char.toUpper)).isNone = false := by decide
  exact ⟨by unfold setLevel; rw [if_pos (h1 l h)], h2 l h⟩

/-- **C102 (partial).** With one of the names of the levels and a layout that can be read, the result is written to the output,
nothing else is changed, and it has the shapes of the layout on the layers of the table, in the direction that is found from the
layers.
Missing: names of levels as they are listed by `--help`, see `convert_listed_level`; an output that cannot be written is found only
at the end, see `convert_no_output`. -/
theorem convert_command_partial {σ : Type} (read : Str → Except String (Layout σ)) (write : Layout σ → Str) (a : ConvArgs) (w : World)
    (hl : a.level ∈ levelNames) (hd : a.dump = false) (hin : a.input ≠ []) (text : Str)
    (hf : Dict.get? w.files (locate w.cwd a.input) = some text) (hp : (locate w.cwd a.input).dropLast ∈ w.dirs) (lay : Layout σ)
    (hr : read text = .ok lay) (ho : a.output ≠ []) (hw : Writable w (locate w.cwd a.output)) (hn : (lay.map Prod.fst).Nodup) :
    ∃ out, convertMain read write a w = (.ok (), { w with files := Dict.set w.files (locate w.cwd a.output) (write out) }) ∧
      (known (lay.map Prod.fst) sg ≤ known (lay.map Prod.fst) sky → Converted sky130ToSg13g2 sky sg lay out) ∧
      (known (lay.map Prod.fst) sky < known (lay.map Prod.fst) sg →
        ∃ inv, LayerMap.Inverse sky130ToSg13g2 inv ∧ Converted inv sg sky lay out) := by
  obtain ⟨out, hout⟩ := LayerMap.shipped_converts lay
  refine ⟨out, ?_, LayerMap.convert_exact_partial sky sg LayerMap.sky_nodup LayerMap.sg_nodup lay out hn hout⟩
  obtain ⟨h1, h2⟩ := level_ok hl w
  unfold convertMain
  rw [andThen_ok h1]
  have hv : validateConv a w = (.ok (), w) := by
    unfold validateConv
    have : isFile w a.input := ⟨hin, by rw [hf]; rfl⟩
    simp [h2, this, hp]
  simp only [hv, hd]
  rw [if_neg (by decide), andThen_ok (readFile_ok hin hf), hr, lift_step, hout, lift_step]
  exact writeFile_ok _ ho hw

/-- C102: if the layout is not a file, the status is 1, and nothing is changed. -/
theorem convert_refused {σ : Type} (read : Str → Except String (Layout σ)) (write : Layout σ → Str) (a : ConvArgs) (w : World)
    (hl : a.level ∈ levelNames) (hd : a.dump = false)
    (hf : a.input = [] ∨ Dict.get? w.files (locate w.cwd a.input) = none) :
    convertMain read write a w = (.error "SystemExit(1)", w) := by
  obtain ⟨h1, h2⟩ := level_ok hl w
  unfold convertMain
  rw [andThen_ok h1]
  have hv : validateConv a w = (.error "Exception", w) := by
    unfold validateConv
    have : ¬ isFile w a.input := by
      rintro ⟨h, h'⟩
      rcases hf with hf | hf
      · exact h hf
      · rw [hf] at h'; cases h'
    simp [this, hd]
  simp only [hv]

/-- C102: the layers are listed whatever the paths are, and nothing is changed. -/
theorem convert_lists {σ : Type} (read : Str → Except String (Layout σ)) (write : Layout σ → Str) (a : ConvArgs) (w : World)
    (hl : a.level ∈ levelNames) (hd : a.dump = true) : convertMain read write a w = (.error "SystemExit(0)", w) := by
  obtain ⟨h1, h2⟩ := level_ok hl w
  unfold convertMain
  rw [andThen_ok h1]
  have hv : validateConv a w = (.ok (), w) := by
    unfold validateConv
    simp [h2, hd]
  simp only [hv, hd]
  rfl

/-- The action keeps a property of the world. -/
def Keeps {α : Type} (P : World → Prop) (a : Act α) : Prop := ∀ w, P w → P (a w).2

theorem keeps_andThen {α β : Type} {P : World → Prop} {a : Act α} {f : α → Act β} (ha : Keeps P a) (hf : ∀ x, Keeps P (f x)) :
    Keeps P (andThen a f) := by
  intro w hw
  unfold andThen
  have h := ha w hw
  revert h
  rcases a w with ⟨r, w'⟩
  intro h
  cases r with
  | error m => exact h
  | ok x => exact hf x w' h

/-- C102: whatever happens, no file but the output is changed. -/
theorem convert_writes_only {σ : Type} (read : Str → Except String (Layout σ)) (write : Layout σ → Str) (a : ConvArgs) (w : World)
    (q : Place) (hq : q ≠ locate w.cwd a.output) :
    Dict.get? (convertMain read write a w).2.files q = Dict.get? w.files q := by
  obtain ⟨P, hP⟩ : ∃ P : World → Prop, P = fun w' => w'.cwd = w.cwd ∧ Dict.get? w'.files q = Dict.get? w.files q := ⟨_, rfl⟩
  suffices h : P (convertMain read write a w).2 by rw [hP] at h; exact h.2
  have hwf : ∀ t, Keeps P (writeFile a.output t) := by
    intro t w' hw'
    unfold writeFile
    split_ifs
    · exact hw'
    · exact hw'
    · rw [hP] at hw' ⊢
      exact ⟨hw'.1, (Dict.get?_set_ne _ _ (by rw [hw'.1]; exact Ne.symm hq)).trans hw'.2⟩
  have hrf : Keeps P (readFile a.input) := by
    intro w' hw'
    unfold readFile
    split_ifs
    · exact hw'
    · cases Dict.get? w'.files (locate w'.cwd a.input) <;> exact hw'
  have hlift : ∀ {α : Type} (r : Except String α), Keeps P (lift r) := fun r w' hw' => hw'
  refine keeps_andThen (fun w' hw' => ?_) (fun _ w' hw' => ?_) w (by rw [hP]; exact ⟨rfl, rfl⟩)
  · unfold setLevel
    split_ifs <;> exact hw'
  · have hv : (validateConv a w').2 = w' := by
      unfold validateConv
      simp only
      split_ifs <;> rfl
    rcases hv' : validateConv a w' with ⟨r, w''⟩
    rw [hv'] at hv
    obtain rfl : w'' = w' := hv
    cases r with
    | error m => exact hw'
    | ok _ =>
      simp only
      split_ifs
      · exact hw'
      · exact keeps_andThen hrf (fun _ => keeps_andThen (hlift _) fun _ => keeps_andThen (hlift _) fun _ => hwf _) _ hw'

/-- C102 does not hold for the names of the levels: every name `--help` lists ends the command with a ValueError. -/
theorem convert_listed_level {σ : Type} (read : Str → Except String (Layout σ)) (write : Layout σ → Str) (a : ConvArgs) (w : World)
    (hl : a.level ∈ Logging.listed) : convertMain read write a w = (.error "ValueError", w) := by
  unfold convertMain
  refine andThen_error ?_
  unfold setLevel
  rw [if_neg]
  have : ∀ l ∈ Logging.listed, l ∉ pythonLevels := by decide
  exact this _ hl

/-- C102 does not hold for the check of the output: the validation passes although the directory of the output does not exist, and the
command ends with an exception when the layout is written. -/
theorem convert_no_output {σ : Type} (read : Str → Except String (Layout σ)) (write : Layout σ → Str) (a : ConvArgs) (w : World)
    (hl : a.level ∈ levelNames) (hd : a.dump = false) (hin : a.input ≠ []) (text : Str)
    (hf : Dict.get? w.files (locate w.cwd a.input) = some text) (hp : (locate w.cwd a.input).dropLast ∈ w.dirs) (lay : Layout σ)
    (hr : read text = .ok lay) (hno : (locate w.cwd a.output).dropLast ∉ w.dirs) :
    convertMain read write a w = (.error "FileNotFoundError", w) := by
  obtain ⟨out, hout⟩ := LayerMap.shipped_converts lay
  obtain ⟨h1, h2⟩ := level_ok hl w
  unfold convertMain
  rw [andThen_ok h1]
  have hv : validateConv a w = (.ok (), w) := by
    unfold validateConv
    have : isFile w a.input := ⟨hin, by rw [hf]; rfl⟩
    simp [h2, this, hp]
  simp only [hv, hd]
  rw [if_neg (by decide), andThen_ok (readFile_ok hin hf), hr, lift_step, hout, lift_step]
  unfold writeFile
  rw [if_pos (Or.inr hno)]

/-! ### A concrete case -/

/-- A file with a layout of one layer, `met1.drawing` of sky130A. -/
def convWorld : World := ⟨["h".toList], [[], ["h".toList]], [(["h".toList, "a.gds".toList], "m".toList)], []⟩

def convRead : Str → Except String (Layout Nat) := fun _ => .ok [((68, 20), [7])]

/-- Numbers of the layers as text. -/
def convWrite : Layout Nat → Str := fun l => l.flatMap fun e => (toString e.1.1).toList ++ '/' :: (toString e.1.2).toList

def convArgsEx : ConvArgs := ⟨"INFO".toList, false, "a.gds".toList, "b.gds".toList⟩

example : ∃ out, convertMain convRead convWrite convArgsEx convWorld =
    (.ok (), { convWorld with files := Dict.set convWorld.files ["h".toList, "b.gds".toList] (convWrite out) }) ∧
      (known ([(68, 20)] : List LayerMap.Pair) sg ≤ known [(68, 20)] sky → Converted sky130ToSg13g2 sky sg [((68, 20), [7])] out) := by
  obtain ⟨out, h1, h2, -⟩ := convert_command_partial convRead convWrite convArgsEx convWorld (by decide) rfl (by decide) "m".toList
    (by decide) (by decide) _ rfl (by decide) (by constructor <;> decide) (by decide)
  exact ⟨out, h1, h2⟩

example : convertMain convRead convWrite { convArgsEx with level := "info".toList } convWorld = (.error "ValueError", convWorld) :=
  convert_listed_level _ _ _ _ (by decide)

end Verif.Runners
