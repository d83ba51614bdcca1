import Verif.Magic.Spec
import Verif.SolverLog.Lemmas
import Verif.Common.Text
import Mathlib.Algebra.Order.Round
import Mathlib.Tactic.Linarith
import Mathlib.Tactic.Ring

/-!
# C70: what the script makes Magic do
-/

namespace Verif.Magic

open Verif.SolverLog (splitWs_token splitWs_token_blank)

/-! ### Specification -/

/-- The commands Magic reads from a script: one per line, without comments and empty lines, split into words.  This is how
Tcl reads text without its special characters. -/
def commands (text : Str) : List (List Str) :=
  ((splitOn '\n' text).map splitWs).filter fun ws => ws ≠ [] ∧ (ws.head?.bind List.head?) ≠ some '#'

/-- Text Tcl takes as one word: not empty, without white space and special characters. -/
def Plain (w : Str) : Prop := w ≠ [] ∧ ∀ c ∈ w, isWs c = false ∧ c ∉ ['$', '[', ']', '{', '}', '"', ';', '\\', '#']

/-- A command as text. -/
def cmd (ws : List String) : List Str := ws.map String.toList

/-- All arguments are plain. -/
def PlainArgs (a : ScriptArgs) : Prop :=
  Plain a.gds ∧ Plain a.cell ∧ Plain a.runDir ∧ Plain a.netlist ∧ Plain a.cth ∧ Plain a.rth ∧ Plain a.tol ∧ Plain a.short ∧
    Plain a.merge ∧ '\n' ∉ a.version

/-- `x` comes before `y` in the list. -/
def Before {α : Type} (l : List α) (x y : α) : Prop := ∃ i j : Nat, i < j ∧ l[i]? = some x ∧ l[j]? = some y

/-- What the script is for: from the layout to the netlist in the requested mode. -/
structure Faithful (a : ScriptArgs) (cs : List (List Str)) : Prop where
  /-- the layout is read, and the cell is replaced by its flat version, before anything is extracted -/
  start : cs.take 9 = [cmd ["crashbackups", "stop"], cmd ["drc", "off"], cmd ["gds", "read"] ++ [a.gds], cmd ["load"] ++ [a.cell],
    cmd ["select", "top", "cell"], cmd ["flatten"] ++ [a.cell ++ "_flat".toList], cmd ["load"] ++ [a.cell ++ "_flat".toList],
    cmd ["cellname", "delete"] ++ [a.cell] ++ cmd ["-noprompt"],
    cmd ["cellname", "rename"] ++ [a.cell ++ "_flat".toList, a.cell]]
  /-- extraction files go to the run directory -/
  path : ∀ p, cmd ["extract", "path"] ++ [p] ∈ cs ↔ p = a.runDir
  pathFirst : Before cs (cmd ["extract", "path"] ++ [a.runDir]) (cmd ["extract", "all"])
  /-- resistances are extracted exactly in the modes RC and R -/
  res : cmd ["extract", "do", "resistance"] ∈ cs ↔ a.mode = .RC ∨ a.mode = .R
  resFirst : a.mode ≠ .CC → Before cs (cmd ["extract", "do", "resistance"]) (cmd ["extract", "all"])
  /-- capacitances are left out exactly in mode R -/
  noCap : cmd ["extract", "no", "capacitance"] ∈ cs ↔ a.mode = .R
  noCoupling : cmd ["extract", "no", "coupling"] ∈ cs ↔ a.mode = .R
  noCapFirst : a.mode = .R → Before cs (cmd ["extract", "no", "capacitance"]) (cmd ["extract", "all"]) ∧
    Before cs (cmd ["extract", "no", "coupling"]) (cmd ["extract", "all"])
  /-- the extraction runs once -/
  once : cs.count (cmd ["extract", "all"]) = 1
  /-- the halo is set exactly if it is given, to the nearest number of steps of 5 nm -/
  halo : ∀ w, cmd ["extract", "halo"] ++ [w] ∈ cs → ∃ h, a.halo = some h ∧ ∃ z : ℤ, DecInt w z ∧
    |(z : ℚ) - h * 200| ≤ 1 / 2 ∧ (|(z : ℚ) - h * 200| = 1 / 2 → z % 2 = 0)
  haloGiven : (∃ w, cmd ["extract", "halo"] ++ [w] ∈ cs) ↔ ∃ h, a.halo = some h
  haloFirst : ∀ w, cmd ["extract", "halo"] ++ [w] ∈ cs → Before cs (cmd ["extract", "halo"] ++ [w]) (cmd ["extract", "all"])
  /-- thresholds and the tolerance apply to what the mode extracts -/
  cthresh : ∀ w, cmd ["ext2spice", "cthresh"] ++ [w] ∈ cs ↔ a.mode ≠ .R ∧ w = a.cth
  rthresh : ∀ w, cmd ["ext2spice", "rthresh"] ++ [w] ∈ cs ↔ a.mode ≠ .CC ∧ w = a.rth
  tol : ∀ w, cmd ["extresist", "tolerance"] ++ [w] ∈ cs ↔ a.mode ≠ .CC ∧ w = a.tol
  extresist : cmd ["ext2spice", "extresist", "on"] ∈ cs ↔ a.mode ≠ .CC
  resistOrder : a.mode ≠ .CC → Before cs (cmd ["extract", "all"]) (cmd ["extresist", "tolerance"] ++ [a.tol]) ∧
    Before cs (cmd ["extresist", "tolerance"] ++ [a.tol]) (cmd ["extresist", "all"])
  short : ∀ w, cmd ["ext2spice", "short"] ++ [w] ∈ cs ↔ w = a.short
  merge : ∀ w, cmd ["ext2spice", "merge"] ++ [w] ∈ cs ↔ w = a.merge
  /-- all of this comes before the netlist is written, which is the last thing before Magic ends -/
  finish : cs.drop (cs.length - 2) = [cmd ["ext2spice", "-p"] ++ [a.runDir] ++ cmd ["-o"] ++ [a.netlist], cmd ["quit", "-noprompt"]]

/-! ### Numbers -/

theorem showInt_exact (z : ℤ) : DecInt (showInt z) z := by
  have hn : ∀ n : Nat, DecNat (toString n).toList n := by
    intro n
    refine ⟨dec_ne_nil n, fun c hc => dec_digits hc, ?_⟩
    rw [show (toString n).toList = Nat.toDigits 10 n from Nat.toList_repr]
    exact Nat.ofDigitChars_ten_toDigits
  unfold showInt
  split_ifs with hz
  · exact Or.inr ⟨_, z.natAbs, rfl, hn _, by omega⟩
  · exact Or.inl ⟨z.natAbs, hn _, by omega⟩

theorem roundEven_exact (q : ℚ) : |(roundEven q : ℚ) - q| ≤ 1 / 2 ∧ (|(roundEven q : ℚ) - q| = 1 / 2 → roundEven q % 2 = 0) := by
  have h1 := Int.floor_le q
  have h2 := Int.lt_floor_add_one q
  unfold roundEven
  split_ifs with a b c
  · rw [abs_of_nonpos (by linarith)]
    exact ⟨by linarith, fun h => by linarith⟩
  · push_cast
    rw [abs_of_nonneg (by linarith)]
    exact ⟨by linarith, fun h => by linarith⟩
  · rw [abs_of_nonpos (by linarith)]
    exact ⟨by linarith, fun _ => c⟩
  · push_cast
    rw [abs_of_nonneg (by linarith)]
    exact ⟨by linarith, fun _ => by omega⟩

/-! ### Commands -/

/-- A word without white space. -/
def Tk (w : Str) : Prop := w ≠ [] ∧ ∀ x ∈ w, isWs x = false

theorem splitWs_words : ∀ (ws : List Str), ws ≠ [] → (∀ w ∈ ws, Tk w) → splitWs (joinWith ' ' ws) = ws
  | [], h, _ => absurd rfl h
  | [w], _, h => splitWs_token (h w (by simp))
  | w :: w' :: ws, _, h => by
    show splitWs (w ++ ' ' :: joinWith ' ' (w' :: ws)) = _
    rw [splitWs_token_blank (h w (by simp)), splitWs_words (w' :: ws) (by simp) (fun x hx => h x (by simp [hx]))]

theorem words_noNewline : ∀ (ws : List Str), (∀ w ∈ ws, Tk w) → '\n' ∉ joinWith ' ' ws
  | [], _ => by simp [joinWith]
  | [w], h => fun hm => absurd ((h w (by simp)).2 _ hm) (by decide)
  | w :: w' :: ws, h => by
    show '\n' ∉ w ++ ' ' :: joinWith ' ' (w' :: ws)
    rw [List.mem_append, List.mem_cons, not_or, not_or]
    exact ⟨fun hm => absurd ((h w (by simp)).2 _ hm) (by decide), by decide,
      words_noNewline (w' :: ws) (fun x hx => h x (by simp [hx]))⟩

theorem tk_lit {w : String} (h : (w.toList ≠ [] && w.toList.all fun x => !isWs x) = true) : Tk w.toList := by
  simp only [Bool.and_eq_true, decide_eq_true_eq, List.all_eq_true, Bool.not_eq_true'] at h
  exact h

theorem tk_plain {w : Str} (h : Plain w) : Tk w := ⟨h.1, fun x hx => (h.2 x hx).1⟩

theorem tk_append {v w : Str} (hv : Tk v) (hw : Tk w) : Tk (v ++ w) := by
  refine ⟨fun h => hv.1 (List.append_eq_nil_iff.1 h).1, fun x hx => ?_⟩
  rcases List.mem_append.1 hx with h | h
  · exact hv.2 x h
  · exact hw.2 x h

theorem tk_int (z : ℤ) : Tk (showInt z) := by
  have hd : ∀ c : Char, c.isDigit = true → isWs c = false := by
    intro c hc
    unfold isWs
    simp only [Bool.or_eq_false_iff, beq_eq_false_iff_ne]
    refine ⟨⟨⟨⟨⟨?_, ?_⟩, ?_⟩, ?_⟩, ?_⟩, ?_⟩ <;> (rintro rfl; revert hc; decide)
  unfold showInt
  split_ifs
  · refine ⟨by simp, fun x hx => ?_⟩
    rcases List.mem_cons.1 hx with rfl | hx
    · decide
    · exact hd x (dec_digits hx)
  · exact ⟨dec_ne_nil _, fun x hx => hd x (dec_digits hx)⟩

/-- The commands all modes start with. -/
def headCmds (a : ScriptArgs) : List (List Str) :=
  [cmd ["crashbackups", "stop"], cmd ["drc", "off"], cmd ["gds", "read"] ++ [a.gds], cmd ["load"] ++ [a.cell],
    cmd ["select", "top", "cell"], cmd ["flatten"] ++ [a.cell ++ "_flat".toList], cmd ["load"] ++ [a.cell ++ "_flat".toList],
    cmd ["cellname", "delete"] ++ [a.cell] ++ cmd ["-noprompt"],
    cmd ["cellname", "rename"] ++ [a.cell ++ "_flat".toList, a.cell], cmd ["select", "top", "cell"],
    cmd ["extract", "path"] ++ [a.runDir]] ++
  match a.halo with
  | none => []
  | some h => [cmd ["extract", "halo"] ++ [showInt (roundEven (h * 200))]]

/-- The commands all modes end with. -/
def tailCmds (a : ScriptArgs) : List (List Str) :=
  [cmd ["ext2spice", "subcircuits", "top", "on"], cmd ["ext2spice", "format", "ngspice"],
    cmd ["ext2spice", "-p"] ++ [a.runDir] ++ cmd ["-o"] ++ [a.netlist], cmd ["quit", "-noprompt"]]

/-- The commands in between. -/
def midCmds (a : ScriptArgs) : List (List Str) :=
  match a.mode with
  | .CC => [cmd ["extract", "all"], cmd ["ext2spice", "short"] ++ [a.short], cmd ["ext2spice", "merge"] ++ [a.merge],
      cmd ["ext2spice", "cthresh"] ++ [a.cth]]
  | .RC => [cmd ["extract", "do", "resistance"], cmd ["extract", "all"], cmd ["ext2sim", "labels", "on"], cmd ["ext2sim"],
      cmd ["extresist", "tolerance"] ++ [a.tol], cmd ["extresist", "all"], cmd ["ext2spice", "short"] ++ [a.short],
      cmd ["ext2spice", "merge"] ++ [a.merge], cmd ["ext2spice", "cthresh"] ++ [a.cth],
      cmd ["ext2spice", "rthresh"] ++ [a.rth], cmd ["ext2spice", "extresist", "on"]]
  | .R => [cmd ["extract", "do", "resistance"], cmd ["extract", "no", "capacitance"], cmd ["extract", "no", "coupling"],
      cmd ["extract", "all"], cmd ["ext2sim", "labels", "on"], cmd ["ext2sim"],
      cmd ["extresist", "tolerance"] ++ [a.tol], cmd ["extresist", "all"], cmd ["ext2spice", "short"] ++ [a.short],
      cmd ["ext2spice", "merge"] ++ [a.merge], cmd ["ext2spice", "rthresh"] ++ [a.rth], cmd ["ext2spice", "extresist", "on"]]

def allCmds (a : ScriptArgs) : List (List Str) := headCmds a ++ midCmds a ++ tailCmds a

theorem tk_cmd {ws : List String} (h : (ws.all fun w => w.toList ≠ [] && w.toList.all fun x => !isWs x) = true) :
    ∀ w ∈ cmd ws, Tk w := by
  intro w hw
  obtain ⟨v, hv, rfl⟩ := List.mem_map.1 hw
  exact tk_lit (List.all_eq_true.1 h v hv)

theorem allCmds_tk {a : ScriptArgs} (h : PlainArgs a) : ∀ ws ∈ allCmds a, ∀ w ∈ ws, Tk w := by
  obtain ⟨h1, h2, h3, h4, h5, h6, h7, h8, h9, -⟩ := h
  have f : Tk (a.cell ++ "_flat".toList) := tk_append (tk_plain h2) (tk_lit (by decide))
  have app : ∀ {u v : List Str}, (∀ w ∈ u, Tk w) → (∀ w ∈ v, Tk w) → ∀ w ∈ u ++ v, Tk w := by
    intro u v hu hv w hw
    rcases List.mem_append.1 hw with hw | hw
    · exact hu w hw
    · exact hv w hw
  have one : ∀ {u : Str}, Tk u → ∀ w ∈ [u], Tk w := by
    intro u hu w hw
    rw [List.mem_singleton.1 hw]
    exact hu
  have c : ∀ {ws : List String}, (ws.all fun w => w.toList ≠ [] && w.toList.all fun x => !isWs x) = true →
    ∀ w ∈ cmd ws, Tk w := fun h => tk_cmd h
  have ht : ∀ ws ∈ tailCmds a, ∀ w ∈ ws, Tk w := by
    unfold tailCmds
    simp only [List.forall_mem_cons]
    exact ⟨c (by decide), c (by decide), app (app (app (c (by decide)) (one (tk_plain h3))) (c (by decide))) (one (tk_plain h4)),
      c (by decide), by simp⟩
  have hh : ∀ ws ∈ headCmds a, ∀ w ∈ ws, Tk w := by
    unfold headCmds
    intro ws hw
    rcases List.mem_append.1 hw with hw | hw
    · refine (List.forall_mem_cons (p := fun ws => ∀ w ∈ ws, Tk w)).2 ⟨c (by decide), ?_⟩ ws hw
      simp only [List.forall_mem_cons]
      refine ⟨c (by decide), app (c (by decide)) (one (tk_plain h1)), app (c (by decide)) (one (tk_plain h2)),
        c (by decide), app (c (by decide)) (one f), app (c (by decide)) (one f),
        app (app (c (by decide)) (one (tk_plain h2))) (c (by decide)), app (c (by decide)) ?_, c (by decide),
        app (c (by decide)) (one (tk_plain h3)), by simp⟩
      simp only [List.forall_mem_cons]
      exact ⟨f, tk_plain h2, by simp⟩
    · cases hb : a.halo with
      | none => rw [hb] at hw; simp at hw
      | some b =>
        rw [hb] at hw
        rw [List.mem_singleton.1 hw]
        exact app (c (by decide)) (one (tk_int _))
  have hm : ∀ ws ∈ midCmds a, ∀ w ∈ ws, Tk w := by
    unfold midCmds
    cases a.mode
    · simp only [List.forall_mem_cons]
      exact ⟨c (by decide), app (c (by decide)) (one (tk_plain h8)), app (c (by decide)) (one (tk_plain h9)),
        app (c (by decide)) (one (tk_plain h5)), by simp⟩
    · simp only [List.forall_mem_cons]
      exact ⟨c (by decide), c (by decide), c (by decide), c (by decide), app (c (by decide)) (one (tk_plain h7)), c (by decide),
        app (c (by decide)) (one (tk_plain h8)), app (c (by decide)) (one (tk_plain h9)),
        app (c (by decide)) (one (tk_plain h5)), app (c (by decide)) (one (tk_plain h6)), c (by decide), by simp⟩
    · simp only [List.forall_mem_cons]
      exact ⟨c (by decide), c (by decide), c (by decide), c (by decide), c (by decide), c (by decide),
        app (c (by decide)) (one (tk_plain h7)), c (by decide),
        app (c (by decide)) (one (tk_plain h8)), app (c (by decide)) (one (tk_plain h9)),
        app (c (by decide)) (one (tk_plain h6)), c (by decide), by simp⟩
  intro ws hw
  rcases List.mem_append.1 hw with hw | hw
  · rcases List.mem_append.1 hw with hw | hw
    · exact hh ws hw
    · exact hm ws hw
  · exact ht ws hw

theorem scriptLines_eq (a : ScriptArgs) : scriptLines a = ("# Generated by kpex ".toList ++ a.version) ::
    (allCmds a).map (joinWith ' ') ++ (if a.mode = .CC then [] else [[]]) := by
  unfold scriptLines allCmds midCmds scriptHead headCmds scriptTail tailCmds
  cases a.mode <;> cases a.halo <;> simp [joinWith, cmd]

theorem keep_cmds (a : ScriptArgs) : ∀ ws ∈ allCmds a, ws ≠ [] ∧ (ws.head?.bind List.head?) ≠ some '#' := by
  unfold allCmds midCmds headCmds tailCmds
  cases a.mode <;> cases a.halo <;> simp [cmd]

theorem commands_eq {a : ScriptArgs} (h : PlainArgs a) : commands (script a) = allCmds a := by
  have hne : ∀ ws ∈ allCmds a, ws ≠ [] := fun ws hw => (keep_cmds a ws hw).1
  have hnl : ∀ w ∈ scriptLines a, '\n' ∉ w := by
    rw [scriptLines_eq]
    intro w hw
    rcases List.mem_append.1 hw with hw | hw
    · rcases List.mem_cons.1 hw with rfl | hw
      · rw [List.mem_append, not_or]
        exact ⟨by decide, h.2.2.2.2.2.2.2.2.2⟩
      · obtain ⟨ws, hws, rfl⟩ := List.mem_map.1 hw
        exact words_noNewline ws (allCmds_tk h ws hws)
    · split_ifs at hw
      · simp at hw
      · rw [List.mem_singleton.1 hw]; simp
  have hl : scriptLines a ≠ [] := by rw [scriptLines_eq]; simp
  unfold commands script
  rw [splitOn_joinWith hl hnl, scriptLines_eq, List.map_append, List.map_cons, List.filter_append, List.map_map]
  have e1 : (allCmds a).map (splitWs ∘ joinWith ' ') = allCmds a := by
    conv_rhs => rw [← List.map_id (allCmds a)]
    apply List.map_congr_left
    intro ws hw
    exact splitWs_words ws (hne ws hw) (allCmds_tk h ws hw)
  have e2 : splitWs ("# Generated by kpex ".toList ++ a.version) = "#".toList :: splitWs ("Generated by kpex ".toList ++ a.version) :=
    splitWs_token_blank (w := "#".toList) (tk_lit (by decide)) ("Generated by kpex ".toList ++ a.version)
  rw [e1, e2, List.filter_cons_of_neg (by simp)]
  have e3 : (allCmds a).filter (fun ws => decide (ws ≠ [] ∧ (ws.head?.bind List.head?) ≠ some '#')) = allCmds a := by
    rw [List.filter_eq_self]
    intro ws hw
    exact decide_eq_true (keep_cmds a ws hw)
  rw [e3]
  cases a.mode
  · simp
  · simp [splitWs]
  · simp [splitWs]

/-! ### Theorem -/

set_option maxHeartbeats 1600000 in
/-- The script does what the options ask for, if no argument contains characters that are special for Tcl. -/
theorem script_faithful_partial {a : ScriptArgs} (h : PlainArgs a) : Faithful a (commands (script a)) := by
  rw [commands_eq h]
  have r := fun b : ℚ => roundEven_exact (b * 200)
  unfold allCmds midCmds headCmds tailCmds
  cases hm : a.mode <;> cases hh : a.halo
  · exact
    { start := rfl
      path := by simp [cmd]
      pathFirst := ⟨10, 11, by decide, rfl, rfl⟩
      res := by simp [cmd, hm]
      resFirst := by simp [hm]
      noCap := by simp [cmd, hm]
      noCoupling := by simp [cmd, hm]
      noCapFirst := by simp [hm]
      once := by simp [cmd]
      halo := by simp [cmd]
      haloGiven := by simp [cmd, hh]
      haloFirst := by simp [cmd]
      cthresh := by simp [cmd, hm]
      rthresh := by simp [cmd, hm]
      tol := by simp [cmd, hm]
      extresist := by simp [cmd, hm]
      resistOrder := by simp [hm]
      short := by simp [cmd]
      merge := by simp [cmd]
      finish := rfl }
  · rename_i b
    exact
      { start := rfl
        path := by simp [cmd]
        pathFirst := ⟨10, 12, by decide, rfl, rfl⟩
        res := by simp [cmd, hm]
        resFirst := by simp [hm]
        noCap := by simp [cmd, hm]
        noCoupling := by simp [cmd, hm]
        noCapFirst := by simp [hm]
        once := by simp [cmd]
        halo := fun w hw => ⟨b, hh, _, by
          obtain rfl : w = showInt (roundEven (b * 200)) := by simpa [cmd] using hw
          exact showInt_exact _, (r b).1, (r b).2⟩
        haloGiven := by simp [cmd, hh]
        haloFirst := fun w hw => ⟨11, 12, by decide, by
          obtain rfl : w = showInt (roundEven (b * 200)) := by simpa [cmd] using hw
          rfl, rfl⟩
        cthresh := by simp [cmd, hm]
        rthresh := by simp [cmd, hm]
        tol := by simp [cmd, hm]
        extresist := by simp [cmd, hm]
        resistOrder := by simp [hm]
        short := by simp [cmd]
        merge := by simp [cmd]
        finish := rfl }
  · exact
    { start := rfl
      path := by simp [cmd]
      pathFirst := ⟨10, 12, by decide, rfl, rfl⟩
      res := by simp [cmd, hm]
      resFirst := fun _ => ⟨11, 12, by decide, rfl, rfl⟩
      noCap := by simp [cmd, hm]
      noCoupling := by simp [cmd, hm]
      noCapFirst := by simp [hm]
      once := by simp [cmd]
      halo := by simp [cmd]
      haloGiven := by simp [cmd, hh]
      haloFirst := by simp [cmd]
      cthresh := by simp [cmd, hm]
      rthresh := by simp [cmd, hm]
      tol := by simp [cmd, hm]
      extresist := by simp [cmd, hm]
      resistOrder := fun _ => ⟨⟨12, 15, by decide, rfl, rfl⟩, ⟨15, 16, by decide, rfl, rfl⟩⟩
      short := by simp [cmd]
      merge := by simp [cmd]
      finish := rfl }
  · rename_i b
    exact
      { start := rfl
        path := by simp [cmd]
        pathFirst := ⟨10, 13, by decide, rfl, rfl⟩
        res := by simp [cmd, hm]
        resFirst := fun _ => ⟨12, 13, by decide, rfl, rfl⟩
        noCap := by simp [cmd, hm]
        noCoupling := by simp [cmd, hm]
        noCapFirst := by simp [hm]
        once := by simp [cmd]
        halo := fun w hw => ⟨b, hh, _, by
          obtain rfl : w = showInt (roundEven (b * 200)) := by simpa [cmd] using hw
          exact showInt_exact _, (r b).1, (r b).2⟩
        haloGiven := by simp [cmd, hh]
        haloFirst := fun w hw => ⟨11, 13, by decide, by
          obtain rfl : w = showInt (roundEven (b * 200)) := by simpa [cmd] using hw
          rfl, rfl⟩
        cthresh := by simp [cmd, hm]
        rthresh := by simp [cmd, hm]
        tol := by simp [cmd, hm]
        extresist := by simp [cmd, hm]
        resistOrder := fun _ => ⟨⟨13, 16, by decide, rfl, rfl⟩, ⟨16, 17, by decide, rfl, rfl⟩⟩
        short := by simp [cmd]
        merge := by simp [cmd]
        finish := rfl }
  · exact
    { start := rfl
      path := by simp [cmd]
      pathFirst := ⟨10, 14, by decide, rfl, rfl⟩
      res := by simp [cmd, hm]
      resFirst := fun _ => ⟨11, 14, by decide, rfl, rfl⟩
      noCap := by simp [cmd, hm]
      noCoupling := by simp [cmd, hm]
      noCapFirst := fun _ => ⟨⟨12, 14, by decide, rfl, rfl⟩, ⟨13, 14, by decide, rfl, rfl⟩⟩
      once := by simp [cmd]
      halo := by simp [cmd]
      haloGiven := by simp [cmd, hh]
      haloFirst := by simp [cmd]
      cthresh := by simp [cmd, hm]
      rthresh := by simp [cmd, hm]
      tol := by simp [cmd, hm]
      extresist := by simp [cmd, hm]
      resistOrder := fun _ => ⟨⟨14, 17, by decide, rfl, rfl⟩, ⟨17, 18, by decide, rfl, rfl⟩⟩
      short := by simp [cmd]
      merge := by simp [cmd]
      finish := rfl }
  · rename_i b
    exact
      { start := rfl
        path := by simp [cmd]
        pathFirst := ⟨10, 15, by decide, rfl, rfl⟩
        res := by simp [cmd, hm]
        resFirst := fun _ => ⟨12, 15, by decide, rfl, rfl⟩
        noCap := by simp [cmd, hm]
        noCoupling := by simp [cmd, hm]
        noCapFirst := fun _ => ⟨⟨13, 15, by decide, rfl, rfl⟩, ⟨14, 15, by decide, rfl, rfl⟩⟩
        once := by simp [cmd]
        halo := fun w hw => ⟨b, hh, _, by
          obtain rfl : w = showInt (roundEven (b * 200)) := by simpa [cmd] using hw
          exact showInt_exact _, (r b).1, (r b).2⟩
        haloGiven := by simp [cmd, hh]
        haloFirst := fun w hw => ⟨11, 15, by decide, by
          obtain rfl : w = showInt (roundEven (b * 200)) := by simpa [cmd] using hw
          rfl, rfl⟩
        cthresh := by simp [cmd, hm]
        rthresh := by simp [cmd, hm]
        tol := by simp [cmd, hm]
        extresist := by simp [cmd, hm]
        resistOrder := fun _ => ⟨⟨15, 18, by decide, rfl, rfl⟩, ⟨18, 19, by decide, rfl, rfl⟩⟩
        short := by simp [cmd]
        merge := by simp [cmd]
        finish := rfl }

/-- Example: mode RC with a halo of 8 µm. -/
def exArgs : ScriptArgs :=
  ⟨"0.2".toList, "/tmp/inv.gds".toList, "inv".toList, "/tmp/magic_RC".toList, "/tmp/magic_RC/inv.pex.spice".toList, .RC,
    "0.02".toList, "50".toList, "1".toList, some 8, "none".toList, "none".toList⟩

theorem exArgs_plain : PlainArgs exArgs := by
  unfold PlainArgs Plain exArgs
  refine ⟨?_, ?_, ?_, ?_, ?_, ?_, ?_, ?_, ?_, ?_⟩ <;> decide

example : cmd ["extract", "halo", "1600"] ∈ commands (script exArgs) := by decide +kernel

/-- The full claim fails: with a blank in the path of the layout Magic reads another file. -/
theorem script_blank_path : ¬ Faithful { exArgs with gds := "/tmp/my inv.gds".toList }
    (commands (script { exArgs with gds := "/tmp/my inv.gds".toList })) := by
  intro h
  exact absurd h.start (by decide +kernel)

end Verif.Magic
