import Verif.PexMode.Model
import Verif.Summary.Props

/-!
# PEX mode (C06)
-/

namespace Verif.PexMode

open Summary

/-! ## Specification -/

/-- The capacitance recordings that belong to the results in this mode. -/
def wantedCaps (mode : Mode) (caps : List CapOp) : List CapOp := if mode = .CC ∨ mode = .RC then caps else []

/-- The resistor networks that belong to the results in this mode. -/
def wantedNetworks (mode : Mode) (nets : List RNetwork) : List RNetwork := if mode = .R ∨ mode = .RC then nets else []

/-- A value of an extractor goes into the table of its kind. -/
def recording : CapOp → Op
  | .overlap c => .overlap c
  | .sidewall c => .sidewall c
  | .sideoverlap c => .sideoverlap c

/-! ## Theorems -/

theorem recording_eq : recording = CapOp.toOp := funext fun o => by cases o <;> rfl

theorem networks_run (h : List CapOp) (r : CellResults) :
    ((h.map CapOp.toOp).foldl CellResults.apply r).networks = r.networks := by
  induction h generalizing r with
  | nil => rfl
  | cons op h ih =>
    rw [List.map_cons, List.foldl_cons, ih]
    cases op <;> rfl

theorem run_networks (nets : List RNetwork) (r : CellResults) :
    (nets.map Op.network).foldl CellResults.apply r = { r with networks := r.networks ++ nets } := by
  induction nets generalizing r with
  | nil => simp
  | cons n nets ih =>
    rw [List.map_cons, List.foldl_cons, ih]
    simp [CellResults.apply]

/-- C06: the results of an extraction are the recordings of the capacitance extractors if the mode is CC or RC, and the
networks of the R extractor if it is R or RC, and nothing else. -/
theorem mode_selects (mode : Mode) (cell : String) (ov fr : List CapOp) (nets : List RNetwork) :
    extract mode cell (.ok ov) (.ok fr) (.ok nets) =
      .ok [(cell, runCell cell ((wantedCaps mode (ov ++ fr)).map recording ++ (wantedNetworks mode nets).map Op.network))] := by
  rw [recording_eq]
  unfold extract extractCell runCell wantedCaps wantedNetworks
  have key : ∀ caps : List CapOp, ∀ n : List RNetwork,
      ((caps.map CapOp.toOp ++ n.map Op.network).foldl CellResults.apply { cellName := cell }) =
        { (caps.map CapOp.toOp).foldl CellResults.apply { cellName := cell } with networks := n } := by
    intro caps n
    rw [List.foldl_append, run_networks, networks_run]
    simp
  cases mode with
  | CC =>
    simp only [true_or, if_true, reduceCtorEq, or_self, if_false, Mode.needCapacitance, Mode.needResistance, bind, Except.bind,
      pure, Except.pure, Bool.false_eq_true, List.map_nil, List.append_nil, List.map_append, List.foldl_append]
    rfl
  | RC =>
    simp only [or_true, if_true, key, Mode.needCapacitance, Mode.needResistance, bind, Except.bind, pure, Except.pure]
    rw [List.map_append, List.foldl_append]
    rfl
  | R =>
    simp only [reduceCtorEq, or_self, if_false, true_or, if_true, Mode.needCapacitance, Mode.needResistance, bind,
      Except.bind, pure, Except.pure, Bool.false_eq_true]
    rw [key []]
    rfl

/-- C06: an extractor that is not selected by the mode has no influence, not even by failing. -/
theorem unselected_ignored (cell : String) (ov ov' fr fr' : Except String (List CapOp))
    (res res' : Except String (List RNetwork)) :
    extract .R cell ov fr res = extract .R cell ov' fr' res ∧ extract .CC cell ov fr res = extract .CC cell ov fr res' :=
  ⟨rfl, rfl⟩

/-- C06: a selected extractor that fails makes the extraction fail. -/
theorem selected_failure_reported (cell : String) (mode : Mode) (ov fr : List CapOp) (nets : List RNetwork) (e : String) :
    ((mode = .CC ∨ mode = .RC) → (∃ e', extract mode cell (.error e) (.ok fr) (.ok nets) = .error e') ∧
      (∃ e', extract mode cell (.ok ov) (.error e) (.ok nets) = .error e')) ∧
    ((mode = .R ∨ mode = .RC) → ∃ e', extract mode cell (.ok ov) (.ok fr) (.error e) = .error e') := by
  constructor
  · rintro (rfl | rfl) <;> exact ⟨⟨e, rfl⟩, ⟨e, rfl⟩⟩
  · rintro (rfl | rfl) <;> exact ⟨e, rfl⟩

/-- C06: the summary of a run in mode R has no capacitances, and of a run in mode CC no resistances. -/
theorem unselected_absent (cell : String) (ov fr : List CapOp) (nets : List RNetwork) (r : Dict String CellResults)
    (s : ExtractionSummary) :
    (extract .R cell (.ok ov) (.ok fr) (.ok nets) = .ok r → summarizeAll r = .ok s → s.capacitances = []) ∧
    (extract .CC cell (.ok ov) (.ok fr) (.ok nets) = .ok r → summarizeAll r = .ok s → s.resistances = []) := by
  constructor
  · intro h hs
    rw [mode_selects] at h
    cases h
    simp only [wantedCaps, wantedNetworks, reduceCtorEq, or_self, if_false, true_or, if_true, List.map_nil, List.nil_append] at hs
    unfold runCell at hs
    rw [run_networks] at hs
    unfold summarizeAll at hs
    simp only [Dict.values, List.map_cons, List.map_nil, List.mapM_cons, List.mapM_nil, CellResults.summarize] at hs
    cases hn : summarizeNetworks ([] ++ nets) with
    | error e => rw [hn] at hs; cases hs
    | ok res => rw [hn] at hs; cases hs; rfl
  · intro h hs
    rw [mode_selects] at h
    cases h
    simp only [wantedCaps, wantedNetworks, reduceCtorEq, or_self, if_false, true_or, if_true, List.map_nil, List.append_nil] at hs
    unfold summarizeAll at hs
    simp only [Dict.values, List.map_cons, List.map_nil, List.mapM_cons, List.mapM_nil, CellResults.summarize] at hs
    unfold runCell at hs
    rw [recording_eq, networks_run] at hs
    cases hs
    rfl

/-- C06: the accepted mode texts; the default is CC; every mode extracts something. -/
theorem mode_table : (∀ t m, Mode.ofText t = some m ↔ (t, m) ∈ [("CC", Mode.CC), ("RC", Mode.RC), ("R", Mode.R)]) ∧
    Mode.ofText "CC" = some Mode.default ∧
    ∀ mode (caps : List CapOp) (nets : List RNetwork), caps ≠ [] → nets ≠ [] →
      wantedCaps mode caps ≠ [] ∨ wantedNetworks mode nets ≠ [] := by
  refine ⟨fun t m => ?_, rfl, fun mode caps nets h1 h2 => ?_⟩
  · unfold Mode.ofText
    split <;> rename_i h
    · cases m <;> simp
    · cases m <;> simp
    · cases m <;> simp
    · simp only [reduceCtorEq, List.mem_cons, Prod.mk.injEq, List.not_mem_nil, or_false, false_iff]
      rintro (⟨rfl, -⟩ | ⟨rfl, -⟩ | ⟨rfl, -⟩) <;> simp_all
  · cases mode <;> simp [wantedCaps, wantedNetworks, h1, h2]

/-- A case in which the modes differ. -/
example : let ov : List CapOp := [.overlap ⟨⟨"m2", "A", "m1", "B"⟩, 3, 0, 1⟩]
    let nets : List RNetwork := [⟨[⟨1, "A"⟩, ⟨2, "A.1"⟩], [⟨1, 2, 7⟩]⟩]
    (∀ r s, extract .RC "top" (.ok ov) (.ok []) (.ok nets) = .ok r → summarizeAll r = .ok s →
      s.capacitances.length = 1 ∧ s.resistances.length = 1) := by
  intro ov nets r s h hs
  have key : (match extract .RC "top" (.ok ov) (.ok []) (.ok nets) with
    | .ok r => (match summarizeAll r with
      | .ok s => decide (s.capacitances.length = 1 ∧ s.resistances.length = 1)
      | .error _ => false)
    | .error _ => false) = true := by decide +kernel
  rw [h] at key
  simp only [hs, decide_eq_true_eq] at key
  exact key

end Verif.PexMode
