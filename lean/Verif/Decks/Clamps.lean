import Verif.Decks.Inductors

/-!
# The ESD clamps of sg13g2

The clamps nmoscl_2 and nmoscl_4 (pdk/ihp_sg13g2/libs.tech/kpex/rule_decks/esd_derivations.lvs 125–147 and esd_extraction.lvs 110–116) for one marker
`recog_esd` that touches no other one. The centres of the taps in the marker are more than 1 µm apart, so that the boxes around them, which
are the diodes, are not merged. Left out: the layers of the gates and taps.
-/

namespace Verif.Decks

/-- A marker of a clamp: its texts, the number of gates that touch it and the number of taps inside. -/
structure Clamp where
  texts : List (List Char)
  gates : Nat
  taps : Nat

/-- The labels of the clamps and the least number of gates; esd_derivations.lvs 128–143. -/
def clampRules : List (String × Nat) := [("nmoscl_2", 12), ("nmoscl_4", 24)]

/-- The models of the devices of a marker: one device for each tap; esd_derivations.lvs 128–147, esd_extraction.lvs 112 and 116. -/
def clampDevices (c : Clamp) : List String :=
  clampRules.flatMap fun r => if c.texts.any (hasLabel r.1) && decide (r.2 ≤ c.gates) then List.replicate c.taps r.1 else []

/-! ### Specification -/

/-- The marker has the label, in any letter case. -/
def Clamp.Labelled (c : Clamp) (label : String) : Prop := ∃ t ∈ c.texts, Fits label.toList t

/-! ### Proofs -/

theorem clamp_labelled {c : Clamp} {label : String} (h : label ∈ ["nmoscl_2", "nmoscl_4"]) :
    c.texts.any (hasLabel label) = true ↔ c.Labelled label := by
  rw [List.any_eq_true, Clamp.Labelled]
  refine exists_congr fun t => and_congr_right fun _ => ?_
  refine label_recognised ?_ t
  simp only [List.mem_cons, List.not_mem_nil, or_false] at h
  rcases h with rfl | rfl <;> decide

theorem clampDevices_eq (c : Clamp) [Decidable (c.Labelled "nmoscl_2" ∧ 12 ≤ c.gates)] [Decidable (c.Labelled "nmoscl_4" ∧ 24 ≤ c.gates)] :
    clampDevices c = (if c.Labelled "nmoscl_2" ∧ 12 ≤ c.gates then List.replicate c.taps "nmoscl_2" else []) ++
      if c.Labelled "nmoscl_4" ∧ 24 ≤ c.gates then List.replicate c.taps "nmoscl_4" else [] := by
  have h2 : (c.texts.any (hasLabel "nmoscl_2") && decide (12 ≤ c.gates)) = true ↔ c.Labelled "nmoscl_2" ∧ 12 ≤ c.gates := by
    rw [Bool.and_eq_true, decide_eq_true_eq, clamp_labelled (by simp)]
  have h4 : (c.texts.any (hasLabel "nmoscl_4") && decide (24 ≤ c.gates)) = true ↔ c.Labelled "nmoscl_4" ∧ 24 ≤ c.gates := by
    rw [Bool.and_eq_true, decide_eq_true_eq, clamp_labelled (by simp)]
  simp only [clampDevices, clampRules, List.flatMap_cons, List.flatMap_nil, List.append_nil, h2, h4]

/-- **C152, partial.** A clamp with one label and one tap is one device of the model of its label if it has enough gates, and otherwise
none. Missing: clamps with several taps or both labels, for which it is false (`clamp_taps`, `clamp_both`). -/
theorem clamp_one_partial {c : Clamp} (ht : c.taps = 1) :
    (c.Labelled "nmoscl_2" → ¬ c.Labelled "nmoscl_4" →
      (12 ≤ c.gates → clampDevices c = ["nmoscl_2"]) ∧ (c.gates < 12 → clampDevices c = [])) ∧
    (c.Labelled "nmoscl_4" → ¬ c.Labelled "nmoscl_2" →
      (24 ≤ c.gates → clampDevices c = ["nmoscl_4"]) ∧ (c.gates < 24 → clampDevices c = [])) ∧
    (¬ c.Labelled "nmoscl_2" → ¬ c.Labelled "nmoscl_4" → clampDevices c = []) := by
  classical
  rw [clampDevices_eq, ht]
  refine ⟨fun h h' => ⟨fun hg => ?_, fun hg => ?_⟩, fun h h' => ⟨fun hg => ?_, fun hg => ?_⟩, fun h h' => ?_⟩
  · simp [h, h', hg]
  · simp [h', Nat.not_le.2 hg]
  · simp [h, h', hg]
  · simp [h', Nat.not_le.2 hg]
  · simp [h, h']

/-- Violation: a clamp is as many devices as it has taps. -/
theorem clamp_taps {c : Clamp} (h : c.Labelled "nmoscl_2") (h' : ¬ c.Labelled "nmoscl_4") (hg : 12 ≤ c.gates) :
    clampDevices c = List.replicate c.taps "nmoscl_2" := by
  classical
  rw [clampDevices_eq]
  simp [h, h', hg]

/-- Violation: with both labels and 24 gates it is extracted as both models. -/
theorem clamp_both {c : Clamp} (h : c.Labelled "nmoscl_2") (h' : c.Labelled "nmoscl_4") (hg : 24 ≤ c.gates) (ht : c.taps = 1) :
    clampDevices c = ["nmoscl_2", "nmoscl_4"] := by
  classical
  rw [clampDevices_eq, ht]
  simp [h, h', hg, (by omega : 12 ≤ c.gates)]

/-- A clamp of each kind, the smaller one with the number of gates of the larger one, and one with too few gates. -/
theorem clamps_ex :
    clampDevices ⟨["NMOSCL_2".toList, "other".toList], 12, 1⟩ = ["nmoscl_2"] ∧ clampDevices ⟨["nmoscl_4".toList], 24, 1⟩ = ["nmoscl_4"] ∧
      clampDevices ⟨["nmoscl_2".toList], 24, 1⟩ = ["nmoscl_2"] ∧ clampDevices ⟨["nmoscl_4".toList], 23, 1⟩ = [] ∧
      (⟨["NMOSCL_2".toList], 12, 1⟩ : Clamp).Labelled "nmoscl_2" ∧ ¬ (⟨["NMOSCL_2".toList], 12, 1⟩ : Clamp).Labelled "nmoscl_4" := by
  have e : ∀ label ∈ ["nmoscl_2", "nmoscl_4"], ∀ t ∈ ["NMOSCL_2".toList, "nmoscl_2".toList, "nmoscl_4".toList, "other".toList],
      hasLabel label t = decide ((label, t) ∈ [("nmoscl_2", "NMOSCL_2".toList), ("nmoscl_2", "nmoscl_2".toList),
        ("nmoscl_4", "nmoscl_4".toList)]) := by
    intro label hl t ht
    simp only [List.mem_cons, List.not_mem_nil, or_false] at hl ht
    rcases hl with rfl | rfl <;> rcases ht with rfl | rfl | rfl | rfl <;> rw [hasLabel, readGlob_caseGlob (by decide)] <;>
      simp [globMatch, partOf, isLetter]
  have lab : ∀ c : Clamp, (∀ t ∈ c.texts, t ∈ ["NMOSCL_2".toList, "nmoscl_2".toList, "nmoscl_4".toList, "other".toList]) →
      ∀ label ∈ ["nmoscl_2", "nmoscl_4"], (c.Labelled label ↔ ∃ t ∈ c.texts, (label, t) ∈ [("nmoscl_2", "NMOSCL_2".toList),
        ("nmoscl_2", "nmoscl_2".toList), ("nmoscl_4", "nmoscl_4".toList)]) := by
    intro c hc label hl
    rw [← clamp_labelled hl, List.any_eq_true]
    refine exists_congr fun t => and_congr_right fun ht => ?_
    rw [e label hl t (hc t ht), decide_eq_true_eq]
  refine ⟨?_, ?_, ?_, ?_, ?_, ?_⟩
  · exact ((clamp_one_partial rfl).1 ((lab _ (by simp) _ (by simp)).2 (by decide +kernel))
      (by rw [lab _ (by simp) _ (by simp)]; decide +kernel)).1 (by decide)
  · exact ((clamp_one_partial rfl).2.1 ((lab _ (by simp) _ (by simp)).2 (by decide +kernel))
      (by rw [lab _ (by simp) _ (by simp)]; decide +kernel)).1 (by decide)
  · exact ((clamp_one_partial rfl).1 ((lab _ (by simp) _ (by simp)).2 (by decide +kernel))
      (by rw [lab _ (by simp) _ (by simp)]; decide +kernel)).1 (by decide)
  · exact ((clamp_one_partial rfl).2.1 ((lab _ (by simp) _ (by simp)).2 (by decide +kernel))
      (by rw [lab _ (by simp) _ (by simp)]; decide +kernel)).2 (by decide)
  · rw [lab _ (by simp) _ (by simp)]
    decide +kernel
  · rw [lab _ (by simp) _ (by simp)]
    decide +kernel

end Verif.Decks
