import Verif.Engine25.Look

/-!
# Sidewall coupling and the polygon of the edge itself (C90)
-/

namespace Verif.Engine25

open TechInfo (Parasitics)
open Summary (SamePair)
open Overlap (Cell Poly)

/-- Net `n` faces column `u` of the edge at distance `d`, and nothing of the layer lies in between. -/
def FacesFreely (R : List (List Poly)) (i : Nat) (s : Side) (u d : ℤ) (n : String) : Prop :=
  (∃ q ∈ R.getD i [], q.net = n ∧ s.cell u d ∈ q.cells) ∧
  ∀ w, 1 ≤ w → w < d → ∀ q ∈ R.getD i [], s.cell u w ∉ q.cells

/-- **C90 (partial).** If a polygon does not lie in front of its own edge, the edge is coupled to exactly the polygon it
faces with nothing of the layer in between. Missing: polygons that bend around, see `own_polygon_ignored`. -/
theorem faces_freely_partial {R : List (List Poly)} {i : Nat} {p : Poly} {s : Side} {u d : ℤ} {n : String} (hd : 1 ≤ d)
    (hown : ∀ w, 1 ≤ w → w ≤ d → s.cell u w ∉ p.cells) : FacedBy R i p s u d n ↔ FacesFreely R i s u d n := by
  constructor
  · rintro ⟨⟨q, hq, _, hn, hc⟩, hw⟩
    refine ⟨⟨q, hq, hn, hc⟩, fun w h1 h2 q' hq' => ?_⟩
    by_cases he : q' = p
    · rw [he]; exact hown w h1 (by omega)
    · exact hw w h1 h2 q' hq' he
  · rintro ⟨⟨q, hq, hn, hc⟩, hw⟩
    refine ⟨⟨q, hq, fun he => ?_, hn, hc⟩, fun w h1 h2 q' hq' _ => hw w h1 h2 q' hq'⟩
    rw [he] at hc
    exact hown d hd le_rfl hc

open Classical in
/-- **C90 for the totals (partial).** If no polygon lies in front of its own edges, the sidewall capacitance of the netlist is
the one of the pairs of edges that face each other with nothing in between. -/
theorem wall_free_partial (R : List (List Poly)) (names : List String) (dbu : ℚ) (depth : ℤ) (C off : String → ℚ)
    (sides : Nat → List (Poly × Side))
    (hown : ∀ i < names.length, ∀ ps ∈ sides i, ∀ u w, 1 ≤ u → u + 1 < ps.2.len → 1 ≤ w → w < depth → ps.2.cell u w ∉ ps.1.cells)
    (a b : String) :
    wallTotal R names dbu depth C off sides a b =
      ∑ i ∈ Finset.range names.length, ((sides i).map fun ps => ∑ u ∈ Finset.Ico 1 (ps.2.len - 1), ∑ d ∈ Finset.Ico 1 depth,
        if ∃ n, FacesFreely R i ps.2 u d n ∧ SamePair ps.1.net n a b then
          dbu * C (names.getD i "") / (d * dbu + off (names.getD i "")) / 2 / 1000 else 0).sum := by
  unfold wallTotal
  refine Finset.sum_congr rfl fun i hi => ?_
  rw [Finset.mem_range] at hi
  refine congrArg List.sum (List.map_congr_left fun ps hps => ?_)
  refine Finset.sum_congr rfl fun u hu => Finset.sum_congr rfl fun d hd => ?_
  rw [Finset.mem_Ico] at hu hd
  have : ∀ n, FacedBy R i ps.1 ps.2 u d n ↔ FacesFreely R i ps.2 u d n := fun n =>
    faces_freely_partial hd.1 fun w h1 h2 => hown i hi ps hps u w hu.1 (by omega) h1 (by omega)
  simp only [this]

/-- A polygon of net A with two arms. -/
noncomputable def bentA : Poly :=
  ⟨"A", (Finset.Ico 0 6 ×ˢ Finset.Ico 0 2) ∪ (Finset.Ico 0 2 ×ˢ Finset.Ico 2 4) ∪ (Finset.Ico 0 6 ×ˢ Finset.Ico 4 6)⟩

/-- Net B behind the second arm. -/
noncomputable def behindB : Poly := ⟨"B", Finset.Ico 0 6 ×ˢ Finset.Ico 8 10⟩

/-- The edge of the first arm towards the second one. -/
def innerSide : Side := ⟨2, 2, .right, 4⟩

noncomputable def bentRegions : List (List Poly) := [[bentA, behindB]]

def bentPar : Parasitics := { sidewalls := [⟨"m1", 40, 1⟩] }

theorem innerSide_is : IsSide bentA.cells innerSide := by
  refine ⟨by decide, ?_, by decide +kernel, by decide +kernel⟩
  intro u h1 h2
  have h2 : u < 4 := h2
  have key : ∀ u ∈ Finset.Ico (0 : ℤ) 4, innerSide.cell u (-1) ∈ bentA.cells ∧ innerSide.cell u 0 ∉ bentA.cells := by
    decide +kernel
  exact key u (Finset.mem_Ico.2 ⟨h1, h2⟩)

theorem innerClear : Clear bentRegions 0 bentA innerSide 9 := by decide +kernel

/-- **C90 is false for polygons that bend around**: the inner edge of net A faces only the other arm of A, at every column;
it is recorded as coupled to net B behind this arm. -/
theorem own_polygon_ignored : IsSide bentA.cells innerSide ∧
    EdgeOK bentRegions 0 bentA innerSide 9 (lookAt bentRegions 0 bentA innerSide 9) ∧
    (∀ u d, 1 ≤ u → u + 1 < innerSide.len → 1 ≤ d → ¬ FacesFreely bentRegions 0 innerSide u d "B") ∧
    ∃ v ∈ lookAt bentRegions 0 bentA innerSide 9, ∃ c, Fringe.onInterval ⟨["m1"], 0, 1, true, bentPar⟩ Fringe.rowKernel "A" v.1 v.2 =
      .ok [.sidewall c] ∧ c.key = ⟨"m1", "A", "B"⟩ ∧ c.capValue = 2 * 40 / (6 + 1) / 2 / 1000 := by
  refine ⟨innerSide_is, look_ok (by decide) innerClear, ?_, ?_⟩
  · rintro u d h1 h2 hd ⟨⟨q, hq, hn, hc⟩, hw⟩
    have h2 : u + 1 < 4 := h2
    have hA : ∀ u ∈ Finset.Ico (1 : ℤ) 3, innerSide.cell u 2 ∈ bentA.cells ∧ innerSide.cell u 1 ∉ behindB.cells ∧
        innerSide.cell u 2 ∉ behindB.cells := by decide +kernel
    obtain ⟨k1, k2, k3⟩ := hA u (Finset.mem_Ico.2 ⟨h1, by omega⟩)
    have hq' : q = behindB := by
      simp only [bentRegions, List.getD_cons_zero, List.mem_cons, List.not_mem_nil, or_false] at hq
      rcases hq with rfl | rfl
      · exact absurd hn (by decide)
      · rfl
    subst hq'
    by_cases hd2 : 2 < d
    · exact hw 2 (by omega) hd2 bentA (by simp [bentRegions]) k1
    · have : d = 1 ∨ d = 2 := by omega
      rcases this with rfl | rfl
      · exact k2 hc
      · exact k3 hc
  · have h : (match Fringe.onInterval ⟨["m1"], 0, 1, true, bentPar⟩ Fringe.rowKernel "A" (((1 : ℤ) : ℚ), ((innerSide.len - 1 : ℤ) : ℚ))
        (children bentRegions 0 bentA innerSide 9) with
      | .ok [.sidewall c] => decide (c.key = ⟨"m1", "A", "B"⟩ ∧ c.capValue = 2 * 40 / (6 + 1) / 2 / 1000)
      | _ => false) = true := by decide +kernel
    refine ⟨((((1 : ℤ) : ℚ), ((innerSide.len - 1 : ℤ) : ℚ)), children bentRegions 0 bentA innerSide 9), ?_, ?_⟩
    · unfold lookAt
      rw [if_neg (by decide)]
      exact List.mem_singleton.2 rfl
    · dsimp only
      split at h
      · rename_i c hc
        exact ⟨c, hc, (of_decide_eq_true h).1, (of_decide_eq_true h).2⟩
      · cases h

end Verif.Engine25
