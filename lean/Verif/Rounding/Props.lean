import Verif.Rounding.Overlap
import Verif.Rounding.Fringe
import Verif.Overlap.Props
import Mathlib.Tactic.NormNum

/-!
# Rounding from the layout to the summary (C116)
-/

namespace Verif.Rounding

open Summary (Op ExtractionSummary OverlapCap reported recorded records runCells summarizeAllR Sums)
open Overlap (Poly Neighborhood)

variable {fl : ℚ → ℚ} {sm : List ℚ → ℚ} {u : ℚ}

/-- The same capacitance between the same nets on the same layers, with and without `k` roundings. -/
def SameRecord (u : ℚ) (k : Nat) : Op → Op → Prop
  | .overlap c', .overlap c => c'.key = c.key ∧ Near u k c'.capValue c.capValue
  | .sidewall c', .sidewall c => c'.key = c.key ∧ Near u k c'.capValue c.capValue
  | .sideoverlap c', .sideoverlap c => c'.key = c.key ∧ Near u k c'.capValue c.capValue
  | .network n', .network n => n' = n
  | _, _ => False

theorem SameRecord.couples {k : Nat} {op' op : Op} (h : SameRecord u k op' op) (a b : String) :
    op'.Couples a b ↔ op.Couples a b := by
  cases op' <;> cases op <;> simp only [SameRecord] at h <;> simp [Op.Couples, h]

theorem SameRecord.cap {k : Nat} {op' op : Op} (h : SameRecord u k op' op) : Near u k op'.cap op.cap := by
  cases op' <;> cases op <;> simp only [SameRecord] at h
  · exact h.2
  · exact h.2
  · exact h.2
  · exact ⟨by simp [Op.cap], by simp [Op.cap]⟩

theorem recorded_near {k : Nat} (a b : String) {h' h : List Op} (hh : List.Forall₂ (SameRecord u k) h' h) :
    Near u k (recorded a b h') (recorded a b h) ∧
      (h'.filter fun op => op.Couples a b).length = (h.filter fun op => op.Couples a b).length := by
  induction hh with
  | nil => exact ⟨⟨by simp [recorded], by simp [recorded]⟩, rfl⟩
  | @cons op' op l' l hop _ ih =>
    unfold recorded at *
    by_cases hc : op.Couples a b
    · have hc' := (hop.couples a b).2 hc
      simp only [List.filter_cons, hc, hc', decide_true, if_true, List.map_cons, List.sum_cons, List.length_cons]
      exact ⟨hop.cap.add ih.1, by rw [ih.2]⟩
    · have hc' : ¬ op'.Couples a b := fun h => hc ((hop.couples a b).1 h)
      simp only [List.filter_cons, hc, hc', decide_false, Bool.false_eq_true, if_false]
      exact ih

/-- **C116, summary.** If all capacitances are recorded with the error of at most `k` roundings, the capacitance that the
summary reports for two nets is the exact total of what connects them up to the error of `k + n + c + 5` roundings, for `n`
records and `c` cells. -/
theorem summary_total_rounded (hr : Rounds fl u) (hsm : Sums sm u) (k : Nat) (hs' hs : List (String × List Op))
    (hh : List.Forall₂ (fun x y => x.1 = y.1 ∧ List.Forall₂ (SameRecord u k) x.2 y.2) hs' hs)
    (hd : (hs.map Prod.fst).Nodup) (hp : ∀ nh ∈ hs, ∀ op ∈ nh.2, 0 ≤ op.cap) (s : ExtractionSummary)
    (h : summarizeAllR fl sm (runCells hs') = .ok s) (a b : String) :
    (1 - u) ^ (k + records a b hs + hs.length + 5) * (hs.map fun nh => recorded a b nh.2).sum ≤ reported s.capacitances a b ∧
    reported s.capacitances a b ≤
      (1 + u) ^ (k + records a b hs + hs.length + 5) * (hs.map fun nh => recorded a b nh.2).sum := by
  have h0 := hr.1
  have h1 := hr.2.1
  have hlen := hh.length_eq
  have hnames : hs'.map Prod.fst = hs.map Prod.fst := by
    clear hd hp h hlen
    induction hh with
    | nil => rfl
    | cons hx _ ih => simp only [List.map_cons, hx.1, ih]
  have hboth : Near u k (hs'.map fun nh => recorded a b nh.2).sum (hs.map fun nh => recorded a b nh.2).sum ∧
      records a b hs' = records a b hs := by
    clear hd hp h hlen hnames
    unfold records
    induction hh with
    | nil => exact ⟨⟨by simp, by simp⟩, rfl⟩
    | cons hx _ ih =>
      simp only [List.map_cons, List.sum_cons]
      exact ⟨(recorded_near a b hx.2).1.add ih.1, by rw [(recorded_near a b hx.2).2, ih.2]⟩
  have hp' : ∀ nh ∈ hs', ∀ op ∈ nh.2, 0 ≤ op.cap := by
    clear hd h hlen hnames hboth
    induction hh with
    | nil => simp
    | @cons x y l' l hx _ ih =>
      intro nh hnh
      rcases List.mem_cons.1 hnh with rfl | hm
      · intro op hop
        obtain ⟨hx1, hx2⟩ := hx
        obtain ⟨op₀, ho, hrel⟩ : ∃ op₀ ∈ y.2, SameRecord u k op op₀ := by
          clear hx1 ih hp hnh
          generalize y.2 = l₂ at hx2
          generalize nh.2 = l₁ at hx2 hop
          induction hx2 with
          | nil => simp at hop
          | @cons p q _ _ hpq _ ih2 =>
            rcases List.mem_cons.1 hop with rfl | hm
            · exact ⟨q, by simp, hpq⟩
            · obtain ⟨z, hz, hz'⟩ := ih2 hm
              exact ⟨z, by simp [hz], hz'⟩
        exact hrel.cap.nonneg h1 (hp y (by simp) op₀ ho)
      · exact ih (fun nh hnh => hp nh (by simp [hnh])) nh hm
  obtain ⟨e1, e2, -⟩ := Summary.summary_rounded hr hsm hs' (hnames ▸ hd) hp' s h a b
  obtain ⟨n1, hrec⟩ := hboth
  rw [hrec, hlen] at e1 e2
  have p : 0 ≤ 1 - u := by linarith
  have q : 0 ≤ 1 + u := by linarith
  rw [show k + records a b hs + hs.length + 5 = (records a b hs + hs.length + 5) + k by omega]
  generalize records a b hs + hs.length + 5 = n at e1 e2
  rw [pow_add, pow_add]
  constructor
  · refine le_trans ?_ e1
    rw [mul_assoc]
    exact mul_le_mul_of_nonneg_left n1.1 (pow_nonneg p _)
  · refine e2.trans ?_
    rw [mul_assoc]
    exact mul_le_mul_of_nonneg_left n1.2 (pow_nonneg q _)

/-- **C116, from the layout to the summary.** The overlap capacitance that the summary of a cell reports for two nets, if the
engine computes with rounding, is that of the exact computation up to the error of `n + 11` roundings, for `n` records. -/
theorem overlap_summary_rounded (hr : Rounds fl u) (hsm : Sums sm u) (x : Overlap.Ctx) (regions : List (List Poly))
    (nbh : Nat → Poly → Neighborhood) (cell : String) (exact rounded : List OverlapCap)
    (he : exact = regions.zipIdx.flatMap fun lr => lr.1.flatMap fun p => Overlap.neighbors x lr.2 p (nbh lr.2 p))
    (hn : rounded = regions.zipIdx.flatMap fun lr => lr.1.flatMap fun p => neighborsR fl x lr.2 p (nbh lr.2 p))
    (s : ExtractionSummary) (h : summarizeAllR fl sm (runCells [(cell, rounded.map Op.overlap)]) = .ok s) (a b : String) :
    (1 - u) ^ (records a b [(cell, exact.map Op.overlap)] + 11) * recorded a b (exact.map Op.overlap) ≤
      reported s.capacitances a b ∧
    reported s.capacitances a b ≤
      (1 + u) ^ (records a b [(cell, exact.map Op.overlap)] + 11) * recorded a b (exact.map Op.overlap) := by
  have key : List.Forall₂ (fun r' r => r'.key = r.key ∧ 0 < r.capValue ∧ Near u 5 r'.capValue r.capValue) rounded exact := by
    rw [he, hn]
    refine List.rel_flatMap (R := Eq) (List.forall₂_refl _) ?_
    rintro lr _ rfl
    refine List.rel_flatMap (R := Eq) (List.forall₂_refl _) ?_
    rintro p _ rfl
    exact overlap_rounded hr x lr.2 p (nbh lr.2 p)
  have hpos : ∀ r ∈ exact, 0 < r.capValue := by
    clear he hn h
    induction key with
    | nil => simp
    | cons hx _ ih =>
      intro r hm
      rcases List.mem_cons.1 hm with rfl | hm
      · exact hx.2.1
      · exact ih r hm
  have hrel : List.Forall₂ (SameRecord u 5) (rounded.map Op.overlap) (exact.map Op.overlap) := by
    rw [List.forall₂_map_left_iff, List.forall₂_map_right_iff]
    exact key.imp fun r' r h => ⟨h.1, h.2.2⟩
  have := summary_total_rounded hr hsm 5 [(cell, rounded.map Op.overlap)] [(cell, exact.map Op.overlap)]
    (.cons ⟨rfl, hrel⟩ .nil) (by simp) (by
      intro nh hm op hop
      rw [List.mem_singleton] at hm
      subst hm
      obtain ⟨r, hr', rfl⟩ := List.mem_map.1 hop
      exact (hpos r hr').le) s h a b
  rw [List.length_singleton, show 5 + records a b [(cell, exact.map Op.overlap)] + 1 + 5 =
    records a b [(cell, exact.map Op.overlap)] + 11 by omega] at this
  simpa using this

/-- What the bounds are for the floats of Python. -/
theorem double_precision : (2 * ((1 + 1 / 2 ^ 53) ^ 43 - 1) : ℝ) < 1 / 10 ^ 14 ∧
    ((1 + 1 / 2 ^ 53) ^ 10 - 1 : ℚ) < 2 / 10 ^ 15 ∧ (1 - (1 - 1 / 2 ^ 53) ^ 10 : ℚ) < 2 / 10 ^ 15 := by
  refine ⟨by norm_num, by norm_num, by norm_num⟩

/-! ### Examples -/

/-- A rounding with a relative error of a thousandth. -/
theorem exRounds {K : Type} [Field K] [LinearOrder K] [IsStrictOrderedRing K] :
    Rounds (fun x : K => 1001 / 1000 * x) (1 / 1000) := by
  refine ⟨by norm_num, by norm_num, fun x => ?_⟩
  rw [show 1001 / 1000 * x - x = 1 / 1000 * x by ring, abs_mul, abs_of_nonneg (by norm_num : (0 : K) ≤ 1 / 1000)]

/-- Two overlaps, and the sum of both for the nets. -/
theorem overlap_example :
    (neighborsR (fun x => 1001 / 1000 * x) (Overlap.exCtx true) 1 Overlap.exPoly Overlap.exNb).map
        (fun r => (r.key.netTop, r.capValue / (1001 / 1000) ^ 5)) = [("B", 1 / 10000000), ("C", 1 / 100000000)] ∧
    ∃ s, summarizeAllR (fun x => 1001 / 1000 * x) (fun l => l.foldl (fun s x => 1001 / 1000 * (s + x)) 0)
      (runCells [("top", (neighborsR (fun x => 1001 / 1000 * x) (Overlap.exCtx true) 1 Overlap.exPoly Overlap.exNb).map
        Op.overlap)]) = .ok s ∧ reported s.capacitances "A" "B" ≠ 0 := by
  have hs : ∃ s, summarizeAllR (fun x => 1001 / 1000 * x) (fun l => l.foldl (fun s x => 1001 / 1000 * (s + x)) 0)
      (runCells [("top", (neighborsR (fun x => 1001 / 1000 * x) (Overlap.exCtx true) 1 Overlap.exPoly Overlap.exNb).map
        Op.overlap)]) = .ok s := by
    rw [Summary.summary_rounded_exists]
    have h : (match Summary.summarizeAll (runCells [("top", (neighborsR (fun x => 1001 / 1000 * x) (Overlap.exCtx true) 1
        Overlap.exPoly Overlap.exNb).map Op.overlap)]) with | .ok _ => true | .error _ => false) = true := by decide +kernel
    generalize Summary.summarizeAll _ = e at h
    rcases e with e | e
    · simp at h
    · exact ⟨e, rfl⟩
  refine ⟨by decide +kernel, ?_⟩
  obtain ⟨s, h⟩ := hs
  refine ⟨s, h, ?_⟩
  have := (summary_total_rounded exRounds (Summary.sums_loop exRounds) 0 _ _ (.cons ⟨rfl, List.forall₂_same.2
    (by intro op _; cases op <;> simp [SameRecord, Near])⟩ .nil) (by simp) (by decide +kernel) s h "A" "B").1
  have hpos : (0 : ℚ) < ([("top", (neighborsR (fun x => 1001 / 1000 * x) (Overlap.exCtx true) 1 Overlap.exPoly Overlap.exNb).map
      Op.overlap)].map fun nh => recorded "A" "B" nh.2).sum := by decide +kernel
  have h2 : (0 : ℚ) < (1 - 1 / 1000) ^ (0 + records "A" "B" [("top", (neighborsR (fun x => 1001 / 1000 * x)
      (Overlap.exCtx true) 1 Overlap.exPoly Overlap.exNb).map Op.overlap)] + 1 + 5) := pow_pos (by norm_num) _
  exact (lt_of_lt_of_le (mul_pos h2 hpos) this).ne'

/-- A sidewall and a fringe that meet the hypotheses of `sidewall_rounded` and `fringe_rounded`. -/
theorem fringe_example :
    ((0 : ℚ) ≤ Fringe.exCtx.dbu ∧ (∀ s ∈ Fringe.exCtx.par.sidewalls, 0 ≤ s.cap ∧ 0 ≤ s.offset) ∧
      (∀ c ∈ Fringe.exFront.cells, 0 ≤ c.2) ∧
      ∃ r, emitSidewallR (fun x => 1001 / 1000 * x) Fringe.exCtx "A" (0, 5) Fringe.exFront = .ok [r] ∧ 0 < r.capValue) ∧
    0 ≤ Fringe.exCtx.par.sideHalo ∧
    ∃ c, Fringe.fringeCap Fringe.exCtx 5 0 3 ⟨"m2", "m1", 50⟩ ⟨"m1", "m2", 1000⟩ = .ok c ∧ 0 < c := by
  refine ⟨⟨by decide, by decide +kernel, by decide, ?_⟩, by decide, ?_⟩
  · have h : (match emitSidewallR (fun x => 1001 / 1000 * x) Fringe.exCtx "A" (0, 5) Fringe.exFront with
        | .ok [r] => decide (0 < r.capValue)
        | _ => false) = true := by decide +kernel
    generalize emitSidewallR (fun x => 1001 / 1000 * x) Fringe.exCtx "A" (0, 5) Fringe.exFront = e at h
    rcases e with e | ⟨_ | ⟨r, _ | _⟩⟩ <;> simp at h
    exact ⟨r, rfl, h⟩
  · rw [Fringe.fringeCap_eq]
    refine ⟨_, if_neg (by simp [Fringe.exCtx]), ?_⟩
    have h3 : 0 < Fringe.ratio 50 (3 : ℝ) := Fringe.ratio_pos (by norm_num) (by norm_num)
    have h0 : Fringe.ratio 50 (0 : ℝ) = 0 := Fringe.ratio_zero 50
    unfold Fringe.law
    simp only [Fringe.exCtx, Rat.cast_one, mul_one, h0, sub_zero]
    norm_num
    exact h3

end Verif.Rounding
