import Verif.Common.Rounding
import Verif.Overlap.Model
import Verif.Summary.Rounded

/-!
# Overlap capacitances with rounding (C116)

`Verif.Overlap` computes exactly.  Here every operation on floats is followed by a rounding `fl`.
-/

namespace Verif.Rounding

open Overlap (Ctx Poly Cell Neighborhood St bottomNet)
open TechInfo (overlapTable)
open Summary (OverlapCap CellResults)

/-! ## The code with rounding -/

/-- Body of the inner loop, overlap_extractor.py 111–155; `area()` is an integer that is converted to a float. -/
def visitPolyR (fl : ℚ → ℚ) (x : Ctx) (botName netBot : String) (bottom : Finset Cell) (topName : String) (st : St) (q : Poly) :
    St :=
  if st.stopped then st
  else if q.net = netBot then st
  else
    match (overlapTable x.par).get? topName with
    | none => { st with stopped := true }
    | some [] => { st with stopped := true }
    | some specs =>
      match Dict.get? specs botName with
      | none => { st with stopped := true }
      | some spec =>
        let area := (q.cells ∩ bottom) \ st.shielded
        let um2 := fl (fl area.card * fl (x.dbu ^ 2))
        let cap := fl (fl (um2 * spec.cap) / 1000)
        { shielded := st.shielded ∪ q.cells
          out := if 0 < cap then
              st.out ++ [{ key := ⟨topName, q.net, botName, netBot⟩, capValue := cap, shieldedArea := 0,
                           unshieldedArea := 0 }]
            else st.out
          stopped := false }

/-- One pass of the outer loop, overlap_extractor.py 105–108. -/
def visitLayerR (fl : ℚ → ℚ) (x : Ctx) (botName netBot : String) (bottom : Finset Cell) (nb : Neighborhood) (st : St) (j : Nat) :
    St :=
  if st.stopped then st
  else
    match nb.get? j with
    | none => st
    | some above => above.foldl (visitPolyR fl x botName netBot bottom (x.names.getD j "")) st

/-- `neighbors`, overlap_extractor.py 91–155. -/
def neighborsR (fl : ℚ → ℚ) (x : Ctx) (i : Nat) (p : Poly) (nb : Neighborhood) : List OverlapCap :=
  ((List.range' (i + 1) (x.names.length - (i + 1))).foldl
    (visitLayerR fl x (x.names.getD i "") (bottomNet x i p) p.cells nb) ⟨∅, [], false⟩).out

/-! ## Proofs -/

variable {fl : ℚ → ℚ} {u : ℚ}

/-- The capacitance computed with rounding has the sign of the exact one, and is near to it if this is positive. -/
theorem cap_near (hr : Rounds fl u) (a : Nat) (d c : ℚ) :
    (0 < fl (fl (fl (fl a * fl (d ^ 2)) * c) / 1000) ↔ 0 < (a : ℚ) * d ^ 2 * c / 1000) ∧
    (0 < (a : ℚ) * d ^ 2 * c / 1000 → Near u 5 (fl (fl (fl (fl a * fl (d ^ 2)) * c) / 1000)) ((a : ℚ) * d ^ 2 * c / 1000)) := by
  have h0 := hr.1
  have h1 := hr.2.1
  have ha : (0 : ℚ) ≤ a := Nat.cast_nonneg a
  have hd : 0 ≤ d ^ 2 := sq_nonneg d
  have n1 := Near.round hr ha (Near.refl u (a : ℚ))
  have n2 := Near.round hr hd (Near.refl u (d ^ 2))
  have n3 := Near.round hr (mul_nonneg ha hd) (Near.mul h0 h1 ha hd n1 n2)
  have hm := mul_nonneg ha hd
  have hm' : 0 ≤ fl (fl a * fl (d ^ 2)) := n3.nonneg h1 hm
  have key : 0 < (a : ℚ) * d ^ 2 * c / 1000 → Near u 5 (fl (fl (fl (fl a * fl (d ^ 2)) * c) / 1000)) ((a : ℚ) * d ^ 2 * c / 1000) := by
    intro h
    have hc : 0 ≤ c := by
      by_contra hn
      have : (a : ℚ) * d ^ 2 * c ≤ 0 := mul_nonpos_of_nonneg_of_nonpos hm (not_le.1 hn).le
      linarith
    have n4 := Near.round hr (mul_nonneg hm hc) (Near.mul h0 h1 hm hc n3 (Near.refl u c))
    have hp : 0 ≤ (a : ℚ) * d ^ 2 * c := mul_nonneg hm hc
    have n5 := Near.mul h0 h1 hp (by norm_num : (0 : ℚ) ≤ 1000⁻¹) n4 (Near.refl u (1000⁻¹ : ℚ))
    rw [← div_eq_mul_inv, ← div_eq_mul_inv] at n5
    exact Near.round hr (by positivity) n5
  refine ⟨⟨fun h => ?_, fun h => (key h).pos h1 h⟩, key⟩
  by_contra hn
  rw [not_lt] at hn
  have hmc : (a : ℚ) * d ^ 2 * c ≤ 0 := by linarith
  have : fl (fl (fl (fl a * fl (d ^ 2)) * c) / 1000) ≤ 0 := by
    apply hr.nonpos
    have : fl (fl (fl a * fl (d ^ 2)) * c) ≤ 0 := by
      rcases hm.eq_or_lt with he | hlt
      · have : fl (fl a * fl (d ^ 2)) = 0 := by
          have h2 := n3.2
          rw [← he, mul_zero] at h2
          exact le_antisymm h2 hm'
        rw [this, zero_mul]
        exact hr.nonpos le_rfl
      · apply hr.nonpos
        have hc : c ≤ 0 := by
          by_contra hc
          have := mul_pos hlt (not_le.1 hc)
          linarith
        exact mul_nonpos_of_nonneg_of_nonpos hm' hc
    linarith
  linarith

/-- The records of the two runs: the same nets and layers, capacitances that are near. -/
def SameOverlap (u : ℚ) (r' r : OverlapCap) : Prop := r'.key = r.key ∧ 0 < r.capValue ∧ Near u 5 r'.capValue r.capValue

/-- The states of the two runs. -/
def Alike (u : ℚ) (s' s : St) : Prop :=
  s'.shielded = s.shielded ∧ s'.stopped = s.stopped ∧ List.Forall₂ (SameOverlap u) s'.out s.out

theorem visitPoly_alike (hr : Rounds fl u) (x : Ctx) (bn nb : String) (bottom : Finset Cell) (tn : String) {s' s : St}
    (h : Alike u s' s) (q : Poly) :
    Alike u (visitPolyR fl x bn nb bottom tn s' q) (Overlap.visitPoly x bn nb bottom tn s q) := by
  obtain ⟨h1, h2, h3⟩ := h
  unfold visitPolyR Overlap.visitPoly
  rw [h2]
  split
  · exact ⟨h1, h2, h3⟩
  split
  · exact ⟨h1, h2, h3⟩
  rcases (overlapTable x.par).get? tn with _ | _ | ⟨e, es⟩
  · exact ⟨h1, rfl, h3⟩
  · exact ⟨h1, rfl, h3⟩
  simp only
  rcases Dict.get? (e :: es) bn with _ | spec
  · exact ⟨h1, rfl, h3⟩
  · simp only
    obtain ⟨e1, e2⟩ := cap_near hr ((q.cells ∩ bottom) \ s.shielded).card x.dbu spec.cap
    refine ⟨by simp only [h1], rfl, ?_⟩
    simp only [h1]
    by_cases hc : 0 < ((((q.cells ∩ bottom) \ s.shielded).card : ℕ) : ℚ) * x.dbu ^ 2 * spec.cap / 1000
    · rw [if_pos hc, if_pos (e1.2 hc)]
      exact List.rel_append h3 (.cons ⟨rfl, hc, e2 hc⟩ .nil)
    · rw [if_neg hc, if_neg (fun h => hc (e1.1 h))]
      exact h3

theorem visitLayer_alike (hr : Rounds fl u) (x : Ctx) (bn net : String) (bottom : Finset Cell) (nb : Neighborhood) {s' s : St}
    (h : Alike u s' s) (j : Nat) :
    Alike u (visitLayerR fl x bn net bottom nb s' j) (Overlap.visitLayer x bn net bottom nb s j) := by
  unfold visitLayerR Overlap.visitLayer
  rw [h.2.1]
  split
  · exact h
  next hs =>
    rcases nb.get? j with _ | above
    · exact h
    · clear hs
      simp only
      induction above generalizing s' s with
      | nil => exact h
      | cons q l ih => exact ih (visitPoly_alike hr x bn net bottom _ h q)

/-- **C116, overlap.** With rounding the same overlaps are recorded, in the same order, and every capacitance is that of the
exact computation up to the error of five roundings. -/
theorem overlap_rounded (hr : Rounds fl u) (x : Ctx) (i : Nat) (p : Poly) (nb : Neighborhood) :
    List.Forall₂ (fun r' r => r'.key = r.key ∧ 0 < r.capValue ∧
        (1 - u) ^ 5 * r.capValue ≤ r'.capValue ∧ r'.capValue ≤ (1 + u) ^ 5 * r.capValue)
      (neighborsR fl x i p nb) (Overlap.neighbors x i p nb) := by
  unfold neighborsR Overlap.neighbors
  have : ∀ (l : List Nat) (s' s : St), Alike u s' s →
      Alike u (l.foldl (visitLayerR fl x (x.names.getD i "") (bottomNet x i p) p.cells nb) s')
        (l.foldl (Overlap.visitLayer x (x.names.getD i "") (bottomNet x i p) p.cells nb) s) := by
    intro l
    induction l with
    | nil => exact fun _ _ h => h
    | cons j l ih => exact fun s' s h => ih _ _ (visitLayer_alike hr x _ _ _ nb h j)
  exact (this _ ⟨∅, [], false⟩ ⟨∅, [], false⟩ ⟨rfl, rfl, .nil⟩).2.2

end Verif.Rounding
