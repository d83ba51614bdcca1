import Mathlib.Data.Set.Finite.Basic
import Mathlib.Data.Set.Finite.Lattice
import Mathlib.Data.Set.Card
import Mathlib.Data.Rat.Floor
import Mathlib.Algebra.Order.Field.Rat
import Mathlib.Order.Preorder.Finite
import Mathlib.Tactic.Linarith

/-!
# Two families of intervals that refine the same partition

The one-dimensional heart of the completeness of `check`: intervals are pairs `(l, r)` with `l < r`.
-/

namespace Verif.Checker

/-- `y` is covered by the family. -/
def Cov (A : Set (ℚ × ℚ)) (y : ℚ) : Prop := ∃ i ∈ A, i.1 ≤ y ∧ y ≤ i.2

/-- Between `x` and `b` there is a point `y > x` such that no element of a finite set lies in `(x, y]`. -/
theorem exists_gap (P : Set ℚ) (hP : P.Finite) (x b : ℚ) (hxb : x < b) :
    ∃ y, x < y ∧ y < b ∧ ∀ p ∈ P, ¬ (x < p ∧ p ≤ y) := by
  have hf : ((P ∪ {b}) ∩ {p | x < p}).Finite := (hP.union (Set.finite_singleton b)).subset Set.inter_subset_left
  obtain ⟨m, hm, hmin⟩ := hf.exists_minimal ⟨b, Or.inr rfl, hxb⟩
  have hmx : x < m := hm.2
  have hle : ∀ p ∈ (P ∪ {b}) ∩ {p | x < p}, m ≤ p := by
    intro p hp
    rcases le_total m p with h | h
    · exact h
    · exact hmin hp h
  refine ⟨(x + m) / 2, by linarith, ?_, ?_⟩
  · have := hle b ⟨Or.inr rfl, hxb⟩
    linarith
  · rintro p hp ⟨h1, h2⟩
    have := hle p ⟨Or.inl hp, h1⟩
    linarith

/-- What the rounds of `_split_edges` reach on one line. `A0`, `B0`: the original intervals of the two directions,
`A`, `B`: the intervals at the end. -/
structure Refined (A0 B0 A B : Set (ℚ × ℚ)) : Prop where
  finA : A.Finite
  finB : B.Finite
  posA0 : ∀ i ∈ A0, i.1 < i.2
  posB0 : ∀ i ∈ B0, i.1 < i.2
  posA : ∀ i ∈ A, i.1 < i.2
  posB : ∀ i ∈ B, i.1 < i.2
  simpleA : ∀ i ∈ A0, ∀ j ∈ A0, ∀ u v, u < v → i.1 ≤ u → v ≤ i.2 → j.1 ≤ u → v ≤ j.2 → i = j
  simpleB : ∀ i ∈ B0, ∀ j ∈ B0, ∀ u v, u < v → i.1 ≤ u → v ≤ i.2 → j.1 ≤ u → v ≤ j.2 → i = j
  covAB : ∀ y, Cov A y ↔ Cov B y
  inA : ∀ i ∈ A, ∃ o ∈ A0, o.1 ≤ i.1 ∧ i.2 ≤ o.2
  inB : ∀ i ∈ B, ∃ o ∈ B0, o.1 ≤ i.1 ∧ i.2 ≤ o.2
  startA : ∀ i ∈ A, ∃ o, (o ∈ A0 ∨ o ∈ B0) ∧ (i.1 = o.1 ∨ i.1 = o.2)
  startB : ∀ i ∈ B, ∃ o, (o ∈ A0 ∨ o ∈ B0) ∧ (i.1 = o.1 ∨ i.1 = o.2)
  fix : ∀ i ∈ A, ∀ j ∈ B, i.1 = j.1 → i.2 = j.2

theorem Refined.symm {A0 B0 A B : Set (ℚ × ℚ)} (h : Refined A0 B0 A B) : Refined B0 A0 B A where
  finA := h.finB
  finB := h.finA
  posA0 := h.posB0
  posB0 := h.posA0
  posA := h.posB
  posB := h.posA
  simpleA := h.simpleB
  simpleB := h.simpleA
  covAB y := (h.covAB y).symm
  inA := h.inB
  inB := h.inA
  startA i hi := by
    obtain ⟨o, ho, hh⟩ := h.startB i hi
    exact ⟨o, ho.symm, hh⟩
  startB i hi := by
    obtain ⟨o, ho, hh⟩ := h.startA i hi
    exact ⟨o, ho.symm, hh⟩
  fix i hi j hj e := (h.fix j hj i hi e.symm).symm

/-- A point strictly inside of an original interval of a simple family is not an end of one of its intervals. -/
theorem no_end_inside {A0 : Set (ℚ × ℚ)} (pos : ∀ i ∈ A0, i.1 < i.2)
    (simple : ∀ i ∈ A0, ∀ j ∈ A0, ∀ u v, u < v → i.1 ≤ u → v ≤ i.2 → j.1 ≤ u → v ≤ j.2 → i = j)
    {o : ℚ × ℚ} (ho : o ∈ A0) {x : ℚ} (h1 : o.1 < x) (h2 : x < o.2) {g : ℚ × ℚ} (hg : g ∈ A0)
    (he : x = g.1 ∨ x = g.2) : False := by
  have hp := pos g hg
  rcases he with rfl | rfl
  · have := simple o ho g hg g.1 (min o.2 g.2) (lt_min h2 hp) h1.le (min_le_left _ _) le_rfl (min_le_right _ _)
    subst this
    exact lt_irrefl _ h1
  · have := simple o ho g hg (max o.1 g.1) g.2 (max_lt h1 hp) (le_max_left _ _) h2.le (le_max_right _ _) le_rfl
    subst this
    exact lt_irrefl _ h2

theorem refined_sub {A0 B0 A B : Set (ℚ × ℚ)} (h : Refined A0 B0 A B) (i : ℚ × ℚ) (hi : i ∈ A)
    (ih : ∀ j ∈ B, j.1 < i.1 → j ∈ A) : i ∈ B := by
  have hpos := h.posA i hi
  obtain ⟨y, hxy, hyb, hgap⟩ := exists_gap (Prod.fst '' B) (h.finB.image _) i.1 i.2 hpos
  obtain ⟨j, hj, hj1, hj2⟩ := (h.covAB y).1 ⟨i, hi, hxy.le, hyb.le⟩
  have hjx : j.1 ≤ i.1 := by
    rcases le_or_gt j.1 i.1 with hc | hc
    · exact hc
    · exact absurd ⟨hc, hj1⟩ (hgap j.1 ⟨j, hj, rfl⟩)
  rcases hjx.lt_or_eq with hlt | heq
  · exfalso
    have hjA := ih j hj hlt
    obtain ⟨oa, hoa, ha1, ha2⟩ := h.inA j hjA
    obtain ⟨ob, hob, hb1, hb2⟩ := h.inB j hj
    obtain ⟨g, hg, he⟩ := h.startA i hi
    rcases hg with hg | hg
    · exact no_end_inside h.posA0 h.simpleA hoa (by linarith) (by linarith) hg he
    · exact no_end_inside h.posB0 h.simpleB hob (by linarith) (by linarith) hg he
  · have := h.fix i hi j hj heq.symm
    have : i = j := Prod.ext heq.symm this
    exact this ▸ hj

/-- At the end both directions have the same intervals. -/
theorem refined_eq {A0 B0 A B : Set (ℚ × ℚ)} (h : Refined A0 B0 A B) : A = B := by
  have key : ∀ n : ℕ, ∀ x : ℚ, ((Prod.fst '' (A ∪ B)) ∩ {y | y < x}).ncard = n →
      ∀ i : ℚ × ℚ, i.1 = x → (i ∈ A ↔ i ∈ B) := by
    intro n
    induction n using Nat.strong_induction_on with
    | _ n ih =>
      intro x hx i hix
      have hfin : (Prod.fst '' (A ∪ B)).Finite := (h.finA.union h.finB).image _
      have hless : ∀ j : ℚ × ℚ, (j ∈ A ∨ j ∈ B) → j.1 < x → (j ∈ A ↔ j ∈ B) := by
        intro j hj hjx
        refine ih _ ?_ j.1 rfl j rfl
        rw [← hx]
        refine Set.ncard_lt_ncard ?_ (hfin.subset Set.inter_subset_left)
        refine ⟨?_, ?_⟩
        · rintro y ⟨h1, h2⟩
          exact ⟨h1, lt_trans (show y < j.1 from h2) hjx⟩
        · intro hc
          exact lt_irrefl _ (show j.1 < j.1 from (hc ⟨⟨j, hj, rfl⟩, hjx⟩).2)
      constructor
      · intro hi
        exact refined_sub h i hi fun j hj hlt => (hless j (Or.inr hj) (hix ▸ hlt)).2 hj
      · intro hi
        exact refined_sub h.symm i hi fun j hj hlt => (hless j (Or.inl hj) (hix ▸ hlt)).1 hj
  ext i
  exact key _ i.1 rfl i rfl

end Verif.Checker
