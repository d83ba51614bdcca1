import Verif.Skinny.Model
import Mathlib.Tactic.Ring
import Mathlib.Tactic.Linarith
import Mathlib.Tactic.FieldSimp
import Mathlib.Tactic.FinCases
import Mathlib.Tactic.LinearCombination
import Mathlib.Algebra.Order.Field.Basic
import Mathlib.Data.Fintype.Basic
import Mathlib.Data.Rat.Cast.Order
import Mathlib.Algebra.BigOperators.Group.List.Basic

/-!
# Splitting skinny triangles (C28)
-/

namespace Verif.Skinny

/-! ## Specification -/

/-- Squared distance of two points. -/
def dist2 (a b : Pt) : ℚ := (a.1 - b.1) ^ 2 + (a.2 - b.2) ^ 2

/-- The lines from `a` to `b` and from `c` to `d` are perpendicular. -/
def Perpendicular (a b c d : Pt) : Prop := (b.1 - a.1) * (d.1 - c.1) + (b.2 - a.2) * (d.2 - c.2) = 0

/-- The side opposite to vertex `k` is longer than allowed: its squared length exceeds (by the tolerance 1e-10) the sum
of the squared lengths of the two sides meeting at `k`. -/
def LongSideOpposite (t : Tri) (k : Fin 3) : Prop :=
  dist2 (t.p (k + 1)) (t.p k) + dist2 (t.p (k + 2)) (t.p k) < dist2 (t.p (k + 2)) (t.p (k + 1)) * (1 - 1 / 10000000000)

/-- Twice the signed area. -/
def area2 (t : Tri) : ℚ :=
  ((t.p 1).1 - (t.p 0).1) * ((t.p 2).2 - (t.p 0).2) - ((t.p 1).2 - (t.p 0).2) * ((t.p 2).1 - (t.p 0).1)

/-- `q` lies strictly between `a` and `b`. -/
def StrictlyBetween (a b q : Pt) : Prop := ∃ s : ℚ, 0 < s ∧ s < 1 ∧ q = a + s • (b - a)

/-- The two triangles are the result of cutting `t` from vertex `k` perpendicularly to the opposite side: `q` is an inner
point of that side, the cut is perpendicular to it, and the triangles are the two parts. -/
structure CutFromVertex (t : Tri) (k : Fin 3) (parts : List Tri) : Prop where
  cut : ∃ q, StrictlyBetween (t.p (k + 1)) (t.p (k + 2)) q ∧
    Perpendicular q (t.p k) (t.p (k + 1)) (t.p (k + 2)) ∧
    parts = [⟨![t.p (k + 2), t.p k, q]⟩, ⟨![q, t.p k, t.p (k + 1)]⟩]

/-! ## Proofs -/

private theorem sqLength_sub (a b : Pt) : sqLength (a - b) = dist2 a b := by
  unfold sqLength dist2; simp only [Prod.fst_sub, Prod.snd_sub]; ring

private theorem test_iff (t : Tri) (i : Fin 3) : testAt t i ↔ LongSideOpposite t (i + 2) := by
  have e1 : (i + 2 + 1 : Fin 3) = i := by fin_cases i <;> rfl
  have e2 : (i + 2 + 2 : Fin 3) = i + 1 := by fin_cases i <;> rfl
  unfold testAt LongSideOpposite
  rw [e1, e2]
  have h1 : dist2 (t.p (i + 2)) (t.p (i + 1)) = dist2 (t.p (i + 1)) (t.p (i + 2)) := by
    unfold dist2; ring
  simp only [sqLength_sub]
  rw [h1, add_comm]

private theorem long_dot {t : Tri} {k : Fin 3} (h : LongSideOpposite t k) :
    sprod (t.p (k + 1) - t.p k) (t.p (k + 2) - t.p k) < 0 := by
  unfold LongSideOpposite at h
  unfold dist2 at h
  unfold sprod
  simp only [Prod.fst_sub, Prod.snd_sub] at h ⊢
  nlinarith [sq_nonneg ((t.p (k + 2)).1 - (t.p (k + 1)).1), sq_nonneg ((t.p (k + 2)).2 - (t.p (k + 1)).2)]

/-- At most one vertex has a long opposite side. -/
private theorem long_unique {t : Tri} {k : Fin 3} (h : LongSideOpposite t k) (j : Fin 3) (hj : j ≠ k) :
    ¬ LongSideOpposite t j := by
  intro h2
  unfold LongSideOpposite dist2 at h h2
  fin_cases k <;> fin_cases j <;>
    simp only [Fin.zero_eta, Fin.mk_one, Fin.reduceFinMk, ne_eq, not_true_eq_false, Fin.reduceAdd] at h h2 hj <;>
    nlinarith [sq_nonneg ((t.p 0).1 - (t.p 1).1), sq_nonneg ((t.p 0).2 - (t.p 1).2),
      sq_nonneg ((t.p 0).1 - (t.p 2).1), sq_nonneg ((t.p 0).2 - (t.p 2).2),
      sq_nonneg ((t.p 1).1 - (t.p 2).1), sq_nonneg ((t.p 1).2 - (t.p 2).2)]

private theorem split_cut (t : Tri) (i : Fin 3) (h : LongSideOpposite t (i + 2)) :
    CutFromVertex t (i + 2) [⟨![t.p (i + 1), t.p (i + 2), splitPoint t i]⟩, ⟨![splitPoint t i, t.p (i + 2), t.p i]⟩] := by
  have e1 : (i + 2 + 1 : Fin 3) = i := by fin_cases i <;> rfl
  have e2 : (i + 2 + 2 : Fin 3) = i + 1 := by fin_cases i <;> rfl
  have hd := long_dot h
  rw [e1, e2] at hd
  constructor
  rw [e1, e2]
  -- abbreviations
  generalize ha : t.p i = a at *
  generalize hb : t.p (i + 1) = b at *
  generalize hc : t.p (i + 2) = c at *
  have hlen : 0 < sqLength (b - a) := by
    unfold sprod at hd; unfold sqLength
    simp only [Prod.fst_sub, Prod.snd_sub] at hd ⊢
    by_contra hn
    have h1 : b.1 - a.1 = 0 := by nlinarith [sq_nonneg (b.1 - a.1), sq_nonneg (b.2 - a.2)]
    have h2 : b.2 - a.2 = 0 := by nlinarith [sq_nonneg (b.1 - a.1), sq_nonneg (b.2 - a.2)]
    have h1' : b.1 = a.1 := by linarith
    have h2' : b.2 = a.2 := by linarith
    rw [h1', h2'] at hd
    nlinarith [sq_nonneg (a.1 - c.1), sq_nonneg (a.2 - c.2)]
  have hsp : splitPoint t i = b + (sprod (a - b) (c - b) / sqLength (b - a)) • (a - b) := by
    unfold splitPoint; simp only [ha, hb, hc]
  set L := sqLength (b - a) with hL
  set τ := sprod (a - b) (c - b) / L with hτ
  have hτL : τ * L = sprod (a - b) (c - b) := by rw [hτ]; field_simp
  have hτ0 : 0 < τ := by
    rw [hτ]
    refine div_pos ?_ hlen
    unfold sprod at hd ⊢
    simp only [Prod.fst_sub, Prod.snd_sub] at hd ⊢
    nlinarith [sq_nonneg (b.1 - c.1), sq_nonneg (b.2 - c.2)]
  have hτ1 : τ < 1 := by
    rw [hτ, div_lt_one hlen, hL]
    unfold sprod at hd ⊢
    unfold sqLength
    simp only [Prod.fst_sub, Prod.snd_sub] at hd ⊢
    nlinarith [sq_nonneg (a.1 - c.1), sq_nonneg (a.2 - c.2)]
  refine ⟨splitPoint t i, ⟨1 - τ, by linarith, by linarith, ?_⟩, ?_, rfl⟩
  · rw [hsp]
    ext <;> simp [smul_eq_mul] <;> ring
  · rw [hsp]
    unfold Perpendicular
    simp only [Prod.fst_sub, Prod.snd_sub, Prod.fst_add, Prod.snd_add, Prod.smul_fst, Prod.smul_snd, smul_eq_mul]
    rw [hL] at hτL
    unfold sqLength sprod at hτL
    simp only [Prod.fst_sub, Prod.snd_sub] at hτL
    linear_combination hτL

/-- A triangle without a long side is left alone. -/
theorem not_skinny_unchanged (t : Tri) (h : ∀ k, ¬ LongSideOpposite t k) : expandSkinnyTris t = [t] := by
  have hi : isSkinnyTri t = none := by
    unfold isSkinnyTri
    rw [if_neg (fun h0 => h _ ((test_iff t 0).1 h0)), if_neg (fun h0 => h _ ((test_iff t 1).1 h0)),
      if_neg (fun h0 => h _ ((test_iff t 2).1 h0))]
  unfold expandSkinnyTris
  rw [hi]

/-- **C28** (partial: the long side must not be opposite to the middle vertex of the list, see `skinny_split_fails`).
A triangle whose long side is opposite to the first or the last vertex is cut from that vertex, perpendicularly to that
side, at an inner point of the side. -/
theorem skinny_split_partial (t : Tri) (k : Fin 3) (hk : k ≠ 1) (h : LongSideOpposite t k) :
    CutFromVertex t k (expandSkinnyTris t) := by
  have hne : ∀ j, j ≠ k → ¬ LongSideOpposite t j := fun j hj => long_unique h j hj
  fin_cases k
  · -- vertex 0 is found in iteration 1
    have h0 : ¬ testAt t 0 := fun hh => hne 2 (by decide) ((test_iff t 0).1 hh)
    have h1 : testAt t 1 := (test_iff t 1).2 h
    have hi : isSkinnyTri t = some true := by unfold isSkinnyTri; rw [if_neg h0, if_pos h1]; rfl
    unfold expandSkinnyTris
    rw [hi]
    exact split_cut t 1 h
  · exact absurd rfl hk
  · have h0 : testAt t 0 := (test_iff t 0).2 h
    have hi : isSkinnyTri t = some false := by unfold isSkinnyTri; rw [if_pos h0]; rfl
    unfold expandSkinnyTris
    rw [hi]
    exact split_cut t 0 h

/-- Whenever the long side is opposite to the middle vertex, the side between the second and third vertex is split
instead, at a point outside of it: `splitPoint` lies beyond the second vertex. -/
theorem skinny_split_misplaced (t : Tri) (h : LongSideOpposite t 1) :
    ∃ τ : ℚ, 1 < τ ∧ ∃ q, q = t.p 2 + τ • (t.p 1 - t.p 2) ∧
      expandSkinnyTris t = [⟨![t.p 2, t.p 0, q]⟩, ⟨![q, t.p 0, t.p 1]⟩] := by
  have h0 : ¬ testAt t 0 := fun hh => long_unique h 2 (by decide) ((test_iff t 0).1 hh)
  have h1 : ¬ testAt t 1 := fun hh => long_unique h 0 (by decide) ((test_iff t 1).1 hh)
  have h2 : testAt t 2 := (test_iff t 2).2 h
  have hi : isSkinnyTri t = some true := by unfold isSkinnyTri; rw [if_neg h0, if_neg h1, if_pos h2]; rfl
  have hd := long_dot h
  have hd' : sprod (t.p 2 - t.p 1) (t.p 0 - t.p 1) < 0 := hd
  have hlen : 0 < sqLength (t.p 2 - t.p 1) := by
    unfold sprod at hd'; unfold sqLength
    simp only [Prod.fst_sub, Prod.snd_sub] at hd' ⊢
    by_contra hn
    have h1 : (t.p 2).1 - (t.p 1).1 = 0 := by
      nlinarith [sq_nonneg ((t.p 2).1 - (t.p 1).1), sq_nonneg ((t.p 2).2 - (t.p 1).2)]
    have h2 : (t.p 2).2 - (t.p 1).2 = 0 := by
      nlinarith [sq_nonneg ((t.p 2).1 - (t.p 1).1), sq_nonneg ((t.p 2).2 - (t.p 1).2)]
    rw [h1, h2] at hd'
    linarith
  refine ⟨sprod (t.p 1 - t.p 2) (t.p 0 - t.p 2) / sqLength (t.p 2 - t.p 1), ?_, splitPoint t 1, rfl, ?_⟩
  · rw [lt_div_iff₀ hlen, one_mul]
    unfold sprod at hd' ⊢
    unfold sqLength
    simp only [Prod.fst_sub, Prod.snd_sub] at hd' ⊢
    nlinarith
  · unfold expandSkinnyTris
    rw [hi]; rfl

/-- **C28 is violated** for the triangle (0,0), (5,1), (10,0), a normalised KLayout hull: the two parts together have
more than twice the triangle's area, because the wrong side is split. -/
theorem skinny_split_fails : ∃ t : Tri, LongSideOpposite t 1 ∧ ¬ CutFromVertex t 1 (expandSkinnyTris t) ∧
    ((expandSkinnyTris t).map fun u => |area2 u|).sum > 2 * |area2 t| := by
  refine ⟨⟨![(0, 0), (5, 1), (10, 0)]⟩, ?_, ?_, ?_⟩
  · unfold LongSideOpposite; decide +kernel
  · rintro ⟨q, ⟨s, h0, h1, rfl⟩, -, hp⟩
    have e : expandSkinnyTris ⟨![(0, 0), (5, 1), (10, 0)]⟩ =
        [⟨![(10, 0), (0, 0), (5 / 13, 25 / 13)]⟩, ⟨![(5 / 13, 25 / 13), (0, 0), (5, 1)]⟩] := by
      have hi : isSkinnyTri ⟨![(0, 0), (5, 1), (10, 0)]⟩ = some true := by decide +kernel
      unfold expandSkinnyTris
      rw [hi]
      have hs : splitPoint ⟨![(0, 0), (5, 1), (10, 0)]⟩ (boolIndex true) = (5 / 13, 25 / 13) := by decide +kernel
      simp only [hs]
      rfl
    rw [e] at hp
    have h2 := congrArg (fun l : List Tri => (l.head?.map fun u => (u.p 0).1)) hp
    have : (some (10 : ℚ)) = some 0 := h2
    norm_num at this
  · decide +kernel

/-- Non-vacuity of `skinny_split_partial`: the same triangle listed from another vertex. -/
example : LongSideOpposite ⟨![(5, 1), (10, 0), (0, 0)]⟩ 0 := by unfold LongSideOpposite; decide +kernel

end Verif.Skinny
