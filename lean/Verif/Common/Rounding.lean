import Mathlib.Algebra.Order.Ring.Rat
import Mathlib.Algebra.Order.Field.Basic
import Mathlib.Algebra.Order.Ring.Pow
import Mathlib.Algebra.Order.Group.Unbundled.Abs
import Mathlib.Algebra.Order.AbsoluteValue.Basic
import Mathlib.Tactic.Linarith
import Mathlib.Tactic.Positivity
import Mathlib.Tactic.Ring

/-!
# Rounding

Numbers are rationals in most of the model.  Where rounding is modelled, every operation is followed by a function `fl` about
which nothing is assumed but a bound for its relative error; overflow and underflow are left out.
-/

namespace Verif

variable {K : Type} [Field K] [LinearOrder K] [IsStrictOrderedRing K]

/-- `fl` rounds with a relative error of at most `u`.  IEEE doubles, as Python's `float`: `u = 2⁻⁵³`. -/
def Rounds (fl : K → K) (u : K) : Prop := 0 ≤ u ∧ u < 1 ∧ ∀ x, |fl x - x| ≤ u * |x|

/-- `x` is `y` up to a relative error as that of `n` roundings. -/
def Near (u : K) (n : Nat) (x y : K) : Prop := (1 - u) ^ n * y ≤ x ∧ x ≤ (1 + u) ^ n * y

variable {fl : K → K} {u : K}

theorem Rounds.le (h : Rounds fl u) {x : K} (hx : 0 ≤ x) : fl x ≤ (1 + u) * x := by
  have := abs_le.1 (h.2.2 x)
  rw [abs_of_nonneg hx] at this
  linarith

theorem Rounds.ge (h : Rounds fl u) {x : K} (hx : 0 ≤ x) : (1 - u) * x ≤ fl x := by
  have := abs_le.1 (h.2.2 x)
  rw [abs_of_nonneg hx] at this
  linarith

theorem Rounds.nonneg (h : Rounds fl u) {x : K} (hx : 0 ≤ x) : 0 ≤ fl x :=
  (mul_nonneg (by have := h.2.1; linarith) hx).trans (h.ge hx)

theorem Rounds.nonpos (h : Rounds fl u) {x : K} (hx : x ≤ 0) : fl x ≤ 0 := by
  have := abs_le.1 (h.2.2 x)
  rw [abs_of_nonpos hx] at this
  nlinarith [h.1, h.2.1, mul_nonneg (sub_nonneg.2 h.2.1.le) (neg_nonneg.2 hx)]

theorem Rounds.pos (h : Rounds fl u) {x : K} (hx : 0 < x) : 0 < fl x :=
  lt_of_lt_of_le (mul_pos (by have := h.2.1; linarith) hx) (h.ge hx.le)

namespace Near

variable {n m : Nat} {x y x' y' : K}

theorem refl (u : K) (x : K) : Near u 0 x x := by simp [Near]

theorem nonneg (h1 : u < 1) (hy : 0 ≤ y) (h : Near u n x y) : 0 ≤ x :=
  (mul_nonneg (pow_nonneg (by linarith) n) hy).trans h.1

theorem pos (h1 : u < 1) (hy : 0 < y) (h : Near u n x y) : 0 < x :=
  lt_of_lt_of_le (mul_pos (pow_pos (by linarith) n) hy) h.1

theorem mono (h0 : 0 ≤ u) (h1 : u < 1) (hnm : n ≤ m) (hy : 0 ≤ y) (h : Near u n x y) : Near u m x y := by
  refine ⟨le_trans ?_ h.1, h.2.trans ?_⟩
  · exact mul_le_mul_of_nonneg_right (pow_le_pow_of_le_one (by linarith) (by linarith) hnm) hy
  · exact mul_le_mul_of_nonneg_right (pow_le_pow_right₀ (by linarith) hnm) hy

theorem add (h : Near u n x y) (h' : Near u n x' y') : Near u n (x + x') (y + y') := by
  unfold Near at *
  constructor
  · rw [mul_add]; exact add_le_add h.1 h'.1
  · rw [mul_add]; exact add_le_add h.2 h'.2

theorem mul (h0 : 0 ≤ u) (h1 : u < 1) (hy : 0 ≤ y) (hy' : 0 ≤ y') (h : Near u n x y) (h' : Near u m x' y') :
    Near u (n + m) (x * x') (y * y') := by
  have hx := h.nonneg h1 hy
  have hx' := h'.nonneg h1 hy'
  have p : 0 ≤ 1 - u := by linarith
  have q : 0 ≤ 1 + u := by linarith
  constructor
  · calc (1 - u) ^ (n + m) * (y * y') = ((1 - u) ^ n * y) * ((1 - u) ^ m * y') := by rw [pow_add]; ring
      _ ≤ x * x' := mul_le_mul h.1 h'.1 (mul_nonneg (pow_nonneg p m) hy') hx
  · calc x * x' ≤ ((1 + u) ^ n * y) * ((1 + u) ^ m * y') := mul_le_mul h.2 h'.2 hx' (mul_nonneg (pow_nonneg q n) hy)
      _ = (1 + u) ^ (n + m) * (y * y') := by rw [pow_add]; ring

/-- A rounding error in a denominator counts twice. -/
theorem inv (h0 : 0 ≤ u) (h1 : u ≤ 1 / 2) (hy : 0 < y) (h : Near u n x y) : Near u (2 * n) x⁻¹ y⁻¹ := by
  have h1' : u < 1 := by linarith
  have hx := h.pos h1' hy
  have p : 0 < 1 - u := by linarith
  have q : 0 < 1 + u := by linarith
  have hb : 1 ≤ (1 - u) * (1 + u) ^ 2 := by nlinarith [mul_nonneg h0 (sub_nonneg.2 h1), mul_nonneg (mul_nonneg h0 h0) h0]
  have ha : (1 - u) ^ 2 * (1 + u) ≤ 1 := by nlinarith [mul_nonneg h0 (sub_nonneg.2 h1), mul_nonneg h0 h0]
  constructor
  · rw [le_inv_comm₀ (by positivity) hx]
    refine h.2.trans ?_
    rw [mul_inv, inv_inv]
    refine mul_le_mul_of_nonneg_right ?_ hy.le
    rw [le_inv_comm₀ (by positivity) (by positivity), ← one_div, le_div_iff₀ (by positivity), pow_mul, ← mul_pow]
    exact pow_le_one₀ (by positivity) ha
  · rw [inv_le_comm₀ hx (by positivity)]
    refine le_trans ?_ h.1
    rw [mul_inv, inv_inv]
    refine mul_le_mul_of_nonneg_right ?_ hy.le
    rw [inv_le_comm₀ (by positivity) (by positivity), ← one_div, div_le_iff₀ (by positivity), pow_mul, ← mul_pow,
      mul_comm ((1 + u) ^ 2)]
    exact one_le_pow₀ hb

theorem div (h0 : 0 ≤ u) (h1 : u ≤ 1 / 2) (hy : 0 ≤ y) (hy' : 0 < y') (h : Near u n x y) (h' : Near u m x' y') :
    Near u (n + 2 * m) (x / x') (y / y') := by
  rw [div_eq_mul_inv, div_eq_mul_inv]
  exact mul h0 (by linarith) hy (inv_nonneg.2 hy'.le) h (inv h0 h1 hy' h')

theorem round (hr : Rounds fl u) (hy : 0 ≤ y) (h : Near u n x y) : Near u (n + 1) (fl x) y := by
  have h0 := hr.1
  have h1 := hr.2.1
  have hx : 0 ≤ x := h.nonneg h1 hy
  constructor
  · refine le_trans ?_ (hr.ge hx)
    rw [pow_succ, mul_comm ((1 - u) ^ n), mul_assoc]
    exact mul_le_mul_of_nonneg_left h.1 (by linarith)
  · refine (hr.le hx).trans ?_
    rw [pow_succ, mul_comm ((1 + u) ^ n), mul_assoc]
    exact mul_le_mul_of_nonneg_left h.2 (by linarith)

end Near

end Verif
