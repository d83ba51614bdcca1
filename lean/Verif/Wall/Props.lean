import Verif.Wall.Model
import Mathlib.Tactic.Linarith
import Mathlib.Tactic.Ring
import Mathlib.Tactic.FieldSimp
import Mathlib.Tactic.LinearCombination
import Mathlib.NumberTheory.Real.Irrational

/-!
# C73: vertical surfaces stand on the edges of the layout
-/

namespace Verif.Wall

open Verif.Finalize (Point)

theorem len_sq (e : Edge) : len e ^ 2 = ((e.x2 : ℝ) - e.x1) ^ 2 + ((e.y2 : ℝ) - e.y1) ^ 2 :=
  Real.sq_sqrt (by positivity)

/-- The edge has two different ends. -/
def Proper (e : Edge) : Prop := e.x1 ≠ e.x2 ∨ e.y1 ≠ e.y2

theorem len_pos {e : Edge} (h : Proper e) : 0 < len e := by
  unfold len
  apply Real.sqrt_pos.2
  rcases h with h | h
  · have : ((e.x2 : ℝ) - e.x1) ≠ 0 := sub_ne_zero.2 (by exact_mod_cast h.symm)
    have := pow_pos (abs_pos.2 this) 2
    rw [sq_abs] at this
    have := sq_nonneg ((e.y2 : ℝ) - e.y1)
    linarith
  · have : ((e.y2 : ℝ) - e.y1) ≠ 0 := sub_ne_zero.2 (by exact_mod_cast h.symm)
    have := pow_pos (abs_pos.2 this) 2
    rw [sq_abs] at this
    have := sq_nonneg ((e.x2 : ℝ) - e.x1)
    linarith

/-- Before the conversion to integers, the ends of the box are the ends of the edge. -/
theorem ends_exact {e : Edge} (h : Proper e) :
    (plane e).p0.1 + (plane e).de.1 * (ends id e).1 = e.x1 ∧ (plane e).p0.2 + (plane e).de.2 * (ends id e).1 = e.y1 ∧
    (plane e).p0.1 + (plane e).de.1 * (ends id e).2 = e.x2 ∧ (plane e).p0.2 + (plane e).de.2 * (ends id e).2 = e.y2 := by
  have hl := (len_pos h).ne'
  have hs := len_sq e
  simp only [plane, ends, id]
  set L := len e
  set dx := (e.x2 : ℝ) - e.x1
  set dy := (e.y2 : ℝ) - e.y1
  have hx2 : (e.x2 : ℝ) = e.x1 + dx := by simp [dx]
  have hy2 : (e.y2 : ℝ) = e.y1 + dy := by simp [dy]
  rw [hx2, hy2]
  refine ⟨?_, ?_, ?_, ?_⟩ <;> field_simp <;> rw [show L ^ 4 = (L ^ 2) ^ 2 by ring, hs] <;> ring

/-- The ends of the box: the edge's ends, projected on its direction. -/
theorem ends_eq (e : Edge) :
    (ends id e).1 = (e.x1 * ((e.x2 : ℝ) - e.x1) + e.y1 * ((e.y2 : ℝ) - e.y1)) / len e ∧
    (ends id e).2 = (e.x2 * ((e.x2 : ℝ) - e.x1) + e.y2 * ((e.y2 : ℝ) - e.y1)) / len e := by
  simp only [plane, ends, id]
  constructor <;> ring

/-- The box is as long as the edge. -/
theorem ends_length {e : Edge} (h : Proper e) : (ends id e).2 - (ends id e).1 = len e := by
  have hl := (len_pos h).ne'
  have hs := len_sq e
  rw [(ends_eq e).1, (ends_eq e).2, ← sub_div, div_eq_iff hl, ← pow_two, hs]
  ring

/-- What is known of the conversion to integers: less than one unit off, and integers are kept. -/
structure Conversion (toInt : ℝ → ℤ) : Prop where
  near : ∀ x, |(toInt x : ℝ) - x| < 1
  int : ∀ n : ℤ, toInt n = n

theorem unit_de {e : Edge} (h : Proper e) : (plane e).de.1 ^ 2 + (plane e).de.2 ^ 2 = 1 := by
  have hl := (len_pos h).ne'
  have hs := len_sq e
  simp only [plane]
  field_simp
  rw [hs]

/-- Horizontal or vertical. -/
def Manhattan (e : Edge) : Prop := e.x1 = e.x2 ∨ e.y1 = e.y2

/-- The unit vector and the foot of an edge along an axis have integer coordinates. -/
theorem manhattan_plane {e : Edge} (h : Proper e) (hm : Manhattan e) :
    (∃ a : ℤ, (plane e).p0.1 = a) ∧ (∃ a : ℤ, (plane e).p0.2 = a) ∧ (∃ a : ℤ, (plane e).de.1 = a) ∧
      ∃ a : ℤ, (plane e).de.2 = a := by
  have hl := len_pos h
  have hs := len_sq e
  have key : ∀ d : ℝ, d ≠ 0 → len e = |d| → ∃ s : ℤ, d / len e = s ∧ s * s = 1 := by
    intro d hd hL
    rw [hL]
    rcases lt_or_gt_of_ne hd with hlt | hgt
    · refine ⟨-1, ?_, by norm_num⟩
      rw [abs_of_neg hlt, div_neg, div_self hd]
      push_cast
      ring
    · refine ⟨1, ?_, by norm_num⟩
      rw [abs_of_pos hgt, div_self hd]
      push_cast
      ring
  rcases hm with hx | hy
  · have hdx : (e.x2 : ℝ) - e.x1 = 0 := by rw [hx]; ring
    have hy : e.y1 ≠ e.y2 := h.resolve_left (fun hc => hc hx)
    rw [hdx] at hs
    have hL : len e = |(e.y2 : ℝ) - e.y1| := by
      rw [← Real.sqrt_sq hl.le, hs]
      simp only [ne_eq, OfNat.ofNat_ne_zero, not_false_eq_true, zero_pow, zero_add, Real.sqrt_sq_eq_abs]
    obtain ⟨s, hs, _⟩ := key _ (sub_ne_zero.2 (by exact_mod_cast hy.symm)) hL
    simp only [plane, hdx, hs]
    refine ⟨⟨s * (s * e.x1), by push_cast; ring⟩, ⟨0, by push_cast; ring⟩, ⟨0, by push_cast; ring⟩, ⟨s, rfl⟩⟩
  · have hdy : (e.y2 : ℝ) - e.y1 = 0 := by rw [hy]; ring
    have hx : e.x1 ≠ e.x2 := h.resolve_right (fun hc => hc hy)
    rw [hdy] at hs
    have hL : len e = |(e.x2 : ℝ) - e.x1| := by
      rw [← Real.sqrt_sq hl.le, hs]
      simp only [ne_eq, OfNat.ofNat_ne_zero, not_false_eq_true, zero_pow, add_zero, Real.sqrt_sq_eq_abs]
    obtain ⟨s, hs, _⟩ := key _ (sub_ne_zero.2 (by exact_mod_cast hx.symm)) hL
    simp only [plane, hdy, neg_div, hs]
    refine ⟨⟨0, by push_cast; ring⟩, ⟨s * (s * e.y1), by push_cast; ring⟩, ⟨s, rfl⟩, ⟨0, by push_cast; ring⟩⟩

theorem manhattan_ends (conv : ℝ → ℝ) (hv : ∀ n : ℤ, conv n = n) {e : Edge} (h : Proper e) (hm : Manhattan e) :
    ends conv e = ends id e ∧ ∃ a b : ℤ, (ends id e).1 = a ∧ (ends id e).2 = b := by
  obtain ⟨⟨a, ha⟩, ⟨b, hb⟩, ⟨c, hc⟩, ⟨d, hd⟩⟩ := manhattan_plane h hm
  simp only [ends, ha, hb, hc, hd, hv, id]
  refine ⟨trivial, (e.x1 - a) * c + (e.y1 - b) * d, (e.x2 - a) * c + (e.y2 - b) * d, ?_, ?_⟩ <;> push_cast <;> ring

theorem floor_grid {dbu : ℝ} (hd : 0 < dbu) (n : ℤ) : ⌊(n : ℝ) * dbu / dbu + 1 / 2⌋ = n := by
  rw [mul_div_assoc, div_self hd.ne', mul_one, Int.floor_eq_iff]
  constructor <;> linarith

/-- C73, edges along an axis: the corners of the vertical surface are the ends of the edge, at the two heights. -/
theorem wall_manhattan (conv : ℝ → ℝ) (hv : ∀ n : ℤ, conv n = n) (toInt : ℝ → ℤ) (hc : Conversion toInt) (dbu : ℝ)
    (hd : 0 < dbu) (n m : ℤ) (e : Edge) (h : Proper e) (hm : Manhattan e) (b : Box)
    (hb : b = box conv toInt dbu (n * dbu) (m * dbu) e) :
    place dbu (plane e) b.left b.bottom = ⟨e.x1 * dbu, e.y1 * dbu, n * dbu⟩ ∧
    place dbu (plane e) b.right b.bottom = ⟨e.x2 * dbu, e.y2 * dbu, n * dbu⟩ ∧
    place dbu (plane e) b.left b.top = ⟨e.x1 * dbu, e.y1 * dbu, m * dbu⟩ ∧
    place dbu (plane e) b.right b.top = ⟨e.x2 * dbu, e.y2 * dbu, m * dbu⟩ := by
  subst hb
  obtain ⟨hends, l, r, hl, hr⟩ := manhattan_ends conv hv h hm
  obtain ⟨h1, h2, h3, h4⟩ := ends_exact h
  have e1 : ((toInt (ends id e).1 : ℤ) : ℝ) = (ends id e).1 := by rw [hl, hc.int]
  have e2 : ((toInt (ends id e).2 : ℤ) : ℝ) = (ends id e).2 := by rw [hr, hc.int]
  simp only [place, box, hends, floor_grid hd, e1, e2, h1, h2, h3, h4, and_self]

/-- C73, any edge: the corners of the vertical surface are at the two heights, on the vertical plane through the edge,
and less than one database unit away from the ends of the edge. -/
theorem wall_near_partial (toInt : ℝ → ℤ) (hc : Conversion toInt) (dbu : ℝ) (hd : 0 < dbu) (n m : ℤ) (e : Edge)
    (h : Proper e) (b : Box) (hb : b = box id toInt dbu (n * dbu) (m * dbu) e) (q : Point ℝ)
    (x y z : ℝ) (hq : (q = place dbu (plane e) b.left b.bottom ∧ x = e.x1 * dbu ∧ y = e.y1 * dbu ∧ z = n * dbu) ∨
      (q = place dbu (plane e) b.right b.bottom ∧ x = e.x2 * dbu ∧ y = e.y2 * dbu ∧ z = n * dbu) ∨
      (q = place dbu (plane e) b.left b.top ∧ x = e.x1 * dbu ∧ y = e.y1 * dbu ∧ z = m * dbu) ∨
      (q = place dbu (plane e) b.right b.top ∧ x = e.x2 * dbu ∧ y = e.y2 * dbu ∧ z = m * dbu)) :
    q.z = z ∧ (q.x - x) * ((e.y2 : ℝ) - e.y1) = (q.y - y) * ((e.x2 : ℝ) - e.x1) ∧
      (q.x - x) ^ 2 + (q.y - y) ^ 2 < dbu ^ 2 := by
  obtain ⟨h1, h2, h3, h4⟩ := ends_exact h
  have hu := unit_de h
  have hpar : (plane e).de.1 * ((e.y2 : ℝ) - e.y1) = (plane e).de.2 * ((e.x2 : ℝ) - e.x1) := by
    simp only [plane]; ring
  have key : ∀ (t : ℝ) (px py : ℤ) (w : ℤ), (plane e).p0.1 + (plane e).de.1 * t = px →
      (plane e).p0.2 + (plane e).de.2 * t = py →
      (place dbu (plane e) (toInt t) w).z = w * dbu ∧
      ((place dbu (plane e) (toInt t) w).x - px * dbu) * ((e.y2 : ℝ) - e.y1) =
        ((place dbu (plane e) (toInt t) w).y - py * dbu) * ((e.x2 : ℝ) - e.x1) ∧
      ((place dbu (plane e) (toInt t) w).x - px * dbu) ^ 2 + ((place dbu (plane e) (toInt t) w).y - py * dbu) ^ 2 <
        dbu ^ 2 := by
    intro t px py w hx hy
    simp only [place]
    have ex : ((plane e).p0.1 + (plane e).de.1 * (toInt t)) * dbu - px * dbu =
        (plane e).de.1 * ((toInt t : ℝ) - t) * dbu := by rw [← hx]; ring
    have ey : ((plane e).p0.2 + (plane e).de.2 * (toInt t)) * dbu - py * dbu =
        (plane e).de.2 * ((toInt t : ℝ) - t) * dbu := by rw [← hy]; ring
    rw [ex, ey]
    refine ⟨trivial, ?_, ?_⟩
    · linear_combination ((toInt t : ℝ) - t) * dbu * hpar
    · have hlt : ((toInt t : ℝ) - t) ^ 2 < 1 := by
        rw [sq_lt_one_iff_abs_lt_one]
        exact hc.near t
      have : ((plane e).de.1 * ((toInt t : ℝ) - t) * dbu) ^ 2 + ((plane e).de.2 * ((toInt t : ℝ) - t) * dbu) ^ 2 =
          ((toInt t : ℝ) - t) ^ 2 * dbu ^ 2 := by linear_combination ((toInt t : ℝ) - t) ^ 2 * dbu ^ 2 * hu
      rw [this]
      have hd2 : 0 < dbu ^ 2 := by positivity
      nlinarith
  subst hb
  simp only [box, floor_grid hd] at hq
  rcases hq with ⟨rfl, rfl, rfl, rfl⟩ | ⟨rfl, rfl, rfl, rfl⟩ | ⟨rfl, rfl, rfl, rfl⟩ | ⟨rfl, rfl, rfl, rfl⟩
  · exact key _ _ _ _ h1 h2
  · exact key _ _ _ _ h3 h4
  · exact key _ _ _ _ h1 h2
  · exact key _ _ _ _ h3 h4

/-- Finding: the surface of a diagonal edge never reaches an end of the edge that is not next to the origin, whatever
the conversion to integers does: there is no integer position for it. -/
theorem wall_diagonal_off (toInt : ℝ → ℤ) (dbu : ℝ) (hd : 0 < dbu) (z zz : ℝ) (e : Edge)
    (hdiag : e.x2 - e.x1 = e.y2 - e.y1) (h : Proper e) (ho : e.x1 + e.y1 ≠ 0) (y : ℤ) :
    (place dbu (plane e) (box id toInt dbu z zz e).left y).x ≠ e.x1 * dbu := by
  intro hc
  obtain ⟨h1, h2, _, _⟩ := ends_exact h
  simp only [place, box] at hc
  have hc' := mul_right_cancel₀ hd.ne' hc
  rw [← h1] at hc'
  have hl := len_pos h
  have hdx : ((e.x2 : ℝ) - e.x1) ≠ 0 := by
    intro h0
    have hx : e.x2 - e.x1 = 0 := by exact_mod_cast h0
    rcases h with h | h <;> omega
  have hde : (plane e).de.1 ≠ 0 := by
    simp only [plane]
    exact div_ne_zero hdx hl.ne'
  have heq : ((toInt (ends id e).1 : ℤ) : ℝ) = (ends id e).1 := mul_left_cancel₀ hde (add_left_cancel hc')
  have hdy : ((e.y2 : ℝ) - e.y1) = (e.x2 : ℝ) - e.x1 := by exact_mod_cast hdiag.symm
  have hs := len_sq e
  rw [hdy] at hs
  have hsq : ((toInt (ends id e).1 : ℤ) : ℝ) ^ 2 * 2 = ((e.x1 + e.y1 : ℤ) : ℝ) ^ 2 := by
    rw [heq, (ends_eq e).1, hdy, div_pow, hs]
    push_cast
    field_simp
    ring
  have hirr : Irrational (Real.sqrt 2) := irrational_sqrt_two
  apply hirr
  have hk : ((toInt (ends id e).1 : ℤ) : ℝ) ≠ 0 := by
    intro h0
    rw [h0] at hsq
    have : ((e.x1 + e.y1 : ℤ) : ℝ) = 0 := by
      have := hsq.symm
      simpa using this
    exact ho (by exact_mod_cast this)
  refine ⟨|((e.x1 + e.y1 : ℤ) : ℚ) / (toInt (ends id e).1 : ℤ)|, ?_⟩
  push_cast
  have hpos : (2 : ℝ) = (|((e.x1 : ℝ) + e.y1) / (toInt (ends id e).1 : ℤ)|) ^ 2 := by
    rw [sq_abs, div_pow, eq_div_iff (pow_ne_zero 2 hk)]
    push_cast at hsq
    linarith
  conv_rhs => rw [hpos]
  rw [Real.sqrt_sq (abs_nonneg _)]

/-- Finding: if the mixed operations make integers of the unit vector, the surface of a diagonal edge is as long as the
two sides of the triangle below it, and not as the edge. -/
theorem wall_diagonal_long (e : Edge) (h : Proper e) (hdiag : e.x2 - e.x1 = e.y2 - e.y1)
    (conv : ℝ → ℝ) (hv : conv = fun x : ℝ => ((⌊x + 1 / 2⌋ : ℤ) : ℝ)) :
    ((ends conv e).2 - (ends conv e).1) ^ 2 = 2 * len e ^ 2 := by
  have hl := len_pos h
  have hs := len_sq e
  have hdy : ((e.y2 : ℝ) - e.y1) = (e.x2 : ℝ) - e.x1 := by exact_mod_cast hdiag.symm
  have hde : (plane e).de.2 = (plane e).de.1 := by simp only [plane, hdy]
  have hsq : (plane e).de.1 ^ 2 = 1 / 2 := by
    have := unit_de h
    rw [hde] at this
    linarith
  have hone : conv (plane e).de.1 ^ 2 = 1 := by
    rw [hv]
    rcases lt_or_ge (plane e).de.1 0 with hneg | hpos
    · have : ⌊(plane e).de.1 + 1 / 2⌋ = -1 := by
        rw [Int.floor_eq_iff]
        push_cast
        constructor <;> nlinarith
      simp only [this]
      norm_num
    · have : ⌊(plane e).de.1 + 1 / 2⌋ = 1 := by
        rw [Int.floor_eq_iff]
        push_cast
        constructor <;> nlinarith
      simp only [this]
      norm_num
  have : (ends conv e).2 - (ends conv e).1 = 2 * ((e.x2 : ℝ) - e.x1) * conv (plane e).de.1 := by
    simp only [ends, hde]
    linear_combination conv (plane e).de.1 * hdy
  rw [this, mul_pow, hone, hs, hdy]
  ring

/-- Two edges on one line and of the same direction have the same plane, so that their surfaces are merged. -/
theorem plane_of_line (e f : Edge) (he : Proper e) (k : ℝ) (hk : 0 < k)
    (hx : (f.x2 : ℝ) - f.x1 = k * ((e.x2 : ℝ) - e.x1)) (hy : (f.y2 : ℝ) - f.y1 = k * ((e.y2 : ℝ) - e.y1))
    (hline : ((f.x1 : ℝ) - e.x1) * ((e.y2 : ℝ) - e.y1) = ((f.y1 : ℝ) - e.y1) * ((e.x2 : ℝ) - e.x1)) :
    plane f = plane e := by
  have hl := len_pos he
  have hlen : len f = k * len e := by
    unfold len
    rw [hx, hy, ← Real.sqrt_sq hk.le, ← Real.sqrt_mul (sq_nonneg k), Real.sqrt_sq hk.le]
    congr 1
    ring
  have h1 : ((f.x2 : ℝ) - f.x1) / len f = ((e.x2 : ℝ) - e.x1) / len e := by
    rw [hx, hlen, mul_div_mul_left _ _ hk.ne']
  have h2 : ((f.y2 : ℝ) - f.y1) / len f = ((e.y2 : ℝ) - e.y1) / len e := by
    rw [hy, hlen, mul_div_mul_left _ _ hk.ne']
  have h3 : -((f.x2 : ℝ) - f.x1) / len f = -((e.x2 : ℝ) - e.x1) / len e := by rw [neg_div, h1, neg_div]
  have h4 : ((e.y2 : ℝ) - e.y1) / len e * f.x1 + -((e.x2 : ℝ) - e.x1) / len e * f.y1 =
      ((e.y2 : ℝ) - e.y1) / len e * e.x1 + -((e.x2 : ℝ) - e.x1) / len e * e.y1 := by
    rw [div_mul_eq_mul_div, div_mul_eq_mul_div, ← add_div, div_mul_eq_mul_div, div_mul_eq_mul_div, ← add_div]
    congr 1
    linarith
  simp only [plane, h1, h2, h3, h4]

/-- Rounding to the nearest integer is such a conversion. -/
theorem round_conversion : Conversion (fun x : ℝ => ⌊x + 1 / 2⌋) where
  near := by
    intro x
    have h1 := Int.floor_le (x + 1 / 2)
    have h2 := Int.lt_floor_add_one (x + 1 / 2)
    rw [abs_lt]
    constructor <;> linarith
  int := by
    intro n
    rw [Int.floor_eq_iff]
    constructor <;> linarith

/-- Concrete edges: one along an axis, one diagonal. -/
theorem examples : (Proper ⟨3, 7, 3, 1⟩ ∧ Manhattan ⟨3, 7, 3, 1⟩) ∧ Proper ⟨1, 0, 5, 4⟩ ∧ (5 : ℤ) - 1 = 4 - 0 ∧
    (1 : ℤ) + 0 ≠ 0 := by
  refine ⟨⟨Or.inr (by decide), Or.inl rfl⟩, Or.inl (by decide), by norm_num, by norm_num⟩

end Verif.Wall
