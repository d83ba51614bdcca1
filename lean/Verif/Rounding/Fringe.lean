import Verif.Common.Rounding
import Verif.Fringe.Props
import Mathlib.Analysis.Calculus.Deriv.MeanValue
import Mathlib.Analysis.SpecialFunctions.Trigonometric.ArctanDeriv

/-!
# Sidewall and fringe capacitances with rounding (C116)

`Verif.Fringe` computes exactly.  Here every operation on floats is followed by a rounding `fl`.
-/

namespace Verif.Rounding

open Fringe (Ctx yLow yHigh)
open Overlap (Poly Cell)
open TechInfo (OverlapSpec SideOverlapSpec SidewallSpec)
open Summary (SidewallCap)

/-! ## The code with rounding -/

/-- `emit_sidewall`, sidewall_and_fringe_extractor.py 256–311. -/
def emitSidewallR (fl : ℚ → ℚ) (x : Ctx) (edgeNet : String) (iv : ℚ × ℚ) (p : Poly) : Except String (List SidewallCap) :=
  let layer := x.names.getD x.inside ""
  if edgeNet = p.net then .ok []
  else
    match (TechInfo.sidewallTable x.par).get? layer with
    | none => .error "KeyError"
    | some spec =>
      let length := fl (fl (iv.2 - iv.1) * x.dbu)
      let distance := fl ((min (yLow p.cells) (yHigh p.cells) : ℤ) * x.dbu)
      if fl (distance + spec.offset) = 0 then .error "ZeroDivisionError"
      else .ok [{ key := ⟨layer, edgeNet, p.net⟩
                  capValue := fl (fl (fl (fl (length * spec.cap) / fl (distance + spec.offset)) / 2) / 1000)
                  distance := distance
                  length := length }]

/-- `alpha_scale_factor`, sidewall_and_fringe_extractor.py 324: the literals are rounded, too. -/
noncomputable def alphaScaleR (fl : ℝ → ℝ) : ℝ := fl (fl (fl (fl (2 / 100) * fl (1 / 100)) * (1 / 2)) * 200)

/-- `(2.0 / math.pi) * math.atan(alpha_c * d)`, sidewall_and_fringe_extractor.py 328, 329 and 332.  `math.pi` is the rounded
number, and `math.atan` is taken to be rounded as the other operations are. -/
noncomputable def ratioR (fl : ℝ → ℝ) (alpha d : ℝ) : ℝ := fl (fl (2 / fl Real.pi) * fl (Real.arctan (fl (alpha * d))))

open Classical in
/-- `fringe_cap`, sidewall_and_fringe_extractor.py 313–347. -/
noncomputable def fringeCapR (fl : ℝ → ℝ) (x : Ctx) (length near far : ℝ) (overlap : OverlapSpec) (side : SideOverlapSpec) :
    Except String ℝ :=
  let nearUm : ℝ := fl (near * x.dbu)
  let farUm : ℝ := fl (far * x.dbu)
  let lengthUm : ℝ := fl (length * x.dbu)
  let alpha : ℝ := fl ((overlap.cap : ℝ) * alphaScaleR fl)
  let cnear : ℝ := ratioR fl alpha nearUm
  let cfar : ℝ := ratioR fl alpha farUm
  let cap (cfar cnear : ℝ) : ℝ := fl (fl (fl (fl (cfar - cnear) * lengthUm) * (side.cap : ℝ)) / 1000)
  if x.scale then
    let full : ℝ := ratioR fl alpha (x.par.sideHalo : ℝ)
    if full < 1 then
      if full = 0 then .error "ZeroDivisionError"
      else .ok (cap (fl (cfar / full)) (fl (cnear / full)))
    else .ok (cap cfar cnear)
  else .ok (cap cfar cnear)

/-! ## Sidewall -/

section Sidewall

variable {fl : ℚ → ℚ} {u : ℚ}

/-- **C116, sidewall.** With rounding the same sidewalls are recorded, in the same order, and every capacitance is that of the
exact computation up to the error of ten roundings; an error occurs exactly if it occurs without rounding. -/
theorem sidewall_rounded (hr : Rounds fl u) (hu : u ≤ 1 / 2) (x : Ctx) (hdbu : 0 ≤ x.dbu)
    (hs : ∀ s ∈ x.par.sidewalls, 0 ≤ s.cap ∧ 0 ≤ s.offset) (edgeNet : String) (iv : ℚ × ℚ) (hiv : iv.1 ≤ iv.2) (p : Poly)
    (hp : ∀ c ∈ p.cells, 0 ≤ c.2) :
    (∀ e, Fringe.emitSidewall x edgeNet iv p = .error e ↔ emitSidewallR fl x edgeNet iv p = .error e) ∧
    ∀ rs, Fringe.emitSidewall x edgeNet iv p = .ok rs → ∃ rs', emitSidewallR fl x edgeNet iv p = .ok rs' ∧
      List.Forall₂ (fun r' r => r'.key = r.key ∧ 0 ≤ r.capValue ∧
        (1 - u) ^ 10 * r.capValue ≤ r'.capValue ∧ r'.capValue ≤ (1 + u) ^ 10 * r.capValue) rs' rs := by
  have h0 := hr.1
  have h1 := hr.2.1
  unfold emitSidewallR Fringe.emitSidewall
  simp only
  by_cases hn : edgeNet = p.net
  · rw [if_pos hn, if_pos hn]
    exact ⟨fun e => Iff.rfl, fun rs h => ⟨[], rfl, by cases h; exact .nil⟩⟩
  rw [if_neg hn, if_neg hn]
  rcases hg : (TechInfo.sidewallTable x.par).get? (x.names.getD x.inside "") with _ | spec
  · exact ⟨fun e => Iff.rfl, fun rs h => (by cases h)⟩
  simp only
  have hspec : spec ∈ x.par.sidewalls := by
    obtain ⟨y, ⟨l₁, l₂, e, -⟩, rfl⟩ := (TechInfo.ofList_map_some _ _ _ _ _).1 hg
    rw [e]; simp
  obtain ⟨hc, ho⟩ := hs spec hspec
  have hy : (0 : ℤ) ≤ min (yLow p.cells) (yHigh p.cells) := by
    unfold yLow yHigh
    refine le_min ?_ ?_
    · split
      · next h =>
        obtain ⟨c, hc, e⟩ := Finset.mem_image.1 (Finset.min'_mem _ h)
        rw [← e]; exact hp c hc
      · exact le_rfl
    · split
      · next h =>
        obtain ⟨c, hc, e⟩ := Finset.mem_image.1 (Finset.max'_mem _ h)
        rw [← e]; have := hp c hc; omega
      · exact le_rfl
  have hy' : (0 : ℚ) ≤ (min (yLow p.cells) (yHigh p.cells) : ℤ) := by exact_mod_cast hy
  generalize ((min (yLow p.cells) (yHigh p.cells) : ℤ) : ℚ) = y at hy'
  have hl : 0 ≤ iv.2 - iv.1 := sub_nonneg.2 hiv
  have d1 := Near.round hr (mul_nonneg hy' hdbu) (Near.refl u (y * x.dbu))
  have d2 := Near.round hr (add_nonneg (mul_nonneg hy' hdbu) ho)
    (Near.add d1 (Near.mono h0 h1 (Nat.zero_le 1) ho (Near.refl u spec.offset)))
  have hden : 0 ≤ y * x.dbu + spec.offset := add_nonneg (mul_nonneg hy' hdbu) ho
  have hz : fl (fl (y * x.dbu) + spec.offset) = 0 ↔ y * x.dbu + spec.offset = 0 := by
    constructor
    · intro h
      rcases hden.eq_or_lt with he | hlt
      · exact he.symm
      · have := d2.pos h1 hlt
        rw [h] at this
        exact absurd this (lt_irrefl _)
    · intro h
      have := d2
      rw [h] at this
      unfold Near at this
      rw [mul_zero, mul_zero] at this
      exact le_antisymm this.2 this.1
  by_cases hzero : y * x.dbu + spec.offset = 0
  · rw [if_pos hzero, if_pos (hz.2 hzero)]
    exact ⟨fun e => Iff.rfl, fun rs h => (by cases h)⟩
  rw [if_neg hzero, if_neg (fun h => hzero (hz.1 h))]
  refine ⟨fun e => ⟨fun h => (by cases h), fun h => (by cases h)⟩, fun rs h => ?_⟩
  cases h
  have hpos : 0 < y * x.dbu + spec.offset := lt_of_le_of_ne hden (Ne.symm hzero)
  refine ⟨_, rfl, .cons ⟨rfl, ?_, ?_⟩ .nil⟩
  · positivity
  · have l1 := Near.round hr hl (Near.refl u (iv.2 - iv.1))
    have l2 := Near.round hr (mul_nonneg hl hdbu) (Near.mul h0 h1 hl hdbu l1 (Near.refl u x.dbu))
    have hld := mul_nonneg hl hdbu
    have l3 := Near.round hr (mul_nonneg hld hc) (Near.mul h0 h1 hld hc l2 (Near.refl u spec.cap))
    have hldc := mul_nonneg hld hc
    have q1 := Near.round hr (div_nonneg hldc hpos.le) (Near.div h0 hu hldc hpos l3 d2)
    have hq := div_nonneg hldc hpos.le
    have q2 := Near.round hr (div_nonneg hq (by norm_num)) (Near.div h0 hu hq (by norm_num : (0 : ℚ) < 2) q1 (Near.refl u 2))
    have hq2 : 0 ≤ (iv.2 - iv.1) * x.dbu * spec.cap / (y * x.dbu + spec.offset) / 2 := div_nonneg hq (by norm_num)
    exact Near.round hr (div_nonneg hq2 (by norm_num)) (Near.div h0 hu hq2 (by norm_num : (0 : ℚ) < 1000) q2 (Near.refl u 1000))

end Sidewall

/-! ## Fringe -/

section Fringe

variable {fl : ℝ → ℝ} {u : ℝ}

theorem arctan_scale {k x : ℝ} (h0 : 0 ≤ k) (h1 : k ≤ 1) (hx : 0 ≤ x) : k * Real.arctan x ≤ Real.arctan (k * x) := by
  have hd : ∀ y, HasDerivAt (fun y => Real.arctan (k * y) - k * Real.arctan y)
      (1 / (1 + (k * y) ^ 2) * k - k * (1 / (1 + y ^ 2))) y := by
    intro y
    have e1 : HasDerivAt (fun y : ℝ => k * y) k y := by simpa using (hasDerivAt_id y).const_mul k
    exact (e1.arctan).sub ((Real.hasDerivAt_arctan y).const_mul k)
  have hm : Monotone (fun y => Real.arctan (k * y) - k * Real.arctan y) := by
    refine monotone_of_deriv_nonneg (fun y => (hd y).differentiableAt) fun y => ?_
    rw [(hd y).deriv]
    have : 1 / (1 + y ^ 2) ≤ 1 / (1 + (k * y) ^ 2) := by
      apply one_div_le_one_div_of_le (by positivity)
      rw [mul_pow]
      nlinarith [mul_nonneg (sq_nonneg y) (sub_nonneg.2 (pow_le_one₀ (n := 2) h0 h1))]
    nlinarith
  have := hm hx
  simp only [mul_zero, Real.arctan_zero, sub_zero] at this
  linarith

/-- The arc tangent does not make a relative error larger. -/
theorem near_arctan (h0 : 0 ≤ u) (h1 : u < 1) {n : Nat} {x y : ℝ} (hy : 0 ≤ y) (h : Near u n x y) :
    Near u n (Real.arctan x) (Real.arctan y) := by
  have p : 0 ≤ 1 - u := by linarith
  constructor
  · exact (arctan_scale (pow_nonneg p n) (pow_le_one₀ p (by linarith)) hy).trans (Real.arctan_mono h.1)
  · refine (Real.arctan_mono h.2).trans ?_
    have hq : (0 : ℝ) < (1 + u) ^ n := by positivity
    have hq1 : (1 : ℝ) ≤ (1 + u) ^ n := one_le_pow₀ (by linarith)
    have := arctan_scale (k := ((1 + u) ^ n)⁻¹) (x := (1 + u) ^ n * y) (by positivity) (inv_le_one_of_one_le₀ hq1) (by positivity)
    rw [inv_mul_cancel_left₀ hq.ne'] at this
    rw [← inv_mul_le_iff₀ hq]
    exact this

theorem arctan_nonneg {x : ℝ} (h : 0 ≤ x) : 0 ≤ Real.arctan x := by
  rw [← Real.arctan_zero]; exact Real.arctan_mono h

theorem near_ratio (hr : Rounds fl u) (hu : u ≤ 1 / 2) {n m : Nat} {a' a d' d : ℝ} (ha : 0 ≤ a) (hd : 0 ≤ d)
    (h : Near u n a' a) (h' : Near u m d' d) :
    Near u (n + m + 6) (ratioR fl a' d') (2 / Real.pi * Real.arctan (a * d)) := by
  have h0 := hr.1
  have h1 := hr.2.1
  have hpi := Real.pi_pos
  unfold ratioR
  have e1 := Near.round hr (mul_nonneg ha hd) (Near.mul h0 h1 ha hd h h')
  have e2 := Near.round hr (arctan_nonneg (mul_nonneg ha hd)) (near_arctan h0 h1 (mul_nonneg ha hd) e1)
  have e3 := Near.round hr hpi.le (Near.refl u Real.pi)
  have e4 := Near.round hr (by positivity) (Near.div h0 hu (by norm_num : (0 : ℝ) ≤ 2) hpi (Near.refl u 2) e3)
  have hq : 0 ≤ 2 / Real.pi := by positivity
  have hat := arctan_nonneg (mul_nonneg ha hd)
  have e5 := Near.round hr (mul_nonneg hq hat) (Near.mul h0 h1 hq hat e4 e2)
  exact e5.mono h0 h1 (by omega) (mul_nonneg hq hat)

theorem near_alphaScale (hr : Rounds fl u) : Near u 5 (alphaScaleR fl) (1 / 50) := by
  have h0 := hr.1
  have h1 := hr.2.1
  unfold alphaScaleR
  have e1 := Near.round hr (by norm_num) (Near.refl u (2 / 100 : ℝ))
  have e2 := Near.round hr (by norm_num) (Near.refl u (1 / 100 : ℝ))
  have e3 := Near.round hr (by norm_num) (Near.mul h0 h1 (by norm_num) (by norm_num) e1 e2)
  have e4 := Near.round hr (by norm_num) (Near.mul h0 h1 (by norm_num) (by norm_num) e3 (Near.refl u (1 / 2 : ℝ)))
  have e5 := Near.round hr (by norm_num) (Near.mul h0 h1 (by norm_num) (by norm_num) e4 (Near.refl u (200 : ℝ)))
  norm_num at e5 ⊢
  exact e5

/-- `y'` is `y` up to an error that `k` roundings of numbers up to `w` may cause. -/
def Off (u : ℝ) (k : Nat) (w y' y : ℝ) : Prop := |y| ≤ w ∧ |y' - y| ≤ 2 * ((1 + u) ^ k - 1) * w

theorem Near.abs_sub_le (h0 : 0 ≤ u) (h1 : u < 1) {n : Nat} {x y : ℝ} (hy : 0 ≤ y) (h : Near u n x y) :
    |x - y| ≤ ((1 + u) ^ n - 1) * y := by
  have b : 2 ≤ (1 + u) ^ n + (1 - u) ^ n := by
    have b1 := one_add_mul_le_pow (a := u) (by linarith) n
    have b2 := one_add_mul_le_pow (a := -u) (by linarith) n
    rw [← sub_eq_add_neg] at b2
    linarith
  rw [abs_le]
  constructor
  · nlinarith [h.1, mul_nonneg (sub_nonneg.2 b) hy]
  · nlinarith [h.2]

theorem Off.sub (h0 : 0 ≤ u) (h1 : u < 1) {n : Nat} {a' a b' b : ℝ} (hb : 0 ≤ b) (hab : b ≤ a) (ha : Near u n a' a)
    (hb' : Near u n b' b) : Off u n a (a' - b') (a - b) := by
  have e1 := Near.abs_sub_le h0 h1 (hb.trans hab) ha
  have e2 := Near.abs_sub_le h0 h1 hb hb'
  have hp : 0 ≤ (1 + u) ^ n - 1 := sub_nonneg.2 (one_le_pow₀ (by linarith))
  refine ⟨by rw [abs_of_nonneg (by linarith)]; linarith, ?_⟩
  have : a' - b' - (a - b) = (a' - a) - (b' - b) := by ring
  rw [this]
  refine (abs_sub _ _).trans ?_
  nlinarith [mul_le_mul_of_nonneg_left hab hp]

theorem Off.step (h0 : 0 ≤ u) {k : Nat} {w y' y z : ℝ} (h : Off u k w y' y) (hz : |z - y'| ≤ u * |y'|) : Off u (k + 1) w z y := by
  obtain ⟨h1, h2⟩ := h
  refine ⟨h1, ?_⟩
  have hw : 0 ≤ w := (abs_nonneg y).trans h1
  have e1 : |y'| ≤ w + 2 * ((1 + u) ^ k - 1) * w := by
    have := abs_sub_abs_le_abs_sub y' y
    linarith
  have e2 : |z - y| ≤ |z - y'| + |y' - y| := abs_sub_le z y' y
  have e3 := mul_le_mul_of_nonneg_left e1 h0
  rw [pow_succ]
  nlinarith [mul_nonneg h0 hw]

theorem Off.scale {k : Nat} {w y' y c : ℝ} (hc : 0 ≤ c) (h : Off u k w y' y) : Off u k (w * c) (y' * c) (y * c) := by
  refine ⟨?_, ?_⟩
  · rw [abs_mul, abs_of_nonneg hc]; exact mul_le_mul_of_nonneg_right h.1 hc
  · rw [← sub_mul, abs_mul, abs_of_nonneg hc, ← mul_assoc]; exact mul_le_mul_of_nonneg_right h.2 hc

theorem Off.round (hr : Rounds fl u) {k : Nat} {w y' y : ℝ} (h : Off u k w y' y) : Off u (k + 1) w (fl y') y :=
  Off.step hr.1 h (hr.2.2 y')

/-- Multiplication with a rounded factor. -/
theorem Off.mulRound (hr : Rounds fl u) {k : Nat} {w y' y c : ℝ} (hc : 0 ≤ c) (h : Off u k w y' y) :
    Off u (k + 1) (w * c) (y' * fl c) (y * c) := by
  refine Off.step hr.1 (Off.scale hc h) ?_
  rw [← mul_sub, abs_mul, abs_mul]
  have := mul_le_mul_of_nonneg_left (hr.2.2 c) (abs_nonneg y')
  linarith

/-- The last line of `fringe_cap`. -/
theorem off_cap (hr : Rounds fl u) {n : Nat} {a' a b' b l c : ℝ} (hl : 0 ≤ l) (hc : 0 ≤ c) (hb : 0 ≤ b) (hab : b ≤ a)
    (ha : Near u n a' a) (hb' : Near u n b' b) :
    |fl (fl (fl (fl (a' - b') * fl l) * c) / 1000) - (a - b) * l * c / 1000| ≤
      2 * ((1 + u) ^ (n + 5) - 1) * (a * l * c / 1000) := by
  have e1 := Off.round hr (Off.sub hr.1 hr.2.1 hb hab ha hb')
  have e2 := Off.round hr (Off.mulRound hr hl e1)
  have e3 := Off.round hr (Off.scale hc e2)
  have e4 := Off.round hr (Off.scale (by norm_num : (0 : ℝ) ≤ 1000⁻¹) e3)
  have := e4.2
  simp only [← div_eq_mul_inv] at this
  exact this

/-- **C116, fringe.** With rounding, the capacitance of a band next to an edge differs from the exact one by at most
`2 ((1 + u)⁴³ - 1)` times the exact capacitance of everything between the edge and the far end of the band; an error occurs
exactly if it occurs without rounding. -/
theorem fringe_rounded (hr : Rounds fl u) (hu : u ≤ 1 / 2) (x : Ctx) (o : OverlapSpec) (s : SideOverlapSpec) (hd : 0 ≤ x.dbu)
    (ho : 0 ≤ o.cap) (hs : 0 ≤ s.cap) (hh : 0 ≤ x.par.sideHalo) (len near far : ℝ) (hl : 0 ≤ len) (hn : 0 ≤ near)
    (hf : near ≤ far) :
    (∀ e, Fringe.fringeCap x len near far o s = .error e ↔ fringeCapR fl x len near far o s = .error e) ∧
    ∀ c w, Fringe.fringeCap x len near far o s = .ok c → Fringe.fringeCap x len 0 far o s = .ok w →
      ∃ c', fringeCapR fl x len near far o s = .ok c' ∧ |c' - c| ≤ 2 * ((1 + u) ^ 43 - 1) * w := by
  have h0 := hr.1
  have h1 := hr.2.1
  have hd' : (0 : ℝ) ≤ x.dbu := by exact_mod_cast hd
  have ho' : (0 : ℝ) ≤ o.cap := by exact_mod_cast ho
  have hs' : (0 : ℝ) ≤ s.cap := by exact_mod_cast hs
  have hh' : (0 : ℝ) ≤ x.par.sideHalo := by exact_mod_cast hh
  have hfar : 0 ≤ far := hn.trans hf
  have ha : (0 : ℝ) ≤ o.cap * (1 / 50) := by positivity
  have al := Near.round hr ha (Near.mul h0 h1 ho' (by norm_num) (Near.refl u (o.cap : ℝ)) (near_alphaScale hr))
  have key : ∀ {m : Nat} {d' d : ℝ}, 0 ≤ d → Near u m d' d →
      Near u (m + 12) (ratioR fl (fl ((o.cap : ℝ) * alphaScaleR fl)) d') (Fringe.ratio o.cap d) := by
    intro m d' d hd0 hm
    have := near_ratio hr hu ha hd0 al hm
    unfold Fringe.ratio
    rw [show (o.cap : ℝ) / 50 * d = o.cap * (1 / 50) * d by ring]
    refine this.mono h0 h1 (by omega) ?_
    have := arctan_nonneg (mul_nonneg ha hd0)
    have := Real.pi_pos
    positivity
  have rn := key (mul_nonneg hn hd') (Near.round hr (mul_nonneg hn hd') (Near.refl u (near * x.dbu)))
  have rf := key (mul_nonneg hfar hd') (Near.round hr (mul_nonneg hfar hd') (Near.refl u (far * x.dbu)))
  have rh := key hh' (Near.refl u (x.par.sideHalo : ℝ))
  have pn : 0 ≤ Fringe.ratio o.cap (near * x.dbu) := Fringe.ratio_nonneg ho (mul_nonneg hn hd')
  have ph : 0 ≤ Fringe.ratio o.cap x.par.sideHalo := Fringe.ratio_nonneg ho hh'
  have pf : Fringe.ratio o.cap (near * x.dbu) ≤ Fringe.ratio o.cap (far * x.dbu) :=
    Fringe.ratio_mono ho (mul_le_mul_of_nonneg_right hf hd')
  have pld := mul_nonneg hl hd'
  have hz : Fringe.ratio o.cap ((0 : ℝ) * x.dbu) = 0 := by simp [Fringe.ratio]
  rw [Fringe.fringeCap_eq, Fringe.fringeCap_eq]
  unfold fringeCapR
  simp only
  generalize ratioR fl (fl ((o.cap : ℝ) * alphaScaleR fl)) (fl (near * x.dbu)) = rn' at rn
  generalize ratioR fl (fl ((o.cap : ℝ) * alphaScaleR fl)) (fl (far * x.dbu)) = rf' at rf
  generalize ratioR fl (fl ((o.cap : ℝ) * alphaScaleR fl)) (x.par.sideHalo : ℝ) = rh' at rh
  unfold Fringe.law
  rw [hz]
  by_cases hsc : x.scale = true
  · simp only [hsc, true_and, if_true]
    rcases ph.eq_or_lt with he | hlt
    · have hr0 : rh' = 0 := by
        rw [← he] at rh
        unfold Near at rh
        rw [mul_zero, mul_zero] at rh
        exact le_antisymm rh.2 rh.1
      rw [if_pos he.symm, hr0, if_pos (by norm_num : (0 : ℝ) < 1), if_pos rfl]
      exact ⟨fun e => Iff.rfl, fun c w h => (by cases h)⟩
    · have hne : Fringe.ratio o.cap x.par.sideHalo ≠ 0 := hlt.ne'
      have hp' : 0 < rh' := rh.pos h1 hlt
      rw [if_neg hne, if_neg hne]
      have fin : ∀ a' b' : ℝ, Near u 38 a' (Fringe.ratio o.cap (far * x.dbu) / Fringe.ratio o.cap x.par.sideHalo) →
          Near u 38 b' (Fringe.ratio o.cap (near * x.dbu) / Fringe.ratio o.cap x.par.sideHalo) →
          |fl (fl (fl (fl (a' - b') * fl (len * x.dbu)) * s.cap) / 1000) -
            (Fringe.ratio o.cap (far * x.dbu) - Fringe.ratio o.cap (near * x.dbu)) / Fringe.ratio o.cap x.par.sideHalo *
              (len * x.dbu) * s.cap / 1000| ≤
            2 * ((1 + u) ^ 43 - 1) * ((Fringe.ratio o.cap (far * x.dbu) - 0) / Fringe.ratio o.cap x.par.sideHalo *
              (len * x.dbu) * s.cap / 1000) := by
        intro a' b' ha' hb'
        have := off_cap hr pld hs' (div_nonneg pn ph) (div_le_div_of_nonneg_right pf ph) ha' hb'
        rw [sub_zero, sub_div]
        exact this
      by_cases hlt1 : rh' < 1
      · rw [if_pos hlt1, if_neg hp'.ne']
        refine ⟨fun e => ⟨fun h => (by cases h), fun h => (by cases h)⟩, ?_⟩
        intro c w hc hw
        cases hc; cases hw
        refine ⟨_, rfl, fin _ _ ?_ ?_⟩
        · exact Near.round hr (div_nonneg (pn.trans pf) ph) (Near.div h0 hu (pn.trans pf) hlt rf rh)
        · exact Near.round hr (div_nonneg pn ph) (Near.div h0 hu pn hlt rn rh)
      · rw [if_neg hlt1]
        refine ⟨fun e => ⟨fun h => (by cases h), fun h => (by cases h)⟩, ?_⟩
        intro c w hc hw
        cases hc; cases hw
        have one : Near u 12 1 (Fringe.ratio o.cap x.par.sideHalo) := by
          refine ⟨?_, (not_lt.1 hlt1).trans rh.2⟩
          have a1 : Fringe.ratio o.cap x.par.sideHalo ≤ 1 := (Fringe.ratio_lt_one _ _).le
          have a2 : (1 - u) ^ 12 ≤ 1 := pow_le_one₀ (by linarith) (by linarith)
          exact mul_le_one₀ a2 ph a1
        refine ⟨_, rfl, fin _ _ ?_ ?_⟩
        · have := Near.div h0 hu (pn.trans pf) hlt rf one
          rw [div_one] at this
          exact this.mono h0 h1 (by omega) (div_nonneg (pn.trans pf) ph)
        · have := Near.div h0 hu pn hlt rn one
          rw [div_one] at this
          exact this.mono h0 h1 (by omega) (div_nonneg pn ph)
  · simp only [hsc]
    refine ⟨fun e => ⟨fun h => (by cases h), fun h => (by cases h)⟩, ?_⟩
    intro c w hc hw
    cases hc; cases hw
    refine ⟨_, rfl, ?_⟩
    have := off_cap (n := 38) hr pld hs' pn pf (rf.mono h0 h1 (by omega) (pn.trans pf)) (rn.mono h0 h1 (by omega) pn)
    simpa using this

end Fringe

end Verif.Rounding
