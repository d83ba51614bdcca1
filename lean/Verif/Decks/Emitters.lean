import Mathlib.Tactic.Linarith
import Mathlib.Tactic.Ring

/-!
# Which models LVS gives to bipolar transistors by the size of their emitters

Models the selections of emitters in pdk/ihp_sg13g2/libs.tech/kpex/rule_decks/bjt_derivations.lvs 55, 75, 94 and
pdk/sky130A/libs.tech/kpex/sky130.lvs 1099, 1104, 1125, 1130, for rectangular emitters that touch no other one and no poly. Lengths are in
nanometres, areas in square nanometres.
-/

namespace Verif.Decks

/-- The limits of a selection of KLayout; the upper one does not belong to the range. -/
structure Limits where
  lo : Int
  hi : Int

/-- A value is selected. -/
def Limits.has (l : Limits) (v : Int) : Bool := decide (l.lo ≤ v) && decide (v < l.hi)

/-- A selection with one value. -/
def exactly (v : Int) : Limits := ⟨v, v + 1⟩

/-- `with_bbox_min`, `with_bbox_max` and `with_area` of sg13g2. -/
structure NpnRule where
  model : String
  least : Limits
  greatest : Limits
  area : Limits

/-- `npn13G2_e_pin`; bjt_derivations.lvs 55. -/
def npn13G2 : NpnRule := ⟨"npn13G2", exactly 70, exactly 900, exactly 63000⟩

/-- `npn13G2l_e_pin`; bjt_derivations.lvs 75. -/
def npn13G2l : NpnRule := ⟨"npn13G2l", exactly 70, ⟨1000, 2500⟩, ⟨70000, 175000⟩⟩

/-- `npn13G2v_e_pin`; bjt_derivations.lvs 94. -/
def npn13G2v : NpnRule := ⟨"npn13G2v", exactly 120, ⟨1000, 5000⟩, ⟨120000, 600000⟩⟩

/-- The rectangular emitter with the sides `w` and `h` is selected. -/
def NpnRule.selects (r : NpnRule) (w h : Int) : Bool := r.least.has (min w h) && r.greatest.has (max w h) && r.area.has (w * h)

/-- `with_area` and `interacting(edges.with_length)` of sky130A. -/
structure SkyRule where
  model : String
  area : Limits
  edge : Limits

/-- The emitters of npn transistors without poly; sky130.lvs 1099, 1104, 2017, 2023. -/
def skyNpn : List SkyRule :=
  [⟨"npn_05v5_W1p00L1p00", ⟨810000, 1210000⟩, ⟨900, 1100⟩⟩, ⟨"npn_05v5_W1p00L2p00", ⟨1710000, 2310000⟩, ⟨1900, 2100⟩⟩]

/-- The emitters of pnp transistors; sky130.lvs 1125, 1130, 2041, 2047. -/
def skyPnp : List SkyRule :=
  [⟨"pnp_05v5_W0p68L0p68", ⟨336400, 608400⟩, ⟨580, 780⟩⟩, ⟨"pnp_05v5_W3p40L3p40", ⟨10240000, 12960000⟩, ⟨3200, 3600⟩⟩]

/-- The models of a rectangular emitter. -/
def skyModels (rules : List SkyRule) (w h : Int) : List String :=
  (rules.filter fun r => r.area.has (w * h) && (r.edge.has w || r.edge.has h)).map (·.model)

/-! ### Specification -/

/-- The sides of the rectangle are `a` and `b`, in any direction. -/
def Sides (w h a b : Int) : Prop := w = a ∧ h = b ∨ w = b ∧ h = a

/-- The length is the nominal one up to the tolerance; the upper limit is excluded. -/
def Near (nominal tolerance v : Int) : Prop := nominal - tolerance ≤ v ∧ v < nominal + tolerance

/-! ### Proofs -/

theorem limits_iff {l : Limits} {v : Int} : l.has v = true ↔ l.lo ≤ v ∧ v < l.hi := by simp [Limits.has]

theorem exactly_iff {a v : Int} : (exactly a).has v = true ↔ v = a := by
  rw [limits_iff]
  simp only [exactly]
  omega

/-- The transistor npn13G2 is the one with an emitter of 0.07 µm by 0.9 µm. -/
theorem npn13G2_emitter (w h : Int) : npn13G2.selects w h = true ↔ Sides w h 70 900 := by
  simp only [NpnRule.selects, npn13G2, Bool.and_eq_true, exactly_iff, Sides]
  constructor
  · rintro ⟨⟨h1, h2⟩, -⟩
    omega
  · rintro (⟨rfl, rfl⟩ | ⟨rfl, rfl⟩) <;> decide

theorem long_emitter {r : NpnRule} {a lo hi : Int} (ha : 0 < a) (hlo : a ≤ lo) (h1 : r.least = exactly a) (h2 : r.greatest = ⟨lo, hi⟩)
    (h3 : r.area = ⟨a * lo, a * hi⟩) (w h : Int) : r.selects w h = true ↔ ∃ l, Sides w h a l ∧ lo ≤ l ∧ l < hi := by
  simp only [NpnRule.selects, h1, h2, h3, Bool.and_eq_true, Sides]
  rw [exactly_iff, limits_iff, limits_iff]
  simp only
  constructor
  · rintro ⟨⟨h1, h2, h3⟩, -⟩
    exact ⟨max w h, by omega, h2, h3⟩
  · rintro ⟨l, h, hl, hu⟩
    have e1 : a * lo ≤ a * l := mul_le_mul_of_nonneg_left hl ha.le
    have e2 : a * l < a * hi := mul_lt_mul_of_pos_left hu ha
    rcases h with ⟨rfl, rfl⟩ | ⟨rfl, rfl⟩
    · exact ⟨⟨by omega, by omega, by omega⟩, e1, e2⟩
    · rw [mul_comm w]
      exact ⟨⟨by omega, by omega, by omega⟩, e1, e2⟩

/-- The transistor npn13G2l is one with an emitter that is 0.07 µm wide, at least 1 µm and less than 2.5 µm long. -/
theorem npn13G2l_emitter_partial (w h : Int) : npn13G2l.selects w h = true ↔ ∃ l, Sides w h 70 l ∧ 1000 ≤ l ∧ l < 2500 :=
  long_emitter (by decide) (by decide) rfl rfl rfl w h

/-- The transistor npn13G2v is one with an emitter that is 0.12 µm wide, at least 1 µm and less than 5 µm long. -/
theorem npn13G2v_emitter_partial (w h : Int) : npn13G2v.selects w h = true ↔ ∃ l, Sides w h 120 l ∧ 1000 ≤ l ∧ l < 5000 :=
  long_emitter (by decide) (by decide) rfl rfl rfl w h

/-- Violation: the longest emitters that the script announces, 2.5 µm and 5 µm, are not selected. -/
theorem longest_lost : (npn13G2l.selects 70 2500 = false ∧ npn13G2l.selects 2500 70 = false) ∧
    npn13G2v.selects 120 5000 = false ∧ npn13G2v.selects 5000 120 = false := by decide

theorem near_has {n t v : Int} : (Limits.mk (n - t) (n + t)).has v = true ↔ Near n t v := limits_iff

theorem near_area {a b t w h : Int} (ha : t < a) (hb : t < b) (hw : Near a t w) (hh : Near b t h) :
    (a - t) * (b - t) ≤ w * h ∧ w * h < (a + t) * (b + t) := by
  obtain ⟨h1, h2⟩ := hw
  obtain ⟨h3, h4⟩ := hh
  constructor
  · exact mul_le_mul h1 h3 (by omega) (by omega)
  · exact mul_lt_mul'' h2 h4 (by omega) (by omega)

/-- An emitter with the sides of a model of sky130A, up to the tolerance, gets this model and no other. -/
theorem sky_npn_1x1_partial {w h : Int} (hw : Near 1000 100 w) (hh : Near 1000 100 h) : skyModels skyNpn w h = ["npn_05v5_W1p00L1p00"] := by
  obtain ⟨h1, h2⟩ := near_area (by decide) (by decide) hw hh
  have a : Limits.has ⟨810000, 1210000⟩ (w * h) = true := limits_iff.2 ⟨by simp only; omega, by simp only; omega⟩
  have b : Limits.has ⟨1710000, 2310000⟩ (w * h) = false := by rw [← Bool.not_eq_true, limits_iff]; simp only; omega
  have c : Limits.has ⟨900, 1100⟩ w = true := limits_iff.2 hw
  simp [skyModels, skyNpn, a, b, c]

theorem sky_npn_1x2_partial {w h : Int} (hs : Near 1000 100 w ∧ Near 2000 100 h ∨ Near 2000 100 w ∧ Near 1000 100 h) :
    skyModels skyNpn w h = ["npn_05v5_W1p00L2p00"] := by
  have ha : 900 * 1900 ≤ w * h ∧ w * h < 1100 * 2100 := by
    rcases hs with ⟨hw, hh⟩ | ⟨hw, hh⟩
    · exact near_area (by decide) (by decide) hw hh
    · rw [mul_comm w]
      exact near_area (by decide) (by decide) hh hw
  have a : Limits.has ⟨810000, 1210000⟩ (w * h) = false := by rw [← Bool.not_eq_true, limits_iff]; simp only; omega
  have b : Limits.has ⟨1710000, 2310000⟩ (w * h) = true := limits_iff.2 ⟨by simp only; omega, by simp only; omega⟩
  have c : (Limits.has ⟨1900, 2100⟩ w || Limits.has ⟨1900, 2100⟩ h) = true := by
    rw [Bool.or_eq_true, limits_iff, limits_iff]
    rcases hs with ⟨-, hh⟩ | ⟨hw, -⟩
    · exact .inr hh
    · exact .inl hw
  simp only [skyModels, skyNpn, List.filter_cons, List.filter_nil, a, b, c, Bool.false_and, Bool.and_self, if_true, Bool.false_eq_true,
    if_false, List.map_cons, List.map_nil]

theorem sky_pnp_0p68_partial {w h : Int} (hw : Near 680 100 w) (hh : Near 680 100 h) :
    skyModels skyPnp w h = ["pnp_05v5_W0p68L0p68"] := by
  obtain ⟨h1, h2⟩ := near_area (by decide) (by decide) hw hh
  have a : Limits.has ⟨336400, 608400⟩ (w * h) = true := limits_iff.2 ⟨by simp only; omega, by simp only; omega⟩
  have b : Limits.has ⟨10240000, 12960000⟩ (w * h) = false := by rw [← Bool.not_eq_true, limits_iff]; simp only; omega
  have c : Limits.has ⟨580, 780⟩ w = true := limits_iff.2 hw
  simp [skyModels, skyPnp, a, b, c]

theorem sky_pnp_3p40_partial {w h : Int} (hw : Near 3400 200 w) (hh : Near 3400 200 h) :
    skyModels skyPnp w h = ["pnp_05v5_W3p40L3p40"] := by
  obtain ⟨h1, h2⟩ := near_area (by decide) (by decide) hw hh
  have a : Limits.has ⟨336400, 608400⟩ (w * h) = false := by rw [← Bool.not_eq_true, limits_iff]; simp only; omega
  have b : Limits.has ⟨10240000, 12960000⟩ (w * h) = true := limits_iff.2 ⟨by simp only; omega, by simp only; omega⟩
  have c : Limits.has ⟨3200, 3600⟩ w = true := limits_iff.2 hw
  simp [skyModels, skyPnp, a, b, c]

/-- No emitter gets two models. -/
theorem sky_one_model (w h : Int) : (skyModels skyNpn w h).length ≤ 1 ∧ (skyModels skyPnp w h).length ≤ 1 := by
  constructor
  · by_cases a : Limits.has ⟨810000, 1210000⟩ (w * h) = true
    · have b : Limits.has ⟨1710000, 2310000⟩ (w * h) = false := by
        rw [limits_iff] at a
        rw [← Bool.not_eq_true, limits_iff]
        simp only at a ⊢
        omega
      simp only [skyModels, skyNpn, List.filter_cons, List.filter_nil, b, Bool.false_and, Bool.false_eq_true, if_false]
      split <;> simp
    · simp only [Bool.not_eq_true] at a
      simp only [skyModels, skyNpn, List.filter_cons, List.filter_nil, a, Bool.false_and, Bool.false_eq_true, if_false]
      split <;> simp
  · by_cases a : Limits.has ⟨336400, 608400⟩ (w * h) = true
    · have b : Limits.has ⟨10240000, 12960000⟩ (w * h) = false := by
        rw [limits_iff] at a
        rw [← Bool.not_eq_true, limits_iff]
        simp only at a ⊢
        omega
      simp only [skyModels, skyPnp, List.filter_cons, List.filter_nil, b, Bool.false_and, Bool.false_eq_true, if_false]
      split <;> simp
    · simp only [Bool.not_eq_true] at a
      simp only [skyModels, skyPnp, List.filter_cons, List.filter_nil, a, Bool.false_and, Bool.false_eq_true, if_false]
      split <;> simp

/-- Violation: an emitter gets the model of a square although one of its sides is outside of the tolerance. -/
theorem sky_oblong : skyModels skyNpn 1000 1200 = ["npn_05v5_W1p00L1p00"] ∧ ¬ Near 1000 100 1200 ∧
    skyModels skyPnp 600 1000 = ["pnp_05v5_W0p68L0p68"] ∧ ¬ Near 680 100 1000 := by
  refine ⟨by decide, by simp [Near], by decide, by simp [Near]⟩

/-- Emitters of nominal size. -/
theorem emitters_ex : npn13G2.selects 900 70 = true ∧ npn13G2l.selects 70 2499 = true ∧ npn13G2v.selects 1000 120 = true ∧
    Near 1000 100 1000 ∧ Near 2000 100 2000 ∧ Near 680 100 680 ∧ Near 3400 200 3400 := by
  refine ⟨by decide, by decide, by decide, ?_, ?_, ?_, ?_⟩ <;> simp [Near]

end Verif.Decks
