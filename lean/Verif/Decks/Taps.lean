import Mathlib.Algebra.Order.Interval.Finset.Basic
import Mathlib.Data.Int.Interval
import Mathlib.Order.Interval.Finset.Basic
import Mathlib.Data.Finset.Prod
import Mathlib.Data.Finset.Union
import Mathlib.Algebra.Order.Field.Rat
import Mathlib.Data.Rat.Cast.Order
import Mathlib.Tactic.Linarith

/-!
# The taps with a resistance of sg13g2

The shapes of the taps ntap1 and ptap1 (pdk/ihp_sg13g2/libs.tech/kpex/rule_decks/tap_derivations.lvs 26–42), their area (tap_extraction.lvs 28 and 32)
and the contacts that are joined to them (tap_connections.lvs 27 and 31). A shape is the set of the squares of the grid of the database unit
that it covers, so that shapes with slanted edges are left out. `area` is for taps whose well covers the tie;
`device` says what happens otherwise. Left out as well: the layers of taps and excluded shapes, which are parameters, and into how many devices the tie is cut by excluded shapes.
-/

namespace Verif.Decks.Taps

/-- A square of the grid, and a shape. -/
abbrev Square := ℤ × ℤ
abbrev Shape := Finset Square

/-- The bounding box of a shape, which is the union of all boxes between the sides of four squares: `extents` of KLayout for one polygon. -/
def box (p : Shape) : Shape :=
  p.biUnion fun a => p.biUnion fun b => p.biUnion fun c => p.biUnion fun d => Finset.Icc a.1 b.1 ×ˢ Finset.Icc c.2 d.2

/-- `pactiv.and(ptap1_mk).extents.not(ptap1_exc)`, and the same for ntap1: `taps` are the merged polygons, `exc` the excluded layers;
tap_derivations.lvs 35 and 41. -/
def tie (taps : Finset Shape) (exc : Shape) : Shape := taps.biUnion box \ exc

/-- The two shapes have a common point, which may be a corner. -/
def touch (p q : Shape) : Prop := ∃ a ∈ p, ∃ b ∈ q, |a.1 - b.1| ≤ 1 ∧ |a.2 - b.2| ≤ 1

/-- `connect(ptap1_tie, cont_drw)`: KLayout joins shapes that have a common point; tap_connections.lvs 27 and 31. -/
def joined (taps : Finset Shape) (exc contact : Shape) : Prop := touch contact (tie taps exc)

/-- The parameter A of the devices together, in squares of the database unit; tap_extraction.lvs 28 and 32. -/
def area (taps : Finset Shape) (exc : Shape) : Nat := (tie taps exc).card

/-- The device of a tap, with its area: `ptap1_sub = pwell.covering(ptap1_tie)`, and the same for ntap1, keeps the polygons of the well that cover the
tie; without one there is no device. The tie is one polygon; tap_derivations.lvs 36 and 42, tap_extraction.lvs 28 and 32. -/
def device (wells : Finset Shape) (tap exc : Shape) : Option Nat :=
  if ∃ w ∈ wells, tie {tap} exc ⊆ w then some (area {tap} exc) else none

/-! ### Specification -/

/-- The taps as they are drawn, outside of the excluded layers. -/
def drawn (taps : Finset Shape) (exc : Shape) : Shape := taps.biUnion id \ exc

/-- Nothing lies between the outermost squares of a tap but taps and excluded layers. -/
def Filled (taps : Finset Shape) (exc : Shape) : Prop :=
  ∀ p ∈ taps, ∀ x y : ℤ, (∃ a ∈ p, a.1 ≤ x) → (∃ a ∈ p, x ≤ a.1) → (∃ a ∈ p, a.2 ≤ y) → (∃ a ∈ p, y ≤ a.2) →
    (∃ q ∈ taps, (x, y) ∈ q) ∨ (x, y) ∈ exc

/-- The point is in the shape or on its edge; the square of `a` has the corners `a` and `a + (1, 1)`. -/
def Covers (p : Shape) (u v : ℚ) : Prop := ∃ a ∈ p, a.1 ≤ u ∧ u ≤ a.1 + 1 ∧ a.2 ≤ v ∧ v ≤ a.2 + 1

/-- The shapes have a common point. -/
def Meet (p q : Shape) : Prop := ∃ u v : ℚ, Covers p u v ∧ Covers q u v

/-- The shape is a rectangle. -/
def IsRect (p : Shape) : Prop := ∃ x0 x1 y0 y1 : ℤ, ∀ x y, (x, y) ∈ p ↔ x0 ≤ x ∧ x ≤ x1 ∧ y0 ≤ y ∧ y ≤ y1

/-! ### Proofs -/

theorem mem_box {p : Shape} {x y : ℤ} :
    (x, y) ∈ box p ↔ (∃ a ∈ p, a.1 ≤ x) ∧ (∃ a ∈ p, x ≤ a.1) ∧ (∃ a ∈ p, a.2 ≤ y) ∧ ∃ a ∈ p, y ≤ a.2 := by
  simp only [box, Finset.mem_biUnion, Finset.mem_product, Finset.mem_Icc]
  constructor
  · rintro ⟨a, ha, b, hb, c, hc, d, hd, ⟨h1, h2⟩, h3, h4⟩
    exact ⟨⟨a, ha, h1⟩, ⟨b, hb, h2⟩, ⟨c, hc, h3⟩, ⟨d, hd, h4⟩⟩
  · rintro ⟨⟨a, ha, h1⟩, ⟨b, hb, h2⟩, ⟨c, hc, h3⟩, ⟨d, hd, h4⟩⟩
    exact ⟨a, ha, b, hb, c, hc, d, hd, ⟨h1, h2⟩, h3, h4⟩

theorem subset_box (p : Shape) : p ⊆ box p := fun a ha =>
  mem_box.2 ⟨⟨a, ha, le_rfl⟩, ⟨a, ha, le_rfl⟩, ⟨a, ha, le_rfl⟩, ⟨a, ha, le_rfl⟩⟩

theorem mem_tie {taps : Finset Shape} {exc : Shape} {a : Square} : a ∈ tie taps exc ↔ (∃ p ∈ taps, a ∈ box p) ∧ a ∉ exc := by
  simp [tie]

theorem mem_drawn {taps : Finset Shape} {exc : Shape} {a : Square} : a ∈ drawn taps exc ↔ (∃ p ∈ taps, a ∈ p) ∧ a ∉ exc := by
  simp [drawn]

theorem drawn_subset (taps : Finset Shape) (exc : Shape) : drawn taps exc ⊆ tie taps exc := by
  intro a ha
  obtain ⟨⟨p, hp, h⟩, he⟩ := mem_drawn.1 ha
  exact mem_tie.2 ⟨⟨p, hp, subset_box p h⟩, he⟩

theorem tie_eq_iff {taps : Finset Shape} {exc : Shape} : tie taps exc = drawn taps exc ↔ Filled taps exc := by
  constructor
  · intro h p hp x y h1 h2 h3 h4
    by_cases he : (x, y) ∈ exc
    · exact .inr he
    · have : (x, y) ∈ tie taps exc := mem_tie.2 ⟨⟨p, hp, mem_box.2 ⟨h1, h2, h3, h4⟩⟩, he⟩
      rw [h] at this
      exact .inl (mem_drawn.1 this).1
  · intro h
    refine Finset.Subset.antisymm (fun a ha => ?_) (drawn_subset taps exc)
    obtain ⟨x, y⟩ := a
    obtain ⟨⟨p, hp, hb⟩, he⟩ := mem_tie.1 ha
    obtain ⟨h1, h2, h3, h4⟩ := mem_box.1 hb
    rcases h p hp x y h1 h2 h3 h4 with hq | hq
    · exact mem_drawn.2 ⟨hq, he⟩
    · exact absurd hq he

theorem near_iff {m n : ℤ} : |m - n| ≤ 1 ↔ ∃ u : ℚ, (m ≤ u ∧ u ≤ m + 1) ∧ (n : ℚ) ≤ u ∧ u ≤ n + 1 := by
  rw [abs_le]
  constructor
  · rintro ⟨h1, h2⟩
    have h1' : (n : ℚ) ≤ m + 1 := by exact_mod_cast (by omega : n ≤ m + 1)
    have h2' : (m : ℚ) ≤ n + 1 := by exact_mod_cast (by omega : m ≤ n + 1)
    rcases le_total m n with h | h
    · have h' : (m : ℚ) ≤ n := by exact_mod_cast h
      exact ⟨n, ⟨h', h1'⟩, le_rfl, by linarith⟩
    · have h' : (n : ℚ) ≤ m := by exact_mod_cast h
      exact ⟨m, ⟨le_rfl, by linarith⟩, h', h2'⟩
  · rintro ⟨u, ⟨h1, h2⟩, h3, h4⟩
    have h5 : (m : ℚ) ≤ n + 1 := h1.trans h4
    have h6 : (n : ℚ) ≤ m + 1 := h3.trans h2
    have h5' : m ≤ n + 1 := by exact_mod_cast h5
    have h6' : n ≤ m + 1 := by exact_mod_cast h6
    omega

theorem touch_iff {p q : Shape} : touch p q ↔ Meet p q := by
  constructor
  · rintro ⟨a, ha, b, hb, h1, h2⟩
    obtain ⟨u, ⟨h3, h4⟩, h5, h6⟩ := near_iff.1 h1
    obtain ⟨v, ⟨h7, h8⟩, h9, h10⟩ := near_iff.1 h2
    exact ⟨u, v, ⟨a, ha, h3, h4, h7, h8⟩, b, hb, h5, h6, h9, h10⟩
  · rintro ⟨u, v, ⟨a, ha, h3, h4, h7, h8⟩, b, hb, h5, h6, h9, h10⟩
    exact ⟨a, ha, b, hb, near_iff.2 ⟨u, ⟨h3, h4⟩, h5, h6⟩, near_iff.2 ⟨v, ⟨h7, h8⟩, h9, h10⟩⟩

/-- **C153, partial.** Where the box of each tap holds only taps and excluded layers, the area is that of the taps as drawn, and a contact is
joined to a tap exactly if it is on or at one. Missing: taps with holes or bends, for which it is false (`tap_too_large`, `tap_shorts`). -/
theorem tap_exact_partial {taps : Finset Shape} {exc : Shape} (h : Filled taps exc) :
    area taps exc = (drawn taps exc).card ∧ ∀ contact, joined taps exc contact ↔ Meet contact (drawn taps exc) := by
  rw [area, tie_eq_iff.2 h]
  refine ⟨rfl, fun contact => ?_⟩
  rw [joined, tie_eq_iff.2 h, touch_iff]

/-- Rectangular taps are of this kind, whatever is excluded. -/
theorem tap_rectangles {taps : Finset Shape} (exc : Shape) (h : ∀ p ∈ taps, IsRect p) : Filled taps exc := by
  intro p hp x y h1 h2 h3 h4
  obtain ⟨x0, x1, y0, y1, hr⟩ := h p hp
  obtain ⟨⟨a, a'⟩, ha, h1⟩ := h1
  obtain ⟨⟨b, b'⟩, hb, h2⟩ := h2
  obtain ⟨⟨c, c'⟩, hc, h3⟩ := h3
  obtain ⟨⟨d, d'⟩, hd, h4⟩ := h4
  rw [hr] at ha hb hc hd
  simp only at h1 h2 h3 h4
  exact .inl ⟨p, hp, (hr x y).2 ⟨by omega, by omega, by omega, by omega⟩⟩

/-- Violation: in all other cases the area is too large. -/
theorem tap_too_large {taps : Finset Shape} {exc : Shape} (h : ¬ Filled taps exc) : (drawn taps exc).card < area taps exc :=
  Finset.card_lt_card ((drawn_subset taps exc).ssubset_of_ne fun e => h (tie_eq_iff.1 e.symm))

/-- Violation: a contact inside the box of a tap, and not on excluded layers, is joined to the tie, wherever in its box the tap is drawn. -/
theorem tap_shorts {taps : Finset Shape} {exc p contact : Shape} (hp : p ∈ taps) {a : Square} (ha : a ∈ contact) (he : a ∉ exc)
    (h1 : ∃ b ∈ p, b.1 ≤ a.1) (h2 : ∃ b ∈ p, a.1 ≤ b.1) (h3 : ∃ b ∈ p, b.2 ≤ a.2) (h4 : ∃ b ∈ p, a.2 ≤ b.2) :
    joined taps exc contact :=
  ⟨a, ha, a, mem_tie.2 ⟨⟨p, hp, mem_box.2 ⟨h1, h2, h3, h4⟩⟩, he⟩, by simp⟩

/-- **C153, partial.** A tap in a well is one device with the area as drawn, under the same condition. -/
theorem tap_device_partial {wells : Finset Shape} {tap exc w : Shape} (h : Filled {tap} exc) (hw : w ∈ wells) (hi : tap ⊆ w) :
    device wells tap exc = some (tap \ exc).card := by
  have hd : drawn {tap} exc = tap \ exc := by simp [drawn]
  rw [device, (tap_exact_partial h).1, tie_eq_iff.2 h, hd, if_pos ⟨w, hw, Finset.sdiff_subset.trans hi⟩]

/-- Violation: a tap in a well is lost if its box has a square that is in no well and not excluded, as in PWell:block inside a guard ring. -/
theorem tap_lost {wells : Finset Shape} {tap exc : Shape} {a : Square} (he : a ∉ exc) (hw : ∀ w ∈ wells, a ∉ w)
    (h1 : ∃ b ∈ tap, b.1 ≤ a.1) (h2 : ∃ b ∈ tap, a.1 ≤ b.1) (h3 : ∃ b ∈ tap, b.2 ≤ a.2) (h4 : ∃ b ∈ tap, a.2 ≤ b.2) :
    device wells tap exc = none := by
  rw [device, if_neg]
  rintro ⟨w, hm, hs⟩
  exact hw w hm (hs (mem_tie.2 ⟨⟨tap, by simp, mem_box.2 ⟨h1, h2, h3, h4⟩⟩, he⟩))

/-- A guard ring of 5 times 5 squares. -/
def ring : Shape := (Finset.Icc 0 4 ×ˢ Finset.Icc 0 4) \ (Finset.Icc 1 3 ×ˢ Finset.Icc 1 3)

theorem mem_ring {x y : ℤ} : (x, y) ∈ ring ↔ (0 ≤ x ∧ x ≤ 4 ∧ 0 ≤ y ∧ y ≤ 4) ∧ ¬ (1 ≤ x ∧ x ≤ 3 ∧ 1 ≤ y ∧ y ≤ 3) := by
  simp [ring, and_assoc]

/-- A rectangular tap has its area and its contacts. A guard ring of 16 squares is extracted with 25, and a contact in its middle, which does not
touch it, is joined to it. -/
theorem taps_ex :
    Filled {Finset.Icc 0 1 ×ˢ Finset.Icc 0 2} {((0 : ℤ), (0 : ℤ))} ∧
      area {Finset.Icc 0 1 ×ˢ Finset.Icc 0 2} {((0 : ℤ), (0 : ℤ))} = 5 ∧
      (drawn {ring} ∅).card = 16 ∧ area {ring} ∅ = 25 ∧ ¬ Filled {ring} ∅ ∧
      joined {ring} ∅ {(2, 2)} ∧ ¬ Meet {(2, 2)} (drawn {ring} ∅) := by
  have hf : Filled {Finset.Icc 0 1 ×ˢ Finset.Icc 0 2} {((0 : ℤ), (0 : ℤ))} := by
    refine tap_rectangles _ fun p hp => ?_
    rw [Finset.mem_singleton] at hp
    subst hp
    exact ⟨0, 1, 0, 2, fun x y => by simp [and_assoc]⟩
  have hb : box ring = Finset.Icc 0 4 ×ˢ Finset.Icc 0 4 := by
    ext ⟨x, y⟩
    rw [mem_box]
    constructor
    · rintro ⟨⟨⟨a, a'⟩, ha, h1⟩, ⟨⟨b, b'⟩, hb, h2⟩, ⟨⟨c, c'⟩, hc, h3⟩, ⟨⟨d, d'⟩, hd, h4⟩⟩
      rw [mem_ring] at ha hb hc hd
      simp only [Finset.mem_product, Finset.mem_Icc] at h1 h2 h3 h4 ⊢
      omega
    · intro h
      simp only [Finset.mem_product, Finset.mem_Icc] at h
      exact ⟨⟨(0, 0), by rw [mem_ring]; omega, h.1.1⟩, ⟨(4, 4), by rw [mem_ring]; omega, h.1.2⟩, ⟨(0, 0), by rw [mem_ring]; omega, h.2.1⟩,
        ⟨(4, 4), by rw [mem_ring]; omega, h.2.2⟩⟩
  have ha : area {ring} ∅ = 25 := by
    rw [area, tie, Finset.singleton_biUnion, hb]
    decide
  have hd : (drawn {ring} ∅).card = 16 := by decide
  refine ⟨hf, ?_, hd, ha, fun h => ?_, ?_, ?_⟩
  · rw [(tap_exact_partial hf).1]
    decide
  · have := (tap_exact_partial h).1
    omega
  · exact tap_shorts (p := ring) (by simp) (a := (2, 2)) (by simp) (by simp) ⟨(0, 0), by decide, by decide⟩ ⟨(4, 4), by decide, by decide⟩
      ⟨(0, 0), by decide, by decide⟩ ⟨(4, 4), by decide, by decide⟩
  · rw [← touch_iff]
    rintro ⟨a, ha, ⟨x, y⟩, hb', h1, h2⟩
    rw [Finset.mem_singleton] at ha
    subst ha
    obtain ⟨⟨p, hp, hr⟩, -⟩ := mem_drawn.1 hb'
    rw [Finset.mem_singleton] at hp
    subst hp
    rw [mem_ring] at hr
    rw [abs_le] at h1 h2
    simp only at h1 h2
    omega

/-- A rectangular tap in a well is a device; a guard ring around a square without well is none, although its well covers it. -/
theorem tap_device_ex :
    device {Finset.Icc (-1) 5 ×ˢ Finset.Icc (-1) 5} (Finset.Icc 0 1 ×ˢ Finset.Icc 0 2) ∅ = some 6 ∧
      ring ⊆ (Finset.Icc (-1) 5 ×ˢ Finset.Icc (-1) 5).erase (2, 2) ∧ device {(Finset.Icc (-1) 5 ×ˢ Finset.Icc (-1) 5).erase (2, 2)} ring ∅ = none := by
  refine ⟨?_, by decide, ?_⟩
  · rw [tap_device_partial (w := Finset.Icc (-1) 5 ×ˢ Finset.Icc (-1) 5) (tap_rectangles _ fun p hp => ?_) (by simp) (by decide)]
    · decide
    · rw [Finset.mem_singleton] at hp
      subst hp
      exact ⟨0, 1, 0, 2, fun x y => by simp [and_assoc]⟩
  · exact tap_lost (a := (2, 2)) (by simp) (by simp) ⟨(0, 0), by decide, by decide⟩ ⟨(4, 4), by decide, by decide⟩
      ⟨(0, 0), by decide, by decide⟩ ⟨(4, 4), by decide, by decide⟩

end Verif.Decks.Taps
