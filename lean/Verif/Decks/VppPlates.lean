import Verif.Decks.Measure

/-!
# Which nets LVS of sky130A gives to capacitors between fingers

The extractors `VPP3Extractor`, `VPP4Extractor` and `VPP3NHVExtractor` (pdk/sky130A/libs.tech/kpex/sky130.lvs 494–713) for one marker. The
conductors of the script are the parts of a metal inside of the markers, and the bulk is the marker itself (lines 1377 and 1421–1427), so
a group of connected shapes has one merged marker.

A conductor is given as the list of its merged polygons, in the order of KLayout.
-/

namespace Verif.Decks.Vpp

deriving instance DecidableEq for Rectangle

/-- A merged polygon of a conductor in the marker: its corners, its bounding box and its net. -/
structure Piece where
  outline : List Vertex
  box : Rectangle
  net : Nat
deriving DecidableEq

/-- `Region::new(a).extents.interacting(Region::new(b).extents)` is not empty: the bounding boxes have a common point. -/
def Piece.near (a b : Piece) : Bool :=
  decide (a.box.x0 ≤ b.box.x1) && decide (b.box.x0 ≤ a.box.x1) && decide (a.box.y0 ≤ b.box.y1) && decide (b.box.y0 ≤ a.box.y1)

/-- The two polygons that become terminals; sky130.lvs 537–547 and 622–632. -/
def plates : List Piece → Option (Piece × Piece)
  | t0 :: t1 :: rest => some (t0, ((t0 :: t1 :: rest).find? fun t => decide (t0 ≠ t) && t.near t0).getD t1)
  | _ => none

/-- The nets of the terminals A and B of a device of `VPP3Extractor`, if there is one; sky130.lvs 614–642. The terminal W is the marker. -/
def vpp3 (c : List Piece) : Option (Nat × Nat) := (plates c).map fun p => (p.1.net, p.2.net)

/-- The nets of the terminals S, G and D of a device of `VPP4Extractor`; sky130.lvs 528–557. The terminal B is the marker. -/
def vpp4 (c1 c2 : List Piece) : Option (Nat × Nat × Nat) :=
  match c2 with
  | [] => none
  | d :: _ => (plates c1).map fun p => (p.1.net, p.2.net, d.net)

/-- The nets of the terminals A, B and W of the device of `VPP3NHVExtractor`; sky130.lvs 700–711. `none` for a conductor without a
polygon, for which the script passes `nil`. -/
def vppNhv (met2 met1 met5 : List Piece) : Option (Nat × Nat × Nat) :=
  match met2, met1, met5 with
  | a :: _, b :: _, w :: _ => some (a.net, b.net, w.net)
  | _, _, _ => none

/-! ### Specification -/

/-- The boxes of two combs that are in each other have a common point. -/
def InEachOther (a b : Piece) : Prop :=
  ∃ x y : Int, (a.box.x0 ≤ x ∧ x ≤ a.box.x1 ∧ a.box.y0 ≤ y ∧ y ≤ a.box.y1) ∧ b.box.x0 ≤ x ∧ x ≤ b.box.x1 ∧ b.box.y0 ≤ y ∧ y ≤ b.box.y1

/-- The conductor has two combs, which are in each other, and other pieces whose boxes are apart from both; the first polygon is a comb. -/
structure Combs (c : List Piece) (a b : Piece) : Prop where
  first : c.head? = some a
  other : b ∈ c
  ne : a ≠ b
  inside : InEachOther a b
  apart : ∀ p ∈ c, p ≠ a → p ≠ b → ¬ InEachOther p a

/-- All boxes are proper. -/
def ProperBoxes (c : List Piece) : Prop := ∀ p ∈ c, p.box.x0 ≤ p.box.x1 ∧ p.box.y0 ≤ p.box.y1

/-! ### Proofs -/

theorem near_iff {a b : Piece} (ha : a.box.x0 ≤ a.box.x1 ∧ a.box.y0 ≤ a.box.y1) (hb : b.box.x0 ≤ b.box.x1 ∧ b.box.y0 ≤ b.box.y1) :
    a.near b = true ↔ InEachOther a b := by
  simp only [Piece.near, Bool.and_eq_true, decide_eq_true_eq, InEachOther]
  constructor
  · rintro ⟨⟨⟨h1, h2⟩, h3⟩, h4⟩
    exact ⟨max a.box.x0 b.box.x0, max a.box.y0 b.box.y0, by omega, by omega, by omega, by omega, by omega⟩
  · rintro ⟨x, y, h1, h2⟩
    omega

theorem inEachOther_symm {a b : Piece} (h : InEachOther a b) : InEachOther b a := by
  obtain ⟨x, y, h1, h2⟩ := h
  exact ⟨x, y, h2, h1⟩

theorem plates_combs {c : List Piece} {a b : Piece} (hp : ProperBoxes c) (h : Combs c a b) : plates c = some (a, b) := by
  have hab := h.inside
  rcases c with _ | ⟨t0, _ | ⟨t1, rest⟩⟩
  · cases h.first
  · have h1 := Option.some.inj h.first
    have h2 := h.other
    rw [List.mem_singleton] at h2
    exact absurd (h1.symm.trans h2.symm) h.ne
  · have h1 : t0 = a := Option.some.inj h.first
    subst h1
    have hn : ∀ p ∈ t0 :: t1 :: rest, (p.near t0 = true ↔ InEachOther p t0) := fun p q => near_iff (hp p q) (hp t0 (.head _))
    have hf : (t0 :: t1 :: rest).find? (fun t => decide (t0 ≠ t) && t.near t0) = some b := by
      rcases hx : (t0 :: t1 :: rest).find? (fun t => decide (t0 ≠ t) && t.near t0) with _ | x
      · rw [List.find?_eq_none] at hx
        have := hx b h.other
        rw [Bool.and_eq_true, decide_eq_true_eq, hn b h.other] at this
        exact absurd ⟨h.ne, inEachOther_symm hab⟩ this
      · have h2 := List.find?_some hx
        have h3 := List.mem_of_find?_eq_some hx
        rw [Bool.and_eq_true, decide_eq_true_eq, hn x h3] at h2
        by_contra hb
        exact h.apart x h3 (Ne.symm h2.1) (fun e => hb (by rw [e])) h2.2
    rw [plates, hf]
    rfl

/-- **C148, partial.** A capacitor of two combs is one device between the two combs; with a second conductor its first polygon is the third
terminal. Missing: conductors in which another piece comes before the combs, for which it is false (`vpp_dummy_first`). -/
theorem vpp_combs_partial {c c2 : List Piece} {a b : Piece} (hp : ProperBoxes c) (h : Combs c a b) :
    vpp3 c = some (a.net, b.net) ∧ vpp4 c c2 = c2.head?.map fun d => (a.net, b.net, d.net) := by
  have hc := plates_combs hp h
  refine ⟨by rw [vpp3, hc]; rfl, ?_⟩
  rcases c2 with _ | ⟨d, c2⟩
  · rfl
  · simp only [vpp4, hc]
    rfl

/-- C148: two pieces are enough, wherever they are. -/
theorem vpp_two_pieces (a b : Piece) : vpp3 [a, b] = some (a.net, b.net) := by
  rw [vpp3, plates]
  rcases hx : ([a, b].find? fun t => decide (a ≠ t) && t.near a) with _ | x
  · rfl
  · have h2 := List.find?_some hx
    have h3 := List.mem_of_find?_eq_some hx
    rw [Bool.and_eq_true, decide_eq_true_eq] at h2
    simp only [List.mem_cons, List.not_mem_nil, or_false] at h3
    rcases h3 with rfl | rfl
    · exact absurd rfl h2.1
    · rfl

/-- C148: which markers give a device. -/
theorem vpp_device_iff (c c2 : List Piece) :
    ((vpp3 c).isSome ↔ 2 ≤ c.length) ∧ ((vpp4 c c2).isSome ↔ 2 ≤ c.length ∧ 1 ≤ c2.length) := by
  rcases c with _ | ⟨t0, _ | ⟨t1, rest⟩⟩ <;> rcases c2 with _ | ⟨d, c2⟩ <;> simp [vpp3, vpp4, plates]

/-- Violation: a piece that comes before the combs, and away from them, takes the place of a comb: whatever the combs are, the first of
them is connected with that piece, and the other is lost. -/
theorem vpp_dummy_first {p a b : Piece} {rest : List Piece} (hp : ProperBoxes (p :: a :: b :: rest))
    (h : ∀ q ∈ a :: b :: rest, ¬ InEachOther q p) : vpp3 (p :: a :: b :: rest) = some (p.net, a.net) := by
  have : (p :: a :: b :: rest).find? (fun t => decide (p ≠ t) && t.near p) = none := by
    rw [List.find?_eq_none]
    intro x hx hn
    rw [Bool.and_eq_true, decide_eq_true_eq, near_iff (hp x hx) (hp p (.head _))] at hn
    rcases List.mem_cons.1 hx with rfl | hx
    · exact hn.1 rfl
    · exact h x hx hn.2
  rw [vpp3, plates, this]
  rfl

/-- Violation: the extractor for the capacitor of 11.3 µm by 11.8 µm takes the first polygons of met2 and met1. If they belong to the same
comb, as with vias between the metals, both terminals are on one net. -/
theorem nhv_shorted {a b w : Piece} {met2 met1 met5 : List Piece} (h : a.net = b.net) :
    vppNhv (a :: met2) (b :: met1) (w :: met5) = some (a.net, a.net, w.net) := by
  rw [vppNhv, h]

/-- Two combs with a dummy, in both orders; the capacitor of 11.3 µm by 11.8 µm with combs of the same order on both metals. -/
theorem vpp_plates_ex :
    let a : Piece := ⟨[], ⟨0, 0, 100, 90⟩, 1⟩
    let b : Piece := ⟨[], ⟨0, 10, 100, 100⟩, 2⟩
    let d : Piece := ⟨[], ⟨200, 0, 210, 10⟩, 3⟩
    ProperBoxes [a, d, b] ∧ Combs [a, d, b] a b ∧ vpp3 [a, d, b] = some (1, 2) ∧ vpp4 [a, d, b] [d] = some (1, 2, 3) ∧
      vpp3 [d, a, b] = some (3, 1) ∧ vppNhv [a, b] [a, b] [d] = some (1, 1, 3) := by
  refine ⟨by simp [ProperBoxes], ⟨rfl, by simp, by decide, ⟨50, 50, by simp⟩, ?_⟩, by decide, by decide, by decide, by decide⟩
  intro p hp h1 h2
  simp only [List.mem_cons, List.not_mem_nil, or_false] at hp
  rcases hp with rfl | rfl | rfl
  · exact absurd rfl h1
  · rintro ⟨x, y, h3, h4⟩
    simp only at h3 h4
    omega
  · exact absurd rfl h2

end Verif.Decks.Vpp
