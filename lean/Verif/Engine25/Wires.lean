import Verif.Engine25.Look

/-!
# The sidewall capacitance of two parallel wires (C91)
-/

namespace Verif.Engine25

open Overlap (Cell Poly)
open Summary (SamePair)

/-- The wire over the columns from `x1` to `x2` and the rows from `y1` to `y2`. -/
noncomputable def wire (n : String) (x1 x2 y1 y2 : ℤ) : Poly := ⟨n, Finset.Ico x1 x2 ×ˢ Finset.Ico y1 y2⟩

open Classical in
/-- The sidewall capacitance of one edge. -/
noncomputable def edgeWall (R : List (List Poly)) (i : Nat) (dbu : ℚ) (depth : ℤ) (C off : ℚ) (a b : String) (ps : Poly × Side) : ℚ :=
  ∑ u ∈ Finset.Ico 1 (ps.2.len - 1), ∑ d ∈ Finset.Ico 1 depth,
    if ∃ n, FacedBy R i ps.1 ps.2 u d n ∧ SamePair ps.1.net n a b then dbu * C / (d * dbu + off) / 2 / 1000 else 0

theorem wall_layers (R : List (List Poly)) (names : List String) (dbu : ℚ) (depth : ℤ) (C off : String → ℚ)
    (sides : Nat → List (Poly × Side)) (a b : String) :
    wallTotal R names dbu depth C off sides a b = ∑ i ∈ Finset.range names.length,
      ((sides i).map (edgeWall R i dbu depth (C (names.getD i "")) (off (names.getD i "")) a b)).sum := rfl

/-- An edge with nothing in front of it. -/
theorem edgeWall_none {R : List (List Poly)} {i : Nat} {dbu : ℚ} {depth : ℤ} {C off : ℚ} {a b : String} {p : Poly} {s : Side}
    (h : ∀ u d, 1 ≤ d → ∀ q ∈ R.getD i [], q ≠ p → s.cell u d ∉ q.cells) : edgeWall R i dbu depth C off a b (p, s) = 0 := by
  unfold edgeWall
  refine Finset.sum_eq_zero fun u _ => Finset.sum_eq_zero fun d hd => ?_
  rw [Finset.mem_Ico] at hd
  rw [if_neg]
  rintro ⟨n, ⟨⟨q, hq, hne, _, hc⟩, _⟩, _⟩
  exact h u d hd.1 q hq hne hc

/-- An edge with one polygon in front of all its columns. -/
theorem edgeWall_one {R : List (List Poly)} {i : Nat} {dbu : ℚ} {depth : ℤ} {C off : ℚ} {a b : String} {p q : Poly} {s : Side}
    {D : ℤ} (hD : 1 ≤ D) (hl : 2 ≤ s.len) (hq : q ∈ R.getD i []) (hqp : q ≠ p) (hpair : SamePair p.net q.net a b)
    (h : ∀ u, 1 ≤ u → u + 1 < s.len → s.cell u D ∈ q.cells)
    (hno : ∀ u d, 1 ≤ u → u + 1 < s.len → 1 ≤ d → d < D → ∀ r ∈ R.getD i [], r ≠ p → s.cell u d ∉ r.cells) :
    edgeWall R i dbu depth C off a b (p, s) =
      if D < depth then ((s.len - 2 : ℤ) : ℚ) * (dbu * C / (D * dbu + off) / 2 / 1000) else 0 := by
  classical
  unfold edgeWall
  dsimp only
  have inner : ∀ u ∈ Finset.Ico 1 (s.len - 1), (∑ d ∈ Finset.Ico 1 depth,
      if ∃ n, FacedBy R i p s u d n ∧ SamePair p.net n a b then dbu * C / (d * dbu + off) / 2 / 1000 else 0) =
      if D < depth then dbu * C / (D * dbu + off) / 2 / 1000 else 0 := by
    intro u hu
    rw [Finset.mem_Ico] at hu
    have hcase : ∀ d ∈ Finset.Ico 1 depth, d ≠ D → (if ∃ n, FacedBy R i p s u d n ∧ SamePair p.net n a b then
        dbu * C / (d * dbu + off) / 2 / 1000 else 0) = 0 := by
      intro d hd hne
      rw [Finset.mem_Ico] at hd
      rw [if_neg]
      rintro ⟨n, ⟨⟨r, hr, hrp, _, hc⟩, hfree⟩, _⟩
      rcases lt_or_gt_of_ne hne with hlt | hgt
      · exact hno u d hu.1 (by omega) hd.1 hlt r hr hrp hc
      · exact hfree D hD hgt q hq hqp (h u hu.1 (by omega))
    by_cases hdep : D < depth
    · rw [if_pos hdep, Finset.sum_eq_single D hcase (fun hnot => absurd (Finset.mem_Ico.2 ⟨hD, hdep⟩) hnot)]
      refine if_pos ⟨q.net, ⟨⟨q, hq, hqp, rfl, h u hu.1 (by omega)⟩, fun w h1 h2 r hr hrp => ?_⟩, hpair⟩
      exact hno u w hu.1 (by omega) h1 h2 r hr hrp
    · rw [if_neg hdep]
      refine Finset.sum_eq_zero fun d hd => hcase d hd ?_
      rw [Finset.mem_Ico] at hd
      omega
  rw [Finset.sum_congr rfl inner, Finset.sum_const, Int.card_Ico, nsmul_eq_mul]
  have hc : (((s.len - 1 - 1).toNat : ℕ) : ℚ) = ((s.len - 2 : ℤ) : ℚ) := by
    have h0 : ((s.len - 1 - 1).toNat : ℤ) = s.len - 2 := by omega
    have : (((s.len - 1 - 1).toNat : ℤ) : ℚ) = ((s.len - 2 : ℤ) : ℚ) := by rw [h0]
    rw [← this]; push_cast; rfl
  rw [hc]
  split
  · rfl
  · rw [mul_zero]

/-- **C91.** Two wires of length `L` side by side at distance `d`, alone on layer `i`: the part of the sidewall capacitance
between their nets that comes from this layer is `(L - 2) · C / (d + offset)`, lengths in database units; the first and the
last unit do not count. From the depth on it is 0. -/
theorem parallel_wires {R : List (List Poly)} {i : Nat} {n m : String} (hnm : n ≠ m) {x1 x2 y1 y2 y3 y4 : ℤ} (hx : x1 + 1 < x2)
    (h12 : y1 < y2) (h23 : y2 < y3) (h34 : y3 < y4) (hR : R.getD i [] = [wire n x1 x2 y1 y2, wire m x1 x2 y3 y4])
    (dbu : ℚ) (depth : ℤ) (C off : ℚ) (sides : List (Poly × Side)) (hs : AllSides (R.getD i []) sides) :
    (sides.map (edgeWall R i dbu depth C off n m)).sum =
      if y3 - y2 < depth then
        ((x2 - x1 - 2 : ℤ) : ℚ) * dbu * C / (((y3 - y2 : ℤ) : ℚ) * dbu + off) / 1000
      else 0 := by
  have hne : wire m x1 x2 y3 y4 ≠ wire n x1 x2 y1 y2 := by
    intro h
    exact hnm (congrArg Poly.net h).symm
  have hperm : sides.Perm (((boxSides x1 y1 x2 y2).map fun s => (wire n x1 x2 y1 y2, s)) ++
      (boxSides x1 y3 x2 y4).map fun s => (wire m x1 x2 y3 y4, s)) := by
    rw [List.perm_ext_iff_of_nodup hs.nodup]
    · rintro ⟨p, s⟩
      rw [hs.mem, hR]
      simp only [List.mem_append, List.mem_map, List.mem_cons, List.not_mem_nil, or_false, Prod.mk.injEq]
      constructor
      · rintro ⟨rfl | rfl, h⟩
        · exact Or.inl ⟨s, (box_sides (by omega) h12 s).1 h, rfl, rfl⟩
        · exact Or.inr ⟨s, (box_sides (by omega) h34 s).1 h, rfl, rfl⟩
      · rintro (⟨s', h, rfl, rfl⟩ | ⟨s', h, rfl, rfl⟩)
        · exact ⟨Or.inl rfl, (box_sides (by omega) h12 _).2 h⟩
        · exact ⟨Or.inr rfl, (box_sides (by omega) h34 _).2 h⟩
    · simp [boxSides, hne.symm]
  rw [(hperm.map _).sum_eq]
  have hmem : ∀ q, q ∈ R.getD i [] ↔ q = wire n x1 x2 y1 y2 ∨ q = wire m x1 x2 y3 y4 := by
    intro q; rw [hR]; simp
  have z1 : ∀ s, (s = ⟨x2, y2, .down, y2 - y1⟩ ∨ s = ⟨x2, y1, .left, x2 - x1⟩ ∨ s = ⟨x1, y1, .up, y2 - y1⟩) →
      edgeWall R i dbu depth C off n m (wire n x1 x2 y1 y2, s) = 0 := by
    intro s hs
    refine edgeWall_none fun u d hd q hq hqp => ?_
    obtain rfl := ((hmem q).1 hq).resolve_left hqp
    rcases hs with rfl | rfl | rfl <;>
    · simp only [Side.cell, wire, Finset.mem_product, Finset.mem_Ico]
      omega
  have z2 : ∀ s, (s = ⟨x1, y4, .right, x2 - x1⟩ ∨ s = ⟨x2, y4, .down, y4 - y3⟩ ∨ s = ⟨x1, y3, .up, y4 - y3⟩) →
      edgeWall R i dbu depth C off n m (wire m x1 x2 y3 y4, s) = 0 := by
    intro s hs
    refine edgeWall_none fun u d hd q hq hqp => ?_
    obtain rfl := ((hmem q).1 hq).resolve_right hqp
    rcases hs with rfl | rfl | rfl <;>
    · simp only [Side.cell, wire, Finset.mem_product, Finset.mem_Ico]
      omega
  have w1 := edgeWall_one (R := R) (i := i) (dbu := dbu) (depth := depth) (C := C) (off := off) (a := n) (b := m)
    (p := wire n x1 x2 y1 y2) (q := wire m x1 x2 y3 y4) (s := ⟨x1, y2, .right, x2 - x1⟩) (D := y3 - y2) (by omega)
    (by dsimp only; omega) ((hmem _).2 (Or.inr rfl)) hne (Or.inl ⟨rfl, rfl⟩)
    (fun u h1 h2 => by
      dsimp only at h2
      simp only [Side.cell, wire, Finset.mem_product, Finset.mem_Ico]
      omega)
    (fun u d h1 h2 h3 h4 r hr hrp => by
      obtain rfl := ((hmem r).1 hr).resolve_left hrp
      dsimp only at h2
      simp only [Side.cell, wire, Finset.mem_product, Finset.mem_Ico]
      omega)
  have w2 := edgeWall_one (R := R) (i := i) (dbu := dbu) (depth := depth) (C := C) (off := off) (a := n) (b := m)
    (p := wire m x1 x2 y3 y4) (q := wire n x1 x2 y1 y2) (s := ⟨x2, y3, .left, x2 - x1⟩) (D := y3 - y2) (by omega)
    (by dsimp only; omega) ((hmem _).2 (Or.inl rfl)) hne.symm (Or.inr ⟨rfl, rfl⟩)
    (fun u h1 h2 => by
      dsimp only at h2
      simp only [Side.cell, wire, Finset.mem_product, Finset.mem_Ico]
      omega)
    (fun u d h1 h2 h3 h4 r hr hrp => by
      obtain rfl := ((hmem r).1 hr).resolve_right hrp
      dsimp only at h2
      simp only [Side.cell, wire, Finset.mem_product, Finset.mem_Ico]
      omega)
  simp only [boxSides, List.map_cons, List.map_nil, List.cons_append, List.nil_append, List.sum_cons, List.sum_nil]
  rw [w1, w2, z1 _ (Or.inl rfl), z1 _ (Or.inr (Or.inl rfl)), z1 _ (Or.inr (Or.inr rfl)), z2 _ (Or.inl rfl),
    z2 _ (Or.inr (Or.inl rfl)), z2 _ (Or.inr (Or.inr rfl))]
  split
  · push_cast
    ring
  · ring

/-- **C91.** The same for the whole layout, when the other layers are empty. -/
theorem parallel_wires_total {R : List (List Poly)} {i : Nat} {n m : String} (hnm : n ≠ m) {x1 x2 y1 y2 y3 y4 : ℤ}
    (hx : x1 + 1 < x2) (h12 : y1 < y2) (h23 : y2 < y3) (h34 : y3 < y4)
    (hR : R.getD i [] = [wire n x1 x2 y1 y2, wire m x1 x2 y3 y4]) (names : List String) (hi : i < names.length)
    (hempty : ∀ j, j ≠ i → R.getD j [] = []) (dbu : ℚ) (depth : ℤ) (C off : String → ℚ) (sides : Nat → List (Poly × Side))
    (hs : ∀ j, AllSides (R.getD j []) (sides j)) :
    wallTotal R names dbu depth C off sides n m =
      if y3 - y2 < depth then
        ((x2 - x1 - 2 : ℤ) : ℚ) * dbu * C (names.getD i "") / (((y3 - y2 : ℤ) : ℚ) * dbu + off (names.getD i "")) / 1000
      else 0 := by
  rw [wall_layers, Finset.sum_eq_single i]
  · exact parallel_wires hnm hx h12 h23 h34 hR dbu depth _ _ _ (hs i)
  · intro j _ hj
    have h0 : sides j = [] := by
      rw [List.eq_nil_iff_forall_not_mem]
      rintro ⟨p, s⟩ hp
      have := (((hs j).mem p s).1 hp).1
      rw [hempty j hj] at this
      exact List.not_mem_nil this
    rw [h0]; rfl
  · intro h
    exact absurd (Finset.mem_range.2 hi) h

/-- Two wires of 6 units at a distance of 2 units. -/
example : ∃ sides, AllSides [wire "A" 0 6 0 2, wire "B" 0 6 4 6] sides := by
  refine ⟨((boxSides 0 0 6 2).map fun s => (wire "A" 0 6 0 2, s)) ++ (boxSides 0 4 6 6).map fun s => (wire "B" 0 6 4 6, s),
    by decide +kernel, fun p s => ?_⟩
  simp only [List.mem_append, List.mem_map, List.mem_cons, List.not_mem_nil, or_false, Prod.mk.injEq]
  constructor
  · rintro (⟨s', h, rfl, rfl⟩ | ⟨s', h, rfl, rfl⟩)
    · exact ⟨Or.inl rfl, (box_sides (by decide) (by decide) _).2 h⟩
    · exact ⟨Or.inr rfl, (box_sides (by decide) (by decide) _).2 h⟩
  · rintro ⟨rfl | rfl, h⟩
    · exact Or.inl ⟨s, (box_sides (by decide) (by decide) s).1 h, rfl, rfl⟩
    · exact Or.inr ⟨s, (box_sides (by decide) (by decide) s).1 h, rfl, rfl⟩

end Verif.Engine25
