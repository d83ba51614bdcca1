import Verif.Engine25.Look

/-!
# A KLayout that cuts edges into intervals, for examples
-/

namespace Verif.Engine25

open Overlap (Cell Poly)

/-- The part of a polygon in front of the columns from `lo` to `hi` of an edge. -/
noncomputable def clipTo (s : Side) (depth lo hi : ℤ) (q : Poly) : Option Poly :=
  let cells := (Finset.Ico lo hi ×ˢ Finset.Ico 1 depth).filter fun c => s.cell c.1 c.2 ∈ q.cells
  if cells = ∅ then none else some ⟨q.net, cells⟩

/-- The parts that child `j` shows. -/
noncomputable def partsIn (R : List (List Poly)) (i : Nat) (p : Poly) (s : Side) (depth lo hi : ℤ) (j : Nat) : List Poly :=
  (shownList R i p j).filterMap (clipTo s depth lo hi)

/-- The children that show something. -/
noncomputable def childrenIn (R : List (List Poly)) (i : Nat) (p : Poly) (s : Side) (depth lo hi : ℤ) : Dict Nat (List Poly) :=
  (List.range (R.length + 1)).filterMap fun j =>
    if partsIn R i p s depth lo hi j = [] then none else some (j, partsIn R i p s depth lo hi j)

/-- What lies in front of an edge, interval by interval. -/
noncomputable def lookIn (R : List (List Poly)) (i : Nat) (p : Poly) (s : Side) (depth : ℤ) (cuts : List (ℤ × ℤ)) :
    Fringe.Neighborhood :=
  cuts.map fun c => (((c.1 : ℚ), (c.2 : ℚ)), childrenIn R i p s depth c.1 c.2)

/-- The check that remains: in every interval the parts are boxes over the whole interval that do not overlap; the intervals do not
overlap; and outside of them there is nothing. -/
def ClearIn (R : List (List Poly)) (i : Nat) (p : Poly) (s : Side) (depth : ℤ) (cuts : List (ℤ × ℤ)) : Prop :=
  (∀ c ∈ cuts, (1 ≤ c.1 ∧ c.1 + 1 < c.2 ∧ c.2 + 1 ≤ s.len) ∧ ∀ j < R.length + 1,
    (∀ q ∈ partsIn R i p s depth c.1 c.2 j, ∃ y ∈ Finset.Ico 1 depth, ∃ z ∈ Finset.Ioc y depth,
      q.cells = Finset.Ico c.1 c.2 ×ˢ Finset.Ico y z) ∧
    (partsIn R i p s depth c.1 c.2 j).Pairwise fun q q' => Disjoint q.cells q'.cells) ∧
  cuts.Pairwise (fun c d => c.2 ≤ d.1 ∨ d.2 ≤ c.1) ∧
  ∀ u ∈ Finset.Ico 1 (s.len - 1), (∃ c ∈ cuts, c.1 ≤ u ∧ u < c.2) ∨
    ∀ j < R.length + 1, ∀ q ∈ shownList R i p j, ∀ w ∈ Finset.Ico 1 depth, s.cell u w ∉ q.cells

noncomputable instance (R : List (List Poly)) (i : Nat) (p : Poly) (s : Side) (depth : ℤ) (cuts : List (ℤ × ℤ)) :
    Decidable (ClearIn R i p s depth cuts) := by
  unfold ClearIn; infer_instance

theorem mem_childrenIn {R : List (List Poly)} {i : Nat} {p : Poly} {s : Side} {depth lo hi : ℤ} {j : Nat} {ps : List Poly} :
    (j, ps) ∈ childrenIn R i p s depth lo hi ↔ j < R.length + 1 ∧ ps ≠ [] ∧ ps = partsIn R i p s depth lo hi j := by
  unfold childrenIn
  rw [List.mem_filterMap]
  constructor
  · rintro ⟨k, hk, h⟩
    rw [List.mem_range] at hk
    split at h
    · cases h
    · rename_i hne
      have h' := Option.some.inj h
      rw [Prod.mk.injEq] at h'
      obtain ⟨rfl, rfl⟩ := h'
      exact ⟨hk, hne, rfl⟩
  · rintro ⟨h1, h2, rfl⟩
    refine ⟨j, List.mem_range.2 h1, ?_⟩
    rw [if_neg h2]

theorem clipTo_some {s : Side} {depth lo hi : ℤ} {q p : Poly} : clipTo s depth lo hi q = some p ↔
    p.net = q.net ∧ p.cells.Nonempty ∧
      ∀ u w, (u, w) ∈ p.cells ↔ (lo ≤ u ∧ u < hi) ∧ (1 ≤ w ∧ w < depth) ∧ s.cell u w ∈ q.cells := by
  unfold clipTo
  dsimp only
  have hm : ∀ u w, (u, w) ∈ ((Finset.Ico lo hi ×ˢ Finset.Ico 1 depth).filter fun c => s.cell c.1 c.2 ∈ q.cells) ↔
      (lo ≤ u ∧ u < hi) ∧ (1 ≤ w ∧ w < depth) ∧ s.cell u w ∈ q.cells := by
    intro u w
    simp only [Finset.mem_filter, Finset.mem_product, Finset.mem_Ico]
    tauto
  generalize ((Finset.Ico lo hi ×ˢ Finset.Ico 1 depth).filter fun c => s.cell c.1 c.2 ∈ q.cells) = K at hm ⊢
  constructor
  · intro h
    split at h
    · cases h
    · rename_i hne
      obtain rfl := Option.some.inj h
      exact ⟨rfl, Finset.nonempty_iff_ne_empty.2 hne, hm⟩
  · rintro ⟨h1, h2, h3⟩
    have : p.cells = K := by
      ext ⟨u, w⟩
      rw [h3, hm]
    obtain ⟨n, cells⟩ := p
    subst h1
    dsimp only at this h2 ⊢
    subst this
    rw [if_neg (Finset.nonempty_iff_ne_empty.1 h2)]

theorem mem_partsIn {R : List (List Poly)} {i : Nat} (hi : i < R.length) {p : Poly} {s : Side} {depth lo hi' : ℤ} {j : Nat} {q : Poly} :
    q ∈ partsIn R i p s depth lo hi' j ↔ ∃ q', Shown R i p j q' ∧ clipTo s depth lo hi' q' = some q := by
  unfold partsIn
  rw [List.mem_filterMap]
  simp only [shown_list hi]

theorem lookIn_ok {R : List (List Poly)} {i : Nat} (hi : i < R.length) {p : Poly} {s : Side} {depth : ℤ} {cuts : List (ℤ × ℤ)}
    (h : ClearIn R i p s depth cuts) : EdgeOK R i p s depth (lookIn R i p s depth cuts) := by
  obtain ⟨hc, hd, hcov⟩ := h
  refine ⟨?_, ?_, ?_⟩
  · intro v hv
    obtain ⟨⟨lo, hi'⟩, hcut, rfl⟩ := List.mem_map.1 hv
    obtain ⟨hrange, hc⟩ := hc _ hcut
    refine ⟨lo, hi', rfl, hrange, ⟨⟨?_, ?_⟩, ?_, ?_⟩, ?_⟩
    · unfold childrenIn Dict.keys
      rw [List.map_filterMap]
      refine List.Nodup.filterMap ?_ List.nodup_range
      intro a b c ha hb
      split at ha
      · simp at ha
      · split at hb
        · simp at hb
        · simp only [Option.map_some, Option.mem_def, Option.some.injEq] at ha hb
          omega
    · rintro ⟨j, ps⟩ he
      rw [mem_childrenIn] at he
      obtain ⟨h1, h2, rfl⟩ := he
      refine ⟨h2, fun q hq => ?_⟩
      obtain ⟨q', _, hcl⟩ := (mem_partsIn hi).1 hq
      exact (clipTo_some.1 hcl).2.1
    · rintro ⟨j, ps⟩ he q hq
      rw [mem_childrenIn] at he
      obtain ⟨h1, h2, rfl⟩ := he
      obtain ⟨y, hy, z, hz, hcells⟩ := (hc j h1).1 q hq
      rw [Finset.mem_Ico] at hy
      rw [Finset.mem_Ioc] at hz
      exact ⟨y, z, hy.1, hz.1, hz.2, hcells⟩
    · rintro ⟨j, ps⟩ he
      rw [mem_childrenIn] at he
      obtain ⟨h1, h2, rfl⟩ := he
      exact (hc j h1).2
    · intro j n u w hu1 hu2 hw1 hw2
      constructor
      · rintro ⟨ps, hps, q, hq, rfl, hcell⟩
        rw [mem_childrenIn] at hps
        obtain ⟨h1, h2, rfl⟩ := hps
        obtain ⟨q', hq', hcl⟩ := (mem_partsIn hi).1 hq
        obtain ⟨c1, _, c3⟩ := clipTo_some.1 hcl
        exact ⟨q', hq', c1.symm, ((c3 u w).1 hcell).2.2⟩
      · rintro ⟨q, hq, rfl, hcell⟩
        have hcl : ∃ q', clipTo s depth lo hi' q = some q' := by
          cases hcl : clipTo s depth lo hi' q with
          | some q' => exact ⟨q', rfl⟩
          | none =>
            unfold clipTo at hcl
            dsimp only at hcl
            split at hcl
            · rename_i he
              have : ((u, w) : ℤ × ℤ) ∈ ((Finset.Ico lo hi' ×ˢ Finset.Ico 1 depth).filter
                  fun c => s.cell c.1 c.2 ∈ q.cells) := by
                simp only [Finset.mem_filter, Finset.mem_product, Finset.mem_Ico]
                exact ⟨⟨⟨hu1, hu2⟩, hw1, hw2⟩, hcell⟩
              rw [he] at this
              simp at this
            · cases hcl
        obtain ⟨q', hcl⟩ := hcl
        obtain ⟨c1, _, c3⟩ := clipTo_some.1 hcl
        have hmem : q' ∈ partsIn R i p s depth lo hi' j := (mem_partsIn hi).2 ⟨q, hq, hcl⟩
        have hj : j < R.length + 1 := by
          rcases hq with ⟨h, _⟩ | ⟨h, _⟩ | ⟨h, _⟩ <;> omega
        exact ⟨_, mem_childrenIn.2 ⟨hj, List.ne_nil_of_mem hmem, rfl⟩, q', hmem, c1,
          (c3 u w).2 ⟨⟨hu1, hu2⟩, ⟨hw1, hw2⟩, hcell⟩⟩
  · unfold lookIn
    rw [List.pairwise_map]
    refine hd.imp fun {a b} h => ?_
    rcases h with h | h
    · left; dsimp only; exact_mod_cast h
    · right; dsimp only; exact_mod_cast h
  · intro u h1 h2
    rcases hcov u (Finset.mem_Ico.2 ⟨h1, by omega⟩) with ⟨c, hcut, h3, h4⟩ | hno
    · left
      refine ⟨_, List.mem_map_of_mem hcut, ?_, ?_⟩
      · dsimp only; exact_mod_cast h3
      · dsimp only; exact_mod_cast h4
    · right
      intro j q hq w hw1 hw2
      refine hno j ?_ q ((shown_list hi).2 hq) w (Finset.mem_Ico.2 ⟨hw1, hw2⟩)
      rcases hq with ⟨h, _⟩ | ⟨h, _⟩ | ⟨h, _⟩ <;> omega

end Verif.Engine25
