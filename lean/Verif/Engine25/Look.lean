import Verif.Engine25.Edges
import Mathlib.Data.String.Basic

/-!
# Edges of boxes and a KLayout that looks at edges, for examples
-/

namespace Verif.Engine25

open Overlap (Cell Poly)

/-- The edges of a box. -/
def boxSides (x1 y1 x2 y2 : ℤ) : List Side :=
  [⟨x1, y2, .right, x2 - x1⟩, ⟨x2, y2, .down, y2 - y1⟩, ⟨x2, y1, .left, x2 - x1⟩, ⟨x1, y1, .up, y2 - y1⟩]

theorem box_sides {x1 y1 x2 y2 : ℤ} (hx : x1 < x2) (hy : y1 < y2) (s : Side) :
    IsSide (Finset.Ico x1 x2 ×ˢ Finset.Ico y1 y2) s ↔ s ∈ boxSides x1 y1 x2 y2 := by
  obtain ⟨x, y, d, len⟩ := s
  cases d <;>
  · simp only [IsSide, Side.cell, boxSides, Finset.mem_product, Finset.mem_Ico, List.mem_cons, Side.mk.injEq, reduceCtorEq,
      false_and, and_false, false_or, or_false, true_and, List.not_mem_nil]
    constructor
    · rintro ⟨h0, h1, h2, h3⟩
      have h4 := h1 0 (by omega) (by omega)
      have h5 := h1 (len - 1) (by omega) (by omega)
      omega
    · rintro ⟨rfl, rfl, rfl⟩
      refine ⟨by omega, fun u hu1 hu2 => ⟨by omega, by omega⟩, by omega, by omega⟩

/-- Nothing of a box lies in front of its edges. -/
theorem outside_box {x1 y1 x2 y2 : ℤ} {s : Side} (hs : s ∈ boxSides x1 y1 x2 y2) (u : ℤ) {w : ℤ} (hw : 1 ≤ w) :
    s.cell u w ∉ Finset.Ico x1 x2 ×ˢ Finset.Ico y1 y2 := by
  simp only [boxSides, List.mem_cons, List.not_mem_nil, or_false] at hs
  rcases hs with rfl | rfl | rfl | rfl <;>
  · simp only [Side.cell, Finset.mem_product, Finset.mem_Ico]
    omega

deriving instance DecidableEq for Poly

/-- The polygons that child `j` shows. -/
def shownList (R : List (List Poly)) (i : Nat) (p : Poly) (j : Nat) : List Poly :=
  if j = i then (R.getD i []).filter fun q => decide (q ≠ p) else if j = R.length then [p] else R.getD j []

/-- The part of a polygon in front of an edge. -/
noncomputable def clip (s : Side) (depth : ℤ) (q : Poly) : Option Poly :=
  let cells := (Finset.Ico 1 (s.len - 1) ×ˢ Finset.Ico 1 depth).filter fun c => s.cell c.1 c.2 ∈ q.cells
  if cells = ∅ then none else some ⟨q.net, cells⟩

/-- The parts that child `j` shows. -/
noncomputable def inFront (R : List (List Poly)) (i : Nat) (p : Poly) (s : Side) (depth : ℤ) (j : Nat) : List Poly :=
  (shownList R i p j).filterMap (clip s depth)

/-- The children that show something. -/
noncomputable def children (R : List (List Poly)) (i : Nat) (p : Poly) (s : Side) (depth : ℤ) : Dict Nat (List Poly) :=
  (List.range (R.length + 1)).filterMap fun j =>
    if inFront R i p s depth j = [] then none else some (j, inFront R i p s depth j)

/-- What lies in front of an edge: one interval, all polygons clipped. -/
noncomputable def lookAt (R : List (List Poly)) (i : Nat) (p : Poly) (s : Side) (depth : ℤ) : Fringe.Neighborhood :=
  if s.len ≤ 3 then [] else [((((1 : ℤ) : ℚ), ((s.len - 1 : ℤ) : ℚ)), children R i p s depth)]

theorem mem_children {R : List (List Poly)} {i : Nat} {p : Poly} {s : Side} {depth : ℤ} {j : Nat} {ps : List Poly} :
    (j, ps) ∈ children R i p s depth ↔ j < R.length + 1 ∧ ps ≠ [] ∧ ps = inFront R i p s depth j := by
  unfold children
  rw [List.mem_filterMap]
  constructor
  · rintro ⟨k, hk, h⟩
    rw [List.mem_range] at hk
    split at h
    · cases h
    · rename_i hne
      have h' := Option.some.inj h
      rw [Prod.mk.injEq] at h'
      obtain ⟨rfl, rfl⟩ := h'
      exact ⟨hk, hne, rfl⟩
  · rintro ⟨h1, h2, rfl⟩
    refine ⟨j, List.mem_range.2 h1, ?_⟩
    rw [if_neg h2]

theorem clip_some {s : Side} {depth : ℤ} {q p : Poly} : clip s depth q = some p ↔
    p.net = q.net ∧ p.cells.Nonempty ∧
      ∀ u w, (u, w) ∈ p.cells ↔ (1 ≤ u ∧ u < s.len - 1) ∧ (1 ≤ w ∧ w < depth) ∧ s.cell u w ∈ q.cells := by
  unfold clip
  dsimp only
  have hm : ∀ u w, (u, w) ∈ ((Finset.Ico 1 (s.len - 1) ×ˢ Finset.Ico 1 depth).filter fun c => s.cell c.1 c.2 ∈ q.cells) ↔
      (1 ≤ u ∧ u < s.len - 1) ∧ (1 ≤ w ∧ w < depth) ∧ s.cell u w ∈ q.cells := by
    intro u w
    simp only [Finset.mem_filter, Finset.mem_product, Finset.mem_Ico]
    tauto
  generalize ((Finset.Ico 1 (s.len - 1) ×ˢ Finset.Ico 1 depth).filter fun c => s.cell c.1 c.2 ∈ q.cells) = K at hm ⊢
  constructor
  · intro h
    split at h
    · cases h
    · rename_i hne
      obtain rfl := Option.some.inj h
      exact ⟨rfl, Finset.nonempty_iff_ne_empty.2 hne, hm⟩
  · rintro ⟨h1, h2, h3⟩
    have : p.cells = K := by
      ext ⟨u, w⟩
      rw [h3, hm]
    obtain ⟨n, cells⟩ := p
    subst h1
    dsimp only at this h2 ⊢
    subst this
    rw [if_neg (Finset.nonempty_iff_ne_empty.1 h2)]

theorem shown_list {R : List (List Poly)} {i : Nat} (hi : i < R.length) {p : Poly} {j : Nat} {q : Poly} :
    q ∈ shownList R i p j ↔ Shown R i p j q := by
  unfold shownList Shown
  split
  · rename_i h
    subst h
    simp only [List.mem_filter, decide_eq_true_eq]
    constructor
    · intro h; exact Or.inr (Or.inl ⟨trivial, h⟩)
    · rintro (⟨_, h, _⟩ | ⟨_, h⟩ | ⟨h, _⟩)
      · exact absurd rfl h
      · exact h
      · omega
  · rename_i hne
    split
    · rename_i h
      subst h
      simp only [List.mem_singleton]
      constructor
      · intro h; exact Or.inr (Or.inr ⟨trivial, h⟩)
      · rintro (⟨h, _⟩ | ⟨h, _⟩ | ⟨_, h⟩)
        · omega
        · exact absurd h hne
        · exact h
    · rename_i hne'
      constructor
      · intro h
        refine Or.inl ⟨?_, hne, h⟩
        by_contra hlt
        rw [List.getD_eq_getElem?_getD, List.getElem?_eq_none (by omega)] at h
        simp at h
      · rintro (⟨_, _, h⟩ | ⟨h, _⟩ | ⟨h, _⟩)
        · exact h
        · exact absurd h hne
        · exact absurd h hne'

theorem mem_inFront {R : List (List Poly)} {i : Nat} (hi : i < R.length) {p : Poly} {s : Side} {depth : ℤ} {j : Nat} {q : Poly} :
    q ∈ inFront R i p s depth j ↔ ∃ q', Shown R i p j q' ∧ clip s depth q' = some q := by
  unfold inFront
  rw [List.mem_filterMap]
  simp only [shown_list hi]

/-- The check that remains: every part is a box over the whole interval, and they do not overlap. -/
def Clear (R : List (List Poly)) (i : Nat) (p : Poly) (s : Side) (depth : ℤ) : Prop :=
  s.len ≠ 3 ∧ (3 < s.len → ∀ j < R.length + 1, (∀ q ∈ inFront R i p s depth j, ∃ y ∈ Finset.Ico 1 depth, ∃ z ∈ Finset.Ioc y depth,
    q.cells = Finset.Ico 1 (s.len - 1) ×ˢ Finset.Ico y z) ∧
    (inFront R i p s depth j).Pairwise fun q q' => Disjoint q.cells q'.cells)

noncomputable instance (R : List (List Poly)) (i : Nat) (p : Poly) (s : Side) (depth : ℤ) : Decidable (Clear R i p s depth) := by
  unfold Clear; infer_instance

theorem look_ok {R : List (List Poly)} {i : Nat} (hi : i < R.length) {p : Poly} {s : Side} {depth : ℤ} (h : Clear R i p s depth) :
    EdgeOK R i p s depth (lookAt R i p s depth) := by
  obtain ⟨h3, hc⟩ := h
  unfold lookAt
  by_cases hl : s.len ≤ 3
  · rw [if_pos hl]
    refine ⟨by simp, by simp, ?_⟩
    intro u h1 h2
    omega
  · rw [if_neg hl]
    have hc := hc (by omega)
    refine ⟨?_, by simp, ?_⟩
    · intro v hv
      rw [List.mem_singleton] at hv
      subst hv
      refine ⟨1, s.len - 1, rfl, by omega, ⟨⟨?_, ?_⟩, ?_, ?_⟩, ?_⟩
      · unfold children Dict.keys
        rw [List.map_filterMap]
        refine List.Nodup.filterMap ?_ List.nodup_range
        intro a b c ha hb
        split at ha
        · simp at ha
        · split at hb
          · simp at hb
          · simp only [Option.map_some, Option.mem_def, Option.some.injEq] at ha hb
            omega
      · rintro ⟨j, ps⟩ he
        rw [mem_children] at he
        obtain ⟨h1, h2, rfl⟩ := he
        refine ⟨h2, fun q hq => ?_⟩
        obtain ⟨q', _, hcl⟩ := (mem_inFront hi).1 hq
        exact (clip_some.1 hcl).2.1
      · rintro ⟨j, ps⟩ he q hq
        rw [mem_children] at he
        obtain ⟨h1, h2, rfl⟩ := he
        obtain ⟨y, hy, z, hz, hcells⟩ := (hc j h1).1 q hq
        rw [Finset.mem_Ico] at hy
        rw [Finset.mem_Ioc] at hz
        exact ⟨y, z, hy.1, hz.1, hz.2, hcells⟩
      · rintro ⟨j, ps⟩ he
        rw [mem_children] at he
        obtain ⟨h1, h2, rfl⟩ := he
        exact (hc j h1).2
      · intro j n u w hu1 hu2 hw1 hw2
        constructor
        · rintro ⟨ps, hps, q, hq, rfl, hcell⟩
          rw [mem_children] at hps
          obtain ⟨h1, h2, rfl⟩ := hps
          obtain ⟨q', hq', hcl⟩ := (mem_inFront hi).1 hq
          obtain ⟨c1, _, c3⟩ := clip_some.1 hcl
          exact ⟨q', hq', c1.symm, ((c3 u w).1 hcell).2.2⟩
        · rintro ⟨q, hq, rfl, hcell⟩
          have hcl : ∃ q', clip s depth q = some q' := by
            cases hcl : clip s depth q with
            | some q' => exact ⟨q', rfl⟩
            | none =>
              unfold clip at hcl
              dsimp only at hcl
              split at hcl
              · rename_i he
                have : ((u, w) : ℤ × ℤ) ∈ ((Finset.Ico 1 (s.len - 1) ×ˢ Finset.Ico 1 depth).filter
                    fun c => s.cell c.1 c.2 ∈ q.cells) := by
                  simp only [Finset.mem_filter, Finset.mem_product, Finset.mem_Ico]
                  exact ⟨⟨⟨hu1, hu2⟩, hw1, hw2⟩, hcell⟩
                rw [he] at this
                simp at this
              · cases hcl
          obtain ⟨q', hcl⟩ := hcl
          obtain ⟨c1, _, c3⟩ := clip_some.1 hcl
          have hmem : q' ∈ inFront R i p s depth j := (mem_inFront hi).2 ⟨q, hq, hcl⟩
          have hj : j < R.length + 1 := by
            rcases hq with ⟨h, _⟩ | ⟨h, _⟩ | ⟨h, _⟩ <;> omega
          exact ⟨_, mem_children.2 ⟨hj, List.ne_nil_of_mem hmem, rfl⟩, q', hmem, c1,
            (c3 u w).2 ⟨⟨hu1, hu2⟩, ⟨hw1, hw2⟩, hcell⟩⟩
    · intro u h1 h2
      left
      refine ⟨_, List.mem_singleton.2 rfl, ?_, ?_⟩
      · dsimp only; exact_mod_cast h1
      · dsimp only; exact_mod_cast (by omega : u < s.len - 1)

/-- Merged polygons: one per net, in the order of the nets. -/
def tidy (ps : List Poly) : List Poly :=
  ((ps.map Poly.net).toFinset.sort (· ≤ ·)).map fun n =>
    ⟨n, (ps.filter fun p => decide (p.net = n)).foldr (fun p s => p.cells ∪ s) ∅⟩

theorem tidy_congr {ps qs : List Poly} (h : ∀ p, p ∈ ps ↔ p ∈ qs) : tidy ps = tidy qs := by
  unfold tidy
  have e : (ps.map Poly.net).toFinset = (qs.map Poly.net).toFinset := by
    ext n
    simp [h]
  rw [e]
  refine List.map_congr_left fun n _ => ?_
  have : (ps.filter fun p => decide (p.net = n)).foldr (fun p s => p.cells ∪ s) ∅ =
      (qs.filter fun p => decide (p.net = n)).foldr (fun p s => p.cells ∪ s) ∅ := by
    ext c
    simp [mem_foldr_union, h]
  rw [this]

theorem tidy_one (p : Poly) : tidy [p] = [p] := by
  unfold tidy
  simp

theorem tidy_two {p q : Poly} (h : p.net < q.net) : tidy [p, q] = [p, q] := by
  unfold tidy
  have e : ([p, q].map Poly.net).toFinset.sort (· ≤ ·) = [p.net, q.net] := by
    have hp : (([p, q].map Poly.net).toFinset.sort (· ≤ ·)).Perm [p.net, q.net] := by
      rw [List.perm_ext_iff_of_nodup (Finset.sort_nodup _ _) (by simp [h.ne])]
      intro n
      simp
    refine hp.eq_of_pairwise' (Finset.pairwise_sort _ _) ?_
    simp [h.le]
  rw [e]
  simp [h.ne, h.ne']

end Verif.Engine25
