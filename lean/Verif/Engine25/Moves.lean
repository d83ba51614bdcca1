import Verif.Engine25.Edges

/-!
# Moving a layout does not change its capacitances (C92)
-/

namespace Verif.Engine25

open TechInfo (Tech GDSPair StackLayer)
open Overlap (Cell Poly)
open Summary (SamePair)
open Fringe (countsAs law)
open PexMode (Mode)
open TechInfo (IsLast SideOverlapIs)
open Summary (RNetwork)

/-! ### Specification -/

/-- A symmetry of the grid: what it does with cells, edges and boxes. It may turn the direction along the edges around
(`flip`). -/
structure Move where
  cell : Cell ≃ Cell
  side : Side ≃ Side
  box : Box → Box
  flip : Bool
  len : ∀ s, (side s).len = s.len
  spec : ∀ s u v, (side s).cell u v = cell (s.cell (if flip then s.len - 1 - u else u) v)
  area : ∀ b, (box b).area = b.area
  inBox : ∀ b h c, ((box b).x1 - h ≤ (cell c).1 ∧ (cell c).1 < (box b).x2 + h ∧ (box b).y1 - h ≤ (cell c).2 ∧
    (cell c).2 < (box b).y2 + h) ↔ b.x1 - h ≤ c.1 ∧ c.1 < b.x2 + h ∧ b.y1 - h ≤ c.2 ∧ c.2 < b.y2 + h

/-- Shifting by `(dx, dy)`. -/
def Move.shift (dx dy : ℤ) : Move where
  cell := ⟨fun c => (c.1 + dx, c.2 + dy), fun c => (c.1 - dx, c.2 - dy), fun c => by ext <;> simp, fun c => by ext <;> simp⟩
  side := ⟨fun s => ⟨s.x + dx, s.y + dy, s.dir, s.len⟩, fun s => ⟨s.x - dx, s.y - dy, s.dir, s.len⟩,
    fun s => by simp, fun s => by simp⟩
  box b := ⟨b.x1 + dx, b.y1 + dy, b.x2 + dx, b.y2 + dy⟩
  flip := false
  len _ := rfl
  spec s u v := by
    rcases s with ⟨x, y, d, l⟩
    cases d <;> refine Prod.ext ?_ ?_ <;> simp only [Side.cell, Equiv.coe_fn_mk, Bool.false_eq_true, if_false] <;> omega
  area b := by simp [Box.area]
  inBox b h c := by simp only [Equiv.coe_fn_mk]; omega

/-- The next direction counterclockwise. -/
def Dir.turn : Dir → Dir
  | .right => .up | .up => .left | .left => .down | .down => .right

/-- The next direction clockwise. -/
def Dir.back : Dir → Dir
  | .right => .down | .up => .right | .left => .up | .down => .left

/-- Turning by 90° counterclockwise about the origin. -/
def Move.turn : Move where
  cell := ⟨fun c => (-c.2 - 1, c.1), fun c => (c.2, -c.1 - 1), fun c => by ext <;> simp, fun c => by ext <;> simp⟩
  side := ⟨fun s => ⟨-s.y, s.x, s.dir.turn, s.len⟩, fun s => ⟨s.y, -s.x, s.dir.back, s.len⟩,
    fun s => by rcases s with ⟨x, y, d, l⟩; cases d <;> simp [Dir.turn, Dir.back],
    fun s => by rcases s with ⟨x, y, d, l⟩; cases d <;> simp [Dir.turn, Dir.back]⟩
  box b := ⟨-b.y2, b.x1, -b.y1, b.x2⟩
  flip := false
  len _ := rfl
  spec s u v := by
    rcases s with ⟨x, y, d, l⟩
    cases d <;> refine Prod.ext ?_ ?_ <;> simp only [Side.cell, Dir.turn, Equiv.coe_fn_mk, Bool.false_eq_true, if_false] <;> omega
  area b := by simp only [Box.area]; ring
  inBox b h c := by simp only [Equiv.coe_fn_mk]; omega

/-- The edge mirrored at the vertical axis; its polygon has to stay on its right, so it runs backwards. -/
def Side.mirror (s : Side) : Side :=
  match s.dir with
  | .right => ⟨-s.x - s.len, s.y, .right, s.len⟩
  | .left => ⟨-s.x + s.len, s.y, .left, s.len⟩
  | .up => ⟨-s.x, s.y + s.len, .down, s.len⟩
  | .down => ⟨-s.x, s.y - s.len, .up, s.len⟩

theorem Side.mirror_mirror (s : Side) : s.mirror.mirror = s := by
  rcases s with ⟨x, y, d, l⟩
  cases d <;> simp only [Side.mirror, Side.mk.injEq] <;> refine ⟨by first | trivial | omega, by first | trivial | omega, trivial, trivial⟩

/-- Mirroring at the vertical axis. -/
def Move.mirror : Move where
  cell := ⟨fun c => (-c.1 - 1, c.2), fun c => (-c.1 - 1, c.2), fun c => by ext <;> simp, fun c => by ext <;> simp⟩
  side := ⟨Side.mirror, Side.mirror, Side.mirror_mirror, Side.mirror_mirror⟩
  box b := ⟨-b.x2, b.y1, -b.x1, b.y2⟩
  flip := true
  len s := by
    rcases s with ⟨x, y, d, l⟩
    cases d <;> rfl
  spec s u v := by
    rcases s with ⟨x, y, d, l⟩
    cases d <;> refine Prod.ext ?_ ?_ <;> simp only [Side.cell, Side.mirror, Equiv.coe_fn_mk, if_true] <;> omega
  area b := by simp only [Box.area]; ring
  inBox b h c := by simp only [Equiv.coe_fn_mk]; omega

/-- One symmetry after the other. -/
def Move.then (M N : Move) : Move where
  cell := M.cell.trans N.cell
  side := M.side.trans N.side
  box b := N.box (M.box b)
  flip := xor M.flip N.flip
  len s := by rw [Equiv.trans_apply, N.len, M.len]
  spec s u v := by
    rw [Equiv.trans_apply, N.spec, M.spec, M.len]
    cases M.flip <;> cases N.flip <;> simp
  area b := by rw [N.area, M.area]
  inBox b h c := by rw [Equiv.trans_apply, N.inBox, M.inBox]

/-- The moved polygon, with the same net. -/
def Move.poly (M : Move) (p : Poly) : Poly := ⟨p.net, p.cells.map M.cell.toEmbedding⟩

/-- `x'` is the layout `x` moved by `M`. -/
structure MovedTo (M : Move) (x x' : Context) : Prop where
  dbu : x'.dbu = x.dbu
  annotated : x'.annotated = M.box x.annotated
  internal : x'.internal = M.box x.internal
  extracted : ∀ g, x'.extracted.get? g = (x.extracted.get? g).map fun rs => rs.map fun r => r.map M.poly

/-- Merging of polygons does not depend on where they are. -/
def MergesMoved (kl : KLayout) (M : Move) : Prop :=
  ∀ ps ps', (∀ p, p ∈ ps' ↔ ∃ q ∈ ps, p = M.poly q) → ∀ p, p ∈ kl.merged ps' ↔ ∃ q ∈ kl.merged ps, p = M.poly q

/-! ### Proofs -/

variable {M : Move}

theorem Move.mem_poly (p : Poly) (c : Cell) : M.cell c ∈ (M.poly p).cells ↔ c ∈ p.cells := by
  simp [Move.poly]

theorem Move.mem_poly' (p : Poly) (c : Cell) : c ∈ (M.poly p).cells ↔ M.cell.symm c ∈ p.cells := by
  rw [← M.mem_poly p, Equiv.apply_symm_apply]

theorem Move.poly_inj {p q : Poly} (h : M.poly p = M.poly q) : p = q := by
  have h1 : (M.poly p).net = (M.poly q).net := congrArg Poly.net h
  have h2 : p.cells.map M.cell.toEmbedding = q.cells.map M.cell.toEmbedding := congrArg Poly.cells h
  have h3 := Finset.map_injective _ h2
  cases p; cases q
  simp only [Move.poly] at h1 h3
  rw [h1, h3]

/-- Column of the original edge. -/
def Move.col (M : Move) (s : Side) (u : ℤ) : ℤ := if M.flip then s.len - 1 - u else u

theorem Move.cell_iff (M : Move) (p : Poly) (s : Side) (u v : ℤ) :
    (M.side s).cell u v ∈ (M.poly p).cells ↔ s.cell (M.col s u) v ∈ p.cells := by
  rw [M.spec, M.mem_poly]; rfl

theorem Move.col_col (M : Move) (s : Side) (u : ℤ) : M.col s (M.col s u) = u := by
  unfold Move.col
  split <;> omega

theorem Move.isSide (M : Move) (p : Poly) (s : Side) : IsSide (M.poly p).cells (M.side s) ↔ IsSide p.cells s := by
  unfold IsSide
  simp only [M.cell_iff, M.len]
  have e1 : (∀ u, 0 ≤ u → u < s.len → s.cell (M.col s u) (-1) ∈ p.cells ∧ s.cell (M.col s u) 0 ∉ p.cells) ↔
      ∀ u, 0 ≤ u → u < s.len → s.cell u (-1) ∈ p.cells ∧ s.cell u 0 ∉ p.cells := by
    constructor
    · intro h u h1 h2
      have := h (M.col s u) (by unfold Move.col; split <;> omega) (by unfold Move.col; split <;> omega)
      rwa [M.col_col] at this
    · intro h u h1 h2
      exact h _ (by unfold Move.col; split <;> omega) (by unfold Move.col; split <;> omega)
  rw [e1]
  unfold Move.col
  cases M.flip
  · simp
  · simp only [if_true]
    rw [show s.len - 1 - -1 = s.len by omega, show s.len - 1 - s.len = -1 by omega]
    tauto

/-- The polygons of the layers, moved. -/
def MovedLayers (M : Move) (R R' : List (List Poly)) : Prop :=
  ∀ i p, p ∈ R'.getD i [] ↔ ∃ q ∈ R.getD i [], p = M.poly q

theorem MovedLayers.mem {R R' : List (List Poly)} (h : MovedLayers M R R') (i : Nat) (q : Poly) :
    M.poly q ∈ R'.getD i [] ↔ q ∈ R.getD i [] := by
  rw [h]
  constructor
  · rintro ⟨q', h1, h2⟩
    rwa [M.poly_inj h2]
  · exact fun h => ⟨q, h, rfl⟩

theorem MovedLayers.sides {R R' : List (List Poly)} (h : MovedLayers M R R') {i : Nat} {L L' : List (Poly × Side)}
    (hL : AllSides (R.getD i []) L) (hL' : AllSides (R'.getD i []) L') :
    L'.Perm (L.map fun ps => (M.poly ps.1, M.side ps.2)) := by
  have hinj : Function.Injective fun ps : Poly × Side => (M.poly ps.1, M.side ps.2) := by
    rintro ⟨p, s⟩ ⟨q, r⟩ h
    simp only [Prod.mk.injEq] at h
    rw [M.poly_inj h.1, M.side.injective h.2]
  rw [List.perm_ext_iff_of_nodup hL'.nodup (hL.nodup.map hinj)]
  rintro ⟨p, s⟩
  rw [hL'.mem, List.mem_map, h]
  constructor
  · rintro ⟨⟨q, hq, rfl⟩, hs⟩
    refine ⟨(q, M.side.symm s), (hL.mem _ _).2 ⟨hq, ?_⟩, by simp⟩
    rw [← M.isSide, Equiv.apply_symm_apply]; exact hs
  · rintro ⟨⟨q, r⟩, hq, he⟩
    simp only [Prod.mk.injEq] at he
    obtain ⟨rfl, rfl⟩ := he
    obtain ⟨h1, h2⟩ := (hL.mem _ _).1 hq
    exact ⟨⟨q, h1, rfl⟩, (M.isSide q r).2 h2⟩

theorem MovedLayers.faced {R R' : List (List Poly)} (h : MovedLayers M R R') (i : Nat) (p : Poly) (s : Side) (u d : ℤ)
    (n : String) : FacedBy R' i (M.poly p) (M.side s) u d n ↔ FacedBy R i p s (M.col s u) d n := by
  constructor
  · rintro ⟨⟨q', h1, h2, h3, h4⟩, h5⟩
    obtain ⟨q, hq, rfl⟩ := (h _ _).1 h1
    refine ⟨⟨q, hq, fun he => h2 (by rw [he]), h3, (M.cell_iff _ _ _ _).1 h4⟩, fun w w1 w2 r hr hrp hc => ?_⟩
    exact h5 w w1 w2 (M.poly r) ((h.mem _ _).2 hr) (fun he => hrp (M.poly_inj he)) ((M.cell_iff _ _ _ _).2 hc)
  · rintro ⟨⟨q, h1, h2, h3, h4⟩, h5⟩
    refine ⟨⟨M.poly q, (h.mem _ _).2 h1, fun he => h2 (M.poly_inj he), h3, (M.cell_iff _ _ _ _).2 h4⟩,
      fun w w1 w2 r' hr' hrp hc => ?_⟩
    obtain ⟨r, hr, rfl⟩ := (h _ _).1 hr'
    exact h5 w w1 w2 r hr (fun he => hrp (by rw [he])) ((M.cell_iff _ _ _ _).1 hc)

theorem MovedLayers.free {R R' : List (List Poly)} (h : MovedLayers M R R') (i : Nat) (s : Side) (u w : ℤ) :
    (∀ q ∈ R'.getD i [], (M.side s).cell u w ∉ q.cells) ↔ ∀ q ∈ R.getD i [], s.cell (M.col s u) w ∉ q.cells := by
  constructor
  · intro h1 q hq hc
    exact h1 _ ((h.mem _ _).2 hq) ((M.cell_iff _ _ _ _).2 hc)
  · intro h1 q' hq' hc
    obtain ⟨q, hq, rfl⟩ := (h _ _).1 hq'
    exact h1 q hq ((M.cell_iff _ _ _ _).1 hc)

theorem MovedLayers.seen {R R' : List (List Poly)} (h : MovedLayers M R R') (i : Nat) (s : Side) (u w : ℤ) (j : Nat)
    (n : String) : SeenFrom R' i (M.side s) u w j n ↔ SeenFrom R i s (M.col s u) w j n := by
  unfold SeenFrom
  simp only [h.free]
  refine and_congr_left fun _ => ?_
  constructor
  · rintro ⟨q', h1, h2, h3⟩
    obtain ⟨q, hq, rfl⟩ := (h _ _).1 h1
    exact ⟨q, hq, h2, (M.cell_iff _ _ _ _).1 h3⟩
  · rintro ⟨q, h1, h2, h3⟩
    exact ⟨M.poly q, (h.mem _ _).2 h1, h2, (M.cell_iff _ _ _ _).2 h3⟩

/-- A sum over the columns without the first and the last one does not depend on the direction. -/
theorem Move.sum_col {A : Type} [AddCommMonoid A] (M : Move) (s : Side) (f : ℤ → A) :
    ∑ u ∈ Finset.Ico 1 (s.len - 1), f (M.col s u) = ∑ u ∈ Finset.Ico 1 (s.len - 1), f u := by
  refine Finset.sum_nbij' (M.col s) (M.col s) ?_ ?_ (fun u _ => M.col_col s u) (fun u _ => M.col_col s u) (fun _ _ => rfl)
  · intro u hu
    rw [Finset.mem_Ico] at hu ⊢
    unfold Move.col
    split <;> omega
  · intro u hu
    rw [Finset.mem_Ico] at hu ⊢
    unfold Move.col
    split <;> omega

theorem MovedLayers.wall {R R' : List (List Poly)} (h : MovedLayers M R R') (names : List String) (dbu : ℚ) (depth : ℤ)
    (C off : String → ℚ) {sides sides' : Nat → List (Poly × Side)} (hs : ∀ i < names.length, AllSides (R.getD i []) (sides i))
    (hs' : ∀ i < names.length, AllSides (R'.getD i []) (sides' i)) (a b : String) :
    wallTotal R' names dbu depth C off sides' a b = wallTotal R names dbu depth C off sides a b := by
  classical
  unfold wallTotal
  refine Finset.sum_congr rfl fun i hi => ?_
  rw [Finset.mem_range] at hi
  rw [((h.sides (hs i hi) (hs' i hi)).map _).sum_eq, List.map_map]
  refine congrArg List.sum (List.map_congr_left fun ps _ => ?_)
  simp only [Function.comp_def, M.len, h.faced]
  exact M.sum_col ps.2 fun u => ∑ d ∈ Finset.Ico 1 depth, if ∃ n, FacedBy R i ps.1 ps.2 u d n ∧ SamePair ps.1.net n a b then
    dbu * C (names.getD i "") / (d * dbu + off (names.getD i "")) / 2 / 1000 else 0

theorem MovedLayers.fringe {R R' : List (List Poly)} (h : MovedLayers M R R') (names : List String) (dbu halo : ℚ)
    (scale : Bool) (cov cs : String → String → ℚ) (depth : ℤ) {sides sides' : Nat → List (Poly × Side)}
    (hs : ∀ i < names.length, AllSides (R.getD i []) (sides i))
    (hs' : ∀ i < names.length, AllSides (R'.getD i []) (sides' i)) (a b : String) :
    fringeTotal R' names dbu halo scale cov cs depth sides' a b = fringeTotal R names dbu halo scale cov cs depth sides a b := by
  classical
  unfold fringeTotal
  refine Finset.sum_congr rfl fun i hi => ?_
  rw [Finset.mem_range] at hi
  rw [((h.sides (hs i hi) (hs' i hi)).map _).sum_eq, List.map_map]
  refine congrArg List.sum (List.map_congr_left fun ps _ => ?_)
  unfold seenTotal
  simp only [Function.comp_def, M.len, h.seen]
  refine Finset.sum_congr rfl fun j _ => ?_
  exact M.sum_col ps.2 fun u => ∑ w ∈ Finset.Ico 1 depth, if ∃ n, SeenFrom R i ps.2 u w j n ∧
    SamePair (countsAs (names.getD i "") ps.1.net) (countsAs (names.getD j "") n) a b then
    law scale halo dbu (cov (names.getD i "") (names.getD j "")) (cs (names.getD i "") (names.getD j "")) 1 w (w + 1) else 0

/-! ### The layers of the moved cell -/

variable {x x' : Context}

theorem MovedTo.gives (h : MovedTo M x x') (t : Tech) (l : StackLayer) (n : String) (rs' : List (List Poly)) :
    Gives t x' l n rs' ↔ ∃ rs, Gives t x l n rs ∧ rs' = rs.map fun r => r.map M.poly := by
  unfold Gives
  constructor
  · rintro ⟨h1, h2, g, h3, h4⟩
    rw [h.extracted, Option.map_eq_some_iff] at h4
    obtain ⟨rs, h5, h6⟩ := h4
    exact ⟨rs, ⟨h1, h2, g, h3, h5⟩, h6.symm⟩
  · rintro ⟨rs, ⟨h1, h2, g, h3, h4⟩, rfl⟩
    exact ⟨h1, h2, g, h3, by rw [h.extracted, h4]; rfl⟩

theorem MovedTo.gives_iff (h : MovedTo M x x') (t : Tech) (l : StackLayer) (n : String) :
    (∃ rs, Gives t x' l n rs) ↔ ∃ rs, Gives t x l n rs := by
  simp only [h.gives]
  constructor
  · rintro ⟨_, rs, h, _⟩; exact ⟨rs, h⟩
  · rintro ⟨rs, h⟩; exact ⟨_, rs, h, rfl⟩

theorem MovedTo.isStack (h : MovedTo M x x') {t : Tech} {names : List String} (hs : IsStack t x' names) : IsStack t x names where
  nodup := hs.nodup
  head := hs.head
  mem n := by rw [hs.mem]; simp only [h.gives_iff]
  order i j a b h1 h2 h3 := by
    rcases hs.order i j a b h1 h2 h3 with h4 | ⟨s₁, l, s₂, e, g, hn⟩
    · exact Or.inl h4
    · refine Or.inr ⟨s₁, l, s₂, e, (h.gives_iff t l a).1 g, fun l' hl' rs hg => ?_⟩
      obtain ⟨rs', hg'⟩ := (h.gives_iff t l' b).2 ⟨rs, hg⟩
      exact hn l' hl' rs' hg'

theorem MovedTo.inSubstrate (h : MovedTo M x x') (halo : ℤ) (c : Cell) :
    InSubstrate x' halo (M.cell c) ↔ InSubstrate x halo c := by
  rw [inSubstrate_iff, inSubstrate_iff]
  rw [h.annotated, h.internal, M.area, M.area, M.inBox, M.inBox]

theorem MovedTo.polyOf (h : MovedTo M x x') (t : Tech) (halo : ℤ) (n : String) (p : Poly) :
    PolyOf t x' halo n p ↔ ∃ q, PolyOf t x halo n q ∧ p = M.poly q := by
  constructor
  · rintro (⟨h1, h2, h3⟩ | ⟨l, hl, rs', hg, r', hr', hp⟩)
    · refine ⟨⟨p.net, p.cells.map M.cell.symm.toEmbedding⟩, Or.inl ⟨h1, h2, fun c => ?_⟩, ?_⟩
      · rw [← h.inSubstrate, ← h3]
        simp [Finset.mem_map_equiv]
      · cases p with
        | mk net cells =>
        simp only [Move.poly, Poly.mk.injEq, true_and]
        ext c
        simp [Finset.mem_map_equiv]
    · obtain ⟨rs, hg', rfl⟩ := (h.gives _ _ _ _).1 hg
      obtain ⟨r, hr, rfl⟩ := List.mem_map.1 hr'
      obtain ⟨q, hq, rfl⟩ := List.mem_map.1 hp
      exact ⟨q, Or.inr ⟨l, hl, rs, hg', r, hr, hq⟩, rfl⟩
  · rintro ⟨q, ⟨h1, h2, h3⟩ | ⟨l, hl, rs, hg, r, hr, hq⟩, rfl⟩
    · refine Or.inl ⟨h1, h2, fun c => ?_⟩
      rw [M.mem_poly', h3, ← h.inSubstrate, Equiv.apply_symm_apply]
    · exact Or.inr ⟨l, hl, _, (h.gives _ _ _ _).2 ⟨rs, hg, rfl⟩, _, List.mem_map.2 ⟨r, hr, rfl⟩, List.mem_map.2 ⟨q, hq, rfl⟩⟩

theorem MovedTo.on (h : MovedTo M x x') (t : Tech) (halo : ℤ) (n net : String) (c : Cell) :
    On t x' halo n net (M.cell c) ↔ On t x halo n net c := by
  unfold On
  rw [h.inSubstrate]
  refine or_congr Iff.rfl (and_congr Iff.rfl ?_)
  constructor
  · rintro ⟨p, hp, h1, h2⟩
    obtain ⟨q, hq, rfl⟩ := (h.polyOf _ _ _ _).1 hp
    exact ⟨q, hq, h1, (M.mem_poly _ _).1 h2⟩
  · rintro ⟨q, hq, h1, h2⟩
    exact ⟨M.poly q, (h.polyOf _ _ _ _).2 ⟨q, hq, rfl⟩, h1, (M.mem_poly _ _).2 h2⟩

theorem MovedTo.noShorts (h : MovedTo M x x') {t : Tech} {halo : ℤ} (hs : NoShorts t x halo) : NoShorts t x' halo := by
  intro n p q hp hq c h1 h2
  obtain ⟨p', hp', rfl⟩ := (h.polyOf _ _ _ _).1 hp
  obtain ⟨q', hq', rfl⟩ := (h.polyOf _ _ _ _).1 hq
  exact hs n p' q' hp' hq' _ ((M.mem_poly' _ _).1 h1) ((M.mem_poly' _ _).1 h2)

theorem MovedTo.overlap (h : MovedTo M x x') (t : Tech) (halo : ℤ) (names : List String) (cap : String → String → ℚ)
    (a b : String) : overlapTotal t x' halo names cap a b = overlapTotal t x halo names cap a b := by
  have key : ∀ i j a b, Set.ncard {c | Faces t x' halo names i j a b c} = Set.ncard {c | Faces t x halo names i j a b c} := by
    intro i j a b
    rw [← Set.ncard_image_of_injective {c | Faces t x halo names i j a b c} M.cell.injective]
    congr 1
    ext c
    simp only [Set.mem_image]
    constructor
    · intro hc
      refine ⟨M.cell.symm c, ?_, by simp⟩
      have hc' : Faces t x' halo names i j a b (M.cell (M.cell.symm c)) := by rwa [Equiv.apply_symm_apply]
      unfold Faces at hc'
      simp only [h.on] at hc'
      exact hc'
    · rintro ⟨c', hc, rfl⟩
      show Faces t x' halo names i j a b (M.cell c')
      unfold Faces
      simp only [h.on]
      exact hc
  unfold overlapTotal
  simp only [key, h.dbu]

theorem MovedTo.layers (h : MovedTo M x x') {kl : KLayout} (hm : MergesMoved kl M) {t : Tech} {halo : ℤ}
    {names : List String} {R R' : List (List Poly)} (hR : Regions kl t x halo names R) (hR' : Regions kl t x' halo names R') :
    MovedLayers M R R' := by
  intro i p
  by_cases hi : i < names.length
  · obtain ⟨ps, e, hps⟩ := hR.2 i hi
    obtain ⟨ps', e', hps'⟩ := hR'.2 i hi
    rw [List.getD_eq_getElem?_getD, List.getD_eq_getElem?_getD, e, e']
    simp only [Option.getD_some]
    refine hm ps ps' (fun q => ?_) p
    rw [hps', h.polyOf]
    simp only [hps]
  · have e : R.getD i [] = [] := by
      rw [List.getD_eq_getElem?_getD, List.getElem?_eq_none (by rw [hR.1]; omega)]; rfl
    have e' : R'.getD i [] = [] := by
      rw [List.getD_eq_getElem?_getD, List.getElem?_eq_none (by rw [hR'.1]; omega)]; rfl
    rw [e, e']
    simp

/-- The neighbourhoods of the moved edges, in the coordinates of the edges: they are the same if the direction of the edges
is. -/
theorem MovedLayers.visits {R R' : List (List Poly)} (h : MovedLayers M R R') (hf : M.flip = false)
    (hlen : R'.length = R.length) {i : Nat} {depth : ℤ} {sides : List (Poly × Side)}
    {edges : List (String × Fringe.Neighborhood)} (hv : Visits R i depth sides edges) :
    Visits R' i depth (sides.map fun ps => (M.poly ps.1, M.side ps.2)) edges := by
  have hcol : ∀ s u, M.col s u = u := fun s u => by unfold Move.col; rw [hf]; simp
  have hinj : Function.Injective fun ps : Poly × Side => (M.poly ps.1, M.side ps.2) := by
    rintro ⟨p, s⟩ ⟨q, r⟩ h
    simp only [Prod.mk.injEq] at h
    rw [M.poly_inj h.1, M.side.injective h.2]
  have hshown : ∀ p j q', Shown R' i (M.poly p) j q' ↔ ∃ q, Shown R i p j q ∧ q' = M.poly q := by
    intro p j q'
    unfold Shown
    rw [hlen]
    constructor
    · rintro (⟨h1, h2, h3⟩ | ⟨h1, h2, h3⟩ | ⟨h1, h2⟩)
      · obtain ⟨q, hq, rfl⟩ := (h _ _).1 h3
        exact ⟨q, Or.inl ⟨h1, h2, hq⟩, rfl⟩
      · obtain ⟨q, hq, rfl⟩ := (h _ _).1 h2
        exact ⟨q, Or.inr (Or.inl ⟨h1, hq, fun he => h3 (by rw [he])⟩), rfl⟩
      · exact ⟨p, Or.inr (Or.inr ⟨h1, rfl⟩), h2⟩
    · rintro ⟨q, ⟨h1, h2, h3⟩ | ⟨h1, h2, h3⟩ | ⟨h1, rfl⟩, rfl⟩
      · exact Or.inl ⟨h1, h2, (h.mem _ _).2 h3⟩
      · exact Or.inr (Or.inl ⟨h1, (h.mem _ _).2 h2, fun he => h3 (M.poly_inj he)⟩)
      · exact Or.inr (Or.inr ⟨h1, rfl⟩)
  refine ⟨⟨hv.1.nodup.map hinj, fun p s => ?_⟩, ?_⟩
  · rw [List.mem_map, h]
    constructor
    · rintro ⟨⟨q, r⟩, hq, he⟩
      simp only [Prod.mk.injEq] at he
      obtain ⟨rfl, rfl⟩ := he
      obtain ⟨h1, h2⟩ := (hv.1.mem _ _).1 hq
      exact ⟨⟨q, h1, rfl⟩, (M.isSide q r).2 h2⟩
    · rintro ⟨⟨q, hq, rfl⟩, hs⟩
      refine ⟨(q, M.side.symm s), (hv.1.mem _ _).2 ⟨hq, ?_⟩, by simp⟩
      rw [← M.isSide, Equiv.apply_symm_apply]; exact hs
  · rw [List.forall₂_map_left_iff]
    refine hv.2.imp ?_
    rintro ⟨p, s⟩ e ⟨h1, h2⟩
    refine ⟨h1, ⟨fun v hv => ?_, h2.disj, fun u h3 h4 => ?_⟩⟩
    · obtain ⟨lo, hi, e1, e2⟩ := h2.intervals v hv
      refine ⟨lo, hi, e1, ⟨?_, e2.boxes, fun j n u w k1 k2 k3 k4 => ?_⟩⟩
      · dsimp only; rw [M.len]; exact e2.range
      · rw [e2.shows j n u w k1 k2 k3 k4]
        dsimp only
        constructor
        · rintro ⟨q, g1, g2, g3⟩
          refine ⟨M.poly q, (hshown _ _ _).2 ⟨q, g1, rfl⟩, g2, ?_⟩
          rw [M.cell_iff, hcol]; exact g3
        · rintro ⟨q', g1, g2, g3⟩
          obtain ⟨q, g4, rfl⟩ := (hshown _ _ _).1 g1
          rw [M.cell_iff, hcol] at g3
          exact ⟨q, g4, g2, g3⟩
    · dsimp only at h4
      rw [M.len] at h4
      rcases h2.cover u h3 h4 with h5 | h5
      · exact Or.inl h5
      · refine Or.inr fun j q' hq' w w1 w2 hc => ?_
        obtain ⟨q, g4, rfl⟩ := (hshown _ _ _).1 hq'
        dsimp only at hc
        rw [M.cell_iff, hcol] at hc
        exact h5 j q g4 w w1 w2 hc

/-! ### Theorems -/

/-- What the totals refer to: the layers, their polygons, all edges, and the rectangles seen from them. -/
structure Picture (kl : KLayout) (t : Tech) (x : Context) (halo depth : ℤ) (names : List String) (R : List (List Poly))
    (sides : Nat → List (Poly × Side)) (views : Nat → Poly × Side → List View) : Prop where
  stack : IsStack t x names
  regions : Regions kl t x halo names R
  all : ∀ i < names.length, AllSides (R.getD i []) (sides i)
  seen : ∀ i < names.length, ∀ ps ∈ sides i, Views R names i ps.1 ps.2 depth (views i ps)

/-- **C92.** A layout and the same layout shifted, turned or mirrored have the same capacitances, up to the rounding of the
fringe capacitances and 0.0001 fF for every rectangle that is seen. -/
theorem moved_netlist (kl : KLayout) (hkl : Faithful kl) (hk : Fringe.KernelOK kl.kernel)
    (hkb : Fringe.KernelBands kl.kernel) (M : Move) (hm : MergesMoved kl M) (cf : String → String) (t : Tech)
    {x x' : Context} (hmove : MovedTo M x x') (mode : Mode)
    (hmode : mode = .CC ∨ mode = .RC) (scale : Bool) (halo : ℤ) (res res' : Except String (List RNetwork))
    (c d c' d' : Netlist.Circuit) (bb : Bool) (hrun : run kl cf t x mode scale halo res c bb = .ok c')
    (hrun' : run kl cf t x' mode scale halo res' d bb = .ok d')
    (hno : ∀ d ∈ c.devices, d.clsName ≠ "C") (hno' : ∀ e ∈ d.devices, e.clsName ≠ "C")
    (hshort : NoShorts t x halo) (hsub : ∀ l ∈ t.stack, IsMetal l → ¬ CanonicalIs t l.name "VSUBS")
    (hnn : Overlap.NonNeg t.parasitics) (cap : String → String → ℚ)
    (hspec : ∀ names, IsStack t x names → ∀ i j, i < j → j < names.length →
      ∃ s, TechInfo.OverlapIs t.parasitics (names.getD j "") (names.getD i "") s ∧
        s.cap = cap (names.getD j "") (names.getD i ""))
    (hdbu : 0 < x.dbu) (hdbu' : x.dbu ≤ 10) (depth : ℤ) (hdepth : depth = ⌊t.parasitics.sideHalo / x.dbu⌋ + 1)
    (hvis : ∀ names R, IsStack t x names → Regions kl t x halo names R → ∀ i < names.length,
      ∃ sides, Visits R i depth sides (kl.edges R i))
    (hvis' : ∀ names R, IsStack t x' names → Regions kl t x' halo names R → ∀ i < names.length,
      ∃ sides, Visits R i depth sides (kl.edges R i))
    (C off : String → ℚ) (hC : ∀ layer s, IsLast (fun s => s.layer = layer) t.parasitics.sidewalls s →
      s.cap = C layer ∧ s.offset = off layer)
    (cov cs : String → String → ℚ)
    (hcov : ∀ inside outside o, Fringe.PairSpec t.parasitics inside outside o → o.cap = cov inside outside)
    (hcs : ∀ inside outside s, SideOverlapIs t.parasitics inside outside s → s.cap = cs inside outside)
    (hcov0 : ∀ inside outside, 0 ≤ cov inside outside) (hcs0 : ∀ inside outside, 0 ≤ cs inside outside)
    (hhalo : 0 ≤ t.parasitics.sideHalo) (ε : ℝ) (hε : 0 ≤ ε)
    (hrnd : ∀ r, 1 / 10000 < r → |(kl.rnd r : ℝ) - r| ≤ ε * r) :
    ∃ (names : List String) (R R' : List (List Poly)) (sides sides' : Nat → List (Poly × Side))
      (views views' : Nat → Poly × Side → List View) (N : Nat),
      Picture kl t x halo depth names R sides views ∧ Picture kl t x' halo depth names R' sides' views' ∧
      N = ∑ i ∈ Finset.range names.length, (((sides i).map fun ps => (views i ps).length).sum +
        ((sides' i).map fun ps => (views' i ps).length).sum) ∧
      ∀ a b, a ≠ b → |(Rcx25Netlist.parasiticCap c' a b : ℝ) - Rcx25Netlist.parasiticCap d' a b| ≤
        2 * ε * fringeTotal R names x.dbu t.parasitics.sideHalo scale cov cs depth sides a b + N / 10000 := by
  obtain ⟨names, R, sides, views, N, h1, h2, h3, h4, h5, h6⟩ := netlist_cells kl hkl hk hkb cf t x mode hmode scale halo res c c'
    bb hrun hno hshort hsub hnn cap hspec hdbu hdbu' depth hdepth hvis C off hC cov cs hcov hcs hcov0 hcs0 hhalo ε hε hrnd
  obtain ⟨names', R', sides', views', N', k1, k2, k3, k4, k5, k6⟩ := netlist_cells kl hkl hk hkb cf t x' mode hmode scale halo
    res' d d' bb hrun' hno' (hmove.noShorts hshort) hsub hnn cap (fun names hs => hspec names (hmove.isStack hs))
    (by rw [hmove.dbu]; exact hdbu) (by rw [hmove.dbu]; exact hdbu') depth (by rw [hmove.dbu]; exact hdepth) hvis' C off hC cov cs
    hcov hcs hcov0 hcs0 hhalo ε hε hrnd
  obtain rfl := (hmove.isStack k1).unique h1
  have hl := hmove.layers hm h2 k2
  refine ⟨names', R, R', sides, sides', views, views', _, ⟨h1, h2, h3, h4⟩, ⟨k1, k2, k3, k4⟩, rfl, fun a b hab => ?_⟩
  have e1 := abs_le.1 (h6 a b hab)
  have e2 := abs_le.1 (k6 a b hab)
  rw [hmove.dbu, hmove.overlap, hl.wall names' _ depth C off h3 k3, hl.fringe names' _ _ scale cov cs depth h3 k3] at e2
  have e3 : ((∑ i ∈ Finset.range names'.length, (((sides i).map fun ps => (views i ps).length).sum +
        ((sides' i).map fun ps => (views' i ps).length).sum) : ℕ) : ℝ) = N + N' := by
    rw [Finset.sum_add_distrib, ← h5, ← k5]; push_cast; rfl
  rw [e3, abs_le]
  constructor <;> linarith [e1.1, e1.2, e2.1, e2.2]

open Classical in
/-- **C92, exactly.** If KLayout shows the neighbourhoods of the edges, which it gives in the coordinates of the edges,
regardless of where the layout lies, the capacitances are exactly the same. -/
theorem moved_exact (kl : KLayout) (hkl : Faithful kl) (M : Move) (hm : MergesMoved kl M)
    (hshow : ∀ R R', MovedLayers M R R' → ∀ i, (kl.edges R' i).Perm (kl.edges R i)) (cf : String → String) (t : Tech)
    {x x' : Context} (hmove : MovedTo M x x') (mode : Mode)
    (hmode : mode = .CC ∨ mode = .RC) (scale : Bool) (halo : ℤ) (res res' : Except String (List RNetwork))
    (c d c' d' : Netlist.Circuit) (bb : Bool) (hrun : run kl cf t x mode scale halo res c bb = .ok c')
    (hrun' : run kl cf t x' mode scale halo res' d bb = .ok d')
    (hno : ∀ d ∈ c.devices, d.clsName ≠ "C") (hno' : ∀ e ∈ d.devices, e.clsName ≠ "C")
    (hshort : NoShorts t x halo) (hsub : ∀ l ∈ t.stack, IsMetal l → ¬ CanonicalIs t l.name "VSUBS")
    (hnn : Overlap.NonNeg t.parasitics) (cap : String → String → ℚ)
    (hspec : ∀ names, IsStack t x names → ∀ i j, i < j → j < names.length →
      ∃ s, TechInfo.OverlapIs t.parasitics (names.getD j "") (names.getD i "") s ∧
        s.cap = cap (names.getD j "") (names.getD i "")) (a b : String) (hab : a ≠ b) :
    Rcx25Netlist.parasiticCap c' a b = Rcx25Netlist.parasiticCap d' a b := by
  obtain ⟨names, R, out, h1, h2, h3, h4⟩ := netlist_records kl hkl cf t x mode hmode scale halo res c c' bb hrun hno hshort
    hsub hnn cap hspec
  obtain ⟨names', R', out', k1, k2, k3, k4⟩ := netlist_records kl hkl cf t x' mode hmode scale halo res' d d' bb hrun' hno'
    (hmove.noShorts hshort) hsub hnn cap (fun names hs => hspec names (hmove.isStack hs))
  obtain rfl := (hmove.isStack k1).unique h1
  have hl := hmove.layers hm h2 k2
  rw [h4 a b hab, k4 a b hab, hmove.overlap]
  congr 1
  refine Finset.sum_congr rfl fun i hi => ?_
  rw [Finset.mem_range] at hi
  rw [((hshow R R' hl i).map _).sum_eq]
  refine congrArg List.sum (List.map_congr_left fun e he => congrArg List.sum (List.map_congr_left fun v hv => ?_))
  have e1 := h3 i hi e he v hv
  have e2 := k3 i hi e ((hshow R R' hl i).mem_iff.2 he) v hv
  rw [hmove.dbu, e1] at e2
  rw [Except.ok.inj e2]

end Verif.Engine25
