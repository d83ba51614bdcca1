import Verif.Engine25.Props
import Verif.Fringe.Bands

/-!
# The sidewall and fringe capacitances of a cell in terms of its layout (C66)
-/

namespace Verif.Engine25

open TechInfo (Tech Parasitics IsLast SideOverlapIs)
open Overlap (Cell Poly)
open Summary (Op SamePair RNetwork)
open PexMode (Mode)
open Fringe (Rec countsAs law)

/-! ### Specification: edges and what lies in front of them -/

/-- Direction of an edge; the polygon lies to the right of it. -/
inductive Dir where
  | right | up | left | down
  deriving DecidableEq

/-- A straight piece of a border: the point where it begins, its direction and its length. -/
structure Side where
  x : ℤ
  y : ℤ
  dir : Dir
  len : ℤ
  deriving DecidableEq

/-- The cell in column `u` along the edge, `v` cells away from it: `v = 0` adjoins the edge on the outside, `v = -1` on the
inside. -/
def Side.cell (s : Side) (u v : ℤ) : Cell :=
  match s.dir with
  | .right => (s.x + u, s.y + v)
  | .up => (s.x - v - 1, s.y + u)
  | .left => (s.x - u - 1, s.y - v - 1)
  | .down => (s.x + v, s.y - u - 1)

/-- `s` is a whole edge of the polygon that covers `p`: along it the polygon is on the inner side only, and not beyond its
ends. -/
def IsSide (p : Finset Cell) (s : Side) : Prop :=
  0 < s.len ∧ (∀ u, 0 ≤ u → u < s.len → s.cell u (-1) ∈ p ∧ s.cell u 0 ∉ p) ∧
  ¬ (s.cell (-1) (-1) ∈ p ∧ s.cell (-1) 0 ∉ p) ∧ ¬ (s.cell s.len (-1) ∈ p ∧ s.cell s.len 0 ∉ p)

/-- Net `n` lies in front of column `u` of the edge `s` of `p` on layer `i`, at distance `d`, on another polygon of the
layer; no other polygon of the layer is nearer. -/
def FacedBy (R : List (List Poly)) (i : Nat) (p : Poly) (s : Side) (u d : ℤ) (n : String) : Prop :=
  (∃ q ∈ R.getD i [], q ≠ p ∧ q.net = n ∧ s.cell u d ∈ q.cells) ∧
  ∀ w, 1 ≤ w → w < d → ∀ q ∈ R.getD i [], q ≠ p → s.cell u w ∉ q.cells

/-- Net `n` on layer `j` is seen from column `u` of the edge `s` on layer `i` at distance `w`: nothing on layer `i` lies
in front of the edge up to this distance, and no layer between `i` and `j` covers the place. -/
def SeenFrom (R : List (List Poly)) (i : Nat) (s : Side) (u w : ℤ) (j : Nat) (n : String) : Prop :=
  (∃ q ∈ R.getD j [], q.net = n ∧ s.cell u w ∈ q.cells) ∧
  (∀ w', 1 ≤ w' → w' ≤ w → ∀ q ∈ R.getD i [], s.cell u w' ∉ q.cells) ∧
  ∀ k, (j < k ∧ k < i ∨ i < k ∧ k < j) → ∀ q ∈ R.getD k [], s.cell u w ∉ q.cells

/-! ### What is assumed of KLayout -/

/-- The polygons that child `j` shows in the neighbourhood of an edge of `p` on layer `i`: the polygons of another layer,
the other polygons of the own layer, or (as last child) the polygon itself. -/
def Shown (R : List (List Poly)) (i : Nat) (p : Poly) (j : Nat) (q : Poly) : Prop :=
  (j < R.length ∧ j ≠ i ∧ q ∈ R.getD j []) ∨ (j = i ∧ q ∈ R.getD i [] ∧ q ≠ p) ∨ (j = R.length ∧ q = p)

/-- An interval of an edge: it lies within the edge shortened by one unit at both ends (`bext = eext = -1`), is longer
than one unit, the reported polygons span it, and they show exactly what lies in front of it, from distance 1
(`din = -1`) up to the depth. -/
structure IntervalOK (R : List (List Poly)) (i : Nat) (p : Poly) (s : Side) (depth lo hi : ℤ) (nb : Dict Nat (List Poly)) :
    Prop where
  range : 1 ≤ lo ∧ lo + 1 < hi ∧ hi + 1 ≤ s.len
  boxes : Fringe.Boxes nb lo hi depth
  shows : ∀ j n u w, lo ≤ u → u < hi → 1 ≤ w → w < depth →
    (Fringe.Occupies nb j n (u, w) ↔ ∃ q, Shown R i p j q ∧ q.net = n ∧ s.cell u w ∈ q.cells)

/-- The neighbourhood of an edge: the intervals do not overlap, and where there is none there is nothing in front of the
edge. -/
structure EdgeOK (R : List (List Poly)) (i : Nat) (p : Poly) (s : Side) (depth : ℤ) (nbh : Fringe.Neighborhood) : Prop where
  intervals : ∀ v ∈ nbh, ∃ lo hi : ℤ, v.1 = ((lo : ℚ), (hi : ℚ)) ∧ IntervalOK R i p s depth lo hi v.2
  disj : nbh.Pairwise fun v w => v.1.2 ≤ w.1.1 ∨ w.1.2 ≤ v.1.1
  cover : ∀ u : ℤ, 1 ≤ u → u + 1 < s.len → (∃ v ∈ nbh, v.1.1 ≤ u ∧ (u : ℚ) < v.1.2) ∨
    ∀ j q, Shown R i p j q → ∀ w, 1 ≤ w → w < depth → s.cell u w ∉ q.cells

/-- The list contains every edge of every polygon once. -/
structure AllSides (L : List Poly) (sides : List (Poly × Side)) : Prop where
  nodup : sides.Nodup
  mem : ∀ p s, (p, s) ∈ sides ↔ p ∈ L ∧ IsSide p.cells s

/-- KLayout visits every edge of the layer once, with the net of its polygon and its neighbourhood. -/
def Visits (R : List (List Poly)) (i : Nat) (depth : ℤ) (sides : List (Poly × Side))
    (edges : List (String × Fringe.Neighborhood)) : Prop :=
  AllSides (R.getD i []) sides ∧
  List.Forall₂ (fun ps e => e.1 = ps.1.net ∧ EdgeOK R i ps.1 ps.2 depth e.2) sides edges

/-! ### Totals -/

open Classical in
/-- Sidewall capacitance between `a` and `b`: over all edges and their columns (without the first and the last one), half
of the law for the distance of the nearest other polygon, if edge and polygon have these nets. -/
noncomputable def wallTotal (R : List (List Poly)) (names : List String) (dbu : ℚ) (depth : ℤ) (C off : String → ℚ)
    (sides : Nat → List (Poly × Side)) (a b : String) : ℚ :=
  ∑ i ∈ Finset.range names.length, ((sides i).map fun ps => ∑ u ∈ Finset.Ico 1 (ps.2.len - 1), ∑ d ∈ Finset.Ico 1 depth,
    if ∃ n, FacedBy R i ps.1 ps.2 u d n ∧ SamePair ps.1.net n a b then
      dbu * C (names.getD i "") / (d * dbu + off (names.getD i "")) / 2 / 1000 else 0).sum

/-- A visible rectangle: seen from the columns `lo` to `hi` of an edge, on layer `layer`, from distance `near` to `far`. -/
structure View where
  lo : ℤ
  hi : ℤ
  layer : Nat
  net : String
  near : ℤ
  far : ℤ

/-- The rectangles seen from an edge: they lie in front of the edge without its ends and within the depth, show one net
that is not the one of the edge, do not overlap on one layer, and show everything that is seen. -/
structure Views (R : List (List Poly)) (names : List String) (i : Nat) (p : Poly) (s : Side) (depth : ℤ) (views : List View) :
    Prop where
  range : ∀ v ∈ views, 1 ≤ v.lo ∧ v.lo < v.hi ∧ v.hi + 1 ≤ s.len ∧ 1 ≤ v.near ∧ v.near < v.far ∧ v.far ≤ depth ∧
    v.layer ≠ i ∧ v.layer < names.length ∧ v.net ≠ countsAs (names.getD i "") p.net
  seen : ∀ v ∈ views, ∀ u w, v.lo ≤ u → u < v.hi → v.near ≤ w → w < v.far →
    ∃ n, countsAs (names.getD v.layer "") n = v.net ∧ SeenFrom R i s u w v.layer n
  disj : views.Pairwise fun v v' => v.layer = v'.layer → ∀ u w, v.lo ≤ u → u < v.hi → v.near ≤ w → w < v.far →
    v'.lo ≤ u → u < v'.hi → v'.near ≤ w → w < v'.far → False
  all : ∀ j u w n, j ≠ i → j < names.length → 1 ≤ u → u + 1 < s.len → 1 ≤ w → w < depth → SeenFrom R i s u w j n →
    countsAs (names.getD j "") n ≠ countsAs (names.getD i "") p.net →
    ∃ v ∈ views, v.layer = j ∧ v.net = countsAs (names.getD j "") n ∧ v.lo ≤ u ∧ u < v.hi ∧ v.near ≤ w ∧ w < v.far

/-- Fringe capacitance of a rectangle seen from layer `i`. -/
noncomputable def View.cap (names : List String) (dbu halo : ℚ) (scale : Bool) (cov cs : String → String → ℚ) (i : Nat)
    (v : View) : ℝ :=
  law scale halo dbu (cov (names.getD i "") (names.getD v.layer "")) (cs (names.getD i "") (names.getD v.layer ""))
    (v.hi - v.lo : ℤ) v.near v.far

open Classical in
/-- Recorded fringe capacitance between `a` and `b` of the rectangles seen from an edge of net `m`: rounded, and without
those of at most 0.0001 fF. -/
noncomputable def viewTotal (names : List String) (dbu halo : ℚ) (scale : Bool) (cov cs : String → String → ℚ) (rnd : ℝ → ℚ)
    (i : Nat) (m a b : String) (views : List View) : ℚ :=
  (views.map fun v => if SamePair (countsAs (names.getD i "") m) v.net a b ∧
    1 / 10000 < v.cap names dbu halo scale cov cs i then rnd (v.cap names dbu halo scale cov cs i) else 0).sum

/-! ### One interval -/

theorem edge_split (rnd : ℝ → ℚ) (a b : String) (names : List String) (hn : names.Nodup) (i : Nat) (recs : List Rec)
    (h : ∀ key c, .fringe key c ∈ recs → ∃ j, j ≠ i ∧ j < names.length ∧ key.layerOutside = names.getD j "") :
    edgeTotal rnd a b recs =
      ((Fringe.sidewalls recs).map fun c => if SamePair c.key.net1 c.key.net2 a b then c.capValue else 0).sum +
      (((List.range names.length).filter (· ≠ i)).map fun j => ((Fringe.fringesTo (names.getD j "") recs).map fun kc =>
        if SamePair kc.1.netInside kc.1.netOutside a b then rnd kc.2 else 0).sum).sum := by
  induction recs with
  | nil => simp [edgeTotal, Fringe.sidewalls, Fringe.fringesTo]
  | cons r recs ih =>
    have ih := ih fun key c hr => h key c (List.mem_cons_of_mem _ hr)
    have hcons : edgeTotal rnd a b (r :: recs) = edgeTotal rnd a b [r] + edgeTotal rnd a b recs := by
      simp [edgeTotal]
    rw [hcons, ih]
    cases r with
    | sidewall c =>
      have e1 : Fringe.sidewalls (.sidewall c :: recs) = c :: Fringe.sidewalls recs := rfl
      have e2 : ∀ n, Fringe.fringesTo n (.sidewall c :: recs) = Fringe.fringesTo n recs := fun n => rfl
      simp only [e1, e2, List.map_cons, List.sum_cons, edgeTotal, List.map_nil, List.sum_nil]
      ring
    | fringe key c =>
      have e1 : Fringe.sidewalls (.fringe key c :: recs) = Fringe.sidewalls recs := rfl
      obtain ⟨j, hj1, hj2, hkey⟩ := h key c (by simp)
      have e2 : ∀ n, ((Fringe.fringesTo n (.fringe key c :: recs)).map fun kc =>
          if SamePair kc.1.netInside kc.1.netOutside a b then rnd kc.2 else 0).sum =
          (if key.layerOutside = n then edgeTotal rnd a b [.fringe key c] else 0) +
          ((Fringe.fringesTo n recs).map fun kc =>
            if SamePair kc.1.netInside kc.1.netOutside a b then rnd kc.2 else 0).sum := by
        intro n
        unfold Fringe.fringesTo
        rw [List.filterMap_cons]
        by_cases hn : key.layerOutside = n
        · simp [hn, edgeTotal]
        · simp [hn]
      simp only [e1, e2]
      rw [List.sum_map_add]
      have hone : (((List.range names.length).filter (· ≠ i)).map fun j =>
          if key.layerOutside = names.getD j "" then edgeTotal rnd a b [.fringe key c] else 0).sum =
          edgeTotal rnd a b [.fringe key c] := by
        rw [← List.sum_toFinset _ (List.nodup_range.filter _), Finset.sum_eq_single j]
        · rw [if_pos hkey]
        · intro k hk hkj
          rw [if_neg]
          intro he
          rw [List.mem_toFinset, List.mem_filter, List.mem_range] at hk
          exact hkj (Overlap.name_inj (x := ⟨names, 0, {}⟩) hn hk.1 hj2 (he.symm.trans hkey))
        · intro hnot
          exact absurd (by simp [hj1, hj2]) hnot
      rw [hone]
      ring

/-- The views of one interval. -/
structure IntervalViews (R : List (List Poly)) (names : List String) (i : Nat) (p : Poly) (s : Side) (depth lo hi : ℤ)
    (views : List View) : Prop where
  cols : ∀ v ∈ views, v.lo = lo ∧ v.hi = hi
  range : ∀ v ∈ views, 1 ≤ v.near ∧ v.near < v.far ∧ v.far ≤ depth ∧
    v.layer ≠ i ∧ v.layer < names.length ∧ v.net ≠ countsAs (names.getD i "") p.net
  seen : ∀ v ∈ views, ∀ u w, lo ≤ u → u < hi → v.near ≤ w → w < v.far →
    ∃ n, countsAs (names.getD v.layer "") n = v.net ∧ SeenFrom R i s u w v.layer n
  disj : views.Pairwise fun v v' => v.layer = v'.layer → ∀ w, v.near ≤ w → w < v.far → v'.near ≤ w → w < v'.far → False
  all : ∀ j u w n, j ≠ i → j < names.length → lo ≤ u → u < hi → 1 ≤ w → w < depth → SeenFrom R i s u w j n →
    countsAs (names.getD j "") n ≠ countsAs (names.getD i "") p.net →
    ∃ v ∈ views, v.layer = j ∧ v.net = countsAs (names.getD j "") n ∧ v.near ≤ w ∧ w < v.far

section Interval

variable {R : List (List Poly)} {i : Nat} {p : Poly} {s : Side} {depth lo hi : ℤ} {nb : Dict Nat (List Poly)}

theorem IntervalOK.own (h : IntervalOK R i p s depth lo hi nb) (hi' : i < R.length) {n : String} {u w : ℤ} (hu1 : lo ≤ u)
    (hu2 : u < hi) (hw1 : 1 ≤ w) (hw2 : w < depth) :
    Fringe.Occupies nb i n (u, w) ↔ ∃ q ∈ R.getD i [], q ≠ p ∧ q.net = n ∧ s.cell u w ∈ q.cells := by
  rw [h.shows i n u w hu1 hu2 hw1 hw2]
  constructor
  · rintro ⟨q, ⟨_, hne, _⟩ | ⟨_, h1, h2⟩ | ⟨he, _⟩, hn, hc⟩
    · exact absurd rfl hne
    · exact ⟨q, h1, h2, hn, hc⟩
    · omega
  · rintro ⟨q, h1, h2, hn, hc⟩
    exact ⟨q, Or.inr (Or.inl ⟨rfl, h1, h2⟩), hn, hc⟩

theorem IntervalOK.other (h : IntervalOK R i p s depth lo hi nb) {j : Nat} (hj : j < R.length) (hji : j ≠ i) {n : String}
    {u w : ℤ} (hu1 : lo ≤ u) (hu2 : u < hi) (hw1 : 1 ≤ w) (hw2 : w < depth) :
    Fringe.Occupies nb j n (u, w) ↔ ∃ q ∈ R.getD j [], q.net = n ∧ s.cell u w ∈ q.cells := by
  rw [h.shows j n u w hu1 hu2 hw1 hw2]
  constructor
  · rintro ⟨q, ⟨_, _, h1⟩ | ⟨he, _⟩ | ⟨he, _⟩, hn, hc⟩
    · exact ⟨q, h1, hn, hc⟩
    · exact absurd he hji
    · omega
  · rintro ⟨q, h1, hn, hc⟩
    exact ⟨q, Or.inl ⟨hj, hji, h1⟩, hn, hc⟩

theorem IntervalOK.self (h : IntervalOK R i p s depth lo hi nb) (hi' : i < R.length) {n : String}
    {u w : ℤ} (hu1 : lo ≤ u) (hu2 : u < hi) (hw1 : 1 ≤ w) (hw2 : w < depth) :
    Fringe.Occupies nb R.length n (u, w) ↔ p.net = n ∧ s.cell u w ∈ p.cells := by
  rw [h.shows _ n u w hu1 hu2 hw1 hw2]
  constructor
  · rintro ⟨q, ⟨he, _⟩ | ⟨he, _⟩ | ⟨_, rfl⟩, hn, hc⟩
    · omega
    · omega
    · exact ⟨hn, hc⟩
  · rintro ⟨hn, hc⟩
    exact ⟨p, Or.inr (Or.inr ⟨rfl, rfl⟩), hn, hc⟩

theorem IntervalOK.faced (h : IntervalOK R i p s depth lo hi nb) (hi' : i < R.length) {n : String} {u d : ℤ} (hu1 : lo ≤ u)
    (hu2 : u < hi) (hd1 : 1 ≤ d) (hd2 : d < depth) : Fringe.NearestAt nb i u d n ↔ FacedBy R i p s u d n := by
  unfold Fringe.NearestAt FacedBy
  rw [h.own hi' hu1 hu2 hd1 hd2]
  refine and_congr Iff.rfl ?_
  constructor
  · intro hlow w hw1 hw2 q hq hne hc
    exact hlow w hw2 q.net ((h.own hi' hu1 hu2 hw1 (by omega)).2 ⟨q, hq, hne, rfl, hc⟩)
  · intro hlow w hw m ho
    have hr := h.boxes.range ho
    obtain ⟨q, hq, hne, _, hc⟩ := (h.own hi' hu1 hu2 hr.2.2.1 hr.2.2.2).1 ho
    exact hlow w hr.2.2.1 hw q hq hne hc

theorem IntervalOK.seen (h : IntervalOK R i p s depth lo hi nb) (hi' : i < R.length) (hp : p ∈ R.getD i []) {names : List String}
    (hR : R.length = names.length) {dbu : ℚ} {scale : Bool} {par : Parasitics} {j : Nat} (hj : j < names.length) (hji : j ≠ i)
    {n : String} {u w : ℤ} (hu1 : lo ≤ u) (hu2 : u < hi) (hw1 : 1 ≤ w) (hw2 : w < depth) :
    Fringe.SeenAt ⟨names, i, dbu, scale, par⟩ nb j n u w ↔ SeenFrom R i s u w j n := by
  unfold Fringe.SeenAt SeenFrom
  simp only
  rw [h.other (by omega) hji hu1 hu2 hw1 hw2, ← hR]
  refine and_congr Iff.rfl (and_congr ?_ ?_)
  · constructor
    · intro hlow w' hw1' hw2' q hq hc
      by_cases hqp : q = p
      · subst hqp
        exact (hlow w' hw2' q.net).2 ((h.self hi' hu1 hu2 hw1' (by omega)).2 ⟨rfl, hc⟩)
      · exact (hlow w' hw2' q.net).1 ((h.own hi' hu1 hu2 hw1' (by omega)).2 ⟨q, hq, hqp, rfl, hc⟩)
    · intro hlow w' hw' m
      constructor
      · intro ho
        have hr := h.boxes.range ho
        obtain ⟨q, hq, _, _, hc⟩ := (h.own hi' hu1 hu2 hr.2.2.1 hr.2.2.2).1 ho
        exact hlow w' hr.2.2.1 hw' q hq hc
      · intro ho
        have hr := h.boxes.range ho
        obtain ⟨_, hc⟩ := (h.self hi' hu1 hu2 hr.2.2.1 hr.2.2.2).1 ho
        exact hlow w' hr.2.2.1 hw' p hp hc
  · refine forall_congr' fun k => imp_congr_right fun hk => ?_
    have hkl : k < R.length := by omega
    have hki : k ≠ i := by omega
    constructor
    · intro hno q hq hc
      exact hno q.net ((h.other hkl hki hu1 hu2 hw1 hw2).2 ⟨q, hq, rfl, hc⟩)
    · intro hno m ho
      obtain ⟨q, hq, _, hc⟩ := (h.other hkl hki hu1 hu2 hw1 hw2).1 ho
      exact hno q hq hc

end Interval

theorem sum_map_flatMap {α β : Type} (l : List α) (g : α → List β) (f : β → ℚ) :
    ((l.flatMap g).map f).sum = (l.map fun e => ((g e).map f).sum).sum := by
  induction l with
  | nil => rfl
  | cons e l ih => rw [List.flatMap_cons, List.map_append, List.sum_append, ih, List.map_cons, List.sum_cons]

theorem sum_disjoint_eq {α β M : Type} [DecidableEq β] [AddCommMonoid M] (g : β → M) (F : α → Finset β) (L : List α)
    (hd : L.Pairwise fun v w => Disjoint (F v) (F w)) (U : Finset β) (hU : ∀ v ∈ L, F v ⊆ U)
    (h0 : ∀ u ∈ U, (∀ v ∈ L, u ∉ F v) → g u = 0) : (L.map fun v => ∑ u ∈ F v, g u).sum = ∑ u ∈ U, g u := by
  induction L generalizing U with
  | nil =>
    rw [List.map_nil, List.sum_nil]
    exact (Finset.sum_eq_zero fun u hu => h0 u hu (by simp)).symm
  | cons v L ih =>
    rw [List.pairwise_cons] at hd
    have := ih hd.2 (U \ F v) (fun w hw u hu => Finset.mem_sdiff.2 ⟨hU w (List.mem_cons_of_mem _ hw) hu,
      fun h => Finset.disjoint_left.1 (hd.1 w hw) h hu⟩) (fun u hu hno => by
      rw [Finset.mem_sdiff] at hu
      refine h0 u hu.1 fun w hw => ?_
      rcases List.mem_cons.1 hw with rfl | hw
      · exact hu.2
      · exact hno w hw)
    rw [List.map_cons, List.sum_cons, this, ← Finset.sum_sdiff (hU v List.mem_cons_self), add_comm]

theorem sum_filterMap_map {α β : Type} (l : List α) (P : α → Prop) [DecidablePred P] (g : α → β) (f : β → ℚ) :
    ((l.filterMap fun e => if P e then some (g e) else none).map f).sum = (l.map fun e => if P e then f (g e) else 0).sum := by
  induction l with
  | nil => rfl
  | cons e l ih =>
    rw [List.filterMap_cons, List.map_cons, List.sum_cons, ← ih]
    by_cases h : P e
    · simp [h]
    · simp [h]

open Classical in
/-- The records of one interval as capacitances of its columns and of the rectangles seen from it. -/
theorem interval_total {R : List (List Poly)} {names : List String} (hn : names.Nodup) {i : Nat} (hi : i < names.length)
    (hR : R.length = names.length) {p : Poly} (hp : p ∈ R.getD i []) {s : Side} {depth lo hi' : ℤ}
    {nb : Dict Nat (List Poly)} (hok : IntervalOK R i p s depth lo hi' nb) {k : Fringe.Kernel} (hk : Fringe.KernelOK k)
    (hkb : Fringe.KernelBands k) {dbu : ℚ} {scale : Bool} {par : Parasitics} (hdepth : depth ≤ ⌊(par.sideHalo + 10) / dbu⌋)
    (C off : String → ℚ)
    (hC : ∀ s, IsLast (fun s => s.layer = names.getD i "") par.sidewalls s →
      s.cap = C (names.getD i "") ∧ s.offset = off (names.getD i ""))
    (cov cs : String → String → ℚ)
    (hcov : ∀ outside o, Fringe.PairSpec par (names.getD i "") outside o → o.cap = cov (names.getD i "") outside)
    (hcs : ∀ outside s, SideOverlapIs par (names.getD i "") outside s → s.cap = cs (names.getD i "") outside)
    (recs : List Rec) (h : Fringe.onInterval ⟨names, i, dbu, scale, par⟩ k p.net (lo, hi') nb = .ok recs) (rnd : ℝ → ℚ) :
    ∃ views, IntervalViews R names i p s depth lo hi' views ∧ ∀ a b, a ≠ b → edgeTotal rnd a b recs =
      (∑ u ∈ Finset.Ico lo hi', ∑ d ∈ Finset.Ico 1 depth,
        if ∃ n, FacedBy R i p s u d n ∧ SamePair p.net n a b then
          dbu * C (names.getD i "") / (d * dbu + off (names.getD i "")) / 2 / 1000 else 0) +
      viewTotal names dbu par.sideHalo scale cov cs rnd i p.net a b views := by
  have hiR : i < R.length := by omega
  have hlen : 1 < hi' - lo := by have := hok.range; omega
  have hb := fun j (hj : j < names.length) (hji : j ≠ i) => Fringe.interval_bands ⟨names, i, dbu, scale, par⟩ hi hn k hk hkb p.net lo hi' depth hlen nb
    hok.boxes hdepth cov cs hcov hcs recs h j hji hj
  have hb' : ∀ j, ∃ bands, j < names.length → j ≠ i →
      Fringe.Bands ⟨names, i, dbu, scale, par⟩ nb (countsAs (names.getD i "") p.net) lo hi' depth j bands ∧
      (Fringe.fringesTo (names.getD j "") recs).Perm (bands.filterMap fun e =>
        if 1 / 10000 < law scale par.sideHalo dbu (cov (names.getD i "") (names.getD j ""))
            (cs (names.getD i "") (names.getD j "")) (hi' - lo : ℤ) e.near e.far then
          some (⟨names.getD i "", countsAs (names.getD i "") p.net, names.getD j "", e.net⟩,
            law scale par.sideHalo dbu (cov (names.getD i "") (names.getD j ""))
              (cs (names.getD i "") (names.getD j "")) (hi' - lo : ℤ) e.near e.far)
        else none) := by
    intro j
    by_cases hj : j < names.length ∧ j ≠ i
    · obtain ⟨bands, h1, h2⟩ := hb j hj.1 hj.2
      exact ⟨bands, fun _ _ => ⟨h1, h2⟩⟩
    · exact ⟨[], fun h1 h2 => absurd ⟨h1, h2⟩ hj⟩
  choose bands hbands using hb'
  let js := (List.range names.length).filter (· ≠ i)
  have hjs : ∀ j, j ∈ js ↔ j < names.length ∧ j ≠ i := by
    intro j; simp [js]
  let views : List View := js.flatMap fun j => (bands j).map fun e => ⟨lo, hi', j, e.net, e.near, e.far⟩
  have hmem : ∀ v, v ∈ views ↔ ∃ j, (j < names.length ∧ j ≠ i) ∧ ∃ e ∈ bands j, v = ⟨lo, hi', j, e.net, e.near, e.far⟩ := by
    intro v
    simp only [views, List.mem_flatMap, hjs, List.mem_map]
    constructor
    · rintro ⟨j, hj, e, he, rfl⟩; exact ⟨j, hj, e, he, rfl⟩
    · rintro ⟨j, hj, e, he, rfl⟩; exact ⟨j, hj, e, he, rfl⟩
  refine ⟨views, ⟨?_, ?_, ?_, ?_, ?_⟩, ?_⟩
  · intro v hv
    obtain ⟨j, hj, e, he, rfl⟩ := (hmem v).1 hv
    exact ⟨rfl, rfl⟩
  · intro v hv
    obtain ⟨j, hj, e, he, rfl⟩ := (hmem v).1 hv
    obtain ⟨h1, h2, h3, h4⟩ := (hbands j hj.1 hj.2).1.range e he
    exact ⟨h1, h2, h3, hj.2, hj.1, h4⟩
  · intro v hv u w hu1 hu2 hw1 hw2
    obtain ⟨j, hj, e, he, rfl⟩ := (hmem v).1 hv
    obtain ⟨h1, h2, h3, h4⟩ := (hbands j hj.1 hj.2).1.range e he
    obtain ⟨n, hnn, hs⟩ := (hbands j hj.1 hj.2).1.seen e he u w hu1 hu2 hw1 hw2
    simp only at hw1 hw2
    exact ⟨n, hnn, (hok.seen hiR hp hR hj.1 hj.2 hu1 hu2 (by omega) (by omega)).1 hs⟩
  · simp only [views]
    rw [List.pairwise_flatMap]
    refine ⟨fun j hj => ?_, ?_⟩
    · rw [List.pairwise_map]
      have hj' := (hjs j).1 hj
      refine List.Pairwise.imp ?_ (hbands j hj'.1 hj'.2).1.disj
      intro e e' hd _
      exact hd
    · have hnd : js.Nodup := List.nodup_range.filter _
      refine hnd.imp ?_
      intro j j' hne v hv v' hv' hl
      obtain ⟨e, _, rfl⟩ := List.mem_map.1 hv
      obtain ⟨e', _, rfl⟩ := List.mem_map.1 hv'
      exact absurd hl hne
  · intro j u w n hji hj hu1 hu2 hw1 hw2 hs hne
    have hs' := (hok.seen (dbu := dbu) (scale := scale) (par := par) hiR hp hR hj hji hu1 hu2 hw1 hw2).2 hs
    obtain ⟨e, he, h1, h2, h3⟩ := (hbands j hj hji).1.all n u w hs' hne
    exact ⟨_, (hmem _).2 ⟨j, ⟨hj, hji⟩, e, he, rfl⟩, rfl, h1, h2, h3⟩
  · intro a b hab
    rw [edge_split rnd a b names hn i recs]
    · congr 1
      · have := Fringe.interval_wall ⟨names, i, dbu, scale, par⟩ hi hn k hk p.net lo hi' depth hlen nb hok.boxes C off hC
          recs h a b hab
        rw [this]
        refine Finset.sum_congr rfl fun u hu => Finset.sum_congr rfl fun d hd => ?_
        rw [Finset.mem_Ico] at hu hd
        refine if_congr (exists_congr fun n => and_congr ?_ Iff.rfl) rfl rfl
        exact hok.faced hiR hu.1 hu.2 hd.1 hd.2
      · unfold viewTotal
        simp only [views]
        rw [sum_map_flatMap]
        congr 1
        refine List.map_congr_left fun j hj => ?_
        have hj' := (hjs j).1 hj
        rw [((hbands j hj'.1 hj'.2).2.map _).sum_eq, sum_filterMap_map, List.map_map]
        congr 1
        refine List.map_congr_left fun e _ => ?_
        simp only [Function.comp, View.cap]
        by_cases h1 : (1 : ℝ) / 10000 < law scale par.sideHalo dbu (cov (names.getD i "") (names.getD j ""))
            (cs (names.getD i "") (names.getD j "")) (hi' - lo : ℤ) e.near e.far
        · by_cases h2 : SamePair (countsAs (names.getD i "") p.net) e.net a b
          · rw [if_pos h1, if_pos h2]; exact (if_pos ⟨h2, h1⟩).symm
          · rw [if_pos h1, if_neg h2]; exact (if_neg fun h => h2 h.1).symm
        · rw [if_neg h1]; exact (if_neg fun h => h1 h.2).symm
    · intro key c hr
      obtain ⟨j, ps, _, h1, h2, h3⟩ := Fringe.interval_layers _ k hk p.net _ nb hok.boxes.rep recs h key c hr
      exact ⟨j, h1, h2, h3⟩

/-! ### One edge -/

open Classical in
/-- The records of one edge as capacitances of its columns and of the rectangles seen from it. -/
theorem edge_total {R : List (List Poly)} {names : List String} (hn : names.Nodup) {i : Nat} (hi : i < names.length)
    (hR : R.length = names.length) {p : Poly} (hp : p ∈ R.getD i []) {s : Side} {depth : ℤ}
    {nbh : Fringe.Neighborhood} (hok : EdgeOK R i p s depth nbh) {k : Fringe.Kernel} (hk : Fringe.KernelOK k)
    (hkb : Fringe.KernelBands k) {dbu : ℚ} {scale : Bool} {par : Parasitics} (hdepth : depth ≤ ⌊(par.sideHalo + 10) / dbu⌋)
    (C off : String → ℚ)
    (hC : ∀ s, IsLast (fun s => s.layer = names.getD i "") par.sidewalls s →
      s.cap = C (names.getD i "") ∧ s.offset = off (names.getD i ""))
    (cov cs : String → String → ℚ)
    (hcov : ∀ outside o, Fringe.PairSpec par (names.getD i "") outside o → o.cap = cov (names.getD i "") outside)
    (hcs : ∀ outside s, SideOverlapIs par (names.getD i "") outside s → s.cap = cs (names.getD i "") outside)
    (out : (ℚ × ℚ) × Dict Nat (List Poly) → List Rec)
    (h : ∀ v ∈ nbh, Fringe.onInterval ⟨names, i, dbu, scale, par⟩ k p.net v.1 v.2 = .ok (out v)) (rnd : ℝ → ℚ) :
    ∃ views, Views R names i p s depth views ∧ ∀ a b, a ≠ b → (nbh.map fun v => edgeTotal rnd a b (out v)).sum =
      (∑ u ∈ Finset.Ico 1 (s.len - 1), ∑ d ∈ Finset.Ico 1 depth,
        if ∃ n, FacedBy R i p s u d n ∧ SamePair p.net n a b then
          dbu * C (names.getD i "") / (d * dbu + off (names.getD i "")) / 2 / 1000 else 0) +
      viewTotal names dbu par.sideHalo scale cov cs rnd i p.net a b views := by
  have hiR : i < R.length := by omega
  have hex : ∀ v : (ℚ × ℚ) × Dict Nat (List Poly), ∃ (lo hi' : ℤ) (views : List View), v ∈ nbh →
      v.1 = ((lo : ℚ), (hi' : ℚ)) ∧ IntervalOK R i p s depth lo hi' v.2 ∧
      IntervalViews R names i p s depth lo hi' views ∧ ∀ a b, a ≠ b → edgeTotal rnd a b (out v) =
      (∑ u ∈ Finset.Ico lo hi', ∑ d ∈ Finset.Ico 1 depth,
        if ∃ n, FacedBy R i p s u d n ∧ SamePair p.net n a b then
          dbu * C (names.getD i "") / (d * dbu + off (names.getD i "")) / 2 / 1000 else 0) +
      viewTotal names dbu par.sideHalo scale cov cs rnd i p.net a b views := by
    intro v
    by_cases hv : v ∈ nbh
    · obtain ⟨lo, hi', he, hiv⟩ := hok.intervals v hv
      have ho := h v hv
      rw [he] at ho
      obtain ⟨views, h1, h2⟩ := interval_total hn hi hR hp hiv hk hkb hdepth C off hC cov cs hcov hcs (out v) ho rnd
      exact ⟨lo, hi', views, fun _ => ⟨he, hiv, h1, h2⟩⟩
    · exact ⟨0, 0, [], fun h => absurd h hv⟩
  choose lo hi' views hv using hex
  -- disjoint intervals
  have hdisj : nbh.Pairwise fun v w => hi' v ≤ lo w ∨ hi' w ≤ lo v := by
    refine List.Pairwise.imp_of_mem ?_ hok.disj
    intro v w hvm hwm hd
    have e1 := (hv v hvm).1
    have e2 := (hv w hwm).1
    rw [e1, e2] at hd
    simp only at hd
    exact_mod_cast hd
  refine ⟨nbh.flatMap views, ⟨?_, ?_, ?_, ?_⟩, ?_⟩
  · intro f hf
    obtain ⟨v, hvm, hf⟩ := List.mem_flatMap.1 hf
    obtain ⟨_, hiv, hiview, _⟩ := hv v hvm
    obtain ⟨e1, e2⟩ := hiview.cols f hf
    obtain ⟨r1, r2, r3, r4, r5, r6⟩ := hiview.range f hf
    have := hiv.range
    exact ⟨by omega, by omega, by omega, r1, r2, r3, r4, r5, r6⟩
  · intro f hf u w hu1 hu2 hw1 hw2
    obtain ⟨v, hvm, hf⟩ := List.mem_flatMap.1 hf
    obtain ⟨_, hiv, hiview, _⟩ := hv v hvm
    obtain ⟨e1, e2⟩ := hiview.cols f hf
    exact hiview.seen f hf u w (by omega) (by omega) hw1 hw2
  · rw [List.pairwise_flatMap]
    refine ⟨fun v hvm => ?_, ?_⟩
    · obtain ⟨_, _, hiview, _⟩ := hv v hvm
      refine List.Pairwise.imp ?_ hiview.disj
      intro f f' hd hl u w _ _ h1 h2 _ _ h3 h4
      exact hd hl w h1 h2 h3 h4
    · refine List.Pairwise.imp_of_mem ?_ hdisj
      intro v w hvm hwm hd f hf f' hf' _ u _ h1 h2 _ _ h3 h4 _ _
      obtain ⟨e1, e2⟩ := (hv v hvm).2.2.1.cols f hf
      obtain ⟨e3, e4⟩ := (hv w hwm).2.2.1.cols f' hf'
      omega
  · intro j u w n hji hj hu1 hu2 hw1 hw2 hs hne
    rcases hok.cover u hu1 hu2 with ⟨v, hvm, h1, h2⟩ | hno
    · obtain ⟨e, hiv, hiview, _⟩ := hv v hvm
      rw [e] at h1 h2
      simp only at h1 h2
      have h1' : lo v ≤ u := by exact_mod_cast h1
      have h2' : u < hi' v := by exact_mod_cast h2
      obtain ⟨f, hf, r1, r2, r3, r4⟩ := hiview.all j u w n hji hj h1' h2' hw1 hw2 hs hne
      obtain ⟨e1, e2⟩ := hiview.cols f hf
      exact ⟨f, List.mem_flatMap.2 ⟨v, hvm, hf⟩, r1, r2, by omega, by omega, r3, r4⟩
    · obtain ⟨⟨q, hq, _, hc⟩, _⟩ := hs
      exact absurd hc (hno j q (Or.inl ⟨by omega, hji, hq⟩) w hw1 hw2)
  · intro a b hab
    have e1 : (nbh.map fun v => edgeTotal rnd a b (out v)) = nbh.map fun v =>
        (∑ u ∈ Finset.Ico (lo v) (hi' v), ∑ d ∈ Finset.Ico 1 depth,
        if ∃ n, FacedBy R i p s u d n ∧ SamePair p.net n a b then
          dbu * C (names.getD i "") / (d * dbu + off (names.getD i "")) / 2 / 1000 else 0) +
      viewTotal names dbu par.sideHalo scale cov cs rnd i p.net a b (views v) :=
      List.map_congr_left fun v hvm => (hv v hvm).2.2.2 a b hab
    rw [e1, List.sum_map_add]
    congr 1
    · refine sum_disjoint_eq _ (fun v => Finset.Ico (lo v) (hi' v)) nbh ?_ _ ?_ ?_
      · refine hdisj.imp ?_
        intro v w hd
        rw [Finset.disjoint_left]
        intro u h1 h2
        rw [Finset.mem_Ico] at h1 h2
        omega
      · intro v hvm u hu
        have := (hv v hvm).2.1.range
        rw [Finset.mem_Ico] at hu ⊢
        omega
      · intro u hu hno
        rw [Finset.mem_Ico] at hu
        refine Finset.sum_eq_zero fun d hd => ?_
        rw [Finset.mem_Ico] at hd
        rw [if_neg]
        rintro ⟨n, ⟨⟨q, hq, hqp, _, hc⟩, _⟩, _⟩
        rcases hok.cover u hu.1 (by omega) with ⟨v, hvm, h1, h2⟩ | hnone
        · obtain ⟨e, _⟩ := hv v hvm
          rw [e] at h1 h2
          simp only at h1 h2
          exact hno v hvm (Finset.mem_Ico.2 ⟨by exact_mod_cast h1, by exact_mod_cast h2⟩)
        · exact hnone i q (Or.inr (Or.inl ⟨rfl, hq, hqp⟩)) d hd.1 hd.2 hc
    · unfold viewTotal
      rw [sum_map_flatMap]

/-! ### All edges -/

theorem forall₂_choose {α β γ : Type} {P : α → β → Prop} {Q : α → β → γ → Prop} (hPQ : ∀ a b, P a b → ∃ c, Q a b c)
    {l : List α} {m : List β} (hnd : l.Nodup) (h : List.Forall₂ P l m) (c0 : γ) :
    ∃ f : α → γ, List.Forall₂ (fun a b => Q a b (f a)) l m := by
  classical
  induction h with
  | nil => exact ⟨fun _ => c0, List.Forall₂.nil⟩
  | @cons a b l m hab hlm ih =>
    rw [List.nodup_cons] at hnd
    obtain ⟨f, hf⟩ := ih hnd.2
    obtain ⟨c, hc⟩ := hPQ a b hab
    refine ⟨Function.update f a c, List.Forall₂.cons (by rw [Function.update_self]; exact hc) ?_⟩
    have key : ∀ (l' : List α) (m' : List β), (∀ x ∈ l', x ≠ a) → List.Forall₂ (fun a b => Q a b (f a)) l' m' →
        List.Forall₂ (fun x b => Q x b (Function.update f a c x)) l' m' := by
      intro l' m' hne h'
      induction h' with
      | nil => exact List.Forall₂.nil
      | @cons x y l' m' hxy _ ih' =>
        refine List.Forall₂.cons ?_ (ih' fun z hz => hne z (List.mem_cons_of_mem _ hz))
        rw [Function.update_of_ne (hne x List.mem_cons_self)]
        exact hxy
    exact key l m (fun x hx he => hnd.1 (he ▸ hx)) hf

theorem forall₂_mem {α β : Type} {P : α → β → Prop} {l : List α} {m : List β} (h : List.Forall₂ P l m) :
    List.Forall₂ (fun a b => P a b ∧ a ∈ l ∧ b ∈ m) l m := by
  have key : ∀ (l' : List α) (m' : List β), (∀ a ∈ l', a ∈ l) → (∀ b ∈ m', b ∈ m) → List.Forall₂ P l' m' →
      List.Forall₂ (fun a b => P a b ∧ a ∈ l ∧ b ∈ m) l' m' := by
    intro l' m' h1 h2 h'
    induction h' with
    | nil => exact List.Forall₂.nil
    | cons hab _ ih =>
      exact List.Forall₂.cons ⟨hab, h1 _ List.mem_cons_self, h2 _ List.mem_cons_self⟩
        (ih (fun a ha => h1 a (List.mem_cons_of_mem _ ha)) fun b hb => h2 b (List.mem_cons_of_mem _ hb))
  exact key l m (fun _ h => h) (fun _ h => h) h

theorem forall₂_sum {α β : Type} {f : α → ℚ} {g : β → ℚ} {l : List α} {m : List β}
    (h : List.Forall₂ (fun a b => g b = f a) l m) : (m.map g).sum = (l.map f).sum := by
  induction h with
  | nil => rfl
  | cons hab _ ih => rw [List.map_cons, List.map_cons, List.sum_cons, List.sum_cons, hab, ih]

/-- **C66, in terms of the layout.** The capacitance between two nets `a` and `b` in the netlist is exactly: the overlap
capacitance of all areas where one net faces the other, plus the sidewall capacitance of all edges with the nearest other
polygon in front of them, plus the rounded fringe capacitances above 0.0001 fF of the rectangles that are seen from the
edges on other layers. -/
theorem netlist_geometry (kl : KLayout) (hkl : Faithful kl) (hk : Fringe.KernelOK kl.kernel)
    (hkb : Fringe.KernelBands kl.kernel) (cf : String → String) (t : Tech) (x : Context) (mode : Mode)
    (hmode : mode = .CC ∨ mode = .RC) (scale : Bool) (halo : ℤ) (res : Except String (List RNetwork))
    (c c' : Netlist.Circuit) (bb : Bool) (hrun : run kl cf t x mode scale halo res c bb = .ok c')
    (hno : ∀ d ∈ c.devices, d.clsName ≠ "C")
    (hshort : NoShorts t x halo) (hsub : ∀ l ∈ t.stack, IsMetal l → ¬ CanonicalIs t l.name "VSUBS")
    (hnn : Overlap.NonNeg t.parasitics) (cap : String → String → ℚ)
    (hspec : ∀ names, IsStack t x names → ∀ i j, i < j → j < names.length →
      ∃ s, TechInfo.OverlapIs t.parasitics (names.getD j "") (names.getD i "") s ∧
        s.cap = cap (names.getD j "") (names.getD i ""))
    (hdbu : 0 < x.dbu) (hdbu' : x.dbu ≤ 10) (depth : ℤ) (hdepth : depth = ⌊t.parasitics.sideHalo / x.dbu⌋ + 1)
    (hvis : ∀ names R, IsStack t x names → Regions kl t x halo names R → ∀ i < names.length,
      ∃ sides, Visits R i depth sides (kl.edges R i))
    (C off : String → ℚ) (hC : ∀ layer s, IsLast (fun s => s.layer = layer) t.parasitics.sidewalls s →
      s.cap = C layer ∧ s.offset = off layer)
    (cov cs : String → String → ℚ)
    (hcov : ∀ inside outside o, Fringe.PairSpec t.parasitics inside outside o → o.cap = cov inside outside)
    (hcs : ∀ inside outside s, SideOverlapIs t.parasitics inside outside s → s.cap = cs inside outside) :
    ∃ (names : List String) (R : List (List Poly)) (sides : Nat → List (Poly × Side))
      (views : Nat → Poly × Side → List View),
      IsStack t x names ∧ Regions kl t x halo names R ∧
      (∀ i < names.length, AllSides (R.getD i []) (sides i)) ∧
      (∀ i < names.length, ∀ ps ∈ sides i, Views R names i ps.1 ps.2 depth (views i ps)) ∧
      ∀ a b, a ≠ b → Rcx25Netlist.parasiticCap c' a b = overlapTotal t x halo names cap a b +
        wallTotal R names x.dbu depth C off sides a b +
        ∑ i ∈ Finset.range names.length, ((sides i).map fun ps =>
          viewTotal names x.dbu t.parasitics.sideHalo scale cov cs kl.rnd i ps.1.net a b (views i ps)).sum := by
  classical
  obtain ⟨names, R, out, h1, h2, h3, h4⟩ := netlist_records kl hkl cf t x mode hmode scale halo res c c' bb hrun hno
    hshort hsub hnn cap hspec
  have hd : depth ≤ ⌊(t.parasitics.sideHalo + 10) / x.dbu⌋ := by
    rw [hdepth, Int.le_floor]
    push_cast
    have h5 : (⌊t.parasitics.sideHalo / x.dbu⌋ : ℚ) ≤ t.parasitics.sideHalo / x.dbu := Int.floor_le _
    have h6 : 1 ≤ 10 / x.dbu := by rw [le_div_iff₀ hdbu]; linarith
    rw [add_div]; linarith
  -- for every layer the edges and the views
  have hlayer : ∀ i, ∃ (sides : List (Poly × Side)) (views : Poly × Side → List View), i < names.length →
      AllSides (R.getD i []) sides ∧ List.Forall₂ (fun ps e => Views R names i ps.1 ps.2 depth (views ps) ∧
        ∀ a b, a ≠ b → ((e : String × Fringe.Neighborhood).2.map fun v => edgeTotal kl.rnd a b (out i e.1 v)).sum =
          (∑ u ∈ Finset.Ico 1 (ps.2.len - 1), ∑ d ∈ Finset.Ico 1 depth,
            if ∃ n, FacedBy R i ps.1 ps.2 u d n ∧ SamePair ps.1.net n a b then
              x.dbu * C (names.getD i "") / (d * x.dbu + off (names.getD i "")) / 2 / 1000 else 0) +
          viewTotal names x.dbu t.parasitics.sideHalo scale cov cs kl.rnd i ps.1.net a b (views ps)) sides (kl.edges R i) := by
    intro i
    by_cases hi : i < names.length
    · obtain ⟨sides, hall, hf⟩ := hvis names R h1 h2 i hi
      have hf' := forall₂_mem hf
      obtain ⟨views, hviews⟩ := forall₂_choose (γ := List View) (Q := fun ps e views => Views R names i ps.1 ps.2 depth views ∧
        ∀ a b, a ≠ b → ((e : String × Fringe.Neighborhood).2.map fun v => edgeTotal kl.rnd a b (out i e.1 v)).sum =
          (∑ u ∈ Finset.Ico 1 (ps.2.len - 1), ∑ d ∈ Finset.Ico 1 depth,
            if ∃ n, FacedBy R i ps.1 ps.2 u d n ∧ SamePair ps.1.net n a b then
              x.dbu * C (names.getD i "") / (d * x.dbu + off (names.getD i "")) / 2 / 1000 else 0) +
          viewTotal names x.dbu t.parasitics.sideHalo scale cov cs kl.rnd i ps.1.net a b views)
        (fun ps e hpe => by
          obtain ⟨⟨hnet, hok⟩, hps, he⟩ := hpe
          obtain ⟨hp, _⟩ := (hall.mem ps.1 ps.2).1 hps
          have := edge_total h1.nodup hi h2.1 hp hok hk hkb hd C off (hC _) cov cs (hcov _) (hcs _) (out i e.1)
            (fun v hv => by rw [← hnet]; exact h3 i hi e he v hv) kl.rnd
          exact this) hall.nodup hf' []
      exact ⟨sides, views, fun _ => ⟨hall, hviews⟩⟩
    · exact ⟨[], fun _ => [], fun h => absurd h hi⟩
  choose sides views hsv using hlayer
  refine ⟨names, R, sides, views, h1, h2, fun i hi => (hsv i hi).1, ?_, ?_⟩
  · intro i hi ps hps
    obtain ⟨_, hf⟩ := hsv i hi
    have key : ∀ (l : List (Poly × Side)) (m : List (String × Fringe.Neighborhood)) (P : Poly × Side → Prop)
        (Q : Poly × Side → String × Fringe.Neighborhood → Prop),
        List.Forall₂ (fun ps e => P ps ∧ Q ps e) l m → ∀ ps ∈ l, P ps := by
      intro l m P Q h
      induction h with
      | nil => simp
      | cons hab _ ih =>
        intro ps hps
        rcases List.mem_cons.1 hps with rfl | hps
        · exact hab.1
        · exact ih ps hps
    exact key _ _ _ _ hf ps hps
  · intro a b hab
    rw [h4 a b hab, add_assoc]
    congr 1
    unfold wallTotal
    rw [← Finset.sum_add_distrib]
    refine Finset.sum_congr rfl fun i hi => ?_
    rw [Finset.mem_range] at hi
    rw [← List.sum_map_add]
    refine forall₂_sum (f := fun ps => (∑ u ∈ Finset.Ico 1 (ps.2.len - 1), ∑ d ∈ Finset.Ico 1 depth,
            if ∃ n, FacedBy R i ps.1 ps.2 u d n ∧ SamePair ps.1.net n a b then
              x.dbu * C (names.getD i "") / (d * x.dbu + off (names.getD i "")) / 2 / 1000 else 0) +
          viewTotal names x.dbu t.parasitics.sideHalo scale cov cs kl.rnd i ps.1.net a b (views i ps)) ?_
    exact (hsv i hi).2.imp fun ps e h => h.2 a b hab

/-! ### The fringe capacitance as a sum over the cells that are seen -/

open Classical in
/-- Fringe capacitance between `a` and `b` seen from an edge of net `m` on layer `i`: over all other layers, all columns
(without the first and the last one) and all distances, the law for a piece of unit length and the distance from `w` to
`w + 1`, where the layer is seen and edge and layer have these nets. -/
noncomputable def seenTotal (R : List (List Poly)) (names : List String) (dbu halo : ℚ) (scale : Bool)
    (cov cs : String → String → ℚ) (depth : ℤ) (i : Nat) (s : Side) (m a b : String) : ℝ :=
  ∑ j ∈ (Finset.range names.length).filter (· ≠ i), ∑ u ∈ Finset.Ico 1 (s.len - 1), ∑ w ∈ Finset.Ico 1 depth,
    if ∃ n, SeenFrom R i s u w j n ∧ SamePair (countsAs (names.getD i "") m) (countsAs (names.getD j "") n) a b then
      law scale halo dbu (cov (names.getD i "") (names.getD j "")) (cs (names.getD i "") (names.getD j "")) 1 w (w + 1)
    else 0

theorem sum_filter_map {α M : Type} [AddCommMonoid M] (P : α → Prop) [DecidablePred P] (f : α → M) (l : List α) :
    ((l.filter fun x => decide (P x)).map f).sum = (l.map fun x => if P x then f x else 0).sum := by
  induction l with
  | nil => rfl
  | cons x l ih =>
    rw [List.filter_cons, List.map_cons, List.sum_cons]
    by_cases hx : P x
    · rw [if_pos (by simpa using hx), if_pos hx, List.map_cons, List.sum_cons, ih]
    · rw [if_neg (by simpa using hx), if_neg hx, zero_add, ih]

theorem law_cells (scale : Bool) (halo dbu cov cs : ℚ) (lo hi near far : ℤ) (h1 : lo ≤ hi) (h2 : near ≤ far) :
    law scale halo dbu cov cs (hi - lo : ℤ) near far =
      ∑ _u ∈ Finset.Ico lo hi, ∑ w ∈ Finset.Ico near far, law scale halo dbu cov cs 1 w (w + 1) := by
  rw [Finset.sum_const, Int.card_Ico, nsmul_eq_mul]
  have ht := Fringe.telescope (fun y => Fringe.ratio cov ((y : ℝ) * dbu) / (if scale then Fringe.ratio cov halo else 1) * dbu * cs / 1000)
    near far h2
  have e : ∀ w ∈ Finset.Ico near far, law scale halo dbu cov cs 1 w (w + 1) =
      (fun y : ℤ => Fringe.ratio cov ((y : ℝ) * dbu) / (if scale then Fringe.ratio cov halo else 1) * dbu * cs / 1000) (w + 1) -
      (fun y : ℤ => Fringe.ratio cov ((y : ℝ) * dbu) / (if scale then Fringe.ratio cov halo else 1) * dbu * cs / 1000) w := by
    intro w _
    simp only [law]
    push_cast
    ring
  rw [Finset.sum_congr rfl e, ht]
  have : ((hi - lo).toNat : ℝ) = ((hi - lo : ℤ) : ℝ) := by
    have h0 : ((hi - lo).toNat : ℤ) = hi - lo := Int.toNat_of_nonneg (by omega)
    have : (((hi - lo).toNat : ℤ) : ℝ) = ((hi - lo : ℤ) : ℝ) := by rw [h0]
    push_cast at this ⊢; exact this
  rw [this]
  simp only [law]
  ring

open Classical in
/-- The capacitances of the rectangles seen from an edge add up to the capacitance of the cells seen from it. -/
theorem views_sum {R : List (List Poly)} {names : List String} {i : Nat} {p : Poly} {s : Side} {depth : ℤ}
    {views : List View} (h : Views R names i p s depth views) (dbu halo : ℚ) (scale : Bool) (cov cs : String → String → ℚ)
    (a b : String) (hab : a ≠ b) :
    (views.map fun v => if SamePair (countsAs (names.getD i "") p.net) v.net a b then v.cap names dbu halo scale cov cs i
      else 0).sum = seenTotal R names dbu halo scale cov cs depth i s p.net a b := by
  let g : Nat × ℤ × ℤ → ℝ := fun c =>
    if ∃ n, SeenFrom R i s c.2.1 c.2.2 c.1 n ∧
      SamePair (countsAs (names.getD i "") p.net) (countsAs (names.getD c.1 "") n) a b then
      law scale halo dbu (cov (names.getD i "") (names.getD c.1 "")) (cs (names.getD i "") (names.getD c.1 "")) 1 c.2.2 (c.2.2 + 1)
    else 0
  let F : View → Finset (Nat × ℤ × ℤ) := fun v => {v.layer} ×ˢ (Finset.Ico v.lo v.hi ×ˢ Finset.Ico v.near v.far)
  have hF : ∀ v j u w, (j, u, w) ∈ F v ↔ j = v.layer ∧ (v.lo ≤ u ∧ u < v.hi) ∧ v.near ≤ w ∧ w < v.far := by
    intro v j u w
    simp only [F, Finset.mem_product, Finset.mem_singleton, Finset.mem_Ico]
  let L := views.filter fun v => decide (SamePair (countsAs (names.getD i "") p.net) v.net a b)
  have hL : ∀ v, v ∈ L ↔ v ∈ views ∧ SamePair (countsAs (names.getD i "") p.net) v.net a b := by
    intro v; simp [L]
  have hsum := sum_disjoint_eq g F L (by
      refine List.Pairwise.filter _ ?_
      refine h.disj.imp ?_
      intro v v' hd
      rw [Finset.disjoint_left]
      rintro ⟨j, u, w⟩ h1 h2
      rw [hF] at h1 h2
      exact hd (h1.1.symm.trans h2.1) u w h1.2.1.1 h1.2.1.2 h1.2.2.1 h1.2.2.2 h2.2.1.1 h2.2.1.2 h2.2.2.1 h2.2.2.2)
    (((Finset.range names.length).filter (· ≠ i)) ×ˢ (Finset.Ico 1 (s.len - 1) ×ˢ Finset.Ico 1 depth)) (by
      rintro v hv ⟨j, u, w⟩ hc
      rw [hF] at hc
      obtain ⟨r1, r2, r3, r4, r5, r6, r7, r8, _⟩ := h.range v ((hL v).1 hv).1
      simp only [Finset.mem_product, Finset.mem_filter, Finset.mem_range, Finset.mem_Ico]
      obtain ⟨rfl, hc⟩ := hc
      exact ⟨⟨r8, r7⟩, ⟨by omega, by omega⟩, by omega, by omega⟩) (by
      rintro ⟨j, u, w⟩ hc hno
      simp only [Finset.mem_product, Finset.mem_filter, Finset.mem_range, Finset.mem_Ico] at hc
      simp only [g]
      rw [if_neg]
      rintro ⟨n, hs, hp⟩
      have hne : countsAs (names.getD j "") n ≠ countsAs (names.getD i "") p.net := by
        intro he
        rw [he] at hp
        rcases hp with ⟨e1, e2⟩ | ⟨e1, e2⟩
        · exact hab (e1.symm.trans e2)
        · exact hab (e2.symm.trans e1)
      obtain ⟨v, hv, v1, v2, v3, v4, v5, v6⟩ := h.all j u w n hc.1.2 hc.1.1 hc.2.1.1 (by omega) hc.2.2.1 hc.2.2.2 hs hne
      refine hno v ((hL v).2 ⟨hv, by rw [v2]; exact hp⟩) ?_
      rw [hF]
      exact ⟨v1.symm, ⟨v3, v4⟩, v5, v6⟩)
  have hleft : (L.map fun v => ∑ c ∈ F v, g c).sum = (views.map fun v =>
      if SamePair (countsAs (names.getD i "") p.net) v.net a b then v.cap names dbu halo scale cov cs i else 0).sum := by
    have e1 : (L.map fun v => ∑ c ∈ F v, g c) = L.map fun v => v.cap names dbu halo scale cov cs i := by
      refine List.map_congr_left fun v hv => ?_
      obtain ⟨hv, hp⟩ := (hL v).1 hv
      obtain ⟨r1, r2, r3, r4, r5, r6, r7, r8, _⟩ := h.range v hv
      unfold View.cap
      rw [law_cells _ _ _ _ _ _ _ _ _ (le_of_lt r2) (le_of_lt r5)]
      simp only [F]
      rw [Finset.sum_product, Finset.sum_singleton, Finset.sum_product]
      refine Finset.sum_congr rfl fun u hu => Finset.sum_congr rfl fun w hw => ?_
      rw [Finset.mem_Ico] at hu hw
      obtain ⟨n, hn, hs⟩ := h.seen v hv u w hu.1 hu.2 hw.1 hw.2
      simp only [g]
      rw [if_pos ⟨n, hs, by rw [hn]; exact hp⟩]
    rw [e1]
    exact sum_filter_map _ _ _
  rw [← hleft, hsum, Finset.sum_product]
  unfold seenTotal
  refine Finset.sum_congr rfl fun j _ => ?_
  rw [Finset.sum_product]

open Classical in
/-- The rounded capacitances above 0.0001 fF of the views of an edge differ from the capacitance of the cells seen from it
by at most the rounding (`ε` relative) and 0.0001 fF for every view. -/
theorem view_bound {R : List (List Poly)} {names : List String} {i : Nat} {p : Poly} {s : Side} {depth : ℤ}
    {views : List View} (h : Views R names i p s depth views) (dbu halo : ℚ) (scale : Bool) (cov cs : String → String → ℚ)
    (rnd : ℝ → ℚ) (ε : ℝ) (hε : 0 ≤ ε) (hrnd : ∀ r, 1 / 10000 < r → |(rnd r : ℝ) - r| ≤ ε * r)
    (hpos : ∀ v ∈ views, 0 ≤ v.cap names dbu halo scale cov cs i) (a b : String) (hab : a ≠ b) :
    |(viewTotal names dbu halo scale cov cs rnd i p.net a b views : ℝ) -
      seenTotal R names dbu halo scale cov cs depth i s p.net a b| ≤
      ε * seenTotal R names dbu halo scale cov cs depth i s p.net a b + views.length / 10000 := by
  rw [← views_sum h dbu halo scale cov cs a b hab]
  unfold viewTotal
  clear h
  induction views with
  | nil => simp
  | cons v l ih =>
    have ih' := ih fun v hv => hpos v (List.mem_cons_of_mem _ hv)
    have hv := hpos v List.mem_cons_self
    simp only [List.map_cons, List.sum_cons, List.length_cons]
    rw [Rat.cast_add, Nat.cast_add, Nat.cast_one]
    rw [abs_le] at ih' ⊢
    obtain ⟨i1, i2⟩ := ih'
    have key : ∀ (q : ℚ) (r S T n : ℝ), |(q : ℝ) - r| ≤ ε * r + 1 / 10000 → -(ε * T + n / 10000) ≤ S - T →
        S - T ≤ ε * T + n / 10000 → -(ε * (r + T) + (n + 1) / 10000) ≤ q + S - (r + T) ∧
          q + S - (r + T) ≤ ε * (r + T) + (n + 1) / 10000 := by
      intro q r S T n h1 h2 h3
      rw [abs_le] at h1
      constructor <;> linarith [h1.1, h1.2]
    refine key _ _ _ _ _ ?_ i1 i2
    by_cases hp : SamePair (countsAs (names.getD i "") p.net) v.net a b
    · rw [if_pos (c := SamePair (countsAs (names.getD i "") p.net) v.net a b) hp]
      by_cases hbig : 1 / 10000 < v.cap names dbu halo scale cov cs i
      · rw [if_pos (And.intro hp hbig)]
        linarith [hrnd _ hbig]
      · rw [if_neg (fun h => hbig h.2), Rat.cast_zero, zero_sub, abs_neg, abs_of_nonneg hv]
        linarith [mul_nonneg hε hv]
    · rw [if_neg (fun h => hp h.1), if_neg hp, Rat.cast_zero, sub_zero, abs_zero]
      norm_num

theorem law_nonneg (scale : Bool) {halo dbu cov cs : ℚ} (hh : 0 ≤ halo) (hd : 0 ≤ dbu) (hcov : 0 ≤ cov) (hcs : 0 ≤ cs)
    {len near far : ℝ} (hl : 0 ≤ len) (hnf : near ≤ far) : 0 ≤ law scale halo dbu cov cs len near far := by
  have hd' : (0 : ℝ) ≤ dbu := by exact_mod_cast hd
  have hs' : (0 : ℝ) ≤ cs := by exact_mod_cast hcs
  have hh' : (0 : ℝ) ≤ halo := by exact_mod_cast hh
  have h1 := Fringe.ratio_mono hcov (mul_le_mul_of_nonneg_right hnf hd')
  have h2 := Fringe.ratio_nonneg hcov hh'
  have h3 : 0 ≤ (Fringe.ratio cov (far * dbu) - Fringe.ratio cov (near * dbu)) / (if scale then Fringe.ratio cov halo else 1) := by
    refine div_nonneg (by linarith) ?_
    split
    · exact h2
    · norm_num
  unfold law
  exact div_nonneg (mul_nonneg (mul_nonneg h3 (mul_nonneg hl hd')) hs') (by norm_num)

/-- Fringe capacitance between `a` and `b`: over all edges, the cells of other layers seen from it. -/
noncomputable def fringeTotal (R : List (List Poly)) (names : List String) (dbu halo : ℚ) (scale : Bool)
    (cov cs : String → String → ℚ) (depth : ℤ) (sides : Nat → List (Poly × Side)) (a b : String) : ℝ :=
  ∑ i ∈ Finset.range names.length, ((sides i).map fun ps =>
    seenTotal R names dbu halo scale cov cs depth i ps.2 ps.1.net a b).sum

theorem abs_list_sum {α : Type} (f : α → ℚ) (g h : α → ℝ) (l : List α) (hl : ∀ x ∈ l, |(f x : ℝ) - g x| ≤ h x) :
    |((l.map f).sum : ℝ) - (l.map g).sum| ≤ (l.map h).sum := by
  induction l with
  | nil => simp
  | cons x l ih =>
    have h1 := abs_le.1 (hl x List.mem_cons_self)
    have h2 := abs_le.1 (ih fun x hx => hl x (List.mem_cons_of_mem _ hx))
    simp only [List.map_cons, List.sum_cons]
    rw [Rat.cast_add, abs_le]
    constructor <;> linarith [h1.1, h1.2, h2.1, h2.2]

theorem abs_range_sum (f : Nat → ℚ) (g h : Nat → ℝ) (n : Nat) (hl : ∀ x < n, |(f x : ℝ) - g x| ≤ h x) :
    |((∑ x ∈ Finset.range n, f x : ℚ) : ℝ) - ∑ x ∈ Finset.range n, g x| ≤ ∑ x ∈ Finset.range n, h x := by
  rw [Rat.cast_sum, ← Finset.sum_sub_distrib]
  refine (Finset.abs_sum_le_sum_abs _ _).trans (Finset.sum_le_sum fun x hx => hl x (Finset.mem_range.1 hx))

/-- **C66, as sums over the cells of the layout.** The capacitance between two nets in the netlist is the sum of their
overlap, sidewall and fringe capacitance, taken over the cells of the layout; it differs from it by at most the relative
rounding `ε` of the fringe capacitances and 0.0001 fF for each of the `N` rectangles that are seen. -/
theorem netlist_cells (kl : KLayout) (hkl : Faithful kl) (hk : Fringe.KernelOK kl.kernel)
    (hkb : Fringe.KernelBands kl.kernel) (cf : String → String) (t : Tech) (x : Context) (mode : Mode)
    (hmode : mode = .CC ∨ mode = .RC) (scale : Bool) (halo : ℤ) (res : Except String (List RNetwork))
    (c c' : Netlist.Circuit) (bb : Bool) (hrun : run kl cf t x mode scale halo res c bb = .ok c')
    (hno : ∀ d ∈ c.devices, d.clsName ≠ "C")
    (hshort : NoShorts t x halo) (hsub : ∀ l ∈ t.stack, IsMetal l → ¬ CanonicalIs t l.name "VSUBS")
    (hnn : Overlap.NonNeg t.parasitics) (cap : String → String → ℚ)
    (hspec : ∀ names, IsStack t x names → ∀ i j, i < j → j < names.length →
      ∃ s, TechInfo.OverlapIs t.parasitics (names.getD j "") (names.getD i "") s ∧
        s.cap = cap (names.getD j "") (names.getD i ""))
    (hdbu : 0 < x.dbu) (hdbu' : x.dbu ≤ 10) (depth : ℤ) (hdepth : depth = ⌊t.parasitics.sideHalo / x.dbu⌋ + 1)
    (hvis : ∀ names R, IsStack t x names → Regions kl t x halo names R → ∀ i < names.length,
      ∃ sides, Visits R i depth sides (kl.edges R i))
    (C off : String → ℚ) (hC : ∀ layer s, IsLast (fun s => s.layer = layer) t.parasitics.sidewalls s →
      s.cap = C layer ∧ s.offset = off layer)
    (cov cs : String → String → ℚ)
    (hcov : ∀ inside outside o, Fringe.PairSpec t.parasitics inside outside o → o.cap = cov inside outside)
    (hcs : ∀ inside outside s, SideOverlapIs t.parasitics inside outside s → s.cap = cs inside outside)
    (hcov0 : ∀ inside outside, 0 ≤ cov inside outside) (hcs0 : ∀ inside outside, 0 ≤ cs inside outside)
    (hhalo : 0 ≤ t.parasitics.sideHalo) (ε : ℝ) (hε : 0 ≤ ε)
    (hrnd : ∀ r, 1 / 10000 < r → |(kl.rnd r : ℝ) - r| ≤ ε * r) :
    ∃ (names : List String) (R : List (List Poly)) (sides : Nat → List (Poly × Side))
      (views : Nat → Poly × Side → List View) (N : Nat),
      IsStack t x names ∧ Regions kl t x halo names R ∧
      (∀ i < names.length, AllSides (R.getD i []) (sides i)) ∧
      (∀ i < names.length, ∀ ps ∈ sides i, Views R names i ps.1 ps.2 depth (views i ps)) ∧
      N = ∑ i ∈ Finset.range names.length, ((sides i).map fun ps => (views i ps).length).sum ∧
      ∀ a b, a ≠ b → |(Rcx25Netlist.parasiticCap c' a b : ℝ) - (overlapTotal t x halo names cap a b +
        wallTotal R names x.dbu depth C off sides a b +
        fringeTotal R names x.dbu t.parasitics.sideHalo scale cov cs depth sides a b)| ≤
        ε * fringeTotal R names x.dbu t.parasitics.sideHalo scale cov cs depth sides a b + N / 10000 := by
  obtain ⟨names, R, sides, views, h1, h2, h3, h4, h5⟩ := netlist_geometry kl hkl hk hkb cf t x mode hmode scale halo res c c'
    bb hrun hno hshort hsub hnn cap hspec hdbu hdbu' depth hdepth hvis C off hC cov cs hcov hcs
  refine ⟨names, R, sides, views, _, h1, h2, h3, h4, rfl, fun a b hab => ?_⟩
  rw [h5 a b hab]
  have key := abs_range_sum (fun i => ((sides i).map fun ps =>
      viewTotal names x.dbu t.parasitics.sideHalo scale cov cs kl.rnd i ps.1.net a b (views i ps)).sum)
    (fun i => ((sides i).map fun ps =>
      seenTotal R names x.dbu t.parasitics.sideHalo scale cov cs depth i ps.2 ps.1.net a b).sum)
    (fun i => ((sides i).map fun ps =>
      ε * seenTotal R names x.dbu t.parasitics.sideHalo scale cov cs depth i ps.2 ps.1.net a b +
        (views i ps).length / 10000).sum) names.length (fun i hi => abs_list_sum _ _ _ _ fun ps hps => by
      refine view_bound (h4 i hi ps hps) _ _ _ _ _ _ ε hε hrnd (fun v hv => ?_) a b hab
      obtain ⟨_, r2, _, _, r5, _⟩ := (h4 i hi ps hps).range v hv
      exact law_nonneg scale hhalo (le_of_lt hdbu) (hcov0 _ _) (hcs0 _ _)
        (by exact_mod_cast (by omega : (0 : ℤ) ≤ v.hi - v.lo)) (by exact_mod_cast le_of_lt r5))
  have e : ∀ i, ((sides i).map fun ps =>
      ε * seenTotal R names x.dbu t.parasitics.sideHalo scale cov cs depth i ps.2 ps.1.net a b +
        ((views i ps).length : ℝ) / 10000).sum = ε * ((sides i).map fun ps =>
      seenTotal R names x.dbu t.parasitics.sideHalo scale cov cs depth i ps.2 ps.1.net a b).sum +
      1 / 10000 * ((((sides i).map fun ps => (views i ps).length).sum : ℕ) : ℝ) := by
    intro i
    induction sides i with
    | nil => simp
    | cons ps l ih =>
      simp only [List.map_cons, List.sum_cons]
      rw [ih]
      push_cast
      ring
  simp only [e] at key
  rw [Finset.sum_add_distrib, ← Finset.mul_sum, ← Finset.mul_sum] at key
  unfold fringeTotal
  push_cast at key ⊢
  rw [add_sub_add_left_eq_sub]
  refine key.trans (le_of_eq ?_)
  ring

end Verif.Engine25
