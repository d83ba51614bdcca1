import Verif.Shapes.Model

/-!
# Properties of the shapes converter (C46)
-/

namespace Verif.Shapes

theorem foldl_snoc {α β : Type} (f : α → β) (l : List α) (acc : List β) :
    l.foldl (fun acc a => acc ++ [f a]) acc = acc ++ l.map f := by
  induction l generalizing acc with
  | nil => simp
  | cons a l ih => rw [List.foldl_cons, ih]; simp

theorem polygonToPb_eq (p : Polygon) :
    polygonToPb p = { hull := p.hull.map fun q => { x := q.1, y := q.2 }, net := p.net.getD "" } := by
  unfold polygonToPb
  rw [foldl_snoc]
  rcases p with ⟨h, ho, n⟩
  rcases n with _ | n
  · rfl
  · by_cases hn : n = "" <;> simp [hn, pointToPb]

theorem length_pos_iff (s : String) : s.length ≥ 1 ↔ s ≠ "" := by
  have : s.length = 0 ↔ s = "" := by simp
  rw [ne_eq, ← this]; omega

/-! ### C46 -/

/-- Points survive. -/
theorem point_round_trip (p : Pt) : klayoutPoint (pointToPb p) = p := rfl

/-- **C46.** A polygon as KLayout holds it (its hull is in normal form) comes back with its hull and its net, but without
its holes and without an empty net name; it comes back unchanged if and only if it has neither. -/
theorem polygon_round_trip_partial (norm : List Pt → List Pt) (p : Polygon) (hn : norm p.hull = p.hull) :
    (klayoutPolygon norm (polygonToPb p)).hull = p.hull ∧
    ((klayoutPolygon norm (polygonToPb p)).net = if p.net = some "" then none else p.net) ∧
    (klayoutPolygon norm (polygonToPb p) = p ↔ p.holes = [] ∧ p.net ≠ some "") := by
  have hh : (klayoutPolygon norm (polygonToPb p)).hull = p.hull := by
    rw [polygonToPb_eq, klayoutPolygon]
    simp only [List.map_map]
    have : (klayoutPoint ∘ fun q : Pt => ({ x := q.1, y := q.2 } : PointPb)) = id := by funext q; rfl
    rw [this, List.map_id, hn]
  have hnet : (klayoutPolygon norm (polygonToPb p)).net = if p.net = some "" then none else p.net := by
    rw [polygonToPb_eq, klayoutPolygon]
    simp only [length_pos_iff]
    rcases p.net with _ | n
    · simp
    · by_cases h : n = "" <;> simp [h]
  refine ⟨hh, hnet, ?_, ?_⟩
  · intro h
    refine ⟨?_, ?_⟩
    · rw [← h]; rfl
    · intro he
      rw [if_pos he, h, he] at hnet
      cases hnet
  · rintro ⟨h1, h2⟩
    rw [if_neg h2] at hnet
    have h3 : (klayoutPolygon norm (polygonToPb p)).holes = p.holes := by rw [h1]; rfl
    rcases p with ⟨a, b, c⟩
    rcases hq : klayoutPolygon norm (polygonToPb ⟨a, b, c⟩) with ⟨a', b', c'⟩
    rw [hq] at hh hnet h3
    simp only at hh hnet h3
    rw [hh, hnet, h3]

/-- **C46, regions.** A region of polygons without holes (and without empty net names) comes back polygon by polygon,
nothing lost, added, reordered or relabelled; converting appends to what the message already contains. -/
theorem region_round_trip_partial (norm : List Pt → List Pt) (r : List Polygon) (m : RegionPb)
    (hr : ∀ p ∈ r, norm p.hull = p.hull ∧ p.holes = [] ∧ p.net ≠ some "") :
    klayoutRegion norm (regionToPb r m) = klayoutRegion norm m ++ r ∧ klayoutRegion norm (regionToPb r {}) = r := by
  have key : ∀ m : RegionPb, klayoutRegion norm (regionToPb r m) = klayoutRegion norm m ++ r := by
    intro m
    unfold klayoutRegion regionToPb
    rw [foldl_snoc, foldl_snoc, foldl_snoc, List.nil_append, List.nil_append, List.map_append, List.map_map]
    congr 1
    conv_rhs => rw [← List.map_id r]
    refine List.map_congr_left fun p hp => ?_
    obtain ⟨h1, h2, h3⟩ := hr p hp
    exact (polygon_round_trip_partial norm p h1).2.2.2 ⟨h2, h3⟩
  exact ⟨key m, by rw [key]; rfl⟩

/-- **C46, boxes.** A box message with ordered corners becomes the box with these corners and this net. -/
theorem box_exact (b : BoxPb) (hx : b.lowerLeft.x ≤ b.upperRight.x) (hy : b.lowerLeft.y ≤ b.upperRight.y) :
    (klayoutBox b).p1 = (b.lowerLeft.x, b.lowerLeft.y) ∧ (klayoutBox b).p2 = (b.upperRight.x, b.upperRight.y) ∧
    ((klayoutBox b).net = some b.net ↔ b.net ≠ "") := by
  refine ⟨Prod.ext (Int.min_eq_left hx) (Int.min_eq_left hy), Prod.ext (Int.max_eq_right hx) (Int.max_eq_right hy), ?_⟩
  by_cases h : b.net = "" <;> simp [klayoutBox, h]

/-- A ring of net `A`: a square of ten units with a square hole of two units. -/
def ring : Polygon :=
  ⟨[(0, 0), (0, 10), (10, 10), (10, 0)], [[(4, 4), (4, 6), (6, 6), (6, 4)]], some "A"⟩

/-- **C46 fails for polygons with holes**: whatever KLayout's normal form does, the ring comes back without its hole. -/
theorem round_trip_fails (norm : List Pt → List Pt) : (klayoutPolygon norm (polygonToPb ring)).holes ≠ ring.holes := by
  intro h
  have : ring.holes = [] := h.symm
  cases this

/-! ### The hypotheses are met -/

def square : Polygon := ⟨[(0, 0), (0, 10), (10, 10), (10, 0)], [], some "A"⟩
def bar : Polygon := ⟨[(20, 0), (20, 1), (30, 1), (30, 0)], [], none⟩

example : ∀ p ∈ [square, bar], id p.hull = p.hull ∧ p.holes = [] ∧ p.net ≠ some "" := by decide
example : klayoutRegion id (regionToPb [square, bar] {}) = [square, bar] := by decide
example : (klayoutBox ⟨⟨1, 2, ""⟩, ⟨3, 4, ""⟩, "B"⟩) = ⟨(1, 2), (3, 4), some "B"⟩ := by decide

end Verif.Shapes
