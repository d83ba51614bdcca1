import Verif.Engine25.Shown
import Verif.Engine25.Own

/-!
# The report shows lateral couplings at their place in the layout (C111)
-/

namespace Verif.Engine25

open TechInfo (Tech Parasitics OverlapSpec SideOverlapSpec SideOverlapIs)
open Overlap (Cell Poly)
open Shapes (Pt)
open Summary (SidewallCap SideOverlapCap)
open Reporter (Act)
open Fringe (Rec Ctx Kernel Neighborhood Lateral law PairSpec countsAs)

/-! ### Specification -/

/-- A step of length one along an axis. -/
def IsStep (e : Pt) : Prop := e = (1, 0) ∨ e = (0, 1) ∨ e = (-1, 0) ∨ e = (0, -1)

/-- The point that is reached from `a` by `k` steps `e` and then `w` steps to the left. -/
def ahead (a e : Pt) (k w : ℤ) : Pt := (a.1 + k * e.1 - w * e.2, a.2 + k * e.2 + w * e.1)

/-- The unit square between the points `ahead a e k w` and `ahead a e (k + 1) (w + 1)`, given by its lower left corner. -/
def squareAt (a e : Pt) (k w : ℤ) : Cell :=
  (min (ahead a e k w).1 (ahead a e (k + 1) (w + 1)).1, min (ahead a e k w).2 (ahead a e (k + 1) (w + 1)).2)

/-- The edge from `a` to `ahead a e len 0` is part of the border of the polygon, which lies on its right. -/
def OnBorder (p : Poly) (a e : Pt) (len : ℤ) : Prop :=
  ∀ k, 0 ≤ k → k < len → squareAt a e k (-1) ∈ p.cells ∧ squareAt a e k 0 ∉ p.cells

/-- A sidewall capacitance of layer `i` is shown by two edges: the first one is part of the border of a polygon of the first
net and as long as stated, the second one runs the other way in front of it at the stated distance along the second net; in
between there is no other polygon of the layer. -/
def SidewallPlaced (R : List (List Poly)) (names : List String) (dbu : ℚ) (i : Nat) (c : SidewallCap)
    (inside outside : Figure) : Prop :=
  c.key.layer = names.getD i "" ∧ ∃ p ∈ R.getD i [], ∃ (a e : Pt) (len d : ℤ), IsStep e ∧ 1 < len ∧ 1 ≤ d ∧
    inside = .edge a (ahead a e len 0) ∧ outside = .edge (ahead a e len d) (ahead a e 0 d) ∧
    c.key.net1 = p.net ∧ c.length = len * dbu ∧ c.distance = d * dbu ∧ OnBorder p a e len ∧
    ∀ k, 0 ≤ k → k < len →
      (∃ q ∈ R.getD i [], q ≠ p ∧ q.net = c.key.net2 ∧ squareAt a e k d ∈ q.cells) ∧
      ∀ w, 1 ≤ w → w < d → ∀ q ∈ R.getD i [], q ≠ p → squareAt a e k w ∉ q.cells

/-- The lateral shield that is shown for an edge of layer `i`: nothing if no polygon of the layer lies in front of the edge
(up to the depth), else the rectangle behind the nearest one. -/
def ShieldPlaced (R : List (List Poly)) (i : Nat) (depth far : ℤ) (a e : Pt) (len : ℤ) : Option Figure → Prop
  | none => ∀ k w, 0 ≤ k → k < len → 1 ≤ w → w < depth → ∀ q ∈ R.getD i [], squareAt a e k w ∉ q.cells
  | some f => ∃ (S : Finset Cell) (d : ℤ), f = .cells S ∧ 1 ≤ d ∧ d < depth ∧
      (∀ c, c ∈ S ↔ ∃ k w, 0 ≤ k ∧ k < len ∧ d ≤ w ∧ w < far ∧ c = squareAt a e k w) ∧
      ∀ k, 0 ≤ k → k < len → (∃ q ∈ R.getD i [], squareAt a e k d ∈ q.cells) ∧
        ∀ w, 1 ≤ w → w < d → ∀ q ∈ R.getD i [], squareAt a e k w ∉ q.cells

/-- A fringe capacitance of an edge of layer `i` is shown by an edge, a rectangle and the lateral shield: the edge is part of
the border of a polygon of the inside net; the rectangle lies in front of the whole edge, is covered by the outside net on
the outside layer and seen from the edge; the value is the one of the law for the length of the edge and the borders of the
rectangle. -/
def FringePlaced (R : List (List Poly)) (names : List String) (dbu : ℚ) (scale : Bool) (par : Parasitics) (rnd : ℝ → ℚ)
    (depth : ℤ) (i : Nat) (c : SideOverlapCap) (inside outside : Figure) (shield : Option Figure) : Prop :=
  c.key.layerInside = names.getD i "" ∧ ∃ p ∈ R.getD i [], ∃ (j : Nat) (a e : Pt) (len near far : ℤ) (Q : Finset Cell),
    j ≠ i ∧ j < names.length ∧ IsStep e ∧ 1 < len ∧ 1 ≤ near ∧ near < far ∧ far ≤ depth ∧
    c.key.netInside = countsAs (names.getD i "") p.net ∧ c.key.layerOutside = names.getD j "" ∧
    inside = .edge a (ahead a e len 0) ∧ outside = .cells Q ∧
    (∀ s, s ∈ Q ↔ ∃ k w, 0 ≤ k ∧ k < len ∧ near ≤ w ∧ w < far ∧ s = squareAt a e k w) ∧
    (∃ o s, PairSpec par (names.getD i "") (names.getD j "") o ∧ SideOverlapIs par (names.getD i "") (names.getD j "") s ∧
      c.capValue = rnd (law scale par.sideHalo dbu o.cap s.cap len near far) ∧
      1 / 10000 < law scale par.sideHalo dbu o.cap s.cap len near far) ∧
    OnBorder p a e len ∧
    (∀ k w, 0 ≤ k → k < len → near ≤ w → w < far →
      (∃ q ∈ R.getD j [], countsAs (names.getD j "") q.net = c.key.netOutside ∧ squareAt a e k w ∈ q.cells) ∧
      (∀ w', 1 ≤ w' → w' ≤ w → ∀ q ∈ R.getD i [], squareAt a e k w' ∉ q.cells) ∧
      ∀ l, (j < l ∧ l < i ∨ i < l ∧ l < j) → ∀ q ∈ R.getD l [], squareAt a e k w ∉ q.cells) ∧
    ShieldPlaced R i depth ⌊(par.sideHalo + 10) / dbu⌋ a e len shield

/-- The debug output of an edge of layer `i`: the edge is part of the border of a polygon of the net, and what is shown for
a child is covered by the polygons of this layer or, for the last child, by the polygon itself. -/
def NeighborhoodPlaced (R : List (List Poly)) (names : List String) (i : Nat) (layer net : String) (edge : Figure)
    (n : List (String × List (Nat × List Figure))) : Prop :=
  layer = names.getD i "" ∧ ∃ p ∈ R.getD i [], ∃ (a e : Pt) (len : ℤ), IsStep e ∧ 0 < len ∧ p.net = net ∧
    edge = .edge a (ahead a e len 0) ∧ OnBorder p a e len ∧
    ∀ v ∈ n, ∀ ch ∈ v.2, ∀ f ∈ ch.2, ∃ Q, f = .cells Q ∧ ∀ s ∈ Q,
      (ch.1 = names.length ∧ s ∈ p.cells) ∨ (ch.1 < names.length ∧ ∃ q ∈ R.getD ch.1 [], s ∈ q.cells)

/-- What an extraction of layer `i` puts into the report. -/
def Placed (R : List (List Poly)) (names : List String) (dbu : ℚ) (scale : Bool) (par : Parasitics) (rnd : ℝ → ℚ)
    (depth : ℤ) (i : Nat) : Act Figure → Prop
  | .overlap .. => False
  | .sidewall c inside outside => SidewallPlaced R names dbu i c inside outside
  | .sideoverlap c inside outside shield => FringePlaced R names dbu scale par rnd depth i c inside outside shield
  | .neighborhood layer net ns edge n => ns = names ∧ NeighborhoodPlaced R names i layer net edge n

/-! ### The transformation -/

theorem ahead_ahead (a e : Pt) (m k w : ℤ) : ahead (ahead a e m 0) e k w = ahead a e (m + k) w := by
  unfold ahead; ext <;> simp only <;> ring

theorem squareAt_ahead (a e : Pt) (m k w : ℤ) : squareAt (ahead a e m 0) e k w = squareAt a e (m + k) w := by
  unfold squareAt; rw [ahead_ahead, ahead_ahead, add_assoc]

theorem ahead_zero (a e : Pt) : ahead a e 0 0 = a := by unfold ahead; ext <;> simp

/-- The restored points and cells in the layout. -/
theorem side_step (s : Side) : ∃ a e, IsStep e ∧ ∀ u v, s.point u v = ahead a e u v ∧ s.cell u v = squareAt a e u v := by
  obtain ⟨x, y, dir, len⟩ := s
  cases dir
  · refine ⟨(x, y), (1, 0), Or.inl rfl, fun u v => ?_⟩
    constructor <;> simp only [Side.point, Side.cell, ahead, squareAt] <;> ext <;> simp only <;> omega
  · refine ⟨(x, y), (0, 1), Or.inr (Or.inl rfl), fun u v => ?_⟩
    constructor <;> simp only [Side.point, Side.cell, ahead, squareAt] <;> ext <;> simp only <;> omega
  · refine ⟨(x, y), (-1, 0), Or.inr (Or.inr (Or.inl rfl)), fun u v => ?_⟩
    constructor <;> simp only [Side.point, Side.cell, ahead, squareAt] <;> ext <;> simp only <;> omega
  · refine ⟨(x, y), (0, -1), Or.inr (Or.inr (Or.inr rfl)), fun u v => ?_⟩
    constructor <;> simp only [Side.point, Side.cell, ahead, squareAt] <;> ext <;> simp only <;> omega

/-- An interval of an edge in the layout: its beginning and its direction. -/
theorem side_from (s : Side) (lo : ℤ) : ∃ a e, IsStep e ∧ s.point lo 0 = a ∧
    ∀ k v, s.point (lo + k) v = ahead a e k v ∧ s.cell (lo + k) v = squareAt a e k v := by
  obtain ⟨a, e, he, h⟩ := side_step s
  refine ⟨ahead a e lo 0, e, he, (h lo 0).1, fun k v => ?_⟩
  rw [ahead_ahead, squareAt_ahead]
  exact h _ _

/-- A rectangle that is turned back. -/
theorem restore_box (s : Side) {lo hi y z : ℤ} {a e : Pt} (h : ∀ k v, s.cell (lo + k) v = squareAt a e k v) (c : Cell) :
    (c ∈ (Finset.Ico lo hi ×ˢ Finset.Ico y z).image fun c => s.cell c.1 c.2) ↔
      ∃ k w, 0 ≤ k ∧ k < hi - lo ∧ y ≤ w ∧ w < z ∧ c = squareAt a e k w := by
  rw [Finset.mem_image]
  constructor
  · rintro ⟨⟨u, w⟩, hm, rfl⟩
    simp only [Finset.mem_product, Finset.mem_Ico] at hm
    refine ⟨u - lo, w, by omega, by omega, hm.2.1, hm.2.2, ?_⟩
    rw [← h, add_sub_cancel]
  · rintro ⟨k, w, h1, h2, h3, h4, rfl⟩
    refine ⟨(lo + k, w), ?_, h k w⟩
    simp only [Finset.mem_product, Finset.mem_Ico]
    omega

/-! ### What the loops put into the report -/

theorem sidewallShown_mem {x : Ctx} {s : Side} {edgeNet : String} {iv : ℚ × ℚ} {p : Poly} {acts : List (Act Figure)}
    (h : emitSidewallShown x s edgeNet iv p = .ok acts) {act : Act Figure} (ha : act ∈ acts) :
    ∃ cs c, Fringe.emitSidewall x edgeNet iv p = .ok cs ∧ c ∈ cs ∧
      act = .sidewall c (restoreInterval s iv) (restoreEdge s (Fringe.nearestEdge p)) := by
  unfold emitSidewallShown at h
  rw [Fringe.bind_ok] at h
  obtain ⟨cs, hcs, h⟩ := h
  cases (Except.ok.inj h)
  obtain ⟨c, hc, rfl⟩ := List.mem_map.1 ha
  exact ⟨cs, c, hcs, hc, rfl⟩

theorem lateralShown_mem {x : Ctx} {s : Side} {edgeNet : String} {iv : ℚ × ℚ} (nb : List (Nat × List Poly))
    (l l' : Lateral × List (Act Figure)) (h : nb.foldlM (lateralStepShown x s edgeNet iv) l = .ok l') :
    ∀ act ∈ l'.2, act ∈ l.2 ∨ ∃ ps n cs c, (x.inside, ps) ∈ nb ∧ Fringe.findNearest ps = .ok n ∧
      Fringe.emitSidewall x edgeNet iv n.2 = .ok cs ∧ c ∈ cs ∧
      act = .sidewall c (restoreInterval s iv) (restoreEdge s (Fringe.nearestEdge n.2)) := by
  induction nb generalizing l with
  | nil => cases (Except.ok.inj h); exact fun act ha => Or.inl ha
  | cons e nb ih =>
    rw [List.foldlM_cons, Fringe.bind_ok] at h
    obtain ⟨l1, h1, h2⟩ := h
    intro act ha
    rcases ih l1 h2 act ha with ha | ⟨ps, n, cs, c, h3, h4⟩
    · unfold lateralStepShown at h1
      split_ifs at h1 with i1 i2
      · rw [Fringe.bind_ok] at h1
        obtain ⟨n, _, h1⟩ := h1
        cases (Except.ok.inj h1)
        exact Or.inl ha
      · rw [Fringe.bind_ok] at h1
        obtain ⟨n, hn, h1⟩ := h1
        rw [Fringe.bind_ok] at h1
        obtain ⟨r, hr, h1⟩ := h1
        cases (Except.ok.inj h1)
        rcases List.mem_append.1 ha with ha | ha
        · exact Or.inl ha
        · obtain ⟨cs, c, h5, h6, h7⟩ := sidewallShown_mem hr ha
          exact Or.inr ⟨e.2, n, cs, c, by rw [i2]; exact List.mem_cons_self, hn, h5, h6, h7⟩
      · cases (Except.ok.inj h1)
        exact Or.inl ha
    · exact Or.inr ⟨ps, n, cs, c, List.mem_cons_of_mem _ h3, h4⟩

theorem fringeLoopShown_mem {x : Ctx} {rnd : ℝ → ℚ} {s : Side} {inside insideNet outside : String} {iv : ℚ × ℚ}
    {overlap : OverlapSpec} {side : SideOverlapSpec} {lat : Option (Finset Cell)} (L : List (String × Finset Cell))
    (acts : List (Act Figure)) (h : fringeLoopShown x rnd s inside insideNet outside iv overlap side lat L = .ok acts) :
    ∀ act ∈ acts, ∃ e ∈ L, ∃ cap, Fringe.fringeCap x ((iv.2 - iv.1 : ℚ) : ℝ) (max 0 (Fringe.yLow e.2) : ℤ)
        (max 0 (Fringe.yHigh e.2) : ℤ) overlap side = .ok cap ∧ 1 / 10000 < cap ∧
      act = .sideoverlap ⟨⟨inside, insideNet, outside, e.1⟩, rnd cap⟩ (restoreInterval s iv) (restorePolygon s e.2)
        (lat.map (restorePolygon s)) := by
  induction L generalizing acts with
  | nil => cases (Except.ok.inj h); exact fun act ha => absurd ha (by simp)
  | cons e L ih =>
    obtain ⟨net, q⟩ := e
    rw [fringeLoopShown] at h
    simp only [Fringe.clamp_eq] at h
    split_ifs at h with h1 h2
    · cases (Except.ok.inj h); exact fun act ha => absurd ha (by simp)
    · rw [Fringe.bind_ok] at h
      obtain ⟨cap, hcap, h⟩ := h
      rw [Fringe.bind_ok] at h
      obtain ⟨r, hr, h⟩ := h
      intro act ha
      split_ifs at h with h3
      · cases (Except.ok.inj h)
        rcases List.mem_cons.1 ha with rfl | ha
        · exact ⟨(net, q), List.mem_cons_self, cap, hcap, h3, rfl⟩
        · obtain ⟨e, he, h4⟩ := ih r hr act ha
          exact ⟨e, List.mem_cons_of_mem _ he, h4⟩
      · cases (Except.ok.inj h)
        obtain ⟨e, he, h4⟩ := ih _ hr act ha
        exact ⟨e, List.mem_cons_of_mem _ he, h4⟩

theorem fringeShown_mem {x : Ctx} {rnd : ℝ → ℚ} {k : Kernel} {s : Side} {edgeNet : String} {iv : ℚ × ℚ}
    {nb0 : Dict Nat (List Poly)} {near : Option (Option ℤ × Poly)} (nb : List (Nat × List Poly))
    (acts acts' : List (Act Figure)) (h : nb.foldlM (fringeStepShown x rnd k s edgeNet iv nb0 near) acts = .ok acts') :
    ∀ act ∈ acts', act ∈ acts ∨ ∃ j ps r, (j, ps) ∈ nb ∧ j ≠ x.inside ∧ j < x.names.length ∧
      emitFringeShown x rnd k s (x.names.getD j "") edgeNet iv ps
        (Fringe.fringeShield x nb0 (Fringe.lateralShield x near) j) (shieldOf x near) = .ok r ∧ act ∈ r := by
  induction nb generalizing acts with
  | nil => cases (Except.ok.inj h); exact fun act ha => Or.inl ha
  | cons e nb ih =>
    rw [List.foldlM_cons, Fringe.bind_ok] at h
    obtain ⟨l1, h1, h2⟩ := h
    intro act ha
    rcases ih l1 h2 act ha with ha | ⟨j, ps, r, h3, h4⟩
    · unfold fringeStepShown at h1
      split_ifs at h1 with i1 i2
      · cases (Except.ok.inj h1); exact Or.inl ha
      · rw [Fringe.bind_ok] at h1
        obtain ⟨r, hr, h1⟩ := h1
        cases (Except.ok.inj h1)
        rcases List.mem_append.1 ha with ha | ha
        · exact Or.inl ha
        · exact Or.inr ⟨e.1, e.2, r, List.mem_cons_self, fun h => i1 h.symm, i2, hr, ha⟩
      · cases (Except.ok.inj h1); exact Or.inl ha
    · exact Or.inr ⟨j, ps, r, List.mem_cons_of_mem _ h3, h4⟩

/-! ### One interval -/

theorem band_xLow {lo hi y z : ℤ} (h : lo < hi) (hyz : y < z) : Fringe.xLow (Finset.Ico lo hi ×ˢ Finset.Ico y z) = lo := by
  have hne : ((Finset.Ico lo hi ×ˢ Finset.Ico y z).image Prod.fst).Nonempty :=
    ⟨lo, Finset.mem_image.2 ⟨(lo, y), by simp [h, hyz], rfl⟩⟩
  unfold Fringe.xLow
  rw [dif_pos hne]
  apply le_antisymm
  · exact Finset.min'_le _ _ (Finset.mem_image.2 ⟨(lo, y), by simp [h, hyz], rfl⟩)
  · refine Finset.le_min' _ _ _ fun v hv => ?_
    obtain ⟨c, hc, rfl⟩ := Finset.mem_image.1 hv
    simp only [Finset.mem_product, Finset.mem_Ico] at hc
    omega

theorem band_xHigh {lo hi y z : ℤ} (h : lo < hi) (hyz : y < z) : Fringe.xHigh (Finset.Ico lo hi ×ˢ Finset.Ico y z) = hi := by
  have hm : hi - 1 ∈ (Finset.Ico lo hi ×ˢ Finset.Ico y z).image Prod.fst :=
    Finset.mem_image.2 ⟨(hi - 1, y), by simp only [Finset.mem_product, Finset.mem_Ico]; omega, rfl⟩
  have hne : ((Finset.Ico lo hi ×ˢ Finset.Ico y z).image Prod.fst).Nonempty := ⟨_, hm⟩
  unfold Fringe.xHigh
  rw [dif_pos hne]
  have h1 := Finset.le_max' _ _ hm
  have h2 : ((Finset.Ico lo hi ×ˢ Finset.Ico y z).image Prod.fst).max' hne ≤ hi - 1 := by
    refine Finset.max'_le _ _ _ fun v hv => ?_
    obtain ⟨c, hc, rfl⟩ := Finset.mem_image.1 hv
    simp only [Finset.mem_product, Finset.mem_Ico] at hc
    omega
  omega

/-- Every piece that remains behind a shield that spans the interval is a band. -/
theorem piece_band {k : Kernel} (hk : Fringe.KernelOK k) (hkb : Fringe.KernelBands k) {lo hi depth : ℤ} (hlo : lo < hi)
    {ps : List Poly} (hbox : ∀ p ∈ ps, ∃ y z, 1 ≤ y ∧ y < z ∧ z ≤ depth ∧ p.cells = Finset.Ico lo hi ×ˢ Finset.Ico y z)
    {shield : Finset Cell}
    (hrow : ∀ u v w : ℤ, lo ≤ u → u < hi → lo ≤ v → v < hi → w < depth → (u, w) ∈ shield → (v, w) ∈ shield)
    {insideNet outside : String} {e : String × Finset Cell} (he : e ∈ Fringe.visible k insideNet outside shield ps) :
    ∃ p ∈ ps, e.1 = countsAs outside p.net ∧ (∀ c ∈ e.2, c ∈ p.cells ∧ c ∉ shield) ∧
      ∃ y z, 1 ≤ y ∧ y < z ∧ z ≤ depth ∧ e.2 = Finset.Ico lo hi ×ˢ Finset.Ico y z := by
  unfold Fringe.visible at he
  obtain ⟨p, hp, he⟩ := List.mem_flatMap.1 he
  split_ifs at he with hne
  · simp at he
  · obtain ⟨q, hq, rfl⟩ := List.mem_map.1 he
    obtain ⟨y1, z1, hy1, hyz1, hz1, hpc⟩ := hbox p hp
    have hqs : ∀ c ∈ q, c ∈ p.cells ∧ c ∉ shield := by
      unfold Fringe.remains at hq
      split_ifs at hq with hem
      · rw [List.mem_singleton] at hq; rw [hq, hem]; exact fun c hc => ⟨hc, by simp⟩
      · exact fun c hc => Finset.mem_sdiff.1 (hk.sub _ q hq hc)
    have hqb : ∃ y z, y < z ∧ q = Finset.Ico lo hi ×ˢ Finset.Ico y z := by
      unfold Fringe.remains at hq
      split_ifs at hq
      · rw [List.mem_singleton] at hq; rw [hq]; exact ⟨y1, z1, hyz1, hpc⟩
      · refine hkb lo hi _ hlo ⟨(Finset.Ico y1 z1).filter fun y => (lo, y) ∉ shield, ?_⟩ q hq
        ext c
        rw [hpc]
        simp only [Finset.mem_sdiff, Finset.mem_product, Finset.mem_filter, Finset.mem_Ico]
        constructor
        · rintro ⟨⟨h1, h2⟩, h3⟩
          exact ⟨h1, h2, fun h4 => h3 (hrow lo c.1 c.2 (le_refl _) hlo h1.1 h1.2 (by omega) h4)⟩
        · rintro ⟨h1, h2, h3⟩
          exact ⟨⟨h1, h2⟩, fun h4 => h3 (hrow c.1 lo c.2 h1.1 h1.2 (le_refl _) hlo (by omega) h4)⟩
    obtain ⟨y, z, hyz, hqe⟩ := hqb
    refine ⟨p, hp, rfl, hqs, y, z, ?_, hyz, ?_, hqe⟩
    · have h1 := (hqs (lo, y) (by rw [hqe]; simp only [Finset.mem_product, Finset.mem_Ico]; omega)).1
      rw [hpc] at h1
      simp only [Finset.mem_product, Finset.mem_Ico] at h1; omega
    · have h1 := (hqs (lo, z - 1) (by rw [hqe]; simp only [Finset.mem_product, Finset.mem_Ico]; omega)).1
      rw [hpc] at h1
      simp only [Finset.mem_product, Finset.mem_Ico] at h1; omega

section

variable {R : List (List Poly)} {names : List String} {dbu : ℚ} {scale : Bool} {par : Parasitics} {rnd : ℝ → ℚ} {depth : ℤ}
  {i : Nat} {p : Poly} {s : Side} {lo hi : ℤ} {nb : Dict Nat (List Poly)}

/-- The nearest polygon of the lateral loop. -/
theorem lateral_nearest {x : Ctx} (hin : x.inside < x.names.length) {edgeNet : String} {iv : ℚ × ℚ}
    (hnb : Fringe.Reported nb) {l : Lateral × List (Act Figure)}
    (h : nb.foldlM (lateralStepShown x s edgeNet iv) (⟨none, []⟩, []) = .ok l) :
    Fringe.NearestLateral x nb (l.1.nearest.map Prod.snd) := by
  have href := lateral_refines x (fun _ => 0) s edgeNet iv nb ⟨none, []⟩ ⟨none, []⟩ [] rfl rfl
  rw [h] at href
  cases hl : List.foldlM (Fringe.lateralStep x edgeNet iv) ⟨none, []⟩ nb with
  | error m => rw [hl] at href; cases href
  | ok r =>
    rw [hl] at href
    have hn : l.1.nearest = r.nearest := congrArg Prod.fst (Except.ok.inj href)
    obtain ⟨_, hbest, _⟩ := Fringe.lateral_loop x hin edgeNet iv nb hnb.nodup hnb.nonempty ⟨none, []⟩ r
      (by intro n hn; cases hn) hl
    rw [hn]
    unfold Fringe.IsBest at hbest
    cases hl' : r.nearest with
    | none => rw [hl'] at hbest; exact hbest.2
    | some n =>
      rw [hl'] at hbest
      obtain ⟨d, p⟩ := n
      obtain ⟨z, rfl, hor, hmin, _⟩ := hbest
      rcases hor with h | ⟨h, hd⟩
      · cases h
      · exact ⟨h, z, hd, hmin⟩

/-- A sidewall action of an interval. -/
theorem interval_sidewall_placed (hR : R.length = names.length) (hi' : i < names.length) (hp : p ∈ R.getD i [])
    (hs : IsSide p.cells s) (hok : IntervalOK R i p s depth lo hi nb) {ps : List Poly} {n : Option ℤ × Poly}
    {cs : List SidewallCap} {c : SidewallCap} (hps : (i, ps) ∈ nb) (hn : Fringe.findNearest ps = .ok n)
    (hcs : Fringe.emitSidewall ⟨names, i, dbu, scale, par⟩ p.net ((lo : ℚ), (hi : ℚ)) n.2 = .ok cs) (hc : c ∈ cs) :
    SidewallPlaced R names dbu i c (restoreInterval s ((lo : ℚ), (hi : ℚ))) (restoreEdge s (Fringe.nearestEdge n.2)) := by
  obtain ⟨hr1, hr2, hr3⟩ := hok.range
  have hlo : lo < hi := by omega
  have hne := hok.boxes.rep.nonempty _ hps
  obtain ⟨d, q, hnear, hfn⟩ : ∃ d q, Fringe.Nearest ps d q ∧ n = (some d, q) := by
    obtain ⟨d, q, h1, h2⟩ := Fringe.findNearest_spec ps hne.1 hne.2
    rw [hn] at h1
    exact ⟨d, q, h2, Except.ok.inj h1⟩
  subst hfn
  obtain ⟨hbot, hat⟩ := hok.boxes.nearest hlo hps hnear
  obtain ⟨y, z, hy1, hyz, hz, hqc⟩ := hok.boxes.box _ hps q hnear.mem
  have hdy : d = y := hbot.unique (by rw [hqc]; exact Fringe.band_low hlo hyz)
  subst hdy
  have hlow : Fringe.yLow q.cells = d := hbot.eq
  obtain ⟨a, e, he, ha, hae⟩ := side_from s lo
  have hcc : c = ⟨⟨names.getD i "", p.net, q.net⟩, c.capValue, d * dbu, ((hi : ℚ) - lo) * dbu⟩ := by
    unfold Fringe.emitSidewall at hcs
    simp only at hcs
    split_ifs at hcs
    · cases (Except.ok.inj hcs); simp at hc
    · revert hcs
      cases (TechInfo.sidewallTable par).get? (names.getD i "") with
      | none => intro h; cases h
      | some spec =>
        simp only
        intro h
        split_ifs at h
        cases (Except.ok.inj h)
        rw [List.mem_singleton] at hc
        rw [hc, Fringe.min_low_high, hlow]
  refine ⟨by rw [hcc], p, hp, a, e, hi - lo, d, he, by omega, hy1, ?_, ?_, by rw [hcc], ?_, by rw [hcc], ?_, ?_⟩
  · have := (hae (hi - lo) 0).1
    unfold restoreInterval
    simp only [Int.floor_intCast]
    rw [ha, ← this, add_sub_cancel]
  · have h1 := (hae (hi - lo) d).1
    have h2 := (hae 0 d).1
    unfold restoreEdge Fringe.nearestEdge
    simp only
    rw [hlow, hqc, band_xLow hlo hyz, band_xHigh hlo hyz, ← h1, ← h2, add_sub_cancel, add_zero]
  · rw [hcc]; push_cast; rfl
  · intro k hk1 hk2
    rw [← (hae k (-1)).2, ← (hae k 0).2]
    exact hs.2.1 (lo + k) (by omega) (by omega)
  · intro k hk1 hk2
    have h1 := (hat (lo + k) (by omega) (by omega) d q.net).2 ⟨rfl, rfl⟩
    have h2 := (hok.faced (by omega) (by omega) (by omega) hy1 (by omega)).1 h1
    obtain ⟨⟨q', hq', hne', hnet, hin⟩, hno⟩ := h2
    refine ⟨⟨q', hq', hne', by rw [hcc]; exact hnet, by rw [← (hae k d).2]; exact hin⟩, ?_⟩
    intro w hw1 hw2 r hr hrp
    rw [← (hae k w).2]
    exact hno w hw1 hw2 r hr hrp

/-- The lateral shield of an interval. -/
theorem interval_shield_placed (hR : R.length = names.length) (hi' : i < names.length) (hp : p ∈ R.getD i [])
    (hok : IntervalOK R i p s depth lo hi nb) {near : Option (Option ℤ × Poly)}
    (hnear : Fringe.NearestLateral ⟨names, i, dbu, scale, par⟩ nb (near.map Prod.snd)) {a e : Pt}
    (hae : ∀ k v, s.cell (lo + k) v = squareAt a e k v) :
    ShieldPlaced R i depth ⌊(par.sideHalo + 10) / dbu⌋ a e (hi - lo)
      ((shieldOf ⟨names, i, dbu, scale, par⟩ near).map (restorePolygon s)) := by
  obtain ⟨hr1, hr2, hr3⟩ := hok.range
  have hlo : lo < hi := by omega
  have hiR : i < R.length := by omega
  -- a polygon of the layer in front of the edge is reported
  have hrep : ∀ k w, 0 ≤ k → k < hi - lo → 1 ≤ w → w < depth → ∀ q ∈ R.getD i [], squareAt a e k w ∈ q.cells →
      ∃ r, Fringe.LateralPoly ⟨names, i, dbu, scale, par⟩ nb r ∧ (lo + k, w) ∈ r.cells := by
    intro k w hk1 hk2 hw1 hw2 q hq hc
    rw [← hae] at hc
    by_cases hqp : q = p
    · subst hqp
      obtain ⟨ps, hps, r, hr, _, hrc⟩ := (hok.self hiR (by omega) (by omega) hw1 hw2).2 ⟨rfl, hc⟩
      exact ⟨r, ⟨ps, Or.inl (by rw [hR] at hps; exact hps), hr⟩, hrc⟩
    · obtain ⟨ps, hps, r, hr, _, hrc⟩ := (hok.own hiR (by omega) (by omega) hw1 hw2).2 ⟨q, hq, hqp, rfl, hc⟩
      exact ⟨r, ⟨ps, Or.inr hps, hr⟩, hrc⟩
  have hback : ∀ r, Fringe.LateralPoly ⟨names, i, dbu, scale, par⟩ nb r →
      (∃ y z, 1 ≤ y ∧ y < z ∧ z ≤ depth ∧ r.cells = Finset.Ico lo hi ×ˢ Finset.Ico y z) ∧
      ∀ k w, 0 ≤ k → k < hi - lo → (lo + k, w) ∈ r.cells → ∃ q ∈ R.getD i [], squareAt a e k w ∈ q.cells := by
    rintro r ⟨ps, hps, hr⟩
    rcases hps with hps | hps
    · refine ⟨hok.boxes.box _ hps r hr, fun k w hk1 hk2 hc => ?_⟩
      have ho : Fringe.Occupies nb R.length r.net (lo + k, w) := ⟨ps, by rw [hR]; exact hps, r, hr, rfl, hc⟩
      have hw := hok.boxes.range ho
      rw [hok.self hiR (by omega) (by omega) hw.2.2.1 hw.2.2.2] at ho
      exact ⟨p, hp, by rw [← hae]; exact ho.2⟩
    · refine ⟨hok.boxes.box _ hps r hr, fun k w hk1 hk2 hc => ?_⟩
      have ho : Fringe.Occupies nb i r.net (lo + k, w) := ⟨ps, hps, r, hr, rfl, hc⟩
      have hw := hok.boxes.range ho
      rw [hok.own hiR (by omega) (by omega) hw.2.2.1 hw.2.2.2] at ho
      obtain ⟨q, hq, _, _, hqc⟩ := ho
      exact ⟨q, hq, by rw [← hae]; exact hqc⟩
  cases near with
  | none =>
    intro k w hk1 hk2 hw1 hw2 q hq hc
    obtain ⟨r, hr, _⟩ := hrep k w hk1 hk2 hw1 hw2 q hq hc
    exact hnear r hr
  | some n =>
    obtain ⟨hlp, d0, hd0, hmin⟩ := hnear
    obtain ⟨⟨y, z, hy1, hyz, hz, hnc⟩, hcell⟩ := hback n.2 hlp
    have hbot : Fringe.Bottom n.2.cells y := by rw [hnc]; exact Fringe.band_low hlo hyz
    have hd : d0 = y := by
      obtain ⟨y', hy', rfl⟩ := hd0
      cases hbot.unique hy'
      omega
    subst hd
    refine ⟨_, d0, rfl, hy1, by omega, fun c => ?_, fun k hk1 hk2 => ⟨?_, ?_⟩⟩
    · have : Fringe.lateralShield ⟨names, i, dbu, scale, par⟩ (some n) =
          Finset.Ico lo hi ×ˢ Finset.Ico d0 ⌊(par.sideHalo + 10) / dbu⌋ := by
        unfold Fringe.lateralShield Fringe.nearestEdge
        simp only
        rw [hbot.eq, hnc, band_xLow hlo hyz, band_xHigh hlo hyz]
      show c ∈ Finset.image _ (Fringe.lateralShield _ (some n)) ↔ _
      rw [this]
      exact restore_box s hae c
    · exact hcell k d0 hk1 hk2 (by rw [hnc]; simp only [Finset.mem_product, Finset.mem_Ico]; omega)
    · intro w hw1 hw2 q hq hc
      obtain ⟨r, hr, hrc⟩ := hrep k w hk1 hk2 hw1 (by omega) q hq hc
      obtain ⟨⟨y', z', hy1', hyz', hz', hrc'⟩, _⟩ := hback r hr
      have hb' : Fringe.Bottom r.cells y' := by rw [hrc']; exact Fringe.band_low hlo hyz'
      have h1 := hmin r (max 0 y') hr ⟨y', hb', rfl⟩
      have h2 := hb'.2 _ hrc
      simp only at h2
      omega

/-- Everything that an interval puts into the report is shown at its place. -/
theorem interval_placed (hR : R.length = names.length) (hi' : i < names.length) (hp : p ∈ R.getD i [])
    (hs : IsSide p.cells s) {k : Kernel} (hk : Fringe.KernelOK k) (hkb : Fringe.KernelBands k)
    (hdepth : depth ≤ ⌊(par.sideHalo + 10) / dbu⌋) (hok : IntervalOK R i p s depth lo hi nb) {acts : List (Act Figure)}
    (h : onIntervalShown ⟨names, i, dbu, scale, par⟩ rnd k s p.net ((lo : ℚ), (hi : ℚ)) nb = .ok acts) :
    ∀ act ∈ acts, Placed R names dbu scale par rnd depth i act := by
  obtain ⟨hr1, hr2, hr3⟩ := hok.range
  have hlo : lo < hi := by omega
  unfold onIntervalShown at h
  split_ifs at h with h1 h2
  · cases (Except.ok.inj h); exact fun act ha => absurd ha (by simp)
  · cases (Except.ok.inj h); exact fun act ha => absurd ha (by simp)
  rw [Fringe.bind_ok] at h
  obtain ⟨l, hl, hf⟩ := h
  have hnear := lateral_nearest (x := ⟨names, i, dbu, scale, par⟩) hi' hok.boxes.rep hl
  intro act ha
  rcases fringeShown_mem nb _ _ hf act ha with ha | ⟨j, ps, r, hps, hji, hj, hr, ha⟩
  · rcases lateralShown_mem nb _ _ hl act ha with ha | ⟨ps, n, cs, c, hps, hn, hcs, hc, rfl⟩
    · simp at ha
    · exact interval_sidewall_placed hR hi' hp hs hok hps hn hcs hc
  · simp only at hji hj
    unfold emitFringeShown at hr
    simp only at hr
    rw [Fringe.bind_ok] at hr
    obtain ⟨⟨o, sp⟩, hsp, hr⟩ := hr
    obtain ⟨_, _, ho, hsd⟩ := (Fringe.fringeSpecs_ok _ _ _ _ _).1 hsp
    obtain ⟨pc, hpc, cap, hcap, hbig, rfl⟩ := fringeLoopShown_mem _ _ hr act ha
    have hvis := (Fringe.flat_unshielded _ _ _ _ _).mem_iff.1 hpc
    obtain ⟨S, hS⟩ : ∃ S, S = Fringe.fringeShield ⟨names, i, dbu, scale, par⟩ nb
      (Fringe.lateralShield ⟨names, i, dbu, scale, par⟩ l.1.nearest) j := ⟨_, rfl⟩
    rw [← hS] at hvis
    have hshield : ∀ c, c ∈ S ↔ Fringe.Shielded ⟨names, i, dbu, scale, par⟩ nb (l.1.nearest.map Prod.snd) j c := by
      intro c
      rw [hS, Fringe.mem_fringeShield _ _ hok.boxes.rep.nodup]
      unfold Fringe.Shielded
      refine or_congr ?_ Iff.rfl
      cases hl' : l.1.nearest with
      | none => simp [Fringe.lateralShield]
      | some n =>
        have hne : n.2.cells.Nonempty := by
          rw [hl'] at hnear
          obtain ⟨⟨qs, hqs, hq⟩, _⟩ := hnear
          rcases hqs with hqs | hqs
          · exact (hok.boxes.rep.nonempty _ hqs).2 _ hq
          · exact (hok.boxes.rep.nonempty _ hqs).2 _ hq
        rw [show some n = some (n.1, n.2) from rfl, Fringe.mem_lateralShield _ _ _ hne]
        simp
    have hsh : ∀ u w, lo ≤ u → u < hi → w < depth → ((u, w) ∈ S ↔ _) := fun u w h1 h2 h3 =>
      (hshield _).trans (Fringe.shielded_iff ⟨names, i, dbu, scale, par⟩ lo hi depth hlo nb hok.boxes hdepth _ hnear j u w
        h1 h2 h3)
    have hrow : ∀ u v w : ℤ, lo ≤ u → u < hi → lo ≤ v → v < hi → w < depth → (u, w) ∈ S → (v, w) ∈ S := by
      intro u v w hu1 hu2 hv1 hv2 hw hs
      rw [hsh _ _ hu1 hu2 hw] at hs
      rw [hsh _ _ hv1 hv2 hw]
      rcases hs with ⟨w', hw', m, ho | ho⟩ | ⟨i, hi', m, ho⟩
      · exact Or.inl ⟨w', hw', m, Or.inl (hok.boxes.occupies ho hv1 hv2)⟩
      · exact Or.inl ⟨w', hw', m, Or.inr (hok.boxes.occupies ho hv1 hv2)⟩
      · exact Or.inr ⟨i, hi', m, hok.boxes.occupies ho hv1 hv2⟩
    obtain ⟨q, hq, hnet, hcells, y, z, hy1, hyz, hz, hpce⟩ :=
      piece_band hk hkb hlo (hok.boxes.box _ hps) hrow hvis
    obtain ⟨a, e, he, hpa, hae⟩ := side_from s lo
    refine ⟨rfl, p, hp, j, a, e, hi - lo, y, z, _, hji, hj, he, by omega, hy1, hyz, hz, rfl, rfl, ?_, rfl, ?_, ?_, ?_, ?_, ?_⟩
    · have := (hae (hi - lo) 0).1
      unfold restoreInterval
      simp only [Int.floor_intCast]
      rw [hpa, ← this, add_sub_cancel]
    · intro c
      rw [hpce]
      exact restore_box s (fun k v => (hae k v).2) c
    · refine ⟨o, sp, ho, hsd, ?_⟩
      show rnd cap = _ ∧ _
      rw [Fringe.fringeCap_eq] at hcap
      split_ifs at hcap
      have hcap := (Except.ok.inj hcap).symm
      rw [hpce, (Fringe.band_low hlo hyz).eq, (Fringe.band_high hlo hyz).eq, max_eq_right (by omega),
        max_eq_right (by omega)] at hcap
      rw [hcap] at hbig ⊢
      push_cast at hbig ⊢
      exact ⟨rfl, hbig⟩
    · intro k hk1 hk2
      rw [← (hae k (-1)).2, ← (hae k 0).2]
      exact hs.2.1 (lo + k) (by omega) (by omega)
    · intro k w hk1 hk2 hw1 hw2
      have hm : (lo + k, w) ∈ pc.2 := by
        rw [hpce]; simp only [Finset.mem_product, Finset.mem_Ico]; omega
      obtain ⟨hqc, hns⟩ := hcells _ hm
      have hseen : Fringe.SeenAt ⟨names, i, dbu, scale, par⟩ nb j q.net (lo + k) w := by
        rw [hsh (lo + k) w (by omega) (by omega) (by omega)] at hns
        refine ⟨⟨ps, hps, q, hq, rfl, hqc⟩, fun w' hw' m => ⟨fun h => hns (Or.inl ⟨w', hw', m, Or.inl h⟩),
          fun h => hns (Or.inl ⟨w', hw', m, Or.inr h⟩)⟩, fun l hl m h => hns (Or.inr ⟨l, hl, m, h⟩)⟩
      rw [hok.seen (by omega) hp hR hj hji (by omega) (by omega) (by omega) (by omega)] at hseen
      obtain ⟨⟨q', hq', hn', hc'⟩, h4, h5⟩ := hseen
      rw [(hae k w).2] at hc'
      refine ⟨⟨q', hq', by rw [hn']; exact hnet.symm, hc'⟩, ?_, ?_⟩
      · intro w' hw1' hw2' r hr
        rw [← (hae k w').2]
        exact h4 w' hw1' hw2' r hr
      · intro l hl r hr
        rw [← (hae k w).2]
        exact h5 l hl r hr
    · exact interval_shield_placed hR hi' hp hok hnear fun k v => (hae k v).2

end

/-! ### The whole extraction -/

/-- What is assumed of the edges that KLayout visits on layer `i`: each is an edge of a polygon of the layer, with its net
and its neighbourhood. -/
def VisitsSides (R : List (List Poly)) (i : Nat) (depth : ℤ) (edges : List (Side × String × Neighborhood)) : Prop :=
  ∀ v ∈ edges, ∃ p ∈ R.getD i [], IsSide p.cells v.1 ∧ v.2.1 = p.net ∧ EdgeOK R i p v.1 depth v.2.2

theorem append_mem {α β : Type} {f : α → Except String (List β)} (l : List α) (acc r : List β)
    (h : l.foldlM (fun rs a => do return rs ++ (← f a)) acc = .ok r) :
    ∀ b ∈ r, b ∈ acc ∨ ∃ a ∈ l, ∃ rs, f a = .ok rs ∧ b ∈ rs := by
  induction l generalizing acc with
  | nil => cases (Except.ok.inj h); exact fun b hb => Or.inl hb
  | cons a l ih =>
    rw [List.foldlM_cons, Fringe.bind_ok] at h
    obtain ⟨acc1, h1, h2⟩ := h
    rw [Fringe.bind_ok] at h1
    obtain ⟨rs, hrs, h1⟩ := h1
    cases (Except.ok.inj h1)
    intro b hb
    rcases ih _ h2 b hb with hb | ⟨a', ha', rs', h3, h4⟩
    · rcases List.mem_append.1 hb with hb | hb
      · exact Or.inl hb
      · exact Or.inr ⟨a, List.mem_cons_self, rs, hrs, hb⟩
    · exact Or.inr ⟨a', List.mem_cons_of_mem _ ha', rs', h3, h4⟩

theorem neighborhood_placed {R : List (List Poly)} {names : List String} {dbu : ℚ} {scale : Bool} {par : Parasitics}
    {depth : ℤ} {i : Nat} {p : Poly} {s : Side} (hR : R.length = names.length) (hi' : i < names.length)
    (hp : p ∈ R.getD i []) (hs : IsSide p.cells s) {n : Neighborhood} (hok : EdgeOK R i p s depth n) (rnd : ℝ → ℚ)
    (text : ℚ × ℚ → String) :
    Placed R names dbu scale par rnd depth i (neighborhoodShown ⟨names, i, dbu, scale, par⟩ text s p.net n) := by
  obtain ⟨a, e, he, ha, hae⟩ := side_from s 0
  simp only [zero_add] at hae
  refine ⟨rfl, rfl, p, hp, a, e, s.len, he, hs.1, rfl, ?_, ?_, ?_⟩
  · rw [ha, (hae s.len 0).1]
  · intro k hk1 hk2
    rw [← (hae k (-1)).2, ← (hae k 0).2]
    exact hs.2.1 k hk1 hk2
  · intro v hv ch hch f hf
    obtain ⟨v0, hv0, rfl⟩ := List.mem_map.1 hv
    obtain ⟨ch0, hch0, rfl⟩ := List.mem_map.1 hch
    obtain ⟨q, hq, rfl⟩ := List.mem_map.1 hf
    refine ⟨_, rfl, fun c hc => ?_⟩
    obtain ⟨⟨u, w⟩, hm, rfl⟩ := Finset.mem_image.1 hc
    obtain ⟨lo, hi, _, hiv⟩ := hok.intervals v0 hv0
    have ho : Fringe.Occupies v0.2 ch0.1 q.net (u, w) := ⟨ch0.2, hch0, q, hq, rfl, hm⟩
    have hr := hiv.boxes.range ho
    obtain ⟨q', hsh, _, hc'⟩ := (hiv.shows _ _ _ _ hr.1 hr.2.1 hr.2.2.1 hr.2.2.2).1 ho
    rcases hsh with ⟨h1, _, h3⟩ | ⟨h1, h2, _⟩ | ⟨h1, rfl⟩
    · exact Or.inr ⟨by simp only; omega, q', h3, hc'⟩
    · exact Or.inr ⟨by simp only; omega, q', by simp only; rw [h1]; exact h2, hc'⟩
    · exact Or.inl ⟨by simp only; omega, hc'⟩

theorem edge_placed {R : List (List Poly)} {names : List String} {dbu : ℚ} {scale : Bool} {par : Parasitics}
    {rnd : ℝ → ℚ} {depth : ℤ} (hR : R.length = names.length) {i : Nat} (hi : i < names.length) {p : Poly} {s : Side}
    (hp : p ∈ R.getD i []) (hs : IsSide p.cells s) {k : Kernel} (hk : Fringe.KernelOK k)
    (hkb : Fringe.KernelBands k) (hdepth : depth ≤ ⌊(par.sideHalo + 10) / dbu⌋) (debug : Bool) (text : ℚ × ℚ → String)
    {n : Neighborhood} (hok : EdgeOK R i p s depth n) {acts : List (Act Figure)}
    (h : onEdgeShown ⟨names, i, dbu, scale, par⟩ rnd k debug text s p.net n = .ok acts) :
    ∀ act ∈ acts, Placed R names dbu scale par rnd depth i act := by
  intro act ha
  unfold onEdgeShown at h
  rcases append_mem (f := fun e : (ℚ × ℚ) × Dict Nat (List Poly) =>
      onIntervalShown ⟨names, i, dbu, scale, par⟩ rnd k s p.net e.1 e.2) _ _ _ h act ha with
    ha | ⟨v, hiv, rs, hrs, ha⟩
  · cases debug
    · exact absurd ha List.not_mem_nil
    · have ha := List.mem_singleton.1 ha
      subst ha
      exact neighborhood_placed hR hi hp hs hok rnd text
  · obtain ⟨lo, hi', hiveq, hivok⟩ := hok.intervals v hiv
    rw [hiveq] at hrs
    exact interval_placed hR hi hp hs hk hkb hdepth hivok hrs act ha

/-- **C111, the shapes.** Whatever the extraction of the sidewall and fringe capacitances puts into the report is shown at
its place in the layout. -/
theorem shown_placed {R : List (List Poly)} {names : List String} {dbu : ℚ} {scale : Bool} {par : Parasitics}
    {rnd : ℝ → ℚ} {depth : ℤ} (hR : R.length = names.length) {k : Kernel} (hk : Fringe.KernelOK k)
    (hkb : Fringe.KernelBands k) (hdepth : depth ≤ ⌊(par.sideHalo + 10) / dbu⌋) (debug : Bool) (text : ℚ × ℚ → String)
    {edges : Nat → List (Side × String × Neighborhood)} (hv : ∀ i < names.length, VisitsSides R i depth (edges i))
    {acts : List (Act Figure)} (h : extractShown names dbu scale par rnd k debug text edges = .ok acts) :
    ∀ act ∈ acts, ∃ i < names.length, Placed R names dbu scale par rnd depth i act := by
  intro act ha
  unfold extractShown at h
  have hstep : ∀ i < names.length, ∀ rs, (edges i).foldlM (fun rs e => do
      return rs ++ (← onEdgeShown ⟨names, i, dbu, scale, par⟩ rnd k debug text e.1 e.2.1 e.2.2)) [] = .ok rs →
      ∀ act ∈ rs, Placed R names dbu scale par rnd depth i act := by
    intro i hi rs hrs act ha
    rcases append_mem (edges i) [] rs hrs act ha with ha | ⟨v, he, rs', hrs', ha⟩
    · exact absurd ha List.not_mem_nil
    · obtain ⟨p, hp, hs, hnet, hok⟩ := hv i hi v he
      rw [hnet] at hrs'
      exact edge_placed hR hi hp hs hk hkb hdepth debug text hok hrs' act ha
  rcases append_mem (List.range names.length) [] acts h act ha with ha | ⟨i, hi, rs, hrs, ha⟩
  · exact absurd ha List.not_mem_nil
  · exact ⟨i, List.mem_range.1 hi, hstep i (List.mem_range.1 hi) rs hrs act ha⟩

/-- **C111, the report.** Below the category of a layer and two nets (of two layers and two nets) the report has, numbered
from 1 on, one entry for each sidewall (fringe) capacitance that the results hold for them, with shapes at their place in
the layout. `first` is what was reported before, i.e. the overlap capacitances. -/
theorem report_places {R : List (List Poly)} {names : List String} {dbu : ℚ} {scale : Bool} {par : Parasitics}
    {rnd : ℝ → ℚ} {depth : ℤ} (hR : R.length = names.length) {k : Kernel} (hk : Fringe.KernelOK k)
    (hkb : Fringe.KernelBands k) (hdepth : depth ≤ ⌊(par.sideHalo + 10) / dbu⌋) (debug : Bool) (text : ℚ × ℚ → String)
    {edges : Nat → List (Side × String × Neighborhood)} (hv : ∀ i < names.length, VisitsSides R i depth (edges i))
    {acts : List (Act Figure)} (h : extractShown names dbu scale par rnd k debug text edges = .ok acts)
    (t : Reporter.Text) (ht : Reporter.PathsDiffer t) (cell : String) (first : List (Act Figure))
    (hfirst : ∀ a ∈ first, ∃ c b p s, a = .overlap c b p s) :
    (∀ layer net1 net2, ∃ L : List (SidewallCap × Figure × Figure),
      Reporter.below ["[C] Sidewall", "layer=" ++ layer, "inside=" ++ net1, "outside=" ++ net2]
        (Reporter.acts t cell (first ++ acts)).2 =
        (L.zipIdx 1).flatMap (fun e => Reporter.sidewallEntry t
          ["[C] Sidewall", "layer=" ++ layer, "inside=" ++ net1, "outside=" ++ net2] e.2 e.1.1 e.1.2.1 e.1.2.2) ∧
      L.map Prod.fst = (Reporter.acts t cell (first ++ acts)).1.sidewallTable.getD ⟨layer, net1, net2⟩ [] ∧
      ∀ e ∈ L, e.1.key = ⟨layer, net1, net2⟩ ∧ ∃ i < names.length, SidewallPlaced R names dbu i e.1 e.2.1 e.2.2) ∧
    ∀ li ni lo no, ∃ L : List (SideOverlapCap × Figure × Figure × Option Figure),
      Reporter.below ["[C] Fringe / Side Overlap", "inside_layer=" ++ li, "inside_net=" ++ ni, "outside_layer=" ++ lo,
          "outside_net=" ++ no] (Reporter.acts t cell (first ++ acts)).2 =
        (L.zipIdx 1).flatMap (fun e => Reporter.fringeEntry t ["[C] Fringe / Side Overlap", "inside_layer=" ++ li,
          "inside_net=" ++ ni, "outside_layer=" ++ lo, "outside_net=" ++ no] e.2 e.1.1 e.1.2.1 e.1.2.2.1 e.1.2.2.2) ∧
      L.map Prod.fst = (Reporter.acts t cell (first ++ acts)).1.sideoverlapTable.getD ⟨li, ni, lo, no⟩ [] ∧
      ∀ e ∈ L, e.1.key = ⟨li, ni, lo, no⟩ ∧
        ∃ i < names.length, FringePlaced R names dbu scale par rnd depth i e.1 e.2.1 e.2.2.1 e.2.2.2 := by
  have hpl := shown_placed hR hk hkb hdepth debug text hv h
  obtain ⟨r1, r2, _⟩ := Reporter.results_shown_partial t cell (first ++ acts)
  refine ⟨fun layer net1 net2 => ⟨_, Reporter.sidewall_shown t ht cell (first ++ acts) layer net1 net2,
    (r1 layer net1 net2).symm, ?_⟩, fun li ni lo no => ⟨_, Reporter.fringe_shown t ht cell (first ++ acts) li ni lo no,
    (r2 li ni lo no).symm, ?_⟩⟩
  · intro e he
    obtain ⟨a, ha, hae⟩ := List.mem_filterMap.1 he
    rcases List.mem_append.1 ha with ha | ha
    · obtain ⟨c, b, p, s, rfl⟩ := hfirst a ha
      cases hae
    · obtain ⟨i, hi, hp⟩ := hpl a ha
      cases a with
      | sidewall c ins out =>
        simp only [Reporter.sidewallIn] at hae
        split_ifs at hae with hkey
        cases hae
        refine ⟨?_, i, hi, hp⟩
        obtain ⟨rfl, rfl, rfl⟩ := hkey
        rfl
      | overlap => cases hae
      | sideoverlap => cases hae
      | neighborhood => cases hae
  · intro e he
    obtain ⟨a, ha, hae⟩ := List.mem_filterMap.1 he
    rcases List.mem_append.1 ha with ha | ha
    · obtain ⟨c, b, p, s, rfl⟩ := hfirst a ha
      cases hae
    · obtain ⟨i, hi, hp⟩ := hpl a ha
      cases a with
      | sideoverlap c ins out sh =>
        simp only [Reporter.fringeIn] at hae
        split_ifs at hae with hkey
        cases hae
        refine ⟨?_, i, hi, hp⟩
        obtain ⟨rfl, rfl, rfl, rfl⟩ := hkey
        rfl
      | overlap => cases hae
      | sidewall => cases hae
      | neighborhood => cases hae

/-! ### An example -/

/-- The edges that are visited in the example: the inner edge of the bent wire. -/
noncomputable def bentEdges (i : Nat) : List (Side × String × Neighborhood) :=
  if i = 0 then [(innerSide, "A", lookAt bentRegions 0 bentA innerSide 9)] else []

/-- The hypotheses are met, and the run shows the coupling from (3, 2)–(5, 2) to (5, 8)–(3, 8). -/
theorem bent_shown : (∀ i < 1, VisitsSides bentRegions i 9 (bentEdges i)) ∧ 9 ≤ ⌊(bentPar.sideHalo + 10) / 1⌋ ∧
    Fringe.KernelOK Fringe.rowKernel ∧ Fringe.KernelBands Fringe.rowKernel ∧
    ∃ c, extractShown ["m1"] 1 true bentPar (fun _ => 0) Fringe.rowKernel false (fun _ => "") bentEdges =
      .ok [.sidewall c (.edge (3, 2) (5, 2)) (.edge (5, 8) (3, 8))] := by
  refine ⟨?_, by decide +kernel, Fringe.rowKernel_ok, Fringe.rowKernel_bands, ?_⟩
  · intro i hi v hv
    obtain rfl : i = 0 := by omega
    simp only [bentEdges, if_true, List.mem_singleton] at hv
    subst hv
    exact ⟨bentA, by simp [bentRegions], innerSide_is, rfl, look_ok (by decide) innerClear⟩
  · have hl : lookAt bentRegions 0 bentA innerSide 9 =
        [((((1 : ℤ) : ℚ), ((innerSide.len - 1 : ℤ) : ℚ)), children bentRegions 0 bentA innerSide 9)] := by
      unfold lookAt
      rw [if_neg (by decide)]
    have key : (match onIntervalShown ⟨["m1"], 0, 1, true, bentPar⟩ (fun _ => 0) Fringe.rowKernel innerSide "A"
        (((1 : ℤ) : ℚ), ((innerSide.len - 1 : ℤ) : ℚ)) (children bentRegions 0 bentA innerSide 9) with
      | .ok [.sidewall _ (.edge a b) (.edge a' b')] => decide (a = (3, 2) ∧ b = (5, 2) ∧ a' = (5, 8) ∧ b' = (3, 8))
      | _ => false) = true := by decide +kernel
    split at key
    · rename_i c a b a' b' hc
      obtain ⟨rfl, rfl, rfl, rfl⟩ := of_decide_eq_true key
      refine ⟨c, ?_⟩
      have hx : extractShown ["m1"] 1 true bentPar (fun _ => 0) Fringe.rowKernel false (fun _ => "") bentEdges =
        ((onIntervalShown ⟨["m1"], 0, 1, true, bentPar⟩ (fun _ => 0) Fringe.rowKernel innerSide "A"
          (((1 : ℤ) : ℚ), ((innerSide.len - 1 : ℤ) : ℚ)) (children bentRegions 0 bentA innerSide 9)).map id) := by
        unfold extractShown bentEdges onEdgeShown
        rw [hl, hc]
        show (List.foldlM _ _ (List.range 1)) = _
        simp only [List.range_succ, List.range_zero, List.nil_append, List.foldlM_cons, List.foldlM_nil, if_true]
        rw [hc]
        rfl
      rw [hx, hc]
      rfl
    · cases key

end Verif.Engine25
