import Verif.Sweep.Walls

/-!
# The whole sweep
-/

namespace Verif.Sweep

variable {P : Type} [DecidableEq P]

/-- Layers of a net or material. -/
def layersOf (b : Builder P) : Mk → List (Finset P × Int × Int)
  | .net n => b.clayers.flatMap (fun kv => if kv.1 = n then kv.2 else [])
  | .mat m => b.dlayers.flatMap (fun kv => if kv.1 = m then kv.2 else [])

/-- Union of the layers of a net or material that cover the slab above normalised height `k`. -/
def cover (b : Builder P) (k : Int) (mk : Mk) : Finset P :=
  (layersOf b mk).foldl (fun r l => if l.2.1 ≤ k ∧ k < l.2.2 then r ∪ l.1 else r) ∅

theorem mem_cover (b : Builder P) (k : Int) (mk : Mk) (p : P) :
    p ∈ cover b k mk ↔ ∃ l ∈ layersOf b mk, p ∈ l.1 ∧ l.2.1 ≤ k ∧ k < l.2.2 := by
  have : ∀ (ls : List (Finset P × Int × Int)) (r : Finset P),
      p ∈ ls.foldl (fun r l => if l.2.1 ≤ k ∧ k < l.2.2 then r ∪ l.1 else r) r ↔
        p ∈ r ∨ ∃ l ∈ ls, p ∈ l.1 ∧ l.2.1 ≤ k ∧ k < l.2.2 := by
    intro ls
    induction ls with
    | nil => intro r; simp
    | cons l ls ih =>
      intro r
      rw [List.foldl_cons, ih]
      by_cases h : l.2.1 ≤ k ∧ k < l.2.2
      · simp [h, or_assoc]
      · rw [if_neg h]
        simp only [List.mem_cons, exists_eq_or_imp]
        tauto
  rw [cover, this]
  simp

theorem mem_layersOf_net (b : Builder P) (n : String) (l : Finset P × Int × Int) :
    l ∈ layersOf b (.net n) ↔ ∃ v, (n, v) ∈ b.clayers ∧ l ∈ v := by
  simp only [layersOf, List.mem_flatMap, Prod.exists]
  constructor
  · rintro ⟨n', v, h1, h2⟩
    by_cases e : n' = n
    · subst e; simp at h2; exact ⟨v, h1, h2⟩
    · simp [e] at h2
  · rintro ⟨v, h1, h2⟩; exact ⟨n, v, h1, by simpa using h2⟩

theorem mem_layersOf_mat (b : Builder P) (n : String) (l : Finset P × Int × Int) :
    l ∈ layersOf b (.mat n) ↔ ∃ v, (n, v) ∈ b.dlayers ∧ l ∈ v := by
  simp only [layersOf, List.mem_flatMap, Prod.exists]
  constructor
  · rintro ⟨n', v, h1, h2⟩
    by_cases e : n' = n
    · subst e; simp at h2; exact ⟨v, h1, h2⟩
    · simp [e] at h2
  · rintro ⟨v, h1, h2⟩; exact ⟨n, v, h1, by simpa using h2⟩

/-! ### Heights -/

theorem mem_heights (b : Builder P) (x : Int) :
    x ∈ b.heights ↔ ∃ mk, ∃ l ∈ layersOf b mk, x = l.2.1 ∨ x = l.2.2 := by
  simp only [Builder.heights, List.mem_insertionSort, List.mem_dedup, List.mem_append, List.mem_flatMap]
  constructor
  · rintro (⟨kv, h1, l, h2, h3⟩ | ⟨kv, h1, l, h2, h3⟩)
    · refine ⟨.mat kv.1, l, (mem_layersOf_mat _ _ _).2 ⟨kv.2, h1, h2⟩, by simpa using h3⟩
    · refine ⟨.net kv.1, l, (mem_layersOf_net _ _ _).2 ⟨kv.2, h1, h2⟩, by simpa using h3⟩
  · rintro ⟨mk, l, h1, h2⟩
    cases mk with
    | net n =>
      obtain ⟨v, h3, h4⟩ := (mem_layersOf_net _ _ _).1 h1
      exact Or.inr ⟨(n, v), h3, l, h4, by simpa using h2⟩
    | mat n =>
      obtain ⟨v, h3, h4⟩ := (mem_layersOf_mat _ _ _).1 h1
      exact Or.inl ⟨(n, v), h3, l, h4, by simpa using h2⟩

theorem heights_sorted (b : Builder P) : b.heights.Pairwise (· < ·) := by
  have h1 : b.heights.Pairwise (· ≤ ·) := List.pairwise_insertionSort _ _
  have h2 : b.heights.Nodup := (List.perm_insertionSort _ _).nodup_iff.2 (List.nodup_dedup _)
  exact (h1.and h2).imp (fun h => lt_of_le_of_ne h.1 h.2)

/-- Nothing changes between two heights without layer boundary. -/
theorem cover_const (b : Builder P) {k k' : Int} (h : ∀ x ∈ b.heights, x ≤ k ↔ x ≤ k') (mk : Mk) :
    cover b k mk = cover b k' mk := by
  ext p
  simp only [mem_cover]
  constructor
  · rintro ⟨l, h1, h2, h3, h4⟩
    have e1 := h _ ((mem_heights b l.2.1).2 ⟨mk, l, h1, Or.inl rfl⟩)
    have e2 := h _ ((mem_heights b l.2.2).2 ⟨mk, l, h1, Or.inr rfl⟩)
    exact ⟨l, h1, h2, e1.1 h3, by by_contra hc; exact absurd (e2.2 (not_lt.1 hc)) (not_le.2 h4)⟩
  · rintro ⟨l, h1, h2, h3, h4⟩
    have e1 := h _ ((mem_heights b l.2.1).2 ⟨mk, l, h1, Or.inl rfl⟩)
    have e2 := h _ ((mem_heights b l.2.2).2 ⟨mk, l, h1, Or.inr rfl⟩)
    exact ⟨l, h1, h2, e1.2 h3, by by_contra hc; exact absurd (e2.1 (not_lt.1 hc)) (not_le.2 h4)⟩

theorem cover_below (b : Builder P) {k : Int} (h : ∀ x ∈ b.heights, k < x) (mk : Mk) : cover b k mk = ∅ := by
  ext p
  simp only [mem_cover, Finset.notMem_empty, iff_false]
  rintro ⟨l, h1, h2, h3, h4⟩
  exact absurd (h _ ((mem_heights b l.2.1).2 ⟨mk, l, h1, Or.inl rfl⟩)) (not_lt.2 h3)

theorem cover_above (b : Builder P) {k : Int} (h : ∀ x ∈ b.heights, x ≤ k) (mk : Mk) : cover b k mk = ∅ := by
  ext p
  simp only [mem_cover, Finset.notMem_empty, iff_false]
  rintro ⟨l, h1, h2, h3, h4⟩
  exact absurd (h _ ((mem_heights b l.2.2).2 ⟨mk, l, h1, Or.inr rfl⟩)) (not_le.2 h4)

/-! ### The layer loops -/

/-- Fields that the layer loops leave alone. -/
def SameRest (g g' : Gen P) : Prop :=
  g'.dbu = g.dbu ∧ g'.nets = g.nets ∧ g'.mats = g.mats ∧ g'.z = g.z ∧ g'.state = g.state ∧ g'.current = g.current ∧
  g'.horiz = g.horiz ∧ g'.walls = g.walls ∧ g'.overlapErrors = g.overlapErrors

omit [DecidableEq P] in
theorem SameRest.refl (g : Gen P) : SameRest g g := ⟨rfl, rfl, rfl, rfl, rfl, rfl, rfl, rfl, rfl⟩

omit [DecidableEq P] in
theorem SameRest.trans {g g' g'' : Gen P} (h : SameRest g g') (h' : SameRest g' g'') : SameRest g g'' := by
  obtain ⟨a1, a2, a3, a4, a5, a6, a7, a8, a9⟩ := h
  obtain ⟨b1, b2, b3, b4, b5, b6, b7, b8, b9⟩ := h'
  exact ⟨b1.trans a1, b2.trans a2, b3.trans a3, b4.trans a4, b5.trans a5, b6.trans a6, b7.trans a7, b8.trans a8,
    b9.trans a9⟩

theorem addLayer_spec (z : Int) (mk : Mk) (g : Gen P) (l : Finset P × Int × Int) :
    SameRest g (addLayer z mk g l) ∧
    (∀ mk' p, p ∈ (addLayer z mk g l).layersIn mk' ↔
      p ∈ g.layersIn mk' ∨ (mk' = mk ∧ p ∈ l.1 ∧ l.2.1 ≤ z ∧ z < l.2.2)) ∧
    (∀ mk' p, p ∈ (addLayer z mk g l).layersOut mk' ↔
      p ∈ g.layersOut mk' ∨ (mk' = mk ∧ p ∈ l.1 ∧ l.2.1 ≤ z - 1 ∧ z - 1 < l.2.2)) := by
  have hiff : (l.2.1 < z ∧ z ≤ l.2.2) ↔ (l.2.1 ≤ z - 1 ∧ z - 1 < l.2.2) := by omega
  unfold addLayer
  simp only [hiff]
  by_cases h1 : l.2.1 ≤ z ∧ z < l.2.2 <;> by_cases h2 : l.2.1 ≤ z - 1 ∧ z - 1 < l.2.2 <;>
    simp only [h1, h2, if_false, if_true, and_self]
  · refine ⟨⟨rfl, rfl, rfl, rfl, rfl, rfl, rfl, rfl, rfl⟩, ?_, ?_⟩ <;> intro mk' p <;> by_cases e : mk' = mk <;>
      simp [Gen.addIn, Gen.addOut, Function.update_apply, e]
  · refine ⟨⟨rfl, rfl, rfl, rfl, rfl, rfl, rfl, rfl, rfl⟩, ?_, ?_⟩ <;> intro mk' p <;> by_cases e : mk' = mk <;>
      simp [Gen.addIn, Function.update_apply, e]
  · refine ⟨⟨rfl, rfl, rfl, rfl, rfl, rfl, rfl, rfl, rfl⟩, ?_, ?_⟩ <;> intro mk' p <;> by_cases e : mk' = mk <;>
      simp [Gen.addOut, Function.update_apply, e]
  · refine ⟨⟨rfl, rfl, rfl, rfl, rfl, rfl, rfl, rfl, rfl⟩, ?_, ?_⟩ <;> intro mk' p <;> simp

theorem addLayerList_spec (z : Int) (mk : Mk) (ls : List (Finset P × Int × Int)) : ∀ (g : Gen P),
    SameRest g (ls.foldl (addLayer z mk) g) ∧
    (∀ mk' p, p ∈ (ls.foldl (addLayer z mk) g).layersIn mk' ↔
      p ∈ g.layersIn mk' ∨ (mk' = mk ∧ ∃ l ∈ ls, p ∈ l.1 ∧ l.2.1 ≤ z ∧ z < l.2.2)) ∧
    (∀ mk' p, p ∈ (ls.foldl (addLayer z mk) g).layersOut mk' ↔
      p ∈ g.layersOut mk' ∨ (mk' = mk ∧ ∃ l ∈ ls, p ∈ l.1 ∧ l.2.1 ≤ z - 1 ∧ z - 1 < l.2.2)) := by
  induction ls with
  | nil => intro g; exact ⟨SameRest.refl g, by simp, by simp⟩
  | cons l ls ih =>
    intro g
    obtain ⟨a1, a2, a3⟩ := addLayer_spec z mk g l
    obtain ⟨b1, b2, b3⟩ := ih (addLayer z mk g l)
    refine ⟨a1.trans b1, ?_, ?_⟩
    · intro mk' p
      rw [List.foldl_cons, b2, a2]
      simp only [List.mem_cons, exists_eq_or_imp]
      tauto
    · intro mk' p
      rw [List.foldl_cons, b3, a3]
      simp only [List.mem_cons, exists_eq_or_imp]
      tauto

theorem addDict_spec (z : Int) (f : String → Mk) (d : Layers P) : ∀ (g : Gen P),
    SameRest g (d.foldl (fun g kv => kv.2.foldl (addLayer z (f kv.1)) g) g) ∧
    (∀ mk' p, p ∈ (d.foldl (fun g kv => kv.2.foldl (addLayer z (f kv.1)) g) g).layersIn mk' ↔
      p ∈ g.layersIn mk' ∨ ∃ kv ∈ d, mk' = f kv.1 ∧ ∃ l ∈ kv.2, p ∈ l.1 ∧ l.2.1 ≤ z ∧ z < l.2.2) ∧
    (∀ mk' p, p ∈ (d.foldl (fun g kv => kv.2.foldl (addLayer z (f kv.1)) g) g).layersOut mk' ↔
      p ∈ g.layersOut mk' ∨ ∃ kv ∈ d, mk' = f kv.1 ∧ ∃ l ∈ kv.2, p ∈ l.1 ∧ l.2.1 ≤ z - 1 ∧ z - 1 < l.2.2) := by
  induction d with
  | nil => intro g; exact ⟨SameRest.refl g, by simp, by simp⟩
  | cons kv d ih =>
    intro g
    obtain ⟨a1, a2, a3⟩ := addLayerList_spec z (f kv.1) kv.2 g
    obtain ⟨b1, b2, b3⟩ := ih (kv.2.foldl (addLayer z (f kv.1)) g)
    refine ⟨a1.trans b1, ?_, ?_⟩
    · intro mk' p
      rw [List.foldl_cons, b2, a2, or_assoc]
      simp only [List.mem_cons, exists_eq_or_imp]
    · intro mk' p
      rw [List.foldl_cons, b3, a3, or_assoc]
      simp only [List.mem_cons, exists_eq_or_imp]

theorem addLayers_spec (b : Builder P) (z : Int) (g : Gen P) (h1 : ∀ mk, g.layersIn mk = ∅)
    (h2 : ∀ mk, g.layersOut mk = ∅) :
    SameRest g (b.addLayers z g) ∧ (∀ mk, (b.addLayers z g).layersIn mk = cover b z mk) ∧
    (∀ mk, (b.addLayers z g).layersOut mk = cover b (z - 1) mk) := by
  obtain ⟨a1, a2, a3⟩ := addDict_spec z Mk.net b.clayers g
  obtain ⟨b1, b2, b3⟩ := addDict_spec z Mk.mat b.dlayers
    (b.clayers.foldl (fun g kv => kv.2.foldl (addLayer z (.net kv.1)) g) g)
  refine ⟨a1.trans b1, ?_, ?_⟩
  · intro mk
    ext p
    unfold Builder.addLayers
    simp only
    rw [b2, a2, h1, mem_cover]
    cases mk with
    | net n =>
      simp only [Finset.notMem_empty, false_or, Mk.net.injEq, reduceCtorEq, false_and, and_false, exists_false, or_false,
        mem_layersOf_net]
      constructor
      · rintro ⟨kv, h3, rfl, l, h4, h5⟩; exact ⟨l, ⟨kv.2, h3, h4⟩, h5⟩
      · rintro ⟨l, ⟨v, h3, h4⟩, h5⟩; exact ⟨(n, v), h3, rfl, l, h4, h5⟩
    | mat n =>
      simp only [Finset.notMem_empty, false_or, Mk.mat.injEq, reduceCtorEq, false_and, and_false, exists_false,
        mem_layersOf_mat]
      constructor
      · rintro ⟨kv, h3, rfl, l, h4, h5⟩; exact ⟨l, ⟨kv.2, h3, h4⟩, h5⟩
      · rintro ⟨l, ⟨v, h3, h4⟩, h5⟩; exact ⟨(n, v), h3, rfl, l, h4, h5⟩
  · intro mk
    ext p
    unfold Builder.addLayers
    simp only
    rw [b3, a3, h2, mem_cover]
    cases mk with
    | net n =>
      simp only [Finset.notMem_empty, false_or, Mk.net.injEq, reduceCtorEq, false_and, and_false, exists_false, or_false,
        mem_layersOf_net]
      constructor
      · rintro ⟨kv, h3, rfl, l, h4, h5⟩; exact ⟨l, ⟨kv.2, h3, h4⟩, h5⟩
      · rintro ⟨l, ⟨v, h3, h4⟩, h5⟩; exact ⟨(n, v), h3, rfl, l, h4, h5⟩
    | mat n =>
      simp only [Finset.notMem_empty, false_or, Mk.mat.injEq, reduceCtorEq, false_and, and_false, exists_false,
        mem_layersOf_mat]
      constructor
      · rintro ⟨kv, h3, rfl, l, h4, h5⟩; exact ⟨l, ⟨kv.2, h3, h4⟩, h5⟩
      · rintro ⟨l, ⟨v, h3, h4⟩, h5⟩; exact ⟨(n, v), h3, rfl, l, h4, h5⟩

/-! ### Invariant of the sweep -/

/-- Keys of a builder in order of priority. -/
def keysB (b : Builder P) : List Mk := keysOf b.clayers.keys b.materials.keys

/-- Occupant of a point in the slab above normalised height `k`. -/
def occ (b : Builder P) (k : Int) (p : P) : Option Mk := firstOf (cover b k) (keysB b) p

/-- What is known about the surfaces at a point and height. -/
def FacesOK (b : Builder P) (k : Int) (p : P) (L : List Face) : Prop :=
  (L = [] ∧ occ b (k - 1) p = occ b k p) ∨
  ∃ (din dout : Mk → Finset P) (cin cout : Finset P),
    Events (cover b (k - 1)) (cover b k) b.clayers.keys b.materials.keys din dout cin cout ∧
    L = facesAt p (emitFaces b.clayers.keys b.materials.keys din dout cin cout)

/-- Invariant: the sweep has finished height `zl`. -/
structure RunInv (adj : Finset (P × P)) (b : Builder P) (g : Gen P) (zl : Int) : Prop where
  dbu : g.dbu = b.dbu
  nets : g.nets = b.clayers.keys
  mats : g.mats = b.materials.keys
  ready : Ready g (cover b zl)
  z : g.z = some (norm2z b.dbu zl) ∨ (g.z = none ∧ ∀ p, occ b zl p = none)
  errors : g.overlapErrors = 0
  faces : ∀ k p, k ≤ zl → FacesOK b k p (hfacesAt g k p)
  noFaces : ∀ k p, zl < k → hfacesAt g k p = []
  walls : ∀ k e, k < zl → vwallsAt g k e =
    if e ∈ adj then wallOf b.materials.keys (occ b k e.1) (occ b k e.2) else []
  noWalls : ∀ k e, zl ≤ k → vwallsAt g k e = []

omit [DecidableEq P] in
theorem floor_norm {dbu : ℚ} (h : 0 < dbu) (z : Int) : ⌊norm2z dbu z / dbu + 1 / 2⌋ = z := by
  have : norm2z dbu z / dbu = z := by unfold norm2z; field_simp
  rw [this, Int.floor_eq_iff]
  constructor <;> norm_num

/-- One height of the sweep. -/
theorem RunInv.step {adj : Finset (P × P)} (hadj : ∀ e ∈ adj, e.swap ∈ adj) {b : Builder P} (hdbu : 0 < b.dbu)
    {g : Gen P} {zl z : Int} (h : RunInv adj b g zl) (hz : zl < z) (hgap : ∀ x ∈ b.heights, x ≤ zl ∨ z ≤ x) :
    RunInv adj b (b.plane adj g z) z := by
  -- nothing changes between the heights
  have hconst : ∀ k, zl ≤ k → k < z → ∀ mk, cover b k mk = cover b zl mk := by
    intro k h1 h2 mk
    apply cover_const
    intro x hx
    rcases hgap x hx with h3 | h3 <;> omega
  have hocc : ∀ k, zl ≤ k → k < z → ∀ p, occ b k p = occ b zl p := by
    intro k h1 h2 p
    have : cover b k = cover b zl := funext (hconst k h1 h2)
    rw [occ, this]; rfl
  have hc1 : ∀ mk, cover b (z - 1) mk = cover b zl mk := hconst (z - 1) (by omega) (by omega)
  have hc1' : cover b (z - 1) = cover b zl := funext hc1
  -- next_z
  set g1 := g.nextZ adj (norm2z b.dbu z) with hg1
  have e1 : g1.dbu = g.dbu ∧ g1.nets = g.nets ∧ g1.mats = g.mats ∧ g1.state = g.state ∧ g1.current = g.current ∧
      g1.horiz = g.horiz ∧ g1.overlapErrors = g.overlapErrors ∧ g1.z = some (norm2z b.dbu z) ∧
      (∀ mk, g1.layersIn mk = ∅) ∧ (∀ mk, g1.layersOut mk = ∅) := by
    rw [hg1]
    unfold Gen.nextZ
    simp only
    cases g.z <;> exact ⟨rfl, rfl, rfl, rfl, rfl, rfl, rfl, rfl, fun _ => rfl, fun _ => rfl⟩
  obtain ⟨d1, d2, d3, d4, d5, d6, d7, d8, d9, d10⟩ := e1
  have hwalls : ∀ k e, vwallsAt g1 k e = vwallsAt g k e ++
      (if zl ≤ k ∧ k < z then (if e ∈ adj then wallOf b.materials.keys (occ b k e.1) (occ b k e.2) else []) else []) := by
    intro k e
    rcases h.z with hgz | ⟨hgz, hnone⟩
    · have hw : g1.walls = g.walls ++ (emitWalls adj g.nets g.mats g.state).map
          (fun w => ⟨w.1, w.2, zl, z⟩) := by
        rw [hg1]
        unfold Gen.nextZ
        simp only
        rw [hgz]
        simp only [h.dbu, floor_norm hdbu]
      have hs : ∀ k ∈ keysOf g.nets g.mats, ∀ p, p ∈ g.state k ↔ occ b zl p = some k := by
        intro k hk p
        rw [h.ready.state k hk p, occ, keysB, h.nets, h.mats]
      have hw2 := emitWalls_at (adj := adj) (state := g.state) (occ := occ b zl) hadj h.ready.nets h.ready.mats hs
        (by
          intro p k' hp
          rw [h.nets, h.mats]
          exact (firstOf_some_mem hp).1) e
      unfold vwallsAt
      rw [hw, List.filter_append, List.map_append]
      congr 1
      by_cases hk : zl ≤ k ∧ k < z
      · rw [if_pos hk, hocc k hk.1 hk.2, hocc k hk.1 hk.2]
        rw [h.mats] at hw2
        rw [← hw2]
        unfold wallsAt
        rw [List.filter_map, List.map_map, h.mats]
        have : ((fun w : Wall P => decide (w.zlo ≤ k ∧ k < w.zhi ∧ e ∈ w.edges)) ∘
            fun w : WallKey × Finset (P × P) => ({ key := w.1, edges := w.2, zlo := zl, zhi := z } : Wall P)) =
            fun w => decide (e ∈ w.2) := by
          funext w; simp [hk.1, hk.2]
        rw [this]
        rfl
      · rw [if_neg hk]
        simp only [List.map_eq_nil_iff, List.filter_eq_nil_iff, List.mem_map, decide_eq_true_eq]
        rintro w ⟨w', _, rfl⟩ ⟨h1, h2, _⟩
        exact hk ⟨h1, h2⟩
    · have hw : g1.walls = g.walls := by
        rw [hg1]
        unfold Gen.nextZ
        simp only
        rw [hgz]
      unfold vwallsAt
      rw [hw]
      by_cases hk : zl ≤ k ∧ k < z
      · rw [if_pos hk, hocc k hk.1 hk.2, hocc k hk.1 hk.2, hnone, hnone]
        simp [wallOf]
      · rw [if_neg hk, List.append_nil]
  clear_value g1
  -- layer loops
  obtain ⟨⟨s1, s2, s3, s4, s5, s6, s7, s8, s9⟩, hin, hout⟩ := addLayers_spec b z g1 d9 d10
  set g2 := b.addLayers z g1 with hg2
  clear_value g2
  -- finish_z
  have r2 : Ready g2 (cover b zl) := by
    have := h.ready
    constructor
    · rw [s2, d2]; exact this.nets
    · rw [s3, d3]; exact this.mats
    · intro k hk
      rw [s2, s3, d2, d3] at hk
      rw [s6, d5]; exact this.settled k hk
    · intro k hk p
      rw [s2, s3, d2, d3] at hk ⊢
      rw [s5, d4]; exact this.state k hk p
  obtain ⟨f1, f2, f3, f4, f5, f6, f7, din, dout, cin, cout, hE, hh⟩ := finishZ_spec g2 (cover b zl) (cover b z) r2
    (fun k _ => hin k) (fun k _ => by rw [hout k, hc1])
  have hplane : b.plane adj g z = g2.finishZ := by
    unfold Builder.plane
    rw [← hg1, ← hg2]
  rw [hplane]
  have hn2 : g2.nets = b.clayers.keys := by rw [s2, d2, h.nets]
  have hm2 : g2.mats = b.materials.keys := by rw [s3, d3, h.mats]
  have hdb : g2.finishZ.dbu = b.dbu := by rw [f5, s1, d1, h.dbu]
  have hz2 : g2.z = some (norm2z b.dbu z) := by rw [s4, d8]
  rw [hn2, hm2] at hE hh
  rw [hz2] at hh
  have hfaces : ∀ k p, hfacesAt g2.finishZ k p = hfacesAt g k p ++
      (if k = z then facesAt p (emitFaces b.clayers.keys b.materials.keys din dout cin cout) else []) := by
    intro k p
    unfold hfacesAt
    rw [hh, List.filter_append, List.map_append, hdb, s7, d6, h.dbu]
    congr 1
    rw [List.filter_map, List.map_map]
    by_cases hk : k = z
    · subst hk
      rw [if_pos rfl]
      unfold facesAt
      have : ((fun f : HFace P => decide (f.z = k * b.dbu ∧ p ∈ f.region)) ∘
          fun f : Face × Finset P => ({ key := f.1, z := (some (norm2z b.dbu k)).getD 0, region := f.2 } : HFace P)) =
          fun f => decide (p ∈ f.2) := by
        funext f; simp [norm2z]
      rw [this]
      rfl
    · rw [if_neg hk]
      simp only [List.map_eq_nil_iff, List.filter_eq_nil_iff, Function.comp, decide_eq_true_eq]
      rintro f _ ⟨h1, _⟩
      simp only [norm2z, Option.getD_some] at h1
      have := mul_right_cancel₀ hdbu.ne' h1
      exact hk (by exact_mod_cast this.symm)
  refine ⟨hdb, by rw [f2, hn2], by rw [f3, hm2], f1, Or.inl (by rw [f4, hz2]), by rw [f7, s9, d7, h.errors], ?_, ?_, ?_, ?_⟩
  · intro k p hk
    rw [hfaces]
    rcases lt_trichotomy k z with hlt | rfl | hgt
    · rw [if_neg hlt.ne, List.append_nil]
      by_cases hkl : k ≤ zl
      · exact h.faces k p hkl
      · rw [h.noFaces k p (by omega)]
        left
        refine ⟨rfl, ?_⟩
        rw [hocc (k - 1) (by omega) (by omega), hocc k (by omega) hlt]
    · rw [if_pos rfl, h.noFaces k p hz, List.nil_append]
      right
      exact ⟨din, dout, cin, cout, by rw [hc1']; exact hE, rfl⟩
    · omega
  · intro k p hk
    rw [hfaces, if_neg (by omega), List.append_nil, h.noFaces k p (by omega)]
  · intro k e hk
    have : vwallsAt g2.finishZ k e = vwallsAt g1 k e := by
      unfold vwallsAt; rw [f6, s8]
    rw [this, hwalls]
    by_cases hkl : k < zl
    · rw [h.walls k e hkl, if_neg (show ¬ (zl ≤ k ∧ k < z) by omega), List.append_nil]
    · rw [h.noWalls k e (by omega), if_pos ⟨by omega, hk⟩, List.nil_append]
  · intro k e hk
    have : vwallsAt g2.finishZ k e = vwallsAt g1 k e := by
      unfold vwallsAt; rw [f6, s8]
    rw [this, hwalls, h.noWalls k e (by omega), if_neg (by omega)]
    rfl

/-- The generator before the first height. -/
def initGen (b : Builder P) : Gen P := { dbu := b.dbu, nets := b.clayers.keys, mats := b.materials.keys }

theorem RunInv.init {adj : Finset (P × P)} {b : Builder P} (hN : b.clayers.keys.Nodup) (hM : b.materials.keys.Nodup)
    {z : Int} (h : ∀ x ∈ b.heights, z < x) : RunInv adj b (initGen b) z := by
  have hc : ∀ k, k ≤ z → ∀ mk, cover b k mk = ∅ := by
    intro k hk mk
    exact cover_below b (fun x hx => by have := h x hx; omega) mk
  have ho : ∀ k, k ≤ z → ∀ p, occ b k p = none := by
    intro k hk p
    rw [occ, firstOf_none]
    intro j _
    rw [hc k hk]; simp
  refine ⟨rfl, rfl, rfl, ⟨hN, hM, ?_, ?_⟩, Or.inr ⟨rfl, ho z le_rfl⟩, rfl, ?_, ?_, ?_, ?_⟩
  · intro k _
    rw [hc z le_rfl]
    exact Settled.zero
  · intro k _ p
    show p ∈ (∅ : Finset P) ↔ occ b z p = some k
    rw [ho z le_rfl]; simp
  · intro k p hk
    left
    exact ⟨rfl, by rw [ho (k - 1) (by omega), ho k hk]⟩
  · intros; rfl
  · intro k e hk
    rw [ho k hk.le, ho k hk.le]
    simp [wallOf, vwallsAt, initGen]
  · intros; rfl

/-- The generator after some of the heights. -/
theorem run_prefix {adj : Finset (P × P)} (hadj : ∀ e ∈ adj, e.swap ∈ adj) {b : Builder P} (hdbu : 0 < b.dbu)
    (hN : b.clayers.keys.Nodup) (hM : b.materials.keys.Nodup) (L : List Int) : ∀ (z : Int) (R : List Int),
    b.heights = L ++ z :: R → RunInv adj b ((L ++ [z]).foldl (b.plane adj) (initGen b)) z := by
  have hs := heights_sorted b
  induction L using List.reverseRecOn with
  | nil =>
    intro z R e
    rw [e] at hs
    simp only [List.nil_append, List.pairwise_cons] at hs e
    apply RunInv.step hadj hdbu (zl := z - 1)
    · apply RunInv.init hN hM
      intro x hx
      rw [e] at hx
      rcases List.mem_cons.1 hx with rfl | hx
      · omega
      · have := hs.1 x hx; omega
    · omega
    · intro x hx
      rw [e] at hx
      rcases List.mem_cons.1 hx with rfl | hx
      · omega
      · have := hs.1 x hx; omega
  | append_singleton L y ih =>
    intro z R e
    have hi := ih y (z :: R) (by simpa using e)
    rw [List.foldl_append]
    apply RunInv.step hadj hdbu hi
    · rw [e] at hs
      rw [List.append_assoc, List.pairwise_append] at hs
      have := hs.2.1
      simp only [List.cons_append, List.nil_append, List.pairwise_cons] at this
      exact this.1 z (by simp)
    · intro x hx
      rw [e] at hx hs
      rw [List.pairwise_append] at hs
      obtain ⟨p1, p2, p3⟩ := hs
      rw [List.pairwise_append] at p1
      rw [List.pairwise_cons] at p2
      simp only [List.mem_append, List.mem_cons, List.not_mem_nil, or_false] at hx
      rcases hx with (hx | rfl) | rfl | hx
      · left; exact (p1.2.2 x hx y (by simp)).le
      · left; exact le_rfl
      · right; exact le_rfl
      · right; exact (p2.1 x hx).le

/-- The finished generator, for every height. -/
theorem run_final {adj : Finset (P × P)} (hadj : ∀ e ∈ adj, e.swap ∈ adj) {b : Builder P} (hdbu : 0 < b.dbu)
    (hN : b.clayers.keys.Nodup) (hM : b.materials.keys.Nodup) {g : Gen P} (hg : b.generate adj = some g) :
    g.overlapErrors = 0 ∧ g.dbu = b.dbu ∧ (∀ k p, FacesOK b k p (hfacesAt g k p)) ∧
    (∀ k e, vwallsAt g k e = if e ∈ adj then wallOf b.materials.keys (occ b k e.1) (occ b k e.2) else []) := by
  unfold Builder.generate at hg
  simp only at hg
  by_cases h0 : b.heights.length = 0
  · rw [if_pos h0] at hg; cases hg
  · rw [if_neg h0] at hg
    have hne : b.heights ≠ [] := fun h => h0 (by rw [h]; rfl)
    have hsplit : b.heights = b.heights.dropLast ++ [b.heights.getLast hne] := (List.dropLast_append_getLast hne).symm
    have hi := run_prefix hadj hdbu hN hM b.heights.dropLast (b.heights.getLast hne) [] hsplit
    rw [← hsplit] at hi
    have eg : g = b.heights.foldl (b.plane adj) (initGen b) := by
      simp only [Option.some.injEq] at hg
      exact hg.symm
    rw [← eg] at hi
    set zl := b.heights.getLast hne with hzl
    have hle : ∀ x ∈ b.heights, x ≤ zl := by
      intro x hx
      have hs := heights_sorted b
      rw [hsplit] at hs hx
      rw [List.pairwise_append] at hs
      rcases List.mem_append.1 hx with hx | hx
      · exact (hs.2.2 x hx zl (by simp)).le
      · rw [List.mem_singleton.1 hx]
    have ho : ∀ k, zl ≤ k → ∀ p, occ b k p = none := by
      intro k hk p
      rw [occ, firstOf_none]
      intro j _
      rw [cover_above b (fun x hx => (hle x hx).trans hk)]; simp
    refine ⟨hi.errors, hi.dbu, ?_, ?_⟩
    · intro k p
      rcases le_or_gt k zl with hk | hk
      · exact hi.faces k p hk
      · left
        exact ⟨hi.noFaces k p hk, by rw [ho (k - 1) (by omega), ho k hk.le]⟩
    · intro k e
      rcases lt_or_ge k zl with hk | hk
      · exact hi.walls k e hk
      · rw [hi.noWalls k e hk, ho k hk, ho k hk]
        simp [wallOf]

end Verif.Sweep
