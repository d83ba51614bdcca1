import Verif.Engine25.Moves
import Verif.Pdk.Geometry

/-!
# Moved layouts with the shipped technologies (C92)
-/

namespace Verif.Pdk

open Engine25 (Move MovedTo MergesMoved MovedLayers Picture tidy mem_foldr_union
  KLayout Context IsStack IsMetal Regions AllSides Views View Side Visits)
open Fringe (KernelOK KernelBands)
open Overlap (Poly Cell)

set_option maxRecDepth 4000

variable {M : Move} {x x' : Context}

theorem moved_withoutMim {t : Technology} (h : MovedTo M x x') (hm : WithoutMim t x) : WithoutMim t x' := by
  intro l hl n rs hg
  obtain ⟨rs', hg', _⟩ := (h.gives _ _ _ _).1 hg
  exact hm l hl n rs' hg'

theorem moved_sourced (h : MovedTo M x x') (hs : ∀ g, x.extracted.get? g ≠ some []) : ∀ g, x'.extracted.get? g ≠ some [] := by
  intro g hg
  rw [h.extracted, Option.map_eq_some_iff] at hg
  obtain ⟨rs, h1, h2⟩ := hg
  rw [List.map_eq_nil_iff] at h2
  rw [h2] at h1
  exact hs g h1

/-- **C92 for the shipped technologies.** Nothing has to be assumed about the technology. -/
theorem shipped_moved {t : Technology} (ht : Shipped t) (kl : KLayout) (hkl : Engine25.Faithful kl) (M : Move)
    (hm : MergesMoved kl M) (hshow : ∀ R R', MovedLayers M R R' → ∀ i, (kl.edges R' i).Perm (kl.edges R i))
    (cf : String → String) {x x' : Context} (hmove : MovedTo M x x') (hmim : WithoutMim t x) (mode : PexMode.Mode)
    (hmode : mode = .CC ∨ mode = .RC) (scale : Bool) (halo : ℤ) (res res' : Except String (List Summary.RNetwork))
    (c d c' d' : Netlist.Circuit) (bb : Bool) (hrun : Engine25.run kl cf t.read x mode scale halo res c bb = .ok c')
    (hrun' : Engine25.run kl cf t.read x' mode scale halo res' d bb = .ok d')
    (hno : ∀ d ∈ c.devices, d.clsName ≠ "C") (hno' : ∀ e ∈ d.devices, e.clsName ≠ "C")
    (hshort : Engine25.NoShorts t.read x halo) (a b : String) (hab : a ≠ b) :
    Rcx25Netlist.parasiticCap c' a b = Rcx25Netlist.parasiticCap d' a b := by
  obtain ⟨cap, cov, cs, C, off, hv⟩ := shipped_values ht
  exact Engine25.moved_exact kl hkl M hm hshow cf t.read hmove mode hmode scale halo res res' c d c' d' bb hrun hrun' hno hno' hshort
    (shipped_no_vsubs ht) (shipped_nonneg ht) cap (hv.pairs x hmim) a b hab

/-! ### An example -/

theorem mem_tidy (ps : List Poly) (p : Poly) : p ∈ tidy ps ↔ ∃ q ∈ ps, p.net = q.net ∧
    ∀ c, c ∈ p.cells ↔ ∃ r ∈ ps, r.net = q.net ∧ c ∈ r.cells := by
  unfold tidy
  rw [List.mem_map]
  constructor
  · rintro ⟨n, hn, rfl⟩
    simp only [Finset.mem_sort, List.mem_toFinset, List.mem_map] at hn
    obtain ⟨q, hq, rfl⟩ := hn
    refine ⟨q, hq, rfl, fun c => ?_⟩
    simp [mem_foldr_union, and_assoc]
  · rintro ⟨q, hq, h1, h2⟩
    refine ⟨q.net, by simp only [Finset.mem_sort, List.mem_toFinset]; exact List.mem_map_of_mem hq, ?_⟩
    cases p with
    | mk net cells =>
    simp only at h1 h2
    subst h1
    congr 1
    ext c
    rw [h2]
    simp [mem_foldr_union, and_assoc]

theorem geoMerges (M : Move) : MergesMoved geoKL M := by
  intro ps ps' h p
  show p ∈ tidy ps' ↔ ∃ q ∈ tidy ps, p = M.poly q
  have back : ∀ p : Poly, ∃ q, p = M.poly q := fun p => by
    refine ⟨⟨p.net, p.cells.map M.cell.symm.toEmbedding⟩, ?_⟩
    cases p with
    | mk net cells =>
    simp only [Move.poly, Poly.mk.injEq, true_and]
    ext c
    simp [Finset.mem_map_equiv]
  have key : ∀ q, M.poly q ∈ tidy ps' ↔ q ∈ tidy ps := by
    intro q
    rw [mem_tidy, mem_tidy]
    constructor
    · rintro ⟨r', hr', h1, h2⟩
      obtain ⟨r, hr, rfl⟩ := (h _).1 hr'
      refine ⟨r, hr, h1, fun c => ?_⟩
      rw [← M.mem_poly, h2]
      constructor
      · rintro ⟨s', hs', h3, h4⟩
        obtain ⟨s, hs, rfl⟩ := (h _).1 hs'
        exact ⟨s, hs, h3, (M.mem_poly _ _).1 h4⟩
      · rintro ⟨s, hs, h3, h4⟩
        exact ⟨M.poly s, (h _).2 ⟨s, hs, rfl⟩, h3, (M.mem_poly _ _).2 h4⟩
    · rintro ⟨r, hr, h1, h2⟩
      refine ⟨M.poly r, (h _).2 ⟨r, hr, rfl⟩, h1, fun c => ?_⟩
      rw [M.mem_poly', h2]
      constructor
      · rintro ⟨s, hs, h3, h4⟩
        exact ⟨M.poly s, (h _).2 ⟨s, hs, rfl⟩, h3, (M.mem_poly' _ _).2 h4⟩
      · rintro ⟨s', hs', h3, h4⟩
        obtain ⟨s, hs, rfl⟩ := (h _).1 hs'
        exact ⟨s, hs, h3, (M.mem_poly' _ _).1 h4⟩
  constructor
  · intro hp
    obtain ⟨q, rfl⟩ := back p
    exact ⟨q, (key q).1 hp, rfl⟩
  · rintro ⟨q, hq, rfl⟩
    exact (key q).2 hq

/-- The example turned by 90° and shifted. -/
def geoMove : Move := Move.turn.then (Move.shift 100 7)

/-- The example after the move. -/
def movedCell (M : Move) (x : Context) : Context where
  cellName := x.cellName
  dbu := x.dbu
  annotated := M.box x.annotated
  internal := M.box x.internal
  extracted := x.extracted.map fun kv => (kv.1, kv.2.map fun r => r.map M.poly)

theorem get?_mapSnd {α β : Type} (f : α → β) (d : Dict TechInfo.GDSPair α) (g : TechInfo.GDSPair) :
    Dict.get? (d.map fun kv => (kv.1, f kv.2)) g = (d.get? g).map f := by
  induction d with
  | nil => rfl
  | cons kv d ih =>
    obtain ⟨k, v⟩ := kv
    rw [List.map_cons, Dict.get?_cons, Dict.get?_cons, ih]
    split <;> rfl

theorem movedCell_ok (M : Move) (x : Context) : MovedTo M x (movedCell M x) where
  dbu := rfl
  annotated := rfl
  internal := rfl
  extracted _ := get?_mapSnd _ _ _

theorem geoSpacedMoved : Spaced geoKL Sky130A.tech (movedCell geoMove geoCell) 8 := by
  have hR : IsRegions geoKL Sky130A.tech geoCell 8 (geoLayers.values.map geoKL.merged) := ⟨_, geoLayers_ok, rfl⟩
  have h1 := geoSpaced.reported _ hR
  have h2 := geoSpaced.border _ hR
  have h3 := geoSpaced.apart _ hR
  exact ⟨fun _ _ => h1, fun _ _ => h2, fun _ _ => h3⟩

/-- The hypotheses of C92 hold for the example, turned and shifted: both run, with the same capacitances. -/
example : ∃ c' d', Engine25.run geoKL id Sky130A.tech.read geoCell .CC true 8 (.ok []) ⟨["A", "B"], []⟩ true = .ok c' ∧
    Engine25.run geoKL id Sky130A.tech.read (movedCell geoMove geoCell) .CC true 8 (.ok []) ⟨["A", "B"], []⟩ true = .ok d' ∧
    ∀ a b, a ≠ b → Rcx25Netlist.parasiticCap c' a b = Rcx25Netlist.parasiticCap d' a b := by
  have hmove := movedCell_ok geoMove geoCell
  obtain ⟨c', h⟩ := (shipped_runs_partial (Or.inl rfl) Fringe.rowKernel_ok geoSourced geoWithoutMim geoSpaced true
    (.ok [])).1 id ⟨["A", "B"], []⟩ true
  obtain ⟨d', h'⟩ := (shipped_runs_partial (Or.inl rfl) Fringe.rowKernel_ok (moved_sourced hmove geoSourced)
    (moved_withoutMim hmove geoWithoutMim) geoSpacedMoved true (.ok [])).1 id ⟨["A", "B"], []⟩ true
  exact ⟨c', d', h, h', shipped_moved (Or.inl rfl) geoKL geoFaithful geoMove (geoMerges _) (fun _ _ _ _ => List.Perm.refl _) id
    hmove geoWithoutMim .CC (Or.inl rfl) true 8 _ _ _ _ c' d' true h h' (by simp) (by simp) geoNoShorts⟩

/-- The turned and shifted example is visited as `moved_netlist` asks. -/
example (names : List String) (R : List (List Poly)) (hs : IsStack Sky130A.tech.read (movedCell geoMove geoCell) names)
    (hR : Regions geoKL Sky130A.tech.read (movedCell geoMove geoCell) 8 names R) (i : Nat) (hi : i < names.length) :
    ∃ sides, Visits R i 9 sides (geoKL.edges R i) := by
  have hmove := movedCell_ok geoMove geoCell
  have hs0 := hmove.isStack hs
  obtain ⟨ho, hpo⟩ := Engine25.layers_exact _ _ _ _ geoLayers_ok
  obtain rfl := hs0.unique ho
  have hR0 : Regions geoKL Sky130A.tech.read geoCell 8 geoLayers.keys geoLayers.values := by
    refine ⟨rfl, fun i hi => ?_⟩
    obtain ⟨qs, hq1, hq2⟩ := Engine25.keys_get ho.nodup hi
    refine ⟨qs, ?_, hpo _ _ hq2⟩
    conv_lhs => rw [← geoTidy]
    rw [List.getElem?_map, hq1]
    rfl
  have hl := hmove.layers (geoMerges geoMove) hR0 hR
  exact ⟨_, hl.visits rfl (by rw [hR.1]; rfl) (geoVisits ho hR0 hi)⟩

end Verif.Pdk
