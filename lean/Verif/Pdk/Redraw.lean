import Verif.Pdk.Nearby
import Verif.Engine25.Redraw

/-!
# A wire drawn in two ways (a case for C99)
-/

namespace Verif.Pdk

open Engine25 TechInfo
open Overlap (Poly Cell)

/-- A KLayout that joins the polygons of a net and looks at all edges. -/
noncomputable def areaKL : KLayout :=
  { lookKL with merged := fun ps => tidy (ps.filter fun p => decide p.cells.Nonempty) }

/-- Its merged polygons depend only on the area. -/
theorem areaMerges : MergesArea areaKL := by
  intro ps ps' h
  show tidy (ps'.filter _) = tidy (ps.filter _)
  unfold tidy
  have e : (((ps'.filter fun p => decide p.cells.Nonempty)).map Poly.net).toFinset =
      (((ps.filter fun p => decide p.cells.Nonempty)).map Poly.net).toFinset := by
    ext n
    simp only [List.mem_toFinset, List.mem_map, List.mem_filter, decide_eq_true_eq]
    have h1 := fun c => h n c
    unfold Covered at h1
    constructor
    · rintro ⟨p, ⟨hp, c, hc⟩, hn⟩
      obtain ⟨q, hq, hqn, hqc⟩ := (h1 c).1 ⟨p, hp, hn, hc⟩
      exact ⟨q, ⟨hq, c, hqc⟩, hqn⟩
    · rintro ⟨p, ⟨hp, c, hc⟩, hn⟩
      obtain ⟨q, hq, hqn, hqc⟩ := (h1 c).2 ⟨p, hp, hn, hc⟩
      exact ⟨q, ⟨hq, c, hqc⟩, hqn⟩
  rw [e]
  refine List.map_congr_left fun n _ => ?_
  simp only [Poly.mk.injEq, true_and]
  ext c
  rw [mem_foldr_union, mem_foldr_union]
  simp only [List.mem_filter, decide_eq_true_eq]
  have h1 := h n c
  unfold Covered at h1
  constructor
  · rintro ⟨p, ⟨⟨hp, _⟩, hn⟩, hc⟩
    obtain ⟨q, hq, hqn, hqc⟩ := h1.1 ⟨p, hp, hn, hc⟩
    exact ⟨q, ⟨⟨hq, c, hqc⟩, hqn⟩, hqc⟩
  · rintro ⟨p, ⟨⟨hp, _⟩, hn⟩, hc⟩
    obtain ⟨q, hq, hqn, hqc⟩ := h1.2 ⟨p, hp, hn, hc⟩
    exact ⟨q, ⟨⟨hq, c, hqc⟩, hqn⟩, hqc⟩

/-- The wire `A` of the two wires drawn as two overlapping rectangles, after `B`, and on two source layers. -/
noncomputable def piecesCell : Context where
  cellName := "TOP"
  dbu := 1
  annotated := ⟨0, 0, 40, 6⟩
  internal := ⟨0, 0, 40, 6⟩
  extracted := [((68, 20), [[Rect.poly ⟨"B", 0, 4, 4, 6⟩, Rect.poly ⟨"A", 2, 0, 4, 2⟩], [Rect.poly ⟨"A", 0, 0, 3, 2⟩]])]

theorem piecesRedrawn : Redrawn (wiresCell twoWires) piecesCell where
  cellName := rfl
  dbu := rfl
  annotated := rfl
  internal := rfl
  absent := by
    intro g
    simp only [wiresCell, piecesCell, Dict.get?]
    split <;> simp
  sources := by
    intro g rs rs'
    simp only [wiresCell, piecesCell, Dict.get?]
    split
    · rintro h h'
      cases h; cases h'
      simp
    · simp
  area := by
    intro g rs rs'
    simp only [wiresCell, piecesCell, Dict.get?]
    split
    · rintro h h' net c
      cases h; cases h'
      simp only [Covered, twoWires, List.map_cons, List.map_nil, List.mem_cons, List.not_mem_nil, or_false, exists_eq_or_imp,
        exists_eq_left, Rect.poly, Finset.mem_product, Finset.mem_Ico]
      constructor
      · rintro ((⟨h1, h2, h3⟩ | ⟨h1, h2, h3⟩) | ⟨h1, h2, h3⟩)
        · exact Or.inr ⟨h1, h2, h3⟩
        · exact Or.inl ⟨h1, ⟨by omega, by omega⟩, h3⟩
        · exact Or.inl ⟨h1, ⟨by omega, by omega⟩, h3⟩
      · rintro (⟨h1, h2, h3⟩ | ⟨h1, h2, h3⟩)
        · by_cases h4 : c.1 < 3
          · exact Or.inr ⟨h1, ⟨h2.1, h4⟩, h3⟩
          · exact Or.inl (Or.inr ⟨h1, ⟨by omega, h2.2⟩, h3⟩)
        · exact Or.inl (Or.inl ⟨h1, h2, h3⟩)
    · simp

theorem areaRun (cf : String → String) (mode : PexMode.Mode) (scale : Bool) (res : Except String (List Summary.RNetwork)) (c : Netlist.Circuit)
    (bb : Bool) : Engine25.run areaKL cf Sky130A.tech.read (wiresCell twoWires) mode scale 8 res c bb =
      Engine25.run lookKL cf Sky130A.tech.read (wiresCell twoWires) mode scale 8 res c bb := by
  have h : (wiresLayers twoWires).values.map areaKL.merged = (wiresLayers twoWires).values.map lookKL.merged := by
    refine List.map_congr_left fun ps hps => ?_
    show tidy (ps.filter _) = tidy ps
    congr 1
    rw [List.filter_eq_self]
    intro p hp
    rw [decide_eq_true_eq]
    simp only [wiresLayers, Dict.values, twoWires, List.map_cons, List.map_nil, List.mem_cons, List.not_mem_nil, or_false] at hps
    rcases hps with rfl | rfl
    · simp only [List.mem_cons, List.not_mem_nil, or_false] at hp
      subst hp
      exact ⟨(0, 0), by simp [bottom, Rect.poly]⟩
    · simp only [List.mem_cons, List.not_mem_nil, or_false] at hp
      rcases hp with rfl | rfl
      · exact ⟨(0, 0), by simp [Rect.poly]⟩
      · exact ⟨(0, 4), by simp [Rect.poly]⟩
  unfold Engine25.run Engine25.extract
  rw [wiresLayers_ok]
  simp only [bind, Except.bind]
  rw [h]
  rfl

/-- The hypotheses of C99 hold for the two wires and the wire in pieces; the wire in pieces runs to the end, with the netlist of the
two wires. -/
example : ∃ c', Engine25.run areaKL id Sky130A.tech.read (wiresCell twoWires) .CC true 8 (.ok []) ⟨["A", "B"], []⟩ true = .ok c' ∧
    Engine25.run areaKL id Sky130A.tech.read piecesCell .CC true 8 (.ok []) ⟨["A", "B"], []⟩ true = .ok c' := by
  obtain ⟨c', h⟩ := (shipped_runs_partial (Or.inl rfl) Fringe.rowKernel_ok wiresSourced wiresMim (wiresSpaced twoWires_ok) true
    (.ok [])).1 id ⟨["A", "B"], []⟩ true
  rw [redrawn_run areaKL areaMerges id _ piecesRedrawn, areaRun]
  exact ⟨c', h, h⟩

end Verif.Pdk
