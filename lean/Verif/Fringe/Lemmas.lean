import Verif.Fringe.Model
import Verif.TechInfo.Props
import Mathlib.Tactic.FieldSimp
import Mathlib.Tactic.Ring
import Mathlib.Tactic.Linarith
import Mathlib.Tactic.Positivity

namespace Verif.Fringe

open TechInfo (Parasitics OverlapSpec SideOverlapSpec SidewallSpec substrateName IsLast)
open Summary (SidewallKey SidewallCap SideOverlapKey)
open Overlap (Cell Poly)

/-! ### Specification of distances -/

/-- `y` is the ordinate of the lower border of the region. -/
def Bottom (s : Finset Cell) (y : ℤ) : Prop := (∃ c ∈ s, c.2 = y) ∧ ∀ c ∈ s, y ≤ c.2

/-- `y` is the ordinate of the upper border of the region (a cell with ordinate `v` reaches up to `v + 1`). -/
def Top (s : Finset Cell) (y : ℤ) : Prop := (∃ c ∈ s, c.2 + 1 = y) ∧ ∀ c ∈ s, c.2 + 1 ≤ y

theorem bottom_yLow {s : Finset Cell} (h : s.Nonempty) : Bottom s (yLow s) := by
  have h' : (s.image Prod.snd).Nonempty := h.image _
  unfold yLow
  rw [dif_pos h']
  refine ⟨?_, fun c hc => Finset.min'_le _ _ (Finset.mem_image_of_mem _ hc)⟩
  obtain ⟨c, hc, he⟩ := Finset.mem_image.1 (Finset.min'_mem _ h')
  exact ⟨c, hc, he⟩

theorem top_yHigh {s : Finset Cell} (h : s.Nonempty) : Top s (yHigh s) := by
  have h' : (s.image Prod.snd).Nonempty := h.image _
  unfold yHigh
  rw [dif_pos h']
  refine ⟨?_, fun c hc => by have := Finset.le_max' _ _ (Finset.mem_image_of_mem Prod.snd hc); omega⟩
  obtain ⟨c, hc, he⟩ := Finset.mem_image.1 (Finset.max'_mem _ h')
  exact ⟨c, hc, by omega⟩

theorem Bottom.unique {s : Finset Cell} {y z : ℤ} (h : Bottom s y) (h' : Bottom s z) : y = z := by
  obtain ⟨⟨c, hc, e⟩, h2⟩ := h
  obtain ⟨⟨d, hd, e'⟩, h2'⟩ := h'
  have := h2 d hd; have := h2' c hc; omega

theorem Top.unique {s : Finset Cell} {y z : ℤ} (h : Top s y) (h' : Top s z) : y = z := by
  obtain ⟨⟨c, hc, e⟩, h2⟩ := h
  obtain ⟨⟨d, hd, e'⟩, h2'⟩ := h'
  have := h2 d hd; have := h2' c hc; omega

theorem Bottom.lt_top {s : Finset Cell} {y z : ℤ} (h : Bottom s y) (h' : Top s z) : y < z := by
  obtain ⟨⟨c, hc, e⟩, _⟩ := h
  have := h'.2 c hc; omega

theorem Bottom.nonempty {s : Finset Cell} {y : ℤ} (h : Bottom s y) : s.Nonempty := ⟨h.1.choose, h.1.choose_spec.1⟩

theorem Bottom.eq {s : Finset Cell} {y : ℤ} (h : Bottom s y) : yLow s = y := (bottom_yLow h.nonempty).unique h

theorem Top.eq {s : Finset Cell} {y : ℤ} (h : Top s y) : yHigh s = y :=
  (top_yHigh ⟨h.1.choose, h.1.choose_spec.1⟩).unique h

theorem min_low_high (s : Finset Cell) : min (yLow s) (yHigh s) = yLow s := by
  by_cases h : s.Nonempty
  · exact min_eq_left (le_of_lt ((bottom_yLow h).lt_top (top_yHigh h)))
  · rw [Finset.not_nonempty_iff_eq_empty] at h
    subst h
    simp [yLow, yHigh]

/-! ### Nearest polygon -/

/-- `d` is the distance of the polygon from the edge (0 if it begins at or behind the edge). -/
def Dist (p : Poly) (d : ℤ) : Prop := ∃ y, Bottom p.cells y ∧ d = max 0 y

/-- `p` is the polygon of the list with the smallest distance `d`, and the first one among several. -/
def Nearest (ps : List Poly) (d : ℤ) (p : Poly) : Prop :=
  ∃ A B, ps = A ++ p :: B ∧ Dist p d ∧ (∀ q ∈ A, ∀ e, Dist q e → d < e) ∧ ∀ q ∈ B, ∀ e, Dist q e → d ≤ e

theorem dist_nearest {p : Poly} (h : p.cells.Nonempty) : Dist p (nearestEdgeDistance p) := by
  refine ⟨_, bottom_yLow h, ?_⟩
  unfold nearestEdgeDistance
  simp only [min_low_high]
  split_ifs with h'
  · rw [max_eq_left (le_of_lt h')]
  · rw [max_eq_right (not_lt.1 h')]

theorem Dist.unique {p : Poly} {d e : ℤ} (h : Dist p d) (h' : Dist p e) : d = e := by
  obtain ⟨y, hy, rfl⟩ := h
  obtain ⟨z, hz, rfl⟩ := h'
  rw [hy.unique hz]

theorem Dist.eq {p : Poly} {d : ℤ} (h : Dist p d) : nearestEdgeDistance p = d := by
  obtain ⟨y, hy, rfl⟩ := h
  exact (dist_nearest hy.nonempty).unique ⟨y, hy, rfl⟩

theorem foldl_nearest (A B : List Poly) (p : Poly)
    (hA : ∀ q ∈ A, nearestEdgeDistance p < nearestEdgeDistance q)
    (hB : ∀ q ∈ B, nearestEdgeDistance p ≤ nearestEdgeDistance q) (init : Option ℤ × Poly)
    (hi : ltInf (some (nearestEdgeDistance p)) init.1 = true) :
    (A ++ p :: B).foldl (fun best p =>
      let d := nearestEdgeDistance p
      if ltInf (some d) best.1 then (some d, p) else best) init = (some (nearestEdgeDistance p), p) := by
  induction A generalizing init with
  | nil =>
    rw [List.nil_append, List.foldl_cons]
    simp only [hi, if_true]
    induction B with
    | nil => rfl
    | cons q B ih =>
      rw [List.foldl_cons]
      have : ltInf (some (nearestEdgeDistance q)) (some (nearestEdgeDistance p)) = false := by
        simp only [ltInf, decide_eq_false_iff_not, not_lt]; exact hB q List.mem_cons_self
      simp only [this, Bool.false_eq_true, if_false]
      exact ih (fun r hr => hB r (List.mem_cons_of_mem _ hr))
  | cons q A ih =>
    rw [List.cons_append, List.foldl_cons]
    refine ih (fun r hr => hA r (List.mem_cons_of_mem _ hr)) _ ?_
    simp only
    split_ifs
    · simp only [ltInf, decide_eq_true_eq]; exact hA q List.mem_cons_self
    · exact hi

theorem exists_nearest (ps : List Poly) (h : ps ≠ []) : ∃ A p B, ps = A ++ p :: B ∧
    (∀ q ∈ A, nearestEdgeDistance p < nearestEdgeDistance q) ∧
    ∀ q ∈ B, nearestEdgeDistance p ≤ nearestEdgeDistance q := by
  induction ps with
  | nil => exact absurd rfl h
  | cons a ps ih =>
    by_cases hp : ps = []
    · subst hp; exact ⟨[], a, [], rfl, by simp, by simp⟩
    · obtain ⟨A, p, B, rfl, hA, hB⟩ := ih hp
      by_cases hle : nearestEdgeDistance a ≤ nearestEdgeDistance p
      · refine ⟨[], a, A ++ p :: B, rfl, by simp, ?_⟩
        intro q hq
        rw [List.mem_append, List.mem_cons] at hq
        rcases hq with hq | rfl | hq
        · have := hA q hq; omega
        · exact hle
        · have := hB q hq; omega
      · refine ⟨a :: A, p, B, rfl, ?_, hB⟩
        intro q hq
        rw [List.mem_cons] at hq
        rcases hq with rfl | hq
        · omega
        · exact hA q hq

theorem findNearest_eq (A B : List Poly) (p : Poly)
    (hA : ∀ q ∈ A, nearestEdgeDistance p < nearestEdgeDistance q)
    (hB : ∀ q ∈ B, nearestEdgeDistance p ≤ nearestEdgeDistance q) :
    findNearest (A ++ p :: B) = .ok (some (nearestEdgeDistance p), p) := by
  cases A with
  | nil => exact congrArg Except.ok (foldl_nearest [] B p hA hB _ rfl)
  | cons a A => exact congrArg Except.ok (foldl_nearest (a :: A) B p hA hB _ rfl)

theorem findNearest_spec (ps : List Poly) (hne : ps ≠ []) (hp : ∀ p ∈ ps, p.cells.Nonempty) :
    ∃ d p, findNearest ps = .ok (some d, p) ∧ Nearest ps d p := by
  obtain ⟨A, p, B, rfl, hA, hB⟩ := exists_nearest ps hne
  refine ⟨_, p, findNearest_eq A B p hA hB, A, B, rfl, dist_nearest (hp p (by simp)), ?_, ?_⟩
  · intro q hq e he; rw [← he.eq]; exact hA q hq
  · intro q hq e he; rw [← he.eq]; exact hB q hq

theorem Nearest.mem {ps : List Poly} {d : ℤ} {p : Poly} (h : Nearest ps d p) : p ∈ ps := by
  obtain ⟨A, B, rfl, _⟩ := h; simp

theorem Nearest.findNearest {ps : List Poly} {d : ℤ} {p : Poly} (h : Nearest ps d p)
    (hp : ∀ p ∈ ps, p.cells.Nonempty) : findNearest ps = .ok (some d, p) := by
  obtain ⟨A, B, rfl, hd, hA, hB⟩ := h
  rw [← hd.eq]
  exact findNearest_eq A B p (fun q hq => by rw [hd.eq]; exact hA q hq _ (dist_nearest (hp q (by simp [hq]))))
    (fun q hq => by rw [hd.eq]; exact hB q hq _ (dist_nearest (hp q (by simp [hq]))))

/-! ### Lookup of the sidewall specification -/

theorem sidewallTable_get (p : Parasitics) (a : String) (v : SidewallSpec) :
    (TechInfo.sidewallTable p).get? a = some v ↔ IsLast (fun s => s.layer = a) p.sidewalls v :=
  (TechInfo.single_lookups { parasitics := p }).2.2.2.2.1 a v

/-! ### The arc tangent law -/

/-- Part of the fringe field within the distance `d` (in µm) of the edge. -/
noncomputable def ratio (cov : ℚ) (d : ℝ) : ℝ := 2 / Real.pi * Real.arctan ((cov : ℝ) / 50 * d)

theorem ratio_mono {cov : ℚ} (h : 0 ≤ cov) {d e : ℝ} (hd : d ≤ e) : ratio cov d ≤ ratio cov e := by
  unfold ratio
  have hpi := Real.pi_pos
  have hc : (0 : ℝ) ≤ (cov : ℝ) := by exact_mod_cast h
  have : Real.arctan ((cov : ℝ) / 50 * d) ≤ Real.arctan ((cov : ℝ) / 50 * e) :=
    Real.arctan_mono (mul_le_mul_of_nonneg_left hd (by positivity))
  exact mul_le_mul_of_nonneg_left this (by positivity)

theorem ratio_lt_one (cov : ℚ) (d : ℝ) : ratio cov d < 1 := by
  unfold ratio
  have hpi := Real.pi_pos
  have h := Real.arctan_lt_pi_div_two ((cov : ℝ) / 50 * d)
  have : 2 / Real.pi * Real.arctan ((cov : ℝ) / 50 * d) < 2 / Real.pi * (Real.pi / 2) :=
    mul_lt_mul_of_pos_left h (by positivity)
  have e : 2 / Real.pi * (Real.pi / 2) = 1 := by field_simp
  rwa [e] at this

theorem ratio_zero (cov : ℚ) : ratio cov 0 = 0 := by simp [ratio]

theorem ratio_nonneg {cov : ℚ} (h : 0 ≤ cov) {d : ℝ} (hd : 0 ≤ d) : 0 ≤ ratio cov d := by
  rw [← ratio_zero cov]; exact ratio_mono h hd

theorem ratio_pos {cov : ℚ} (h : 0 < cov) {d : ℝ} (hd : 0 < d) : 0 < ratio cov d := by
  unfold ratio
  have hpi := Real.pi_pos
  have hc : (0 : ℝ) < (cov : ℝ) := by exact_mod_cast h
  have : 0 < Real.arctan ((cov : ℝ) / 50 * d) := by
    rw [← Real.arctan_zero]; exact Real.arctan_strictMono (by positivity)
  positivity

/-- The law of the fringe capacitance (in fF): length times the capacitance per length times the part of the field
between the distances `near` and `far`; lengths in database units. -/
noncomputable def law (scale : Bool) (halo dbu cov cside : ℚ) (len near far : ℝ) : ℝ :=
  (ratio cov (far * dbu) - ratio cov (near * dbu)) / (if scale then ratio cov halo else 1) * (len * dbu) * cside / 1000

theorem fringeCap_eq (x : Ctx) (len near far : ℝ) (o : OverlapSpec) (s : SideOverlapSpec) :
    fringeCap x len near far o s =
      open Classical in if x.scale = true ∧ ratio o.cap x.par.sideHalo = 0 then .error "ZeroDivisionError"
      else .ok (law x.scale x.par.sideHalo x.dbu o.cap s.cap len near far) := by
  have h : ∀ d : ℝ, 2 / Real.pi * Real.arctan ((o.cap : ℝ) * ((2 / 100) * (1 / 100) * (1 / 2) * 200) * d) =
      ratio o.cap d := by
    intro d; unfold ratio; congr 2; ring
  unfold fringeCap
  simp only [h, ratio_lt_one, if_true, law]
  by_cases hs : x.scale = true
  · simp only [hs, if_true, true_and]
    by_cases hz : ratio o.cap x.par.sideHalo = 0
    · rw [if_pos hz, if_pos hz]
    · rw [if_neg hz, if_neg hz, sub_div]
  · simp [hs]


/-! ### Grouping by net -/

theorem perm_flatMap_filter {ε κ : Type} [DecidableEq κ] (key : ε → κ) (ks : List κ) (hk : ks.Nodup) (L : List ε)
    (hL : ∀ e ∈ L, key e ∈ ks) : (ks.flatMap fun k => L.filter fun e => decide (key e = k)).Perm L := by
  induction ks generalizing L with
  | nil =>
    cases L with
    | nil => exact List.Perm.refl _
    | cons e L => exact absurd (hL e List.mem_cons_self) (by simp)
  | cons k ks ih =>
    rw [List.flatMap_cons]
    have h1 := List.nodup_cons.1 hk
    have h2 := ih h1.2 (L.filter fun e => !decide (key e = k)) (by
      intro e he
      rw [List.mem_filter] at he
      have := hL e he.1
      simp only [List.mem_cons] at this
      rcases this with h | h
      · simp [h] at he
      · exact h)
    have h3 : (ks.flatMap fun k' => (L.filter fun e => !decide (key e = k)).filter fun e => decide (key e = k')) =
        ks.flatMap fun k' => L.filter fun e => decide (key e = k') := by
      refine List.flatMap_congr fun k' hk' => ?_
      rw [List.filter_filter]
      refine List.filter_congr fun e _ => ?_
      by_cases h : key e = k'
      · subst h
        have : key e ≠ k := fun h => h1.1 (h ▸ hk')
        simp [this]
      · simp [h]
    rw [h3] at h2
    exact (List.Perm.append_left _ h2).trans (List.filter_append_perm _ _)

theorem flat_groupBy {κ ν : Type} [DecidableEq κ] (L : List (κ × ν)) :
    ((groupBy Prod.fst Prod.snd L).flatMap fun e => e.2.map fun q => (e.1, q)).Perm L := by
  rw [groupBy_eq, List.flatMap_map]
  have : ((firsts (L.map Prod.fst)).flatMap fun k =>
      ((L.filter fun e => decide (e.1 = k)).map Prod.snd).map fun q => (k, q)) =
      (firsts (L.map Prod.fst)).flatMap fun k => L.filter fun e => decide (e.1 = k) := by
    refine List.flatMap_congr fun k _ => ?_
    rw [List.map_map]
    have : ∀ l : List (κ × ν), (∀ e ∈ l, e.1 = k) → l.map ((fun q => (k, q)) ∘ Prod.snd) = l := by
      intro l hl
      induction l with
      | nil => rfl
      | cons e l ih =>
        rw [List.map_cons, ih (fun e he => hl e (List.mem_cons_of_mem _ he))]
        have := hl e List.mem_cons_self
        subst this; rfl
    exact this _ (fun e he => by simpa using (List.mem_filter.1 he).2)
  simp only
  rw [this]
  exact perm_flatMap_filter Prod.fst _ (nodup_firsts _) L
    (fun e he => (mem_firsts _ _).2 (List.mem_map_of_mem he))

/-- The polygons that remain of `p` behind a shield. -/
def remains (k : Kernel) (shield : Finset Cell) (p : Poly) : List (Finset Cell) :=
  if shield = ∅ then [p.cells] else k (p.cells \ shield)

/-- The net that a shape of a layer counts for: the substrate is a net of its own. -/
def countsAs (layer net : String) : String := if layer = "VSUBS" then "VSUBS" else net

/-- What is left of the polygons of other nets, with the net. -/
def visible (k : Kernel) (insideNet outside : String) (shield : Finset Cell) (ps : List Poly) :
    List (String × Finset Cell) :=
  ps.flatMap fun p => if insideNet = countsAs outside p.net then []
    else (remains k shield p).map fun q => (countsAs outside p.net, q)

theorem unshielded_eq (k : Kernel) (insideNet outside : String) (shield : Finset Cell) (ps : List Poly) :
    unshielded k insideNet outside shield ps = groupBy Prod.fst Prod.snd (visible k insideNet outside shield ps) := by
  unfold unshielded groupBy visible
  have : ∀ (d : Dict String (List (Finset Cell))),
      ps.foldl (fun d p =>
        let net := layerNet outside p.net
        if insideNet = net then d
        else if shield = ∅ then Dict.push d net p.cells
        else (k (p.cells \ shield)).foldl (fun d q => Dict.push d net q) d) d =
      (ps.flatMap fun p => if insideNet = countsAs outside p.net then []
        else (remains k shield p).map fun q => (countsAs outside p.net, q)).foldl
          (fun d e => Dict.push d e.1 e.2) d := by
    induction ps with
    | nil => intro d; rfl
    | cons p ps ih =>
      intro d
      rw [List.foldl_cons, ih, List.flatMap_cons, List.foldl_append]
      congr 1
      have e : layerNet outside p.net = countsAs outside p.net := rfl
      simp only [e]
      by_cases h : insideNet = countsAs outside p.net
      · simp only [if_pos h, List.foldl_nil]
      · simp only [if_neg h]
        unfold remains
        by_cases hs : shield = ∅
        · simp only [if_pos hs]; rfl
        · simp only [if_neg hs]
          rw [List.foldl_map]
  exact this []

theorem flat_unshielded (k : Kernel) (insideNet outside : String) (shield : Finset Cell) (ps : List Poly) :
    ((unshielded k insideNet outside shield ps).flatMap fun e => e.2.map fun q => (e.1, q)).Perm
      (visible k insideNet outside shield ps) := by
  rw [unshielded_eq]; exact flat_groupBy _

/-! ### The capacitance loop -/

/-- A polygon that does not reach beyond the edge. -/
def Flat (q : Finset Cell) : Prop := yHigh q ≤ 0

theorem clamp_eq (z : ℤ) : (if z < 0 then 0 else z) = max 0 z := by
  split_ifs with h
  · rw [max_eq_left (le_of_lt h)]
  · rw [max_eq_right (not_lt.1 h)]

theorem low_lt_high {q : Finset Cell} (h : q.Nonempty) : yLow q < yHigh q := (bottom_yLow h).lt_top (top_yHigh h)

open Classical in
/-- The record for one polygon, if its capacitance is above the threshold. -/
noncomputable def recOf (x : Ctx) (inside insideNet outside : String) (iv : ℚ × ℚ) (o : OverlapSpec)
    (s : SideOverlapSpec) (e : String × Finset Cell) : Option Rec :=
  let c := law x.scale x.par.sideHalo x.dbu o.cap s.cap ((iv.2 - iv.1 : ℚ) : ℝ) (max 0 (yLow e.2) : ℤ) (max 0 (yHigh e.2) : ℤ)
  if 1 / 10000 < c then some (.fringe ⟨inside, insideNet, outside, e.1⟩ c) else none

theorem fringeLoop_flat (x : Ctx) (inside insideNet outside : String) (iv : ℚ × ℚ) (o : OverlapSpec)
    (s : SideOverlapSpec) (e : String × Finset Cell) (L : List (String × Finset Cell)) (he : e.2.Nonempty)
    (hf : Flat e.2) : fringeLoop x inside insideNet outside iv o s (e :: L) = .ok [] := by
  have h := low_lt_high he
  have hl : max 0 (yLow e.2) = 0 := max_eq_left (by unfold Flat at hf; omega)
  have hh : max 0 (yHigh e.2) = 0 := max_eq_left hf
  obtain ⟨net, q⟩ := e
  simp only at hl hh
  unfold fringeLoop
  simp only [clamp_eq, hl, hh, lt_irrefl, if_false, if_true]

theorem fringeLoop_err (x : Ctx) (inside insideNet outside : String) (iv : ℚ × ℚ) (o : OverlapSpec)
    (s : SideOverlapSpec) (e : String × Finset Cell) (L : List (String × Finset Cell)) (he : e.2.Nonempty)
    (hf : ¬ Flat e.2) (hb : x.scale = true ∧ ratio o.cap x.par.sideHalo = 0) :
    fringeLoop x inside insideNet outside iv o s (e :: L) = .error "ZeroDivisionError" := by
  have h := low_lt_high he
  have h1 : ¬ max 0 (yHigh e.2) < max 0 (yLow e.2) := by unfold Flat at hf; omega
  have h2 : ¬ max 0 (yHigh e.2) = max 0 (yLow e.2) := by unfold Flat at hf; omega
  obtain ⟨net, q⟩ := e
  simp only at h1 h2
  unfold fringeLoop
  simp only [clamp_eq, h1, h2, if_false, fringeCap_eq, if_pos hb]
  rfl

theorem fringeLoop_cons (x : Ctx) (inside insideNet outside : String) (iv : ℚ × ℚ) (o : OverlapSpec)
    (s : SideOverlapSpec) (e : String × Finset Cell) (L : List (String × Finset Cell)) (he : e.2.Nonempty)
    (hf : ¬ Flat e.2) (hb : ¬ (x.scale = true ∧ ratio o.cap x.par.sideHalo = 0)) :
    fringeLoop x inside insideNet outside iv o s (e :: L) =
      (fringeLoop x inside insideNet outside iv o s L).map fun r =>
        (recOf x inside insideNet outside iv o s e).toList ++ r := by
  have h := low_lt_high he
  have h1 : ¬ max 0 (yHigh e.2) < max 0 (yLow e.2) := by unfold Flat at hf; omega
  have h2 : ¬ max 0 (yHigh e.2) = max 0 (yLow e.2) := by unfold Flat at hf; omega
  obtain ⟨net, q⟩ := e
  simp only at h1 h2
  rw [fringeLoop]
  simp only [clamp_eq, h1, h2, if_false, fringeCap_eq, if_neg hb, recOf]
  cases hr : fringeLoop x inside insideNet outside iv o s L with
  | error m => rfl
  | ok r =>
    simp only [Except.map]
    change (if _ > _ then _ else _ : Except String (List Rec)) = _
    simp only [gt_iff_lt]
    split_ifs <;> rfl

/-- Without flat polygons and without division by zero every polygon is evaluated. -/
theorem fringeLoop_ok (x : Ctx) (inside insideNet outside : String) (iv : ℚ × ℚ) (o : OverlapSpec)
    (s : SideOverlapSpec) (L : List (String × Finset Cell)) (hL : ∀ e ∈ L, e.2.Nonempty ∧ ¬ Flat e.2)
    (hb : ¬ (x.scale = true ∧ ratio o.cap x.par.sideHalo = 0)) :
    fringeLoop x inside insideNet outside iv o s L = .ok (L.filterMap (recOf x inside insideNet outside iv o s)) := by
  induction L with
  | nil => rfl
  | cons e L ih =>
    have he := hL e List.mem_cons_self
    rw [fringeLoop_cons _ _ _ _ _ _ _ _ _ he.1 he.2 hb, ih (fun e he => hL e (List.mem_cons_of_mem _ he)),
      List.filterMap_cons]
    simp only [Except.map]
    cases recOf x inside insideNet outside iv o s e <;> rfl

/-- In any case the records belong to a prefix of the polygons. -/
theorem fringeLoop_prefix (x : Ctx) (inside insideNet outside : String) (iv : ℚ × ℚ) (o : OverlapSpec)
    (s : SideOverlapSpec) (L : List (String × Finset Cell)) (hL : ∀ e ∈ L, e.2.Nonempty) (recs : List Rec)
    (h : fringeLoop x inside insideNet outside iv o s L = .ok recs) :
    ∃ A B, L = A ++ B ∧ (∀ e ∈ A, ¬ Flat e.2) ∧ (∀ e ∈ B.head?, Flat e.2) ∧
      recs = A.filterMap (recOf x inside insideNet outside iv o s) := by
  induction L generalizing recs with
  | nil => exact ⟨[], [], rfl, by simp, by simp, (Except.ok.inj h).symm⟩
  | cons e L ih =>
    have he := hL e List.mem_cons_self
    by_cases hf : Flat e.2
    · rw [fringeLoop_flat _ _ _ _ _ _ _ _ _ he hf] at h
      exact ⟨[], e :: L, rfl, by simp, by simpa using hf, (Except.ok.inj h).symm⟩
    · by_cases hb : x.scale = true ∧ ratio o.cap x.par.sideHalo = 0
      · rw [fringeLoop_err _ _ _ _ _ _ _ _ _ he hf hb] at h; cases h
      · rw [fringeLoop_cons _ _ _ _ _ _ _ _ _ he hf hb] at h
        cases hr : fringeLoop x inside insideNet outside iv o s L with
        | error m => rw [hr] at h; cases h
        | ok r =>
          obtain ⟨A, B, rfl, hA, hB, rfl⟩ := ih (fun e he => hL e (List.mem_cons_of_mem _ he)) r hr
          rw [hr] at h
          refine ⟨e :: A, B, rfl, ?_, hB, ?_⟩
          · intro a ha
            rcases List.mem_cons.1 ha with rfl | ha
            · exact hf
            · exact hA a ha
          · rw [List.filterMap_cons, ← Except.ok.inj h]
            cases recOf x inside insideNet outside iv o s e <;> rfl


/-! ### Specifications -/

/-- `o` is the overlap specification for the pair of layers: the one listed for `a` above `b` and, if there is none, the
one listed for `b` above `a`. -/
def PairSpec (par : Parasitics) (a b : String) (o : OverlapSpec) : Prop :=
  TechInfo.OverlapIs par a b o ∨ (∀ o', ¬ TechInfo.OverlapIs par a b o') ∧ TechInfo.OverlapIs par b a o

theorem elim_ok {α : Type} (o : Option α) (m : String) (v : α) :
    o.elim (.error m : Except String α) .ok = .ok v ↔ o = some v := by
  cases o <;> simp [Option.elim]

theorem bind_ok {α β : Type} (e : Except String α) (f : α → Except String β) (b : β) :
    (e >>= f) = .ok b ↔ ∃ a, e = .ok a ∧ f a = .ok b := by
  cases e with
  | error m =>
    constructor
    · intro h; cases h
    · rintro ⟨a, h, _⟩; cases h
  | ok a =>
    constructor
    · intro h; exact ⟨a, rfl, h⟩
    · rintro ⟨a', h, h'⟩; cases h; exact h'

theorem row_of_substrate (par : Parasitics) (a : String) (h : ∃ s ∈ par.substrates, s.layer = a) :
    ∃ row, (TechInfo.overlapTable par).get? a = some row := by
  by_contra hn
  have hnone : (TechInfo.overlapTable par).get? a = none := by
    cases h' : (TechInfo.overlapTable par).get? a with
    | none => rfl
    | some r => exact absurd ⟨r, h'⟩ hn
  have := (TechInfo.overlap_lookup_none par a "VSUBS").1 (by rw [hnone]; rfl)
  obtain ⟨s, hs, e⟩ := h
  exact this.2 rfl s hs e

/-- When the fringe specifications are found. -/
theorem fringeSpecs_ok (par : Parasitics) (a b : String) (o : OverlapSpec) (s : SideOverlapSpec) :
    fringeSpecs par a b = .ok (o, s) ↔
      (∃ t ∈ par.substrates, t.layer = a) ∧ (∀ t ∈ par.sideoverlaps, ∃ u ∈ par.substrates, u.layer = t.inLayer) ∧
      PairSpec par a b o ∧ TechInfo.SideOverlapIs par a b s := by
  have hsub : (∃ t, (TechInfo.substrateByLayer par).get? a = some t) ↔ ∃ t ∈ par.substrates, t.layer = a := by
    constructor
    · rintro ⟨t, ht⟩
      have := ((TechInfo.single_lookups { parasitics := par }).2.2.2.2.2.1 a t).1 ht
      exact ⟨t, this.mem, this.prop⟩
    · rintro ⟨t, ht, e⟩
      cases h : (TechInfo.substrateByLayer par).get? a with
      | some t => exact ⟨t, rfl⟩
      | none => exact absurd e ((TechInfo.ofList_map_none (fun t : TechInfo.SubstrateCap => t.layer) id _ _).1 h t ht)
  have hov : overlapOf par a b = .ok o ↔
      (∃ row, (TechInfo.overlapTable par).get? a = some row) ∧ PairSpec par a b o := by
    unfold overlapOf
    simp only [bind_ok, elim_ok]
    constructor
    · rintro ⟨row, hrow, h⟩
      refine ⟨⟨row, hrow⟩, ?_⟩
      cases hb : row.get? b with
      | some s =>
        rw [hb] at h
        cases h
        exact Or.inl ((TechInfo.overlap_lookup _ _ _ _).1 ⟨row, hrow, hb⟩)
      | none =>
        rw [hb] at h
        simp only [Option.elim_none, overlapBelow, bind_ok, elim_ok] at h
        obtain ⟨row', h1, h2⟩ := h
        refine Or.inr ⟨fun o' ho' => ?_, (TechInfo.overlap_lookup _ _ _ _).1 ⟨row', h1, h2⟩⟩
        obtain ⟨e, he, he'⟩ := (TechInfo.overlap_lookup _ _ _ _).2 ho'
        rw [hrow] at he; cases he; rw [hb] at he'; cases he'
    · rintro ⟨⟨row, hrow⟩, h⟩
      refine ⟨row, hrow, ?_⟩
      rcases h with h | ⟨hn, h⟩
      · obtain ⟨e, he, he'⟩ := (TechInfo.overlap_lookup _ _ _ _).2 h
        rw [hrow] at he; cases he; rw [he']; rfl
      · cases hb : row.get? b with
        | some s => exact absurd ((TechInfo.overlap_lookup _ _ _ _).1 ⟨row, hrow, hb⟩) (hn s)
        | none =>
          simp only [Option.elim_none, overlapBelow, bind_ok, elim_ok]
          exact (TechInfo.overlap_lookup _ _ _ _).2 h
  have hside : (∃ d, TechInfo.sideTable par = .ok d ∧ ∃ row, d.get? a = some row ∧ row.get? b = some s) ↔
      (∀ t ∈ par.sideoverlaps, ∃ u ∈ par.substrates, u.layer = t.inLayer) ∧ TechInfo.SideOverlapIs par a b s := by
    constructor
    · rintro ⟨d, hd, h⟩
      exact ⟨(TechInfo.side_table_loads par).1.1 ⟨d, hd⟩, (TechInfo.side_overlap_lookup_partial par d hd a b s).1 h⟩
    · rintro ⟨h1, h2⟩
      obtain ⟨d, hd⟩ := (TechInfo.side_table_loads par).1.2 h1
      exact ⟨d, hd, (TechInfo.side_overlap_lookup_partial par d hd a b s).2 h2⟩
  have hmain : fringeSpecs par a b = .ok (o, s) ↔ overlapOf par a b = .ok o ∧
      (∃ t, (TechInfo.substrateByLayer par).get? a = some t) ∧
      (∃ d, TechInfo.sideTable par = .ok d ∧ ∃ row, d.get? a = some row ∧ row.get? b = some s) := by
    unfold fringeSpecs
    rw [bind_ok]
    constructor
    · rintro ⟨o', h2, h⟩
      rw [bind_ok] at h
      obtain ⟨t, h3, h⟩ := h
      rw [bind_ok] at h
      obtain ⟨d, h4, h⟩ := h
      rw [bind_ok] at h
      obtain ⟨r, h5, h⟩ := h
      rw [bind_ok] at h
      obtain ⟨s', h6, h⟩ := h
      cases h
      exact ⟨h2, ⟨t, (elim_ok _ _ _).1 h3⟩, d, h4, r, (elim_ok _ _ _).1 h5, (elim_ok _ _ _).1 h6⟩
    · rintro ⟨h2, ⟨t, h3⟩, d, h4, r, h5, h6⟩
      refine ⟨o, h2, ?_⟩
      rw [bind_ok]; refine ⟨t, (elim_ok _ _ _).2 h3, ?_⟩
      rw [bind_ok]; refine ⟨d, h4, ?_⟩
      rw [bind_ok]; refine ⟨r, (elim_ok _ _ _).2 h5, ?_⟩
      rw [bind_ok]; exact ⟨s, (elim_ok _ _ _).2 h6, rfl⟩
  rw [hmain, hov, hsub, hside]
  constructor
  · rintro ⟨⟨_, h1⟩, h2, h3, h4⟩; exact ⟨h2, h3, h1, h4⟩
  · rintro ⟨h2, h3, h1, h4⟩; exact ⟨⟨row_of_substrate par a h2, h1⟩, h2, h3, h4⟩

/-! ### The lateral loop -/

/-- The polygons of the lateral children: same layer (other polygons) and the polygon of the edge itself. -/
def LateralPoly (x : Ctx) (nb : Dict Nat (List Poly)) (p : Poly) : Prop :=
  ∃ ps, ((x.names.length, ps) ∈ nb ∨ (x.inside, ps) ∈ nb) ∧ p ∈ ps

/-- Best of a state and the lateral polygons of a list of children. -/
def IsBest (x : Ctx) (nb : List (Nat × List Poly)) (o : Option (Option ℤ × Poly)) (r : Option (Option ℤ × Poly)) :
    Prop :=
  match r with
  | none => o = none ∧ ∀ p, ¬ LateralPoly x nb p
  | some (d, p) => ∃ z, d = some z ∧ (o = some (some z, p) ∨ LateralPoly x nb p ∧ Dist p z) ∧
      (∀ q e, LateralPoly x nb q → Dist q e → z ≤ e) ∧ ∀ e q, o = some (some e, q) → z ≤ e

/-- All states have a finite distance. -/
def Finite (o : Option (Option ℤ × Poly)) : Prop := ∀ n, o = some n → ∃ z, n.1 = some z

theorem lateralPoly_cons (x : Ctx) (e : Nat × List Poly) (nb : List (Nat × List Poly)) (p : Poly) :
    LateralPoly x (e :: nb) p ↔ ((e.1 = x.names.length ∨ e.1 = x.inside) ∧ p ∈ e.2) ∨ LateralPoly x nb p := by
  obtain ⟨i, ps⟩ := e
  unfold LateralPoly
  simp only [List.mem_cons, Prod.mk.injEq]
  constructor
  · rintro ⟨qs, (⟨rfl, rfl⟩ | h) | (⟨rfl, rfl⟩ | h), hp⟩
    · exact Or.inl ⟨Or.inl rfl, hp⟩
    · exact Or.inr ⟨qs, Or.inl h, hp⟩
    · exact Or.inl ⟨Or.inr rfl, hp⟩
    · exact Or.inr ⟨qs, Or.inr h, hp⟩
  · rintro (⟨rfl | rfl, hp⟩ | ⟨qs, h | h, hp⟩)
    · exact ⟨ps, Or.inl (Or.inl ⟨rfl, rfl⟩), hp⟩
    · exact ⟨ps, Or.inr (Or.inl ⟨rfl, rfl⟩), hp⟩
    · exact ⟨qs, Or.inl (Or.inr h), hp⟩
    · exact ⟨qs, Or.inr (Or.inr h), hp⟩

theorem update_best (l : Lateral) (hl : Finite l.nearest) (z : ℤ) (p : Poly) :
    ∃ y q, (l.update (some z) p).nearest = some (some y, q) ∧ y ≤ z ∧ (∀ e r, l.nearest = some (some e, r) → y ≤ e) ∧
      ((y = z ∧ q = p) ∨ l.nearest = some (some y, q)) := by
  unfold Lateral.update
  cases h : l.nearest with
  | none => exact ⟨z, p, rfl, le_refl _, by simp, Or.inl ⟨rfl, rfl⟩⟩
  | some n =>
    obtain ⟨y, hy⟩ := hl n h
    obtain ⟨n1, q⟩ := n
    simp only at hy
    subst hy
    simp only [ltInf]
    by_cases hlt : z < y
    · simp only [hlt, decide_true, if_true]
      refine ⟨z, p, rfl, le_refl _, ?_, Or.inl ⟨rfl, rfl⟩⟩
      intro e r he
      simp only [Option.some.injEq, Prod.mk.injEq] at he
      omega
    · simp only [hlt, decide_false, Bool.false_eq_true, if_false]
      refine ⟨y, q, h, by omega, ?_, Or.inr rfl⟩
      intro e r he
      simp only [Option.some.injEq, Prod.mk.injEq] at he
      omega

/-- Result of the lateral loop. -/
theorem lateral_loop (x : Ctx) (hin : x.inside < x.names.length) (edgeNet : String) (iv : ℚ × ℚ)
    (nb : List (Nat × List Poly)) (hnd : (nb.map Prod.fst).Nodup)
    (hne : ∀ e ∈ nb, e.2 ≠ [] ∧ ∀ p ∈ e.2, p.cells.Nonempty) (l l' : Lateral) (hl : Finite l.nearest)
    (h : nb.foldlM (lateralStep x edgeNet iv) l = .ok l') :
    Finite l'.nearest ∧ IsBest x nb l.nearest l'.nearest ∧ ∃ R, l'.recs = l.recs ++ R ∧
      (x.inside ∉ nb.map Prod.fst → R = []) ∧
      ∀ ps, (x.inside, ps) ∈ nb → ∃ d p, Nearest ps d p ∧ emitSidewall x edgeNet iv p = .ok R := by
  induction nb generalizing l with
  | nil =>
    have hll : l' = l := (Except.ok.inj h).symm
    subst hll
    refine ⟨hl, ?_, [], by simp, fun _ => rfl, by simp⟩
    unfold IsBest
    cases hn : l'.nearest with
    | none => exact ⟨rfl, fun p hp => by obtain ⟨ps, hps, _⟩ := hp; simp at hps⟩
    | some n =>
      obtain ⟨z, hz⟩ := hl n hn
      obtain ⟨n1, q⟩ := n
      simp only at hz; subst hz
      refine ⟨z, rfl, Or.inl rfl, ?_, ?_⟩
      · rintro q e ⟨ps, hps, _⟩; simp at hps
      · intro e q he; simp only [Option.some.injEq, Prod.mk.injEq] at he; omega
  | cons e nb ih =>
    rw [List.map_cons, List.nodup_cons] at hnd
    rw [List.foldlM_cons, bind_ok] at h
    obtain ⟨l1, h1, h2⟩ := h
    have hne' := hne e List.mem_cons_self
    -- the two kinds of lateral children are treated alike
    have combine : ∀ (z : ℤ) (p : Poly), Nearest e.2 z p → (e.1 = x.names.length ∨ e.1 = x.inside) →
        l1.nearest = (l.update (some z) p).nearest → Finite l1.nearest ∧
        ∀ r, IsBest x nb l1.nearest r → IsBest x (e :: nb) l.nearest r := by
      intro z p hn hc hl1
      obtain ⟨y, q, hy, hyz, hmin, hcase⟩ := update_best l hl z p
      rw [hy] at hl1
      have hpd : Dist p z := by obtain ⟨_, _, _, hd, _⟩ := hn; exact hd
      have hall : ∀ r ∈ e.2, ∀ d, Dist r d → z ≤ d := by
        obtain ⟨A, B, hAB, hd, hA, hB⟩ := hn
        intro r hr d hrd
        rw [hAB, List.mem_append, List.mem_cons] at hr
        rcases hr with hr | rfl | hr
        · exact le_of_lt (hA r hr d hrd)
        · exact le_of_eq (hd.unique hrd)
        · exact hB r hr d hrd
      refine ⟨fun n hn => by rw [hl1] at hn; cases hn; exact ⟨y, rfl⟩, ?_⟩
      intro r hr
      cases r with
      | none => exact absurd hr.1 (by rw [hl1]; simp)
      | some rp =>
        obtain ⟨d, rp⟩ := rp
        obtain ⟨w, rfl, hor, hA, hB⟩ := hr
        have hwy : w ≤ y := hB y q hl1
        refine ⟨w, rfl, ?_, ?_, ?_⟩
        · rcases hor with ho | ⟨ho, hd⟩
          · rw [hl1] at ho
            simp only [Option.some.injEq, Prod.mk.injEq] at ho
            obtain ⟨rfl, rfl⟩ := ho
            rcases hcase with ⟨rfl, rfl⟩ | hc'
            · exact Or.inr ⟨(lateralPoly_cons _ _ _ _).2 (Or.inl ⟨hc, hn.mem⟩), hpd⟩
            · exact Or.inl hc'
          · exact Or.inr ⟨(lateralPoly_cons _ _ _ _).2 (Or.inr ho), hd⟩
        · intro r d hr hrd
          rcases (lateralPoly_cons _ _ _ _).1 hr with ⟨_, hr⟩ | hr
          · have := hall r hr d hrd; omega
          · exact hA r d hr hrd
        · intro d r hr
          have := hmin d r hr; omega
    unfold lateralStep at h1
    by_cases hc1 : e.1 = x.names.length
    · rw [if_pos hc1, bind_ok] at h1
      obtain ⟨n, hn1, hn2⟩ := h1
      obtain ⟨z, p, hf, hnear⟩ := findNearest_spec e.2 hne'.1 hne'.2
      rw [hf] at hn1
      cases hn1
      have hl1 : l1 = l.update (some z) p := (Except.ok.inj hn2).symm
      obtain ⟨hfin, hcomb⟩ := combine z p hnear (Or.inl hc1) (by rw [hl1])
      obtain ⟨i1, i2, R, i3, i4, i5⟩ := ih hnd.2 (fun e he => hne e (List.mem_cons_of_mem _ he)) l1 hfin h2
      have hrecs : l1.recs = l.recs := by
        rw [hl1]; unfold Lateral.update
        cases l.nearest with
        | none => rfl
        | some n => simp only; split_ifs <;> rfl
      refine ⟨i1, hcomb _ i2, R, by rw [i3, hrecs], ?_, ?_⟩
      · intro hni
        exact i4 (fun hm => hni (by rw [List.map_cons]; exact List.mem_cons_of_mem _ hm))
      · intro ps hps
        rcases List.mem_cons.1 hps with rfl | hps
        · simp only at hc1; omega
        · exact i5 ps hps
    · rw [if_neg hc1] at h1
      by_cases hc2 : x.inside = e.1
      · rw [if_pos hc2, bind_ok] at h1
        obtain ⟨n, hn1, h1⟩ := h1
        rw [bind_ok] at h1
        obtain ⟨r, hr, hn2⟩ := h1
        obtain ⟨z, p, hf, hnear⟩ := findNearest_spec e.2 hne'.1 hne'.2
        rw [hf] at hn1
        cases hn1
        have hl1 : l1 = { l.update (some z) p with recs := l.recs ++ r } := (Except.ok.inj hn2).symm
        obtain ⟨hfin, hcomb⟩ := combine z p hnear (Or.inr hc2.symm) (by rw [hl1])
        obtain ⟨i1, i2, R, i3, i4, i5⟩ := ih hnd.2 (fun e he => hne e (List.mem_cons_of_mem _ he)) l1 hfin h2
        have hni : x.inside ∉ nb.map Prod.fst := by rw [hc2]; exact hnd.1
        have hR := i4 hni
        subst hR
        refine ⟨i1, hcomb _ i2, r, by rw [i3, hl1]; simp, ?_, ?_⟩
        · intro hni'
          exact absurd (by rw [List.map_cons, hc2]; exact List.mem_cons_self) hni'
        · intro ps hps
          rcases List.mem_cons.1 hps with rfl | hps
          · exact ⟨z, p, hnear, hr⟩
          · exact absurd (List.mem_map_of_mem (f := Prod.fst) hps) hni
      · rw [if_neg hc2] at h1
        have hl1 : l = l1 := Except.ok.inj h1
        subst hl1
        obtain ⟨i1, i2, R, i3, i4, i5⟩ := ih hnd.2 (fun e he => hne e (List.mem_cons_of_mem _ he)) l hl h2
        have hlat : ∀ q, LateralPoly x (e :: nb) q ↔ LateralPoly x nb q := by
          intro q
          rw [lateralPoly_cons]
          constructor
          · rintro (⟨h | h, _⟩ | h)
            · exact absurd h hc1
            · exact absurd h.symm hc2
            · exact h
          · exact Or.inr
        refine ⟨i1, ?_, R, i3, ?_, ?_⟩
        · unfold IsBest at i2 ⊢
          simp only [hlat]; exact i2
        · intro hni
          exact i4 (fun hm => hni (by rw [List.map_cons]; exact List.mem_cons_of_mem _ hm))
        · intro ps hps
          rcases List.mem_cons.1 hps with rfl | hps
          · exact absurd rfl hc2
          · exact i5 ps hps

/-! ### The fringe loop -/

theorem fringe_fold (x : Ctx) (k : Kernel) (edgeNet : String) (iv : ℚ × ℚ) (nb0 : Dict Nat (List Poly))
    (lat : Finset Cell) (nb : List (Nat × List Poly)) (acc recs : List Rec)
    (h : nb.foldlM (fringeStep x k edgeNet iv nb0 lat) acc = .ok recs) :
    ∃ out : List (Nat × List Rec), recs = acc ++ out.flatMap Prod.snd ∧
      out.map Prod.fst = (nb.map Prod.fst).filter (fun i => decide (i ≠ x.inside ∧ i < x.names.length)) ∧
      ∀ o ∈ out, ∃ ps, (o.1, ps) ∈ nb ∧
        emitFringe x k (x.names.getD o.1 "") edgeNet iv ps (fringeShield x nb0 lat o.1) = .ok o.2 := by
  induction nb generalizing acc with
  | nil => cases (Except.ok.inj h : acc = recs); exact ⟨[], by simp, rfl, by simp⟩
  | cons e nb ih =>
    rw [List.foldlM_cons, bind_ok] at h
    obtain ⟨acc1, h1, h2⟩ := h
    obtain ⟨out, hr, hk, ho⟩ := ih acc1 h2
    unfold fringeStep at h1
    have skip : ¬ (e.1 ≠ x.inside ∧ e.1 < x.names.length) → acc = acc1 →
        ∃ out : List (Nat × List Rec), recs = acc ++ out.flatMap Prod.snd ∧
        out.map Prod.fst = ((e :: nb).map Prod.fst).filter (fun i => decide (i ≠ x.inside ∧ i < x.names.length)) ∧
        ∀ o ∈ out, ∃ ps, (o.1, ps) ∈ e :: nb ∧
          emitFringe x k (x.names.getD o.1 "") edgeNet iv ps (fringeShield x nb0 lat o.1) = .ok o.2 := by
      rintro hc rfl
      refine ⟨out, hr, ?_, fun o ho' => ?_⟩
      · rw [List.map_cons, List.filter_cons, if_neg (by simpa using hc), hk]
      · obtain ⟨ps, h, h'⟩ := ho o ho'
        exact ⟨ps, List.mem_cons_of_mem _ h, h'⟩
    by_cases c1 : x.inside = e.1
    · rw [if_pos c1] at h1
      exact skip (fun h => h.1 c1.symm) (Except.ok.inj h1)
    · rw [if_neg c1] at h1
      by_cases c2 : e.1 < x.names.length
      · rw [if_pos c2, bind_ok] at h1
        obtain ⟨r, hr1, hr2⟩ := h1
        have : acc1 = acc ++ r := (Except.ok.inj hr2).symm
        subst this
        refine ⟨(e.1, r) :: out, by rw [hr, List.flatMap_cons]; simp, ?_, ?_⟩
        · rw [List.map_cons, List.map_cons, List.filter_cons, if_pos (by simpa using ⟨fun h => c1 h.symm, c2⟩), hk]
        · intro o ho'
          rcases List.mem_cons.1 ho' with rfl | ho'
          · exact ⟨e.2, List.mem_cons_self, hr1⟩
          · obtain ⟨ps, h, h'⟩ := ho o ho'
            exact ⟨ps, List.mem_cons_of_mem _ h, h'⟩
      · rw [if_neg c2] at h1
        exact skip (fun h => c2 h.2) (Except.ok.inj h1)

end Verif.Fringe
