import Verif.Engine25.Plate

/-!
# The capacitance of two crossing wires (C103)
-/

namespace Verif.Engine25

open Overlap (Cell Poly)
open Summary (SamePair RNetwork)
open TechInfo (Tech OverlapIs SideOverlapIs IsLast)
open PexMode (Mode)
open Fringe (law countsAs)

/-! ### Specification -/

/-- The layout has two rectangles: of net `n` on the layer `upper`, over the columns from `a1` to `a2` and the rows from `c1` to `c2`,
and of net `m` on the layer `lower`, over the columns from `b1` to `b2` and the rows from `d1` to `d2`. They cross: both ends of the
one reach beyond the sides of the other. -/
structure Crossing (t : Tech) (x : Context) (halo : ℤ) (upper lower n m : String) (a1 a2 c1 c2 b1 b2 d1 d2 : ℤ) : Prop where
  only : ∀ l p, l ≠ "VSUBS" →
    (PolyOf t x halo l p ↔ (l = upper ∧ p = wire n a1 a2 c1 c2) ∨ (l = lower ∧ p = wire m b1 b2 d1 d2))
  layers : upper ≠ "VSUBS" ∧ lower ≠ "VSUBS" ∧ upper ≠ lower
  above : ∀ names, IsStack t x names → [lower, upper].Sublist names
  nets : n ≠ m ∧ n ≠ "VSUBS" ∧ m ≠ "VSUBS"
  columns : a1 < b1 ∧ b1 < b2 ∧ b2 < a2
  rows : d1 < c1 ∧ c1 < c2 ∧ c2 < d2

/-! ### Proofs -/

variable {t : Tech} {x : Context} {halo depth : ℤ} {upper lower n m : String} {a1 a2 c1 c2 b1 b2 d1 d2 : ℤ}

/-- The places of the two layers in the stack. -/
theorem Crossing.index (h : Crossing t x halo upper lower n m a1 a2 c1 c2 b1 b2 d1 d2) {names : List String} (hs : IsStack t x names) :
    ∃ i j, 0 < i ∧ i < j ∧ j < names.length ∧ names.getD i "" = lower ∧ names.getD j "" = upper := by
  obtain ⟨r1, r2, e, h1, h2⟩ := List.cons_sublist_iff.1 (h.above names hs)
  have h2 : upper ∈ r2 := List.singleton_sublist.1 h2
  obtain ⟨i, hi, ei⟩ := List.mem_iff_getElem.1 h1
  obtain ⟨j, hj, ej⟩ := List.mem_iff_getElem.1 h2
  have hlen : names.length = r1.length + r2.length := by rw [e, List.length_append]
  have gi : names.getD i "" = lower := by
    rw [List.getD_eq_getElem?_getD, e, List.getElem?_append_left hi, List.getElem?_eq_getElem hi, ei]; rfl
  have gj : names.getD (r1.length + j) "" = upper := by
    rw [List.getD_eq_getElem?_getD, e, List.getElem?_append_right (by omega), Nat.add_sub_cancel_left, List.getElem?_eq_getElem hj,
      ej]; rfl
  refine ⟨i, r1.length + j, ?_, by omega, by omega, gi, gj⟩
  rcases Nat.eq_zero_or_pos i with rfl | h0
  · rw [(stack_zero hs).2] at gi
    exact absurd gi.symm h.layers.2.1
  · exact h0

theorem substratePoly_wire (x : Context) (halo : ℤ) : substratePoly x halo =
    wire "" ((topBox x).x1 - halo) ((topBox x).x2 + halo) ((topBox x).y1 - halo) ((topBox x).y2 + halo) := rfl

/-- A layer number is that of the layer name. -/
theorem stack_index {names : List String} (hs : IsStack t x names) {i j : Nat} (hi : i < names.length) (hj : j < names.length)
    (h : names.getD i "" = names.getD j "") : i = j := by
  rw [List.getD_eq_getElem _ _ hi, List.getD_eq_getElem _ _ hj] at h
  exact hs.nodup.getElem_inj_iff.1 h

/-- What lies on the layers. -/
theorem Crossing.regions (h : Crossing t x halo upper lower n m a1 a2 c1 c2 b1 b2 d1 d2) {kl : KLayout} (hkl : Faithful kl)
    (hk : KeepsRect kl) (hsub : ∀ l ∈ t.stack, IsMetal l → ¬ CanonicalIs t l.name "VSUBS") {names : List String}
    (hs : IsStack t x names) {R : List (List Poly)} (hR : Regions kl t x halo names R) {i j : Nat} (hi : 0 < i) (hij : i < j)
    (hj : j < names.length) (hdi : names.getD i "" = lower) (hdj : names.getD j "" = upper) :
    R.getD 0 [] = [substratePoly x halo] ∧ R.getD i [] = [wire m b1 b2 d1 d2] ∧ R.getD j [] = [wire n a1 a2 c1 c2] ∧
    ∀ k, k ≠ 0 → k ≠ i → k ≠ j → ∀ q ∈ R.getD k [], q.cells = ∅ := by
  obtain ⟨h0, h0'⟩ := stack_zero hs
  have hne : lower ≠ upper := by
    intro e
    have := stack_index hs (by omega) hj (hdi.trans (e.trans hdj.symm))
    omega
  have key : ∀ (k : Nat) (m : String) (a b c d : ℤ), k < names.length →
      (∀ p, PolyOf t x halo (names.getD k "") p ↔ p = wire m a b c d) → R.getD k [] = [wire m a b c d] := by
    intro k m a b c d hk' hp
    obtain ⟨ps, hps, hmem⟩ := hR.2 k hk'
    rw [List.getD_eq_getElem?_getD, hps]
    show kl.merged ps = _
    exact hk _ _ _ _ _ ps (List.ne_nil_of_mem ((hmem _).2 ((hp _).2 rfl))) fun p hp' => (hp p).1 ((hmem p).1 hp')
  refine ⟨?_, ?_, ?_, ?_⟩
  · rw [substratePoly_wire]
    refine key 0 _ _ _ _ _ h0 fun p => ?_
    rw [← substratePoly_wire, h0']
    constructor
    · rintro (⟨_, h1, h2⟩ | ⟨l, hl, rs, hg, _⟩)
      · cases p with
        | mk pn pc =>
          obtain rfl : pn = "" := h1
          have : pc = (substratePoly x halo).cells := by
            ext c; rw [mem_substratePoly]; exact h2 c
          rw [this]; rfl
      · exact absurd hg.2.1 (hsub l hl hg.1)
    · rintro rfl
      exact Or.inl ⟨rfl, rfl, fun c => mem_substratePoly x halo c⟩
  · refine key i _ _ _ _ _ (by omega) fun p => ?_
    rw [hdi, h.only _ _ h.layers.2.1]
    constructor
    · rintro (⟨e, _⟩ | ⟨_, e⟩)
      · exact absurd e hne
      · exact e
    · exact fun e => Or.inr ⟨rfl, e⟩
  · refine key j _ _ _ _ _ hj fun p => ?_
    rw [hdj, h.only _ _ h.layers.1]
    constructor
    · rintro (⟨_, e⟩ | ⟨e, _⟩)
      · exact e
      · exact absurd e.symm hne
    · exact fun e => Or.inl ⟨rfl, e⟩
  · intro k hk0 hki hkj q hq
    rw [List.getD_eq_getElem?_getD] at hq
    by_cases hkl' : k < names.length
    · obtain ⟨ps, hps, hmem⟩ := hR.2 k hkl'
      rw [hps] at hq
      rw [Finset.eq_empty_iff_forall_notMem]
      intro c hc
      obtain ⟨p, hp, _⟩ := (hkl.cover ps q.net c).1 ⟨q, hq, rfl, hc⟩
      have hne' : names.getD k "" ≠ "VSUBS" := stack_nonsub hs (by omega) hkl'
      rcases (h.only _ _ hne').1 ((hmem p).1 hp) with ⟨e, _⟩ | ⟨e, _⟩
      · exact hkj (stack_index hs hkl' hj (e.trans hdj.symm))
      · exact hki (stack_index hs hkl' (by omega) (e.trans hdi.symm))
    · rw [List.getElem?_eq_none (by rw [hR.1]; omega)] at hq
      exact absurd hq List.not_mem_nil

/-- The overlap capacitance of the wires: the area in which they cross. -/
theorem Crossing.overlap (h : Crossing t x halo upper lower n m a1 a2 c1 c2 b1 b2 d1 d2) {names : List String} (hs : IsStack t x names)
    (cap : String → String → ℚ) :
    overlapTotal t x halo names cap n m = ((b2 - b1 : ℤ) * x.dbu) * ((c2 - c1 : ℤ) * x.dbu) * cap upper lower / 1000 := by
  obtain ⟨i, j, hi, hij, hj, hdi, hdj⟩ := h.index hs
  obtain ⟨h0, h0'⟩ := stack_zero hs
  obtain ⟨hc1, hc2, hc3⟩ := h.columns
  obtain ⟨hr1, hr2, hr3⟩ := h.rows
  obtain ⟨hnm, hnv, hmv⟩ := h.nets
  have hne : lower ≠ upper := by
    intro e
    have := stack_index hs (by omega) hj (hdi.trans (e.trans hdj.symm))
    omega
  have on0 : ∀ v c, On t x halo (names.getD 0 "") v c → v = "VSUBS" := by
    intro v c
    rw [h0']
    unfold On
    simp +contextual
  have oni : ∀ v c, On t x halo (names.getD i "") v c ↔ v = m ∧ c ∈ Finset.Ico b1 b2 ×ˢ Finset.Ico d1 d2 := by
    intro v c
    rw [hdi]
    unfold On
    constructor
    · rintro (⟨e, _⟩ | ⟨_, p, hp, rfl, hc⟩)
      · exact absurd e h.layers.2.1
      · rcases (h.only _ _ h.layers.2.1).1 hp with ⟨e, _⟩ | ⟨_, rfl⟩
        · exact absurd e hne
        · exact ⟨rfl, hc⟩
    · rintro ⟨rfl, hc⟩
      exact Or.inr ⟨h.layers.2.1, _, (h.only _ _ h.layers.2.1).2 (Or.inr ⟨rfl, rfl⟩), rfl, hc⟩
  have onj : ∀ v c, On t x halo (names.getD j "") v c ↔ v = n ∧ c ∈ Finset.Ico a1 a2 ×ˢ Finset.Ico c1 c2 := by
    intro v c
    rw [hdj]
    unfold On
    constructor
    · rintro (⟨e, _⟩ | ⟨_, p, hp, rfl, hc⟩)
      · exact absurd e h.layers.1
      · rcases (h.only _ _ h.layers.1).1 hp with ⟨_, rfl⟩ | ⟨e, _⟩
        · exact ⟨rfl, hc⟩
        · exact absurd e.symm hne
    · rintro ⟨rfl, hc⟩
      exact Or.inr ⟨h.layers.1, _, (h.only _ _ h.layers.1).2 (Or.inl ⟨rfl, rfl⟩), rfl, hc⟩
  have onk : ∀ k, k < names.length → k ≠ 0 → k ≠ i → k ≠ j → ∀ v c, ¬ On t x halo (names.getD k "") v c := by
    rintro k hk hk0 hki hkj v c (⟨e, _⟩ | ⟨hne', p, hp, _⟩)
    · exact stack_nonsub hs (by omega) hk e
    · rcases (h.only _ _ hne').1 hp with ⟨e, _⟩ | ⟨e, _⟩
      · exact hkj (stack_index hs hk hj (e.trans hdj.symm))
      · exact hki (stack_index hs hk (by omega) (e.trans hdi.symm))
  have f1 : {c | Faces t x halo names i j n m c} = {c : Cell | c ∈ Finset.Ico b1 b2 ×ˢ Finset.Ico c1 c2} := by
    ext c
    simp only [Set.mem_ofPred_eq, Faces, oni, onj, true_and, Finset.mem_product, Finset.mem_Ico]
    constructor
    · rintro ⟨h1, h2, _⟩; exact ⟨h1.1, h2.2⟩
    · intro hc
      refine ⟨⟨hc.1, by omega⟩, ⟨by omega, hc.2⟩, fun k h1 h2 v hv => absurd hv (onk k (by omega) (by omega) (by omega) (by omega) v c)⟩
  -- no other pair of layers has the two nets
  have f3 : ∀ k l, k < l → l < names.length → ∀ a b, (a = n ∧ b = m ∨ a = m ∧ b = n) → (k ≠ i ∨ l ≠ j ∨ a = m) →
      {c | Faces t x halo names k l a b c} = ∅ := by
    intro k l hkl hl a b hab hne'
    ext c
    simp only [Set.mem_ofPred_eq, Set.mem_empty_iff_false, iff_false]
    rintro ⟨h1, h2, _⟩
    have hb : b ≠ "VSUBS" := by rcases hab with ⟨_, rfl⟩ | ⟨_, rfl⟩ <;> assumption
    by_cases hk0 : k = 0
    · subst hk0; exact hb (on0 _ _ h1)
    by_cases hki : k = i
    · subst hki
      obtain ⟨rfl, _⟩ := (oni _ _).1 h1
      by_cases hlj : l = j
      · subst hlj
        obtain ⟨rfl, _⟩ := (onj _ _).1 h2
        rcases hne' with h | h | h
        · exact h rfl
        · exact h rfl
        · exact hnm h
      · exact onk l hl (by omega) (by omega) hlj _ _ h2
    · by_cases hkj : k = j
      · subst hkj
        exact onk l hl (by omega) (by omega) (by omega) _ _ h2
      · exact onk k (by omega) hk0 hki hkj _ _ h1
  unfold overlapTotal
  rw [Finset.sum_eq_single i]
  · rw [Finset.sum_eq_single j]
    · rw [f1, f3 i j hij hj m n (Or.inr ⟨rfl, rfl⟩) (Or.inr (Or.inr rfl)), ncard_plate _ _ _ _ (by omega) (by omega), hdi, hdj]
      simp only [Set.ncard_empty]
      push_cast
      ring
    · intro l hl hlj
      simp only [Finset.mem_filter, Finset.mem_range] at hl
      rw [f3 i l hl.2 hl.1 n m (Or.inl ⟨rfl, rfl⟩) (Or.inr (Or.inl hlj)), f3 i l hl.2 hl.1 m n (Or.inr ⟨rfl, rfl⟩) (Or.inr (Or.inl hlj))]
      simp
    · intro hnot
      exact absurd (Finset.mem_filter.2 ⟨Finset.mem_range.2 hj, hij⟩) hnot
  · intro k hk hki
    refine Finset.sum_eq_zero fun l hl => ?_
    simp only [Finset.mem_filter, Finset.mem_range] at hl
    rw [f3 k l hl.2 hl.1 n m (Or.inl ⟨rfl, rfl⟩) (Or.inl hki), f3 k l hl.2 hl.1 m n (Or.inr ⟨rfl, rfl⟩) (Or.inl hki)]
    simp
  · intro hnot
    exact absurd (Finset.mem_range.2 (by omega)) hnot

/-- The cells seen from an edge, if they form a box. -/
theorem sum_box {P : ℤ → ℤ → Prop} [∀ u w, Decidable (P u w)] {f : ℤ → ℝ} {lo hi len far : ℤ} (hlo : 1 ≤ lo) (hhi : hi ≤ len - 1)
    (h : ∀ u w, 1 ≤ u → u < len - 1 → 1 ≤ w → w < depth → (P u w ↔ (lo ≤ u ∧ u < hi) ∧ w < far)) :
    (∑ u ∈ Finset.Ico 1 (len - 1), ∑ w ∈ Finset.Ico 1 depth, if P u w then f w else 0) =
      ∑ _u ∈ Finset.Ico lo hi, ∑ w ∈ Finset.Ico 1 (min depth far), f w := by
  have e1 : Finset.Ico lo hi = (Finset.Ico 1 (len - 1)).filter fun u => lo ≤ u ∧ u < hi := by
    ext u; simp only [Finset.mem_Ico, Finset.mem_filter]; omega
  have e2 : Finset.Ico 1 (min depth far) = (Finset.Ico 1 depth).filter (· < far) := by
    ext w; simp only [Finset.mem_Ico, Finset.mem_filter]; omega
  rw [e1, e2, Finset.sum_filter]
  refine Finset.sum_congr rfl fun u hu => ?_
  rw [Finset.mem_Ico] at hu
  by_cases hin : lo ≤ u ∧ u < hi
  · rw [if_pos hin, Finset.sum_filter]
    refine Finset.sum_congr rfl fun w hw => ?_
    rw [Finset.mem_Ico] at hw
    exact if_congr ((h u w hu.1 hu.2 hw.1 hw.2).trans (and_iff_right hin)) rfl rfl
  · rw [if_neg hin]
    refine Finset.sum_eq_zero fun w hw => ?_
    rw [Finset.mem_Ico] at hw
    exact if_neg fun hp => hin ((h u w hu.1 hu.2 hw.1 hw.2).1 hp).1

open Classical in
/-- What an edge of one wire sees of the other. -/
theorem seen_other {R : List (List Poly)} {names : List String} {k0 k1 : Nat} {p0 p1 : Poly} {s : Side} {a b : String}
    (r0 : R.getD k0 [] = [p0]) (r1 : R.getD k1 [] = [p1]) (hk1 : k1 < names.length) (h01 : k0 ≠ k1)
    (hk0 : 0 < k0) (hk1' : 0 < k1) (rk : ∀ k, k ≠ 0 → k ≠ k0 → k ≠ k1 → ∀ q ∈ R.getD k [], q.cells = ∅)
    (hz : names.getD 0 "" = "VSUBS") (hv0 : names.getD k0 "" ≠ "VSUBS") (hv1 : names.getD k1 "" ≠ "VSUBS")
    (hpair : SamePair p0.net p1.net a b) (ha : a ≠ "VSUBS") (hb : b ≠ "VSUBS") (hout : ∀ u w, 1 ≤ w → s.cell u w ∉ p0.cells)
    (dbu side : ℚ) (scale : Bool) (cov cs : String → String → ℚ) :
    seenTotal R names dbu side scale cov cs depth k0 s p0.net a b =
      ∑ u ∈ Finset.Ico 1 (s.len - 1), ∑ w ∈ Finset.Ico 1 depth, if s.cell u w ∈ p1.cells then
        law scale side dbu (cov (names.getD k0 "") (names.getD k1 "")) (cs (names.getD k0 "") (names.getD k1 "")) 1 w (w + 1)
      else 0 := by
  unfold seenTotal
  rw [Finset.sum_eq_single k1]
  · refine Finset.sum_congr rfl fun u _ => Finset.sum_congr rfl fun w hw => ?_
    rw [Finset.mem_Ico] at hw
    refine if_congr ⟨?_, ?_⟩ rfl rfl
    · rintro ⟨v, ⟨⟨q, hq, _, hc⟩, _⟩, _⟩
      rw [r1] at hq
      obtain rfl := List.mem_singleton.1 hq
      exact hc
    · intro hc
      refine ⟨p1.net, ⟨⟨p1, by rw [r1]; exact List.mem_singleton_self _, rfl, hc⟩, ?_, ?_⟩, ?_⟩
      · intro w' h1 _ q hq
        rw [r0] at hq
        obtain rfl := List.mem_singleton.1 hq
        exact hout u w' h1
      · intro k hk q hq
        rw [rk k (by omega) (by omega) (by omega) q hq]
        exact Finset.notMem_empty _
      · unfold countsAs
        rw [if_neg hv0, if_neg hv1]
        exact hpair
  · intro k hk hkk
    simp only [Finset.mem_filter, Finset.mem_range] at hk
    refine Finset.sum_eq_zero fun u _ => Finset.sum_eq_zero fun w _ => ?_
    rw [if_neg]
    rintro ⟨v, ⟨⟨q, hq, _, hc⟩, _⟩, hsp⟩
    by_cases h0 : k = 0
    · subst h0
      rw [hz] at hsp
      have e : countsAs "VSUBS" v = "VSUBS" := if_pos rfl
      rw [e] at hsp
      rcases hsp with ⟨_, e⟩ | ⟨_, e⟩
      · exact hb e.symm
      · exact ha e.symm
    · rw [rk k h0 hk.2 hkk q hq] at hc
      exact Finset.notMem_empty _ hc
  · intro hnot
    exact absurd (Finset.mem_filter.2 ⟨Finset.mem_range.2 hk1, fun e => h01 e.symm⟩) hnot

/-- The sidewall and fringe capacitance of the wires: there is no sidewall, and the two long edges of each wire see the other one. -/
theorem Crossing.edges (h : Crossing t x halo upper lower n m a1 a2 c1 c2 b1 b2 d1 d2) {kl : KLayout} (hkl : Faithful kl)
    (hk : KeepsRect kl) (hsub : ∀ l ∈ t.stack, IsMetal l → ¬ CanonicalIs t l.name "VSUBS") {names : List String}
    (hs : IsStack t x names) {R : List (List Poly)} (hR : Regions kl t x halo names R) (hdep : 1 ≤ depth)
    (sides : Nat → List (Poly × Side)) (hall : ∀ i < names.length, AllSides (R.getD i []) (sides i)) (dbu side : ℚ) (scale : Bool)
    (C off : String → ℚ) (cov cs : String → String → ℚ) :
    wallTotal R names dbu depth C off sides n m = 0 ∧
    fringeTotal R names dbu side scale cov cs depth sides n m =
      law scale side dbu (cov upper lower) (cs upper lower) (b2 - b1 : ℤ) 1 (min depth (d2 - c2) : ℤ) +
      law scale side dbu (cov upper lower) (cs upper lower) (b2 - b1 : ℤ) 1 (min depth (c1 - d1) : ℤ) +
      law scale side dbu (cov lower upper) (cs lower upper) (c2 - c1 : ℤ) 1 (min depth (a2 - b2) : ℤ) +
      law scale side dbu (cov lower upper) (cs lower upper) (c2 - c1 : ℤ) 1 (min depth (b1 - a1) : ℤ) := by
  classical
  obtain ⟨i, j, hi, hij, hj, hdi, hdj⟩ := h.index hs
  obtain ⟨h0, h0'⟩ := stack_zero hs
  obtain ⟨r0, ri, rj, rk⟩ := h.regions hkl hk hsub hs hR hi hij hj hdi hdj
  obtain ⟨hc1, hc2, hc3⟩ := h.columns
  obtain ⟨hr1, hr2, hr3⟩ := h.rows
  obtain ⟨hnm, hnv, hmv⟩ := h.nets
  have one : ∀ k p q, p ∈ R.getD k [] → q ∈ R.getD k [] → p.cells.Nonempty → q.cells.Nonempty → p = q := by
    intro k p q hp hq hpc hqc
    by_cases hk0 : k = 0
    · subst hk0; rw [r0] at hp hq; rw [List.mem_singleton.1 hp, List.mem_singleton.1 hq]
    by_cases hki : k = i
    · subst hki; rw [ri] at hp hq; rw [List.mem_singleton.1 hp, List.mem_singleton.1 hq]
    by_cases hkj : k = j
    · subst hkj; rw [rj] at hp hq; rw [List.mem_singleton.1 hp, List.mem_singleton.1 hq]
    rw [rk k hk0 hki hkj p hp] at hpc
    exact absurd hpc Finset.not_nonempty_empty
  have sperm : ∀ k v x1 x2 y1 y2, k < names.length → R.getD k [] = [wire v x1 x2 y1 y2] → x1 < x2 → y1 < y2 →
      (sides k).Perm ((boxSides x1 y1 x2 y2).map fun s => (wire v x1 x2 y1 y2, s)) := by
    intro k v x1 x2 y1 y2 hk' hr hx hy
    rw [List.perm_ext_iff_of_nodup (hall k hk').nodup]
    · rintro ⟨p, s⟩
      rw [(hall k hk').mem, hr]
      simp only [List.mem_singleton, List.mem_map, Prod.mk.injEq]
      constructor
      · rintro ⟨rfl, h2⟩
        exact ⟨s, (box_sides hx hy s).1 h2, rfl, rfl⟩
      · rintro ⟨s', h2, rfl, rfl⟩
        exact ⟨rfl, (box_sides hx hy _).2 h2⟩
    · simp [boxSides]
  constructor
  · rw [wall_layers]
    refine Finset.sum_eq_zero fun k hk' => ?_
    rw [Finset.mem_range] at hk'
    rw [List.sum_eq_zero]
    intro v hv
    obtain ⟨⟨p, s⟩, hps, rfl⟩ := List.mem_map.1 hv
    refine edgeWall_none fun u w hw q hq hqp hc => ?_
    have hp := ((hall k hk').mem p s).1 hps
    exact hqp (one k q p hq hp.1 ⟨_, hc⟩ ⟨_, (hp.2.2.1 0 le_rfl hp.2.1).1⟩)
  · unfold fringeTotal
    have hvi : names.getD i "" ≠ "VSUBS" := by rw [hdi]; exact h.layers.2.1
    have hvj : names.getD j "" ≠ "VSUBS" := by rw [hdj]; exact h.layers.1
    have seenJ := fun (s : Side) (hsb : s ∈ boxSides a1 c1 a2 c2) => seen_other (depth := depth) (s := s) (a := n) (b := m) rj ri
      (show i < names.length by omega) (by omega) (by omega) hi (fun k e1 e2 e3 => rk k e1 e3 e2) h0' hvj hvi (Or.inl ⟨rfl, rfl⟩) hnv hmv
      (fun u w hw => outside_box hsb u hw) dbu side scale cov cs
    have seenI := fun (s : Side) (hsb : s ∈ boxSides b1 d1 b2 d2) => seen_other (depth := depth) (s := s) (a := n) (b := m) ri rj
      hj (by omega) hi (by omega) (fun k e1 e2 e3 => rk k e1 e2 e3) h0' hvi hvj (Or.inr ⟨rfl, rfl⟩) hnv hmv
      (fun u w hw => outside_box hsb u hw) dbu side scale cov cs
    have e1 : (1 : ℝ) = ((1 : ℤ) : ℝ) := by norm_num
    -- an edge that sees a box
    have box : ∀ (s : Side) (q : Finset Cell) (C1 C2 : ℚ) (lo hi far : ℤ), 1 ≤ lo → lo ≤ hi → hi ≤ s.len - 1 → 1 ≤ far →
        (∀ u w, 1 ≤ u → u < s.len - 1 → 1 ≤ w → w < depth → (s.cell u w ∈ q ↔ (lo ≤ u ∧ u < hi) ∧ w < far)) →
        (∑ u ∈ Finset.Ico 1 (s.len - 1), ∑ w ∈ Finset.Ico 1 depth, if s.cell u w ∈ q then law scale side dbu C1 C2 1 w (w + 1) else 0) =
          law scale side dbu C1 C2 (hi - lo : ℤ) 1 (min depth far : ℤ) := by
      intro s q C1 C2 lo hi far h1 h2 h3 h4 hq
      have hl := law_cells scale side dbu C1 C2 lo hi 1 (min depth far) h2 (by omega)
      rw [← e1] at hl
      rw [hl]
      have := sum_box (depth := depth) (P := fun u w => s.cell u w ∈ q) (f := fun w => law scale side dbu C1 C2 1 w (w + 1)) h1 h3 hq
      exact this
    have none' : ∀ (s : Side) (q : Finset Cell) (C1 C2 : ℚ),
        (∀ u w, 1 ≤ u → u < s.len - 1 → 1 ≤ w → w < depth → s.cell u w ∉ q) →
        (∑ u ∈ Finset.Ico 1 (s.len - 1), ∑ w ∈ Finset.Ico 1 depth, if s.cell u w ∈ q then law scale side dbu C1 C2 1 w (w + 1) else 0) = 0 := by
      intro s q C1 C2 hq
      refine Finset.sum_eq_zero fun u hu => Finset.sum_eq_zero fun w hw => ?_
      rw [Finset.mem_Ico] at hu hw
      exact if_neg (hq u w hu.1 hu.2 hw.1 hw.2)
    have hJ : ((sides j).map fun ps => seenTotal R names dbu side scale cov cs depth j ps.2 ps.1.net n m).sum =
        law scale side dbu (cov upper lower) (cs upper lower) (b2 - b1 : ℤ) 1 (min depth (d2 - c2) : ℤ) +
        law scale side dbu (cov upper lower) (cs upper lower) (b2 - b1 : ℤ) 1 (min depth (c1 - d1) : ℤ) := by
      rw [((sperm j n a1 a2 c1 c2 hj rj (by omega) (by omega)).map _).sum_eq, List.map_map]
      have g1 := (seenJ ⟨a1, c2, .right, a2 - a1⟩ (by simp [boxSides])).trans (box _ _ _ _ (b1 - a1) (b2 - a1) (d2 - c2) (by omega) (by omega)
        (by dsimp only; omega) (by omega) (by
          intro u w h1 h2 h3 h4
          dsimp only at h2
          simp only [Side.cell, wire, Finset.mem_product, Finset.mem_Ico]
          omega))
      have g2 := (seenJ ⟨a2, c2, .down, c2 - c1⟩ (by simp [boxSides])).trans (none' _ _ _ _ (by
          intro u w h1 h2 h3 h4
          dsimp only at h2
          simp only [Side.cell, wire, Finset.mem_product, Finset.mem_Ico]
          omega))
      have g3 := (seenJ ⟨a2, c1, .left, a2 - a1⟩ (by simp [boxSides])).trans (box _ _ _ _ (a2 - b2) (a2 - b1) (c1 - d1) (by omega) (by omega)
        (by dsimp only; omega) (by omega) (by
          intro u w h1 h2 h3 h4
          dsimp only at h2
          simp only [Side.cell, wire, Finset.mem_product, Finset.mem_Ico]
          omega))
      have g4 := (seenJ ⟨a1, c1, .up, c2 - c1⟩ (by simp [boxSides])).trans (none' _ _ _ _ (by
          intro u w h1 h2 h3 h4
          dsimp only at h2
          simp only [Side.cell, wire, Finset.mem_product, Finset.mem_Ico]
          omega))
      simp only [boxSides, List.map_cons, List.map_nil, List.sum_cons, List.sum_nil, add_zero, Function.comp]
      rw [g1, g2, g3, g4, hdi, hdj]
      rw [show b2 - a1 - (b1 - a1) = b2 - b1 by ring, show a2 - b1 - (a2 - b2) = b2 - b1 by ring]
      ring
    have hI : ((sides i).map fun ps => seenTotal R names dbu side scale cov cs depth i ps.2 ps.1.net n m).sum =
        law scale side dbu (cov lower upper) (cs lower upper) (c2 - c1 : ℤ) 1 (min depth (a2 - b2) : ℤ) +
        law scale side dbu (cov lower upper) (cs lower upper) (c2 - c1 : ℤ) 1 (min depth (b1 - a1) : ℤ) := by
      rw [((sperm i m b1 b2 d1 d2 (by omega) ri (by omega) (by omega)).map _).sum_eq, List.map_map]
      have g1 := (seenI ⟨b1, d2, .right, b2 - b1⟩ (by simp [boxSides])).trans (none' _ _ _ _ (by
          intro u w h1 h2 h3 h4
          dsimp only at h2
          simp only [Side.cell, wire, Finset.mem_product, Finset.mem_Ico]
          omega))
      have g2 := (seenI ⟨b2, d2, .down, d2 - d1⟩ (by simp [boxSides])).trans (box _ _ _ _ (d2 - c2) (d2 - c1) (a2 - b2) (by omega) (by omega)
        (by dsimp only; omega) (by omega) (by
          intro u w h1 h2 h3 h4
          dsimp only at h2
          simp only [Side.cell, wire, Finset.mem_product, Finset.mem_Ico]
          omega))
      have g3 := (seenI ⟨b2, d1, .left, b2 - b1⟩ (by simp [boxSides])).trans (none' _ _ _ _ (by
          intro u w h1 h2 h3 h4
          dsimp only at h2
          simp only [Side.cell, wire, Finset.mem_product, Finset.mem_Ico]
          omega))
      have g4 := (seenI ⟨b1, d1, .up, d2 - d1⟩ (by simp [boxSides])).trans (box _ _ _ _ (c1 - d1) (c2 - d1) (b1 - a1) (by omega) (by omega)
        (by dsimp only; omega) (by omega) (by
          intro u w h1 h2 h3 h4
          dsimp only at h2
          simp only [Side.cell, wire, Finset.mem_product, Finset.mem_Ico]
          omega))
      simp only [boxSides, List.map_cons, List.map_nil, List.sum_cons, List.sum_nil, add_zero, Function.comp]
      rw [g1, g2, g3, g4, hdi, hdj]
      rw [show d2 - c1 - (d2 - c2) = c2 - c1 by ring, show c2 - d1 - (c1 - d1) = c2 - c1 by ring]
      ring
    have hother : ∀ k, k < names.length → k ≠ i → k ≠ j →
        ((sides k).map fun ps => seenTotal R names dbu side scale cov cs depth k ps.2 ps.1.net n m).sum = 0 := by
      intro k hk' hki hkj
      rw [List.sum_eq_zero]
      intro v hv
      obtain ⟨⟨p, s⟩, hps, rfl⟩ := List.mem_map.1 hv
      obtain ⟨h1, h2, h3, _⟩ := ((hall k hk').mem p s).1 hps
      by_cases hk0 : k = 0
      · subst hk0
        unfold seenTotal
        refine Finset.sum_eq_zero fun l _ => Finset.sum_eq_zero fun u _ => Finset.sum_eq_zero fun w _ => ?_
        rw [if_neg]
        rintro ⟨v, _, hsp⟩
        rw [h0'] at hsp
        have e : countsAs "VSUBS" p.net = "VSUBS" := if_pos rfl
        dsimp only at hsp
        rw [e] at hsp
        rcases hsp with ⟨e, _⟩ | ⟨e, _⟩
        · exact hnv e.symm
        · exact hmv e.symm
      · have := (h3 0 le_rfl h2).1
        rw [rk k hk0 hki hkj p h1] at this
        exact absurd this (Finset.notMem_empty _)
    have hsum : ∀ f : Nat → ℝ, (∀ k, k < names.length → k ≠ i → k ≠ j → f k = 0) → ∑ k ∈ Finset.range names.length, f k = f j + f i := by
      intro f hf
      rw [← Finset.sum_subset (s₁ := {j, i})]
      · exact Finset.sum_pair (by omega)
      · intro k hk'
        simp only [Finset.mem_insert, Finset.mem_singleton] at hk'
        rw [Finset.mem_range]; omega
      · intro k h1 h2
        simp only [Finset.mem_insert, Finset.mem_singleton, not_or] at h2
        exact hf k (Finset.mem_range.1 h1) h2.2 h2.1
    rw [hsum _ hother, hJ, hI]
    ring

/-- **C103.** Two wires that cross on two layers, with nothing else but the substrate: the capacitance between them is the area in
which they cross times the capacitance per area, plus for each wire its width times the fringe capacitance per length of the other
wire's two edges, as far as it reaches beyond them and at most to the halo; up to the relative rounding `ε` of the fringe capacitances
and 0.0001 fF for each of the `N` rectangles that are seen. -/
theorem crossing_netlist (kl : KLayout) (hkl : Faithful kl) (hrect : KeepsRect kl) (hk : Fringe.KernelOK kl.kernel)
    (hkb : Fringe.KernelBands kl.kernel) (cf : String → String) (t : Tech) (x : Context) (mode : Mode)
    (hmode : mode = .CC ∨ mode = .RC) (scale : Bool) (halo : ℤ) (res : Except String (List RNetwork))
    (c c' : Netlist.Circuit) (bb : Bool) (hrun : run kl cf t x mode scale halo res c bb = .ok c')
    (hno : ∀ d ∈ c.devices, d.clsName ≠ "C") (upper lower n m : String) (a1 a2 c1 c2 b1 b2 d1 d2 : ℤ)
    (hcross : Crossing t x halo upper lower n m a1 a2 c1 c2 b1 b2 d1 d2)
    (hsub : ∀ l ∈ t.stack, IsMetal l → ¬ CanonicalIs t l.name "VSUBS")
    (hnn : Overlap.NonNeg t.parasitics) (cap : String → String → ℚ)
    (hspec : ∀ names, IsStack t x names → ∀ i j, i < j → j < names.length →
      ∃ s, OverlapIs t.parasitics (names.getD j "") (names.getD i "") s ∧ s.cap = cap (names.getD j "") (names.getD i ""))
    (hdbu : 0 < x.dbu) (hdbu' : x.dbu ≤ 10) (depth : ℤ) (hdepth : depth = ⌊t.parasitics.sideHalo / x.dbu⌋ + 1)
    (hvis : ∀ names R, IsStack t x names → Regions kl t x halo names R → ∀ i < names.length,
      ∃ sides, Visits R i depth sides (kl.edges R i))
    (C off : String → ℚ) (hC : ∀ layer s, IsLast (fun s => s.layer = layer) t.parasitics.sidewalls s →
      s.cap = C layer ∧ s.offset = off layer)
    (cov cs : String → String → ℚ)
    (hcov : ∀ inside outside o, Fringe.PairSpec t.parasitics inside outside o → o.cap = cov inside outside)
    (hcs : ∀ inside outside s, SideOverlapIs t.parasitics inside outside s → s.cap = cs inside outside)
    (hcov0 : ∀ inside outside, 0 ≤ cov inside outside) (hcs0 : ∀ inside outside, 0 ≤ cs inside outside)
    (hhalo : 0 ≤ t.parasitics.sideHalo) (ε : ℝ) (hε : 0 ≤ ε) (hrnd : ∀ r, 1 / 10000 < r → |(kl.rnd r : ℝ) - r| ≤ ε * r) :
    ∃ (names : List String) (R : List (List Poly)) (sides : Nat → List (Poly × Side)) (views : Nat → Poly × Side → List View)
      (N : Nat) (A : ℚ) (F : ℝ),
      IsStack t x names ∧ Regions kl t x halo names R ∧ (∀ i < names.length, AllSides (R.getD i []) (sides i)) ∧
      (∀ i < names.length, ∀ ps ∈ sides i, Views R names i ps.1 ps.2 depth (views i ps)) ∧
      N = ∑ i ∈ Finset.range names.length, ((sides i).map fun ps => (views i ps).length).sum ∧
      A = ((b2 - b1 : ℤ) * x.dbu) * ((c2 - c1 : ℤ) * x.dbu) * cap upper lower / 1000 ∧
      F = law scale t.parasitics.sideHalo x.dbu (cov upper lower) (cs upper lower) (b2 - b1 : ℤ) 1 (min depth (d2 - c2) : ℤ) +
        law scale t.parasitics.sideHalo x.dbu (cov upper lower) (cs upper lower) (b2 - b1 : ℤ) 1 (min depth (c1 - d1) : ℤ) +
        law scale t.parasitics.sideHalo x.dbu (cov lower upper) (cs lower upper) (c2 - c1 : ℤ) 1 (min depth (a2 - b2) : ℤ) +
        law scale t.parasitics.sideHalo x.dbu (cov lower upper) (cs lower upper) (c2 - c1 : ℤ) 1 (min depth (b1 - a1) : ℤ) ∧
      |(Rcx25Netlist.parasiticCap c' n m : ℝ) - (A + F)| ≤ ε * F + N / 10000 := by
  have hshort : NoShorts t x halo := by
    intro l p q hp hq e hpe hqe
    by_cases hl : l = "VSUBS"
    · subst hl
      have key : ∀ p, PolyOf t x halo "VSUBS" p → p.net = "" := by
        rintro p (⟨_, h1, _⟩ | ⟨l, hl, rs, hg, _⟩)
        · exact h1
        · exact absurd hg.2.1 (hsub l hl hg.1)
      rw [key p hp, key q hq]
    · rcases (hcross.only _ _ hl).1 hp with ⟨e1, rfl⟩ | ⟨e1, rfl⟩ <;> rcases (hcross.only _ _ hl).1 hq with ⟨e2, rfl⟩ | ⟨e2, rfl⟩
      · rfl
      · exact absurd (e1.symm.trans e2) hcross.layers.2.2
      · exact absurd (e2.symm.trans e1) hcross.layers.2.2
      · rfl
  obtain ⟨names, R, sides, views, N, hs, hR, hall, hviews, hN, hfin⟩ := netlist_cells kl hkl hk hkb cf t x mode hmode scale halo res c c'
    bb hrun hno hshort hsub hnn cap hspec hdbu hdbu' depth hdepth hvis C off hC cov cs hcov hcs hcov0 hcs0 hhalo ε hε hrnd
  have hdep : 1 ≤ depth := by
    have : 0 ≤ ⌊t.parasitics.sideHalo / x.dbu⌋ := Int.floor_nonneg.2 (div_nonneg hhalo hdbu.le)
    omega
  have hf := hfin n m hcross.nets.1
  obtain ⟨hw, hfr⟩ := hcross.edges hkl hrect hsub hs hR hdep sides hall x.dbu t.parasitics.sideHalo scale C off cov cs
  rw [hcross.overlap hs, hw, hfr] at hf
  refine ⟨names, R, sides, views, N, _, _, hs, hR, hall, hviews, hN, rfl, rfl, ?_⟩
  simpa using hf

end Verif.Engine25
