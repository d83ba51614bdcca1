import Verif.Engine25.Wires

/-!
# The capacitance of a plate over the substrate (C96)
-/

namespace Verif.Engine25

open Overlap (Cell Poly)
open Summary (SamePair RNetwork)
open TechInfo (Tech OverlapIs SideOverlapIs IsLast)
open PexMode (Mode)
open Fringe (law countsAs)

/-! ### Specification -/

/-- The layout has a single rectangle, of net `n` on the layer `layer`, at least two units wide and high, which is also its bounding
box: the substrate reaches beyond it by the halo. -/
structure Plate (t : Tech) (x : Context) (halo : ℤ) (layer n : String) (x1 x2 y1 y2 : ℤ) : Prop where
  only : ∀ m p, m ≠ "VSUBS" → (PolyOf t x halo m p ↔ m = layer ∧ p = wire n x1 x2 y1 y2)
  layer : layer ≠ "VSUBS"
  net : n ≠ "VSUBS"
  wide : x1 + 1 < x2
  high : y1 + 1 < y2
  box : ∀ b : Box, b = x.annotated ∨ b = x.internal → b = ⟨x1, y1, x2, y2⟩

/-- Merging does not change a rectangle, however often it is drawn. -/
def KeepsRect (kl : KLayout) : Prop :=
  ∀ n x1 x2 y1 y2 ps, ps ≠ [] → (∀ p ∈ ps, p = wire n x1 x2 y1 y2) → kl.merged ps = [wire n x1 x2 y1 y2]

/-! ### Proofs -/

theorem ncard_plate (x1 x2 y1 y2 : ℤ) (hx : x1 ≤ x2) (hy : y1 ≤ y2) :
    (Set.ncard {c : Cell | c ∈ Finset.Ico x1 x2 ×ˢ Finset.Ico y1 y2} : ℚ) = ((x2 - x1) * (y2 - y1) : ℤ) := by
  have : {c : Cell | c ∈ Finset.Ico x1 x2 ×ˢ Finset.Ico y1 y2} = ↑(Finset.Ico x1 x2 ×ˢ Finset.Ico y1 y2) := rfl
  rw [this, Set.ncard_coe_finset, Finset.card_product, Int.card_Ico, Int.card_Ico]
  push_cast
  have h1 : (((x2 - x1).toNat : ℤ) : ℚ) = ((x2 - x1 : ℤ) : ℚ) := by rw [Int.toNat_of_nonneg (by omega)]
  have h2 : (((y2 - y1).toNat : ℤ) : ℚ) = ((y2 - y1 : ℤ) : ℚ) := by rw [Int.toNat_of_nonneg (by omega)]
  push_cast at h1 h2
  rw [h1, h2]

variable {t : Tech} {x : Context} {halo depth : ℤ} {layer n : String} {x1 x2 y1 y2 : ℤ}

theorem Plate.exists (h : Plate t x halo layer n x1 x2 y1 y2) : PolyOf t x halo layer (wire n x1 x2 y1 y2) :=
  (h.only _ _ h.layer).2 ⟨rfl, rfl⟩

theorem Plate.index (h : Plate t x halo layer n x1 x2 y1 y2) {names : List String} (hs : IsStack t x names) :
    ∃ i, 0 < i ∧ i < names.length ∧ names.getD i "" = layer := by
  have hm : layer ∈ names := by
    rw [hs.mem]
    rcases h.exists with ⟨e, _⟩ | ⟨l, hl, rs, hg, _⟩
    · exact absurd e h.layer
    · exact Or.inr ⟨l, hl, rs, hg⟩
  obtain ⟨i, hi, e⟩ := List.mem_iff_getElem.1 hm
  have hd : names.getD i "" = layer := by rw [List.getD_eq_getElem _ _ hi, e]
  refine ⟨i, ?_, hi, hd⟩
  rcases Nat.eq_zero_or_pos i with rfl | h0
  · exfalso
    have := hs.head
    rw [List.head?_eq_getElem?, List.getElem?_eq_getElem hi, e] at this
    exact h.layer (Option.some.inj this)
  · exact h0

theorem stack_zero {names : List String} (hs : IsStack t x names) : 0 < names.length ∧ names.getD 0 "" = "VSUBS" := by
  have h := hs.head
  cases names with
  | nil => simp at h
  | cons a l => exact ⟨by simp, by simpa using h⟩

theorem Plate.substrate (h : Plate t x halo layer n x1 x2 y1 y2) :
    substratePoly x halo = wire "" (x1 - halo) (x2 + halo) (y1 - halo) (y2 + halo) := by
  unfold substratePoly topBox
  rw [h.box _ (Or.inl rfl), h.box _ (Or.inr rfl)]
  simp only [ite_self]
  rfl

theorem Plate.ground (h : Plate t x halo layer n x1 x2 y1 y2) (c : Cell) : InSubstrate x halo c ↔
    c ∈ Finset.Ico (x1 - halo) (x2 + halo) ×ˢ Finset.Ico (y1 - halo) (y2 + halo) := by
  rw [← mem_substratePoly, h.substrate]
  rfl

/-- What lies on the layers. -/
theorem Plate.regions (h : Plate t x halo layer n x1 x2 y1 y2) {kl : KLayout} (hkl : Faithful kl) (hk : KeepsRect kl)
    (hsub : ∀ l ∈ t.stack, IsMetal l → ¬ CanonicalIs t l.name "VSUBS") {names : List String} (hs : IsStack t x names)
    {R : List (List Poly)} (hR : Regions kl t x halo names R) {i : Nat} (hi : 0 < i) (hi' : i < names.length)
    (hd : names.getD i "" = layer) :
    R.getD 0 [] = [substratePoly x halo] ∧ R.getD i [] = [wire n x1 x2 y1 y2] ∧
    ∀ j, j ≠ 0 → j ≠ i → ∀ q ∈ R.getD j [], q.cells = ∅ := by
  obtain ⟨h0, h0'⟩ := stack_zero hs
  have key : ∀ (j : Nat) (m : String) (a b c d : ℤ), j < names.length →
      (∀ p, PolyOf t x halo (names.getD j "") p ↔ p = wire m a b c d) → R.getD j [] = [wire m a b c d] := by
    intro j m a b c d hj hp
    obtain ⟨ps, hps, hmem⟩ := hR.2 j hj
    rw [List.getD_eq_getElem?_getD, hps]
    show kl.merged ps = _
    refine hk _ _ _ _ _ ps (List.ne_nil_of_mem ((hmem _).2 ((hp _).2 rfl))) fun p hp' => (hp p).1 ((hmem p).1 hp')
  refine ⟨?_, ?_, ?_⟩
  · rw [h.substrate]
    refine key 0 _ _ _ _ _ h0 fun p => ?_
    rw [← h.substrate, h0']
    constructor
    · rintro (⟨_, h1, h2⟩ | ⟨l, hl, rs, hg, _⟩)
      · cases p with
        | mk pn pc =>
          obtain rfl : pn = "" := h1
          have : pc = (substratePoly x halo).cells := by
            ext c; rw [mem_substratePoly]; exact h2 c
          rw [this]; rfl
      · exact absurd hg.2.1 (hsub l hl hg.1)
    · rintro rfl
      exact Or.inl ⟨rfl, rfl, fun c => mem_substratePoly x halo c⟩
  · refine key i _ _ _ _ _ hi' fun p => ?_
    rw [hd]
    exact (h.only _ _ h.layer).trans (and_iff_right rfl)
  · intro j hj0 hji q hq
    rw [List.getD_eq_getElem?_getD] at hq
    by_cases hj : j < names.length
    · obtain ⟨ps, hps, hmem⟩ := hR.2 j hj
      rw [hps] at hq
      rw [Finset.eq_empty_iff_forall_notMem]
      intro c hc
      obtain ⟨p, hp, _⟩ := (hkl.cover ps q.net c).1 ⟨q, hq, rfl, hc⟩
      have hne : names.getD j "" ≠ "VSUBS" := stack_nonsub hs (by omega) hj
      have := ((h.only _ _ hne).1 ((hmem p).1 hp)).1
      refine hji ?_
      rw [← hd, List.getD_eq_getElem _ _ hj, List.getD_eq_getElem _ _ hi'] at this
      exact hs.nodup.getElem_inj_iff.1 this
    · rw [List.getElem?_eq_none (by rw [hR.1]; omega)] at hq
      exact absurd hq List.not_mem_nil

/-- The overlap capacitance of the plate. -/
theorem Plate.overlap (h : Plate t x halo layer n x1 x2 y1 y2) (hhalo : 0 ≤ halo) {names : List String} (hs : IsStack t x names)
    (cap : String → String → ℚ) :
    overlapTotal t x halo names cap n "VSUBS" =
      ((x2 - x1 : ℤ) * x.dbu) * ((y2 - y1 : ℤ) * x.dbu) * cap layer "VSUBS" / 1000 := by
  obtain ⟨i, hi, hi', hd⟩ := h.index hs
  obtain ⟨h0, h0'⟩ := stack_zero hs
  have hx := h.wide
  have hy := h.high
  -- what is on the layers
  have on0 : ∀ m c, On t x halo (names.getD 0 "") m c ↔ m = "VSUBS" ∧ InSubstrate x halo c := by
    intro m c
    rw [h0']
    unfold On
    simp
  have oni : ∀ m c, On t x halo (names.getD i "") m c ↔ m = n ∧ c ∈ Finset.Ico x1 x2 ×ˢ Finset.Ico y1 y2 := by
    intro m c
    rw [hd]
    unfold On
    constructor
    · rintro (⟨e, _⟩ | ⟨_, p, hp, rfl, hc⟩)
      · exact absurd e h.layer
      · obtain ⟨_, rfl⟩ := (h.only _ _ h.layer).1 hp
        exact ⟨rfl, hc⟩
    · rintro ⟨rfl, hc⟩
      exact Or.inr ⟨h.layer, _, h.exists, rfl, hc⟩
  have onj : ∀ j, j < names.length → j ≠ 0 → j ≠ i → ∀ m c, ¬ On t x halo (names.getD j "") m c := by
    rintro j hj hj0 hji m c (⟨e, _⟩ | ⟨hne, p, hp, _⟩)
    · exact stack_nonsub hs (by omega) hj e
    · have := ((h.only _ _ hne).1 hp).1
      refine hji ?_
      rw [← hd, List.getD_eq_getElem _ _ hj, List.getD_eq_getElem _ _ hi'] at this
      exact hs.nodup.getElem_inj_iff.1 this
  have f1 : {c | Faces t x halo names 0 i n "VSUBS" c} = {c : Cell | c ∈ Finset.Ico x1 x2 ×ˢ Finset.Ico y1 y2} := by
    ext c
    simp only [Set.mem_ofPred_eq, Faces, on0, oni, true_and]
    constructor
    · exact fun hc => hc.2.1
    · intro hc
      refine ⟨?_, hc, fun k h1 h2 m hm => absurd hm (onj k (by omega) (by omega) (by omega) m c)⟩
      simp only [Finset.mem_product, Finset.mem_Ico] at hc
      rw [h.ground]
      simp only [Finset.mem_product, Finset.mem_Ico]
      omega
  have f2 : ∀ j, {c | Faces t x halo names 0 j "VSUBS" n c} = ∅ := by
    intro j
    ext c
    simp only [Set.mem_ofPred_eq, Faces, on0, Set.mem_empty_iff_false, iff_false]
    rintro ⟨⟨e, _⟩, _⟩
    exact h.net e
  have f3 : ∀ i' j, i' < j → j < names.length → (i' ≠ 0 ∨ j ≠ i) → ∀ a b, a ≠ b → {c | Faces t x halo names i' j a b c} = ∅ := by
    intro i' j hij hj hne a b hab
    ext c
    simp only [Set.mem_ofPred_eq, Set.mem_empty_iff_false, iff_false]
    rintro ⟨h1, h2, _⟩
    by_cases hji : j = i
    · by_cases hi0 : i' = 0
      · rcases hne with hne | hne
        · exact hne hi0
        · exact hne hji
      · exact onj i' (by omega) hi0 (by omega) _ _ h1
    · exact onj j hj (by omega) hji _ _ h2
  unfold overlapTotal
  rw [Finset.sum_eq_single 0]
  · rw [Finset.sum_eq_single i]
    · rw [f1, f2, ncard_plate _ _ _ _ (by omega) (by omega), h0', hd]
      simp only [Set.ncard_empty]
      push_cast
      ring
    · intro j hj hji
      simp only [Finset.mem_filter, Finset.mem_range] at hj
      rw [f3 0 j hj.2 hj.1 (Or.inr hji) _ _ h.net, f3 0 j hj.2 hj.1 (Or.inr hji) _ _ h.net.symm]
      simp
    · intro hnot
      exact absurd (Finset.mem_filter.2 ⟨Finset.mem_range.2 hi', hi⟩) hnot
  · intro i' hi1 hi0
    refine Finset.sum_eq_zero fun j hj => ?_
    simp only [Finset.mem_filter, Finset.mem_range] at hj
    rw [f3 i' j hj.2 hj.1 (Or.inl hi0) _ _ h.net, f3 i' j hj.2 hj.1 (Or.inl hi0) _ _ h.net.symm]
    simp
  · intro hnot
    exact absurd (Finset.mem_range.2 h0) hnot

theorem law_add (scale : Bool) (halo dbu cov cs : ℚ) (l l' near far : ℝ) :
    law scale halo dbu cov cs l near far + law scale halo dbu cov cs l' near far = law scale halo dbu cov cs (l + l') near far := by
  unfold law; ring

/-- The sidewall and fringe capacitance of the plate: there is no sidewall, and every edge sees the substrate. -/
theorem Plate.edges (h : Plate t x halo layer n x1 x2 y1 y2) {kl : KLayout} (hkl : Faithful kl) (hk : KeepsRect kl)
    (hsub : ∀ l ∈ t.stack, IsMetal l → ¬ CanonicalIs t l.name "VSUBS") {names : List String} (hs : IsStack t x names)
    {R : List (List Poly)} (hR : Regions kl t x halo names R) (hdep : 1 ≤ depth) (hhalo : 1 ≤ halo) (sides : Nat → List (Poly × Side))
    (hall : ∀ i < names.length, AllSides (R.getD i []) (sides i)) (dbu side : ℚ) (scale : Bool) (C off : String → ℚ)
    (cov cs : String → String → ℚ) :
    wallTotal R names dbu depth C off sides n "VSUBS" = 0 ∧
    fringeTotal R names dbu side scale cov cs depth sides n "VSUBS" =
      law scale side dbu (cov layer "VSUBS") (cs layer "VSUBS") (2 * ((x2 - x1 - 2 : ℤ) + (y2 - y1 - 2 : ℤ))) 1 (min depth halo : ℤ) := by
  classical
  obtain ⟨i, hi, hi', hd⟩ := h.index hs
  obtain ⟨h0, h0'⟩ := stack_zero hs
  obtain ⟨r0, ri, rj⟩ := h.regions hkl hk hsub hs hR hi hi' hd
  have hx := h.wide
  have hy := h.high
  have hplate : ∀ e : Cell, e ∈ (wire n x1 x2 y1 y2).cells →
      e ∈ Finset.Ico (x1 - halo) (x2 + halo) ×ˢ Finset.Ico (y1 - halo) (y2 + halo) := by
    intro e he
    simp only [wire, Finset.mem_product, Finset.mem_Ico] at he ⊢
    omega
  -- the cells that are covered at all
  have hcov : ∀ j q, q ∈ R.getD j [] → ∀ e ∈ q.cells, (j = 0 ∧ q = substratePoly x halo) ∨ (j = i ∧ q = wire n x1 x2 y1 y2) := by
    intro j q hq e he
    by_cases hj0 : j = 0
    · subst hj0; rw [r0] at hq; exact Or.inl ⟨rfl, List.mem_singleton.1 hq⟩
    · by_cases hji : j = i
      · subst hji; rw [ri] at hq; exact Or.inr ⟨rfl, List.mem_singleton.1 hq⟩
      · rw [rj j hj0 hji q hq] at he
        exact absurd he (Finset.notMem_empty _)
  have s0 : ∀ p s, (p, s) ∈ sides 0 → p = substratePoly x halo ∧ s ∈ boxSides (x1 - halo) (y1 - halo) (x2 + halo) (y2 + halo) := by
    intro p s hps
    obtain ⟨h1, h2⟩ := ((hall 0 h0).mem p s).1 hps
    rw [r0] at h1
    obtain rfl := List.mem_singleton.1 h1
    rw [h.substrate] at h2
    exact ⟨rfl, (box_sides (by omega) (by omega) s).1 h2⟩
  have si : (sides i).Perm ((boxSides x1 y1 x2 y2).map fun s => (wire n x1 x2 y1 y2, s)) := by
    rw [List.perm_ext_iff_of_nodup (hall i hi').nodup]
    · rintro ⟨p, s⟩
      rw [(hall i hi').mem, ri]
      simp only [List.mem_singleton, List.mem_map, Prod.mk.injEq]
      constructor
      · rintro ⟨rfl, h2⟩
        exact ⟨s, (box_sides (by omega) (by omega) s).1 h2, rfl, rfl⟩
      · rintro ⟨s', h2, rfl, rfl⟩
        exact ⟨rfl, (box_sides (by omega) (by omega) _).2 h2⟩
    · simp [boxSides]
  have sj : ∀ j, j < names.length → j ≠ 0 → j ≠ i → sides j = [] := by
    intro j hj hj0 hji
    rw [List.eq_nil_iff_forall_not_mem]
    rintro ⟨p, s⟩ hps
    obtain ⟨h1, h2, h3, _⟩ := ((hall j hj).mem p s).1 hps
    have := (h3 0 le_rfl h2).1
    rw [rj j hj0 hji p h1] at this
    exact Finset.notMem_empty _ this
  constructor
  · -- no sidewall
    rw [wall_layers]
    refine Finset.sum_eq_zero fun j hj => ?_
    rw [Finset.mem_range] at hj
    rw [List.sum_eq_zero]
    intro v hv
    obtain ⟨⟨p, s⟩, hps, rfl⟩ := List.mem_map.1 hv
    refine edgeWall_none fun u w hw q hq hqp hc => ?_
    have hp := ((hall j hj).mem p s).1 hps
    have hpc := (hp.2.2.1 0 le_rfl hp.2.1).1
    rcases hcov j q hq _ hc with ⟨h1, h2⟩ | ⟨h1, h2⟩ <;> rcases hcov j p hp.1 _ hpc with ⟨h3, h4⟩ | ⟨h3, h4⟩
    · exact hqp (h2.trans h4.symm)
    · omega
    · omega
    · exact hqp (h2.trans h4.symm)
  · unfold fringeTotal
    rw [Finset.sum_eq_single i]
    · rw [(si.map _).sum_eq]
      have key : ∀ s ∈ boxSides x1 y1 x2 y2, seenTotal R names dbu side scale cov cs depth i s n n "VSUBS" =
          law scale side dbu (cov layer "VSUBS") (cs layer "VSUBS") (s.len - 2 : ℤ) 1 (min depth halo : ℤ) := by
        intro s hsb
        have hlen : 2 ≤ s.len := by
          simp only [boxSides, List.mem_cons, List.not_mem_nil, or_false] at hsb
          rcases hsb with rfl | rfl | rfl | rfl <;> dsimp only <;> omega
        unfold seenTotal
        rw [Finset.sum_eq_single 0]
        · have e : (s.len - 2 : ℤ) = (s.len - 1) - 1 := by ring
          have e1 : (1 : ℝ) = ((1 : ℤ) : ℝ) := by norm_num
          rw [h0', hd, e]
          have := law_cells scale side dbu (cov layer "VSUBS") (cs layer "VSUBS") 1 (s.len - 1) 1 (min depth halo) (by omega)
            (by omega)
          rw [← e1] at this
          rw [this]
          refine Finset.sum_congr rfl fun u hu => ?_
          rw [Finset.mem_Ico] at hu
          have hcell : ∀ w, 1 ≤ w → (InSubstrate x halo (s.cell u w) ↔ w < halo) := by
            intro w hw
            rw [h.ground]
            simp only [boxSides, List.mem_cons, List.not_mem_nil, or_false] at hsb
            rcases hsb with rfl | rfl | rfl | rfl <;>
            · dsimp only at hu
              simp only [Side.cell, Finset.mem_product, Finset.mem_Ico]
              omega
          have hsplit : Finset.Ico 1 (min depth halo) = (Finset.Ico 1 depth).filter (· < halo) := by
            ext w; simp only [Finset.mem_Ico, Finset.mem_filter]; omega
          rw [hsplit, Finset.sum_filter]
          refine Finset.sum_congr rfl fun w hw => ?_
          rw [Finset.mem_Ico] at hw
          refine if_congr ⟨?_, ?_⟩ rfl rfl
          · rintro ⟨m, ⟨⟨q, hq, _, hc⟩, _⟩, _⟩
            rw [r0] at hq
            obtain rfl := List.mem_singleton.1 hq
            rw [mem_substratePoly] at hc
            exact (hcell w hw.1).1 hc
          intro hwh
          refine ⟨"", ⟨⟨substratePoly x halo, by rw [r0]; exact List.mem_singleton_self _, rfl, ?_⟩, ?_, ?_⟩, ?_⟩
          · rw [mem_substratePoly]
            exact (hcell w hw.1).2 hwh
          · intro w' hw1 hw2 q hq
            rw [ri] at hq
            obtain rfl := List.mem_singleton.1 hq
            exact outside_box hsb u hw1
          · intro k hk q hq hc
            rcases hcov k q hq _ hc with ⟨h1, _⟩ | ⟨h1, _⟩ <;> omega
          · left
            exact ⟨by unfold countsAs; rw [if_neg h.layer], rfl⟩
        · intro j hj hj0
          simp only [Finset.mem_filter, Finset.mem_range] at hj
          refine Finset.sum_eq_zero fun u _ => Finset.sum_eq_zero fun w _ => ?_
          rw [if_neg]
          rintro ⟨m, ⟨⟨q, hq, _, hc⟩, _⟩, _⟩
          rcases hcov j q hq _ hc with ⟨h1, _⟩ | ⟨h1, _⟩
          · exact hj0 h1
          · exact hj.2 h1
        · intro hnot
          exact absurd (Finset.mem_filter.2 ⟨Finset.mem_range.2 h0, by omega⟩) hnot
      rw [List.map_map]
      have hm : (boxSides x1 y1 x2 y2).map ((fun ps : Poly × Side =>
          seenTotal R names dbu side scale cov cs depth i ps.2 ps.1.net n "VSUBS") ∘ fun s => (wire n x1 x2 y1 y2, s)) =
          (boxSides x1 y1 x2 y2).map fun s => law scale side dbu (cov layer "VSUBS") (cs layer "VSUBS") (s.len - 2 : ℤ) 1 (min depth halo : ℤ) :=
        List.map_congr_left fun s hs => key s hs
      rw [hm]
      simp only [boxSides, List.map_cons, List.map_nil, List.sum_cons, List.sum_nil, add_zero]
      rw [law_add, law_add, law_add]
      congr 1
      push_cast
      ring
    · intro j hj hji
      rw [Finset.mem_range] at hj
      by_cases hj0 : j = 0
      · subst hj0
        rw [List.sum_eq_zero]
        intro v hv
        obtain ⟨⟨p, s⟩, hps, rfl⟩ := List.mem_map.1 hv
        obtain ⟨rfl, hsb⟩ := s0 p s hps
        unfold seenTotal
        refine Finset.sum_eq_zero fun k hk => Finset.sum_eq_zero fun u _ => Finset.sum_eq_zero fun w hw => ?_
        simp only [Finset.mem_filter, Finset.mem_range] at hk
        rw [Finset.mem_Ico] at hw
        rw [if_neg]
        rintro ⟨m, ⟨⟨q, hq, _, hc⟩, _⟩, _⟩
        rcases hcov k q hq _ hc with ⟨h1, _⟩ | ⟨h1, rfl⟩
        · exact hk.2 h1
        · exact outside_box hsb u hw.1 (hplate _ hc)
      · rw [sj j hj hj0 hji]; rfl
    · intro hnot
      exact absurd (Finset.mem_range.2 hi') hnot

/-- **C96.** A rectangle alone over the substrate: its capacitance to the substrate is its area times the capacitance per area, plus
its circumference, without two units at each corner, times the capacitance per length and the part of the fringe field from the first
unit to the end of the substrate or of the halo; up to the relative rounding `ε` of the fringe capacitances and 0.0001 fF for each of
the `N` rectangles that are seen. -/
theorem plate_netlist (kl : KLayout) (hkl : Faithful kl) (hrect : KeepsRect kl) (hk : Fringe.KernelOK kl.kernel)
    (hkb : Fringe.KernelBands kl.kernel) (cf : String → String) (t : Tech) (x : Context) (mode : Mode)
    (hmode : mode = .CC ∨ mode = .RC) (scale : Bool) (halo : ℤ) (hhalo1 : 1 ≤ halo) (res : Except String (List RNetwork))
    (c c' : Netlist.Circuit) (bb : Bool) (hrun : run kl cf t x mode scale halo res c bb = .ok c')
    (hno : ∀ d ∈ c.devices, d.clsName ≠ "C") (layer n : String) (x1 x2 y1 y2 : ℤ) (hplate : Plate t x halo layer n x1 x2 y1 y2)
    (hsub : ∀ l ∈ t.stack, IsMetal l → ¬ CanonicalIs t l.name "VSUBS")
    (hnn : Overlap.NonNeg t.parasitics) (cap : String → String → ℚ)
    (hspec : ∀ names, IsStack t x names → ∀ i j, i < j → j < names.length →
      ∃ s, OverlapIs t.parasitics (names.getD j "") (names.getD i "") s ∧ s.cap = cap (names.getD j "") (names.getD i ""))
    (hdbu : 0 < x.dbu) (hdbu' : x.dbu ≤ 10) (depth : ℤ) (hdepth : depth = ⌊t.parasitics.sideHalo / x.dbu⌋ + 1)
    (hvis : ∀ names R, IsStack t x names → Regions kl t x halo names R → ∀ i < names.length,
      ∃ sides, Visits R i depth sides (kl.edges R i))
    (C off : String → ℚ) (hC : ∀ layer s, IsLast (fun s => s.layer = layer) t.parasitics.sidewalls s →
      s.cap = C layer ∧ s.offset = off layer)
    (cov cs : String → String → ℚ)
    (hcov : ∀ inside outside o, Fringe.PairSpec t.parasitics inside outside o → o.cap = cov inside outside)
    (hcs : ∀ inside outside s, SideOverlapIs t.parasitics inside outside s → s.cap = cs inside outside)
    (hcov0 : ∀ inside outside, 0 ≤ cov inside outside) (hcs0 : ∀ inside outside, 0 ≤ cs inside outside)
    (hhalo : 0 ≤ t.parasitics.sideHalo) (ε : ℝ) (hε : 0 ≤ ε) (hrnd : ∀ r, 1 / 10000 < r → |(kl.rnd r : ℝ) - r| ≤ ε * r) :
    ∃ (names : List String) (R : List (List Poly)) (sides : Nat → List (Poly × Side)) (views : Nat → Poly × Side → List View)
      (N : Nat) (A : ℚ) (F : ℝ),
      IsStack t x names ∧ Regions kl t x halo names R ∧ (∀ i < names.length, AllSides (R.getD i []) (sides i)) ∧
      (∀ i < names.length, ∀ ps ∈ sides i, Views R names i ps.1 ps.2 depth (views i ps)) ∧
      N = ∑ i ∈ Finset.range names.length, ((sides i).map fun ps => (views i ps).length).sum ∧
      A = ((x2 - x1 : ℤ) * x.dbu) * ((y2 - y1 : ℤ) * x.dbu) * cap layer "VSUBS" / 1000 ∧
      F = law scale t.parasitics.sideHalo x.dbu (cov layer "VSUBS") (cs layer "VSUBS")
        (2 * ((x2 - x1 - 2 : ℤ) + (y2 - y1 - 2 : ℤ))) 1 (min depth halo : ℤ) ∧
      |(Rcx25Netlist.parasiticCap c' n "VSUBS" : ℝ) - (A + F)| ≤ ε * F + N / 10000 := by
  have hshort : NoShorts t x halo := by
    intro m p q hp hq e hpe hqe
    by_cases hm : m = "VSUBS"
    · subst hm
      have key : ∀ p, PolyOf t x halo "VSUBS" p → p.net = "" := by
        rintro p (⟨_, h1, _⟩ | ⟨l, hl, rs, hg, _⟩)
        · exact h1
        · exact absurd hg.2.1 (hsub l hl hg.1)
      rw [key p hp, key q hq]
    · rw [((hplate.only _ _ hm).1 hp).2, ((hplate.only _ _ hm).1 hq).2]
  obtain ⟨names, R, sides, views, N, hs, hR, hall, hviews, hN, hfin⟩ := netlist_cells kl hkl hk hkb cf t x mode hmode scale halo res c c'
    bb hrun hno hshort hsub hnn cap hspec hdbu hdbu' depth hdepth hvis C off hC cov cs hcov hcs hcov0 hcs0 hhalo ε hε hrnd
  have hdep : 1 ≤ depth := by
    have : 0 ≤ ⌊t.parasitics.sideHalo / x.dbu⌋ := Int.floor_nonneg.2 (div_nonneg hhalo hdbu.le)
    omega
  have hf := hfin n "VSUBS" hplate.net
  obtain ⟨hw, hfr⟩ := hplate.edges hkl hrect hsub hs hR hdep hhalo1 sides hall x.dbu t.parasitics.sideHalo scale C off cov cs
  rw [hplate.overlap (by omega) hs, hw, hfr] at hf
  refine ⟨names, R, sides, views, N, _, _, hs, hR, hall, hviews, hN, rfl, rfl, ?_⟩
  simpa using hf

end Verif.Engine25
