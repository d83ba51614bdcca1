import Verif.Engine25.Crossing
import Verif.Engine25.Moves
import Verif.Engine25.Near
import Verif.Engine25.Stacked

/-!
# Extraction with a larger side halo (C121)
-/

namespace Verif.Engine25

open TechInfo (Tech Parasitics IsLast SideOverlapIs OverlapIs)
open Overlap (Cell Poly)
open Summary (RNetwork SamePair)
open PexMode (Mode)
open Fringe (countsAs law)

/-! ### Specification -/

/-- All shapes lie within the bounding box of the cell widened by the halo. -/
def ShapesInside (t : Tech) (x : Context) (halo : ℤ) : Prop :=
  ∀ n p c, PolyOf t x halo n p → c ∈ p.cells → InSubstrate x halo c

/-- In both runs KLayout merges the same shapes into the same polygons, in any order. -/
def MergesAlike (kl kl' : KLayout) : Prop :=
  ∀ ps ps', (∀ p, p ∈ ps' ↔ p ∈ ps) → ∀ p, p ∈ kl'.merged ps' ↔ p ∈ kl.merged ps

/-! ### Proofs -/

variable {kl kl' : KLayout} {t : Tech} {x : Context} {halo halo' : ℤ} {h : ℚ} {names : List String} {R R' : List (List Poly)}

theorem withHalo_stack : IsStack (withHalo t h) x names ↔ IsStack t x names :=
  ⟨fun H => ⟨H.nodup, H.head, H.mem, H.order⟩, fun H => ⟨H.nodup, H.head, H.mem, H.order⟩⟩

theorem withHalo_poly (n : String) (p : Poly) : PolyOf (withHalo t h) x halo n p ↔ PolyOf t x halo n p := Iff.rfl

theorem substrate_grows (hle : halo ≤ halo') {c : Cell} (hc : InSubstrate x halo c) : InSubstrate x halo' c := by
  rw [inSubstrate_iff] at *
  obtain ⟨h1, h2⟩ := hc
  refine ⟨fun h => ?_, fun h => ?_⟩
  · have := h1 h
    omega
  · have := h2 h
    omega

theorem poly_halo {n : String} (hn : n ≠ "VSUBS") (p : Poly) : PolyOf t x halo' n p ↔ PolyOf t x halo n p := by
  constructor <;>
  · rintro (⟨h, _⟩ | h)
    · exact absurd h hn
    · exact Or.inr h

theorem on_halo {n : String} (hn : n ≠ "VSUBS") (net : String) (c : Cell) : On t x halo' n net c ↔ On t x halo n net c := by
  unfold On
  simp only [poly_halo hn (halo := halo) (halo' := halo')]
  constructor <;>
  · rintro (⟨h, _⟩ | h)
    · exact absurd h hn
    · exact Or.inr h

theorem on_grows (hle : halo ≤ halo') {n net : String} {c : Cell} (hc : On t x halo n net c) : On t x halo' n net c := by
  rcases hc with ⟨h1, h2, h3⟩ | ⟨h1, h2⟩
  · exact Or.inl ⟨h1, h2, substrate_grows hle h3⟩
  · exact (on_halo h1 net c).2 (Or.inr ⟨h1, h2⟩)

theorem faces_grow (hs : IsStack t x names) (hle : halo ≤ halo') {i j : Nat} (hj : j < names.length)
    {a b : String} {c : Cell} (hc : Faces t x halo names i j a b c) : Faces t x halo' names i j a b c :=
  ⟨on_grows hle hc.1, on_grows hle hc.2.1, fun k h1 h2 n hn =>
    hc.2.2 k h1 h2 n ((on_halo (stack_nonsub hs (by omega) (by omega)) n c).1 hn)⟩

theorem overlap_grows (hs : IsStack t x names) (hR' : Regions kl' t x halo' names R') (hle : halo ≤ halo')
    {cap : String → String → ℚ}
    (hcap : ∀ i j, i < j → j < names.length → 0 ≤ cap (names.getD j "") (names.getD i "")) (a b : String) :
    overlapTotal t x halo names cap a b ≤ overlapTotal t x halo' names cap a b := by
  unfold overlapTotal
  refine Finset.sum_le_sum fun i _ => Finset.sum_le_sum fun j hj => ?_
  obtain ⟨h1, hij⟩ := Finset.mem_filter.1 hj
  have hj := Finset.mem_range.1 h1
  have key : ∀ a b, (Set.ncard {c | Faces t x halo names i j a b c} : ℚ) ≤ Set.ncard {c | Faces t x halo' names i j a b c} := by
    intro a b
    exact_mod_cast Set.ncard_le_ncard (fun c hc => faces_grow hs hle hj hc) (faces_finite hs hR' hij hj a b)
  have h0 := hcap i j hij hj
  have h2 := key a b
  have h3 := key b a
  gcongr

theorem regions_same (hm : MergesAlike kl kl') (hs : IsStack t x names)
    (hR : Regions kl t x halo names R) (hR' : Regions kl' t x halo' names R') {i : Nat} (h0 : 0 < i) (hi : i < names.length) :
    ∀ p, p ∈ R'.getD i [] ↔ p ∈ R.getD i [] := by
  obtain ⟨ps, e, h⟩ := hR.2 i hi
  obtain ⟨ps', e', h'⟩ := hR'.2 i hi
  rw [List.getD_eq_getElem?_getD, List.getD_eq_getElem?_getD, e, e', Option.getD_some, Option.getD_some]
  refine hm ps ps' fun p => ?_
  rw [h, h', poly_halo (stack_nonsub hs h0 hi) (halo := halo) (halo' := halo')]

theorem regions_sub (hkl : Faithful kl) (hs : IsStack t x names) (hR : Regions kl t x halo names R)
    (hsub : ∀ l ∈ t.stack, IsMetal l → ¬ CanonicalIs t l.name "VSUBS") (n : String) (c : Cell) :
    (∃ q ∈ R.getD 0 [], q.net = n ∧ c ∈ q.cells) ↔ n = "" ∧ InSubstrate x halo c := by
  have h0 : 0 < names.length := by
    cases e : names with
    | nil => have := hs.head; rw [e] at this; cases this
    | cons => simp
  have hz : names.getD 0 "" = "VSUBS" := by
    have := hs.head
    rw [List.head?_eq_getElem?] at this
    rw [List.getD_eq_getElem?_getD, this]; rfl
  rw [mem_regions hkl hR h0, hz]
  constructor
  · rintro ⟨p, ⟨_, h2, h3⟩ | ⟨l, hl, rs, hg, _⟩, rfl, hc⟩
    · exact ⟨h2, (h3 c).1 hc⟩
    · exact absurd hg.2.1 (hsub l hl hg.1)
  · rintro ⟨rfl, h3⟩
    exact ⟨substratePoly x halo, Or.inl ⟨rfl, rfl, mem_substratePoly x halo⟩, rfl, (mem_substratePoly x halo c).2 h3⟩

theorem sides_same {L L' : List Poly} {S S' : List (Poly × Side)} (hL : ∀ p, p ∈ L' ↔ p ∈ L) (h : AllSides L S)
    (h' : AllSides L' S') : S.Perm S' := by
  rw [List.perm_ext_iff_of_nodup h.nodup h'.nodup]
  rintro ⟨p, s⟩
  rw [h.mem, h'.mem, hL]

theorem faced_same {i : Nat} (hi : ∀ p, p ∈ R'.getD i [] ↔ p ∈ R.getD i []) (p : Poly) (s : Side) (u d : ℤ) (n : String) :
    FacedBy R' i p s u d n ↔ FacedBy R i p s u d n := by
  unfold FacedBy
  simp only [hi]

theorem wall_grows (hkl : Faithful kl) (hm : MergesAlike kl kl') (hs : IsStack t x names)
    (hsub : ∀ l ∈ t.stack, IsMetal l → ¬ CanonicalIs t l.name "VSUBS")
    (hR : Regions kl t x halo names R) (hR' : Regions kl' t x halo' names R') {dbu : ℚ} (hdbu : 0 ≤ dbu)
    {depth depth' : ℤ} (hdd : depth ≤ depth') {C off : String → ℚ} (hC : ∀ n, 0 ≤ C n)
    {sides sides' : Nat → List (Poly × Side)} (hS : ∀ i < names.length, AllSides (R.getD i []) (sides i))
    (hS' : ∀ i < names.length, AllSides (R'.getD i []) (sides' i))
    (hgap : ∀ i < names.length, ∀ ps ∈ sides' i, ∀ u d n, 1 ≤ d → d < depth' → FacedBy R' i ps.1 ps.2 u d n →
      0 ≤ d * dbu + off (names.getD i "")) {a b : String} (hab : a ≠ b) :
    wallTotal R names dbu depth C off sides a b ≤ wallTotal R' names dbu depth' C off sides' a b := by
  classical
  unfold wallTotal
  refine Finset.sum_le_sum fun i hi => ?_
  have hi := Finset.mem_range.1 hi
  have hterm : ∀ ps ∈ sides' i, ∀ u, ∀ d ∈ Finset.Ico 1 depth', 0 ≤
      (if ∃ n, FacedBy R' i ps.1 ps.2 u d n ∧ SamePair ps.1.net n a b then
        dbu * C (names.getD i "") / (d * dbu + off (names.getD i "")) / 2 / 1000 else 0 : ℚ) := by
    intro ps hps u d hd
    split
    · rename_i hf
      obtain ⟨n, hf, _⟩ := hf
      obtain ⟨h0, h1⟩ := Finset.mem_Ico.1 hd
      have h2 := hC (names.getD i "")
      have h3 := hgap i hi ps hps u d n h0 h1 hf
      positivity
    · exact le_rfl
  rcases Nat.eq_zero_or_pos i with rfl | hpos
  · -- all polygons of the substrate have the same net
    have hz : ((sides 0).map fun ps => ∑ u ∈ Finset.Ico 1 (ps.2.len - 1), ∑ d ∈ Finset.Ico 1 depth,
        if ∃ n, FacedBy R 0 ps.1 ps.2 u d n ∧ SamePair ps.1.net n a b then
          dbu * C (names.getD 0 "") / (d * dbu + off (names.getD 0 "")) / 2 / 1000 else 0 : List ℚ).sum = 0 := by
      refine List.sum_eq_zero fun r hr => ?_
      obtain ⟨ps, hps, rfl⟩ := List.mem_map.1 hr
      obtain ⟨k1, k2⟩ := ((hS 0 hi).mem ps.1 ps.2).1 hps
      refine Finset.sum_eq_zero fun u _ => Finset.sum_eq_zero fun d _ => if_neg ?_
      rintro ⟨n, ⟨⟨q, hq, _, rfl, hc⟩, _⟩, hsp⟩
      have e1 := ((regions_sub hkl hs hR hsub _ _).1 ⟨q, hq, rfl, hc⟩).1
      have e2 := ((regions_sub hkl hs hR hsub _ _).1 ⟨ps.1, k1, rfl, (k2.2.1 0 le_rfl k2.1).1⟩).1
      rw [e1, e2] at hsp
      rcases hsp with ⟨rfl, rfl⟩ | ⟨rfl, rfl⟩ <;> exact hab rfl
    rw [hz]
    refine List.sum_nonneg fun r hr => ?_
    obtain ⟨ps, hps, rfl⟩ := List.mem_map.1 hr
    exact Finset.sum_nonneg fun u _ => Finset.sum_nonneg fun d hd => hterm ps hps u d hd
  · have hreg := regions_same hm hs hR hR' hpos hi
    have hperm : (sides i).Perm (sides' i) := sides_same hreg (hS i hi) (hS' i hi)
    rw [(hperm.map _).sum_eq]
    refine List.sum_le_sum fun ps hps => Finset.sum_le_sum fun u _ => ?_
    have hsame : ∀ d n, FacedBy R i ps.1 ps.2 u d n ↔ FacedBy R' i ps.1 ps.2 u d n :=
      fun d n => (faced_same hreg _ _ _ _ _).symm
    simp only [hsame]
    exact Finset.sum_le_sum_of_subset_of_nonneg (Finset.Ico_subset_Ico_right hdd) fun d hd _ => hterm ps hps u d hd

theorem seen_grows (hkl : Faithful kl) (hkl' : Faithful kl') (hm : MergesAlike kl kl')
    (hs : IsStack t x names) (hsub : ∀ l ∈ t.stack, IsMetal l → ¬ CanonicalIs t l.name "VSUBS")
    (hR : Regions kl t x halo names R) (hR' : Regions kl' t x halo' names R') (hle : halo ≤ halo') {i j : Nat}
    (h0 : 0 < i) (hi : i < names.length) (hj : j < names.length) {s : Side} {u w : ℤ} {n : String}
    (hc : SeenFrom R i s u w j n) : SeenFrom R' i s u w j n := by
  obtain ⟨h1, h2, h3⟩ := hc
  refine ⟨?_, ?_, ?_⟩
  · rcases Nat.eq_zero_or_pos j with rfl | hpos
    · rw [regions_sub hkl hs hR hsub] at h1
      rw [regions_sub hkl' hs hR' hsub]
      exact ⟨h1.1, substrate_grows hle h1.2⟩
    · simp only [regions_same hm hs hR hR' hpos hj]
      exact h1
  · simp only [regions_same hm hs hR hR' h0 hi]
    exact h2
  · intro k hk
    simp only [regions_same hm hs hR hR' (show 0 < k by omega) (show k < names.length by omega)]
    exact h3 k hk

theorem law_unscaled (h h' dbu cov cs : ℚ) (len near far : ℝ) :
    law false h dbu cov cs len near far = law false h' dbu cov cs len near far := by
  simp [law]

theorem fringe_grows (hkl : Faithful kl) (hkl' : Faithful kl') (hm : MergesAlike kl kl')
    (hs : IsStack t x names) (hsub : ∀ l ∈ t.stack, IsMetal l → ¬ CanonicalIs t l.name "VSUBS")
    (hin : ShapesInside t x halo)
    (hR : Regions kl t x halo names R) (hR' : Regions kl' t x halo' names R') (hle : halo ≤ halo') {dbu : ℚ} (hdbu : 0 ≤ dbu)
    {h h' : ℚ} (hh' : 0 ≤ h') {cov cs : String → String → ℚ}
    (hcov0 : ∀ inside outside, 0 ≤ cov inside outside) (hcs0 : ∀ inside outside, 0 ≤ cs inside outside)
    {depth depth' : ℤ} (hdd : depth ≤ depth')
    {sides sides' : Nat → List (Poly × Side)} (hS : ∀ i < names.length, AllSides (R.getD i []) (sides i))
    (hS' : ∀ i < names.length, AllSides (R'.getD i []) (sides' i)) (a b : String) :
    fringeTotal R names dbu h false cov cs depth sides a b ≤ fringeTotal R' names dbu h' false cov cs depth' sides' a b := by
  classical
  unfold fringeTotal
  refine Finset.sum_le_sum fun i hi => ?_
  have hi := Finset.mem_range.1 hi
  have hlaw : ∀ j (w : ℤ), 0 ≤ law false h' dbu (cov (names.getD i "") (names.getD j "")) (cs (names.getD i "") (names.getD j ""))
      1 w (w + 1) := fun j w => law_nonneg false hh' hdbu (hcov0 _ _) (hcs0 _ _) zero_le_one (by linarith)
  rcases Nat.eq_zero_or_pos i with rfl | hpos
  · -- nothing is seen from the border of the substrate
    have hz : ((sides 0).map fun ps => seenTotal R names dbu h false cov cs depth 0 ps.2 ps.1.net a b).sum = 0 := by
      refine List.sum_eq_zero fun r hr => ?_
      obtain ⟨ps, hps, rfl⟩ := List.mem_map.1 hr
      unfold seenTotal
      refine Finset.sum_eq_zero fun j hj => Finset.sum_eq_zero fun u _ => Finset.sum_eq_zero fun w hw => if_neg ?_
      have hj := Finset.mem_range.1 (Finset.mem_filter.1 hj).1
      rintro ⟨n, ⟨⟨q, hq, hn, hc⟩, h2, _⟩, _⟩
      obtain ⟨p, hp, _, hpc⟩ := (mem_regions hkl hR hj n _).1 ⟨q, hq, hn, hc⟩
      obtain ⟨q', hq', _, hc'⟩ := (regions_sub hkl hs hR hsub "" _).2 ⟨rfl, hin _ p _ hp hpc⟩
      exact h2 w (Finset.mem_Ico.1 hw).1 le_rfl q' hq' hc'
    rw [hz]
    refine List.sum_nonneg fun r hr => ?_
    obtain ⟨ps, _, rfl⟩ := List.mem_map.1 hr
    unfold seenTotal
    refine Finset.sum_nonneg fun j _ => Finset.sum_nonneg fun u _ => Finset.sum_nonneg fun w _ => ?_
    split
    · exact hlaw j w
    · exact le_rfl
  · have hreg := regions_same hm hs hR hR' hpos hi
    have hperm : (sides i).Perm (sides' i) := sides_same hreg (hS i hi) (hS' i hi)
    rw [(hperm.map _).sum_eq]
    refine List.sum_le_sum fun ps _ => ?_
    unfold seenTotal
    refine Finset.sum_le_sum fun j hj => Finset.sum_le_sum fun u _ => ?_
    have hj := Finset.mem_range.1 (Finset.mem_filter.1 hj).1
    refine le_trans ?_ (Finset.sum_le_sum_of_subset_of_nonneg (Finset.Ico_subset_Ico_right hdd) fun w _ _ => ?_)
    · refine Finset.sum_le_sum fun w _ => ?_
      rw [law_unscaled h h']
      split
      · rename_i hc
        obtain ⟨n, hc, hsp⟩ := hc
        rw [if_pos ⟨n, seen_grows hkl hkl' hm hs hsub hR hR' hle hpos hi hj hc, hsp⟩]
      · split
        · exact hlaw j w
        · exact le_rfl
    · split
      · exact hlaw j w
      · exact le_rfl

/-! ### Theorems -/

/-- **C121 (without scaling to the halo).** Extracting the same layout with a larger side halo makes no capacitance of the
netlist smaller, up to the rounding of the fringe capacitances and 0.0001 fF for every rectangle that is seen. `kl` and `kl'`
are KLayout in the two runs, which differ in how far they look. -/
theorem larger_halo_partial (kl kl' : KLayout) (hkl : Faithful kl) (hkl' : Faithful kl') (hm : MergesAlike kl kl')
    (hk : Fringe.KernelOK kl.kernel) (hk' : Fringe.KernelOK kl'.kernel)
    (hkb : Fringe.KernelBands kl.kernel) (hkb' : Fringe.KernelBands kl'.kernel) (cf : String → String) (t : Tech) (h' : ℚ)
    (hle : t.parasitics.sideHalo ≤ h') (x : Context) (mode : Mode) (hmode : mode = .CC ∨ mode = .RC) (halo halo' : ℤ)
    (hhh : halo ≤ halo') (res res' : Except String (List RNetwork)) (c d c' d' : Netlist.Circuit) (bb : Bool)
    (hrun : run kl cf t x mode false halo res c bb = .ok c')
    (hrun' : run kl' cf (withHalo t h') x mode false halo' res' d bb = .ok d')
    (hno : ∀ d ∈ c.devices, d.clsName ≠ "C") (hno' : ∀ e ∈ d.devices, e.clsName ≠ "C")
    (hshort : NoShorts t x halo) (hin : ShapesInside t x halo)
    (hsub : ∀ l ∈ t.stack, IsMetal l → ¬ CanonicalIs t l.name "VSUBS")
    (hnn : Overlap.NonNeg t.parasitics) (cap : String → String → ℚ)
    (hspec : ∀ names, IsStack t x names → ∀ i j, i < j → j < names.length →
      ∃ s, TechInfo.OverlapIs t.parasitics (names.getD j "") (names.getD i "") s ∧
        s.cap = cap (names.getD j "") (names.getD i ""))
    (hdbu : 0 < x.dbu) (hdbu' : x.dbu ≤ 10) (depth depth' : ℤ) (hdepth : depth = ⌊t.parasitics.sideHalo / x.dbu⌋ + 1)
    (hdepth' : depth' = ⌊h' / x.dbu⌋ + 1)
    (hvis : ∀ names R, IsStack t x names → Regions kl t x halo names R → ∀ i < names.length,
      ∃ sides, Visits R i depth sides (kl.edges R i))
    (hvis' : ∀ names R, IsStack t x names → Regions kl' t x halo' names R → ∀ i < names.length,
      ∃ sides, Visits R i depth' sides (kl'.edges R i))
    (C off : String → ℚ) (hC : ∀ layer s, IsLast (fun s => s.layer = layer) t.parasitics.sidewalls s →
      s.cap = C layer ∧ s.offset = off layer) (hC0 : ∀ layer, 0 ≤ C layer)
    (hgap : ∀ names R, IsStack t x names → Regions kl' t x halo' names R → ∀ i < names.length, ∀ p ∈ R.getD i [],
      ∀ (s : Side) (u d : ℤ) (n : String), 1 ≤ d → d * x.dbu ≤ h' → FacedBy R i p s u d n →
        0 ≤ d * x.dbu + off (names.getD i ""))
    (cov cs : String → String → ℚ)
    (hcov : ∀ inside outside o, Fringe.PairSpec t.parasitics inside outside o → o.cap = cov inside outside)
    (hcs : ∀ inside outside s, SideOverlapIs t.parasitics inside outside s → s.cap = cs inside outside)
    (hcov0 : ∀ inside outside, 0 ≤ cov inside outside) (hcs0 : ∀ inside outside, 0 ≤ cs inside outside)
    (hhalo : 0 ≤ t.parasitics.sideHalo) (ε : ℝ) (hε : 0 ≤ ε)
    (hrnd : ∀ r, 1 / 10000 < r → |(kl.rnd r : ℝ) - r| ≤ ε * r) (hrnd' : ∀ r, 1 / 10000 < r → |(kl'.rnd r : ℝ) - r| ≤ ε * r) :
    ∃ (names : List String) (R R' : List (List Poly)) (sides sides' : Nat → List (Poly × Side))
      (views views' : Nat → Poly × Side → List View) (N : Nat),
      Picture kl t x halo depth names R sides views ∧ Picture kl' t x halo' depth' names R' sides' views' ∧
      N = ∑ i ∈ Finset.range names.length, (((sides i).map fun ps => (views i ps).length).sum +
        ((sides' i).map fun ps => (views' i ps).length).sum) ∧
      ∀ a b, a ≠ b → (Rcx25Netlist.parasiticCap c' a b : ℝ) ≤ Rcx25Netlist.parasiticCap d' a b +
        2 * ε * fringeTotal R' names x.dbu h' false cov cs depth' sides' a b + N / 10000 := by
  obtain ⟨names, R, sides, views, N, h1, h2, h3, h4, h5, h6⟩ := netlist_cells kl hkl hk hkb cf t x mode hmode false halo res c c'
    bb hrun hno hshort hsub hnn cap hspec hdbu hdbu' depth hdepth hvis C off hC cov cs hcov hcs hcov0 hcs0 hhalo ε hε hrnd
  have hshort' : NoShorts t x halo' := by
    intro n p q hp hq c hcp hcq
    by_cases hn : n = "VSUBS"
    · have key : ∀ p, PolyOf t x halo' n p → p.net = "" := by
        rintro p (⟨_, h, _⟩ | ⟨l, hl, rs, hg, _⟩)
        · exact h
        · rw [hn] at hg
          exact absurd hg.2.1 (hsub l hl hg.1)
      rw [key p hp, key q hq]
    · exact hshort n p q ((poly_halo hn p).1 hp) ((poly_halo hn q).1 hq) c hcp hcq
  obtain ⟨names', R', sides', views', N', k1, k2, k3, k4, k5, k6⟩ := netlist_cells kl' hkl' hk' hkb' cf (withHalo t h') x mode
    hmode false halo' res' d d' bb hrun' hno' hshort' hsub hnn cap (fun names hs => hspec names (withHalo_stack.1 hs)) hdbu hdbu'
    depth' hdepth' (fun names R hs hR => hvis' names R (withHalo_stack.1 hs) hR) C off hC cov cs hcov hcs hcov0 hcs0
    (le_trans hhalo hle) ε hε hrnd'
  have k1 := withHalo_stack.1 k1
  obtain rfl := k1.unique h1
  have hdd : depth ≤ depth' := by
    rw [hdepth, hdepth']
    have : ⌊t.parasitics.sideHalo / x.dbu⌋ ≤ ⌊h' / x.dbu⌋ := Int.floor_le_floor (by gcongr)
    omega
  refine ⟨names', R, R', sides, sides', views, views', _, ⟨h1, h2, h3, h4⟩, ⟨k1, k2, k3, k4⟩, rfl, fun a b hab => ?_⟩
  have e1 := abs_le.1 (h6 a b hab)
  have e2 := abs_le.1 (k6 a b hab)
  have o := overlap_grows (cap := cap) h1 k2 hhh (fun i j hij hj => by
    obtain ⟨s, hs, e⟩ := hspec names' h1 i j hij hj
    rw [← e]
    exact Overlap.spec_nonneg hnn hs) a b
  have w := wall_grows hkl hm h1 hsub h2 k2 hdbu.le hdd hC0 h3 k3 (off := off)
    (fun i hi ps hps u d n hd1 hd2 hf => hgap names' R' h1 k2 i hi ps.1 (((k3 i hi).mem ps.1 ps.2).1 hps).1 ps.2 u d n hd1 (by
      rw [← le_div_iff₀ hdbu]
      exact_mod_cast Int.le_floor.1 (by omega : d ≤ ⌊h' / x.dbu⌋)) hf) hab
  have f := fringe_grows (h := t.parasitics.sideHalo) hkl hkl' hm h1 hsub hin h2 k2 hhh hdbu.le (le_trans hhalo hle) hcov0
    hcs0 hdd h3 k3 a b
  have o' : (overlapTotal t x halo names' cap a b : ℝ) ≤ overlapTotal t x halo' names' cap a b := by exact_mod_cast o
  have w' : (wallTotal R names' x.dbu depth C off sides a b : ℝ) ≤ wallTotal R' names' x.dbu depth' C off sides' a b := by
    exact_mod_cast w
  have f' := mul_le_mul_of_nonneg_left f hε
  have e3 : ((∑ i ∈ Finset.range names'.length, (((sides i).map fun ps => (views i ps).length).sum +
        ((sides' i).map fun ps => (views' i ps).length).sum) : ℕ) : ℝ) = N + N' := by
    rw [Finset.sum_add_distrib, ← h5, ← k5]; push_cast; rfl
  have o2 : overlapTotal (withHalo t h') x halo' names' cap a b = overlapTotal t x halo' names' cap a b := rfl
  rw [o2] at e2
  have s2 : (withHalo t h').parasitics.sideHalo = h' := rfl
  rw [s2] at e2
  rw [e3]
  linarith [e1.1, e1.2, e2.1, e2.2]

theorem ratio_strict {cov : ℚ} (h : 0 < cov) {d e : ℝ} (hd : d < e) : Fringe.ratio cov d < Fringe.ratio cov e := by
  unfold Fringe.ratio
  have hpi := Real.pi_pos
  have hc : (0 : ℝ) < (cov : ℝ) := by exact_mod_cast h
  have : Real.arctan ((cov : ℝ) / 50 * d) < Real.arctan ((cov : ℝ) / 50 * e) :=
    Real.arctan_strictMono (mul_lt_mul_of_pos_left hd (by positivity))
  exact mul_lt_mul_of_pos_left this (by positivity)

theorem scaled_law_shrinks {h h' dbu cov cs : ℚ} (hh : 0 < h) (hhh : h < h') (hdbu : 0 < dbu) (hcov : 0 < cov) (hcs : 0 < cs)
    {len near far : ℝ} (hlen : 0 < len) (hnf : near < far) :
    law true h' dbu cov cs len near far < law true h dbu cov cs len near far := by
  have hd : (0 : ℝ) < dbu := by exact_mod_cast hdbu
  have hc : (0 : ℝ) < cs := by exact_mod_cast hcs
  have h0 : (0 : ℝ) < h := by exact_mod_cast hh
  have h1 : (h : ℝ) < h' := by exact_mod_cast hhh
  have z : Fringe.ratio cov 0 = 0 := by simp [Fringe.ratio]
  have r1 := ratio_strict hcov h0
  have r2 := ratio_strict hcov h1
  have r3 := ratio_strict hcov (mul_lt_mul_of_pos_right hnf hd)
  rw [z] at r1
  unfold law
  simp only [if_true]
  have : (Fringe.ratio cov (far * dbu) - Fringe.ratio cov (near * dbu)) / Fringe.ratio cov h' <
      (Fringe.ratio cov (far * dbu) - Fringe.ratio cov (near * dbu)) / Fringe.ratio cov h :=
    div_lt_div_of_pos_left (by linarith) r1 r2
  gcongr

/-- **C121, with scaling to the halo.** Two crossing wires that end within the side halo: with a larger halo the area counts
the same, and the fringe capacitance becomes smaller, although the same is seen of both wires. -/
theorem scaled_halo_shrinks (kl kl' : KLayout) (hkl : Faithful kl) (hkl' : Faithful kl') (hrect : KeepsRect kl)
    (hrect' : KeepsRect kl') (hk : Fringe.KernelOK kl.kernel) (hk' : Fringe.KernelOK kl'.kernel)
    (hkb : Fringe.KernelBands kl.kernel) (hkb' : Fringe.KernelBands kl'.kernel) (cf : String → String) (t : Tech) (h' : ℚ)
    (hhalo : 0 < t.parasitics.sideHalo) (hlt : t.parasitics.sideHalo < h') (x : Context) (mode : Mode)
    (hmode : mode = .CC ∨ mode = .RC) (halo halo' : ℤ) (res res' : Except String (List RNetwork))
    (c d c' d' : Netlist.Circuit) (bb : Bool)
    (hrun : run kl cf t x mode true halo res c bb = .ok c')
    (hrun' : run kl' cf (withHalo t h') x mode true halo' res' d bb = .ok d')
    (hno : ∀ d ∈ c.devices, d.clsName ≠ "C") (hno' : ∀ e ∈ d.devices, e.clsName ≠ "C")
    (upper lower n m : String) (a1 a2 c1 c2 b1 b2 d1 d2 : ℤ)
    (hcross : Crossing t x halo upper lower n m a1 a2 c1 c2 b1 b2 d1 d2)
    (hsub : ∀ l ∈ t.stack, IsMetal l → ¬ CanonicalIs t l.name "VSUBS")
    (hnn : Overlap.NonNeg t.parasitics) (cap : String → String → ℚ)
    (hspec : ∀ names, IsStack t x names → ∀ i j, i < j → j < names.length →
      ∃ s, OverlapIs t.parasitics (names.getD j "") (names.getD i "") s ∧ s.cap = cap (names.getD j "") (names.getD i ""))
    (hdbu : 0 < x.dbu) (hdbu' : x.dbu ≤ 10) (depth depth' : ℤ) (hdepth : depth = ⌊t.parasitics.sideHalo / x.dbu⌋ + 1)
    (hdepth' : depth' = ⌊h' / x.dbu⌋ + 1)
    (hends : d2 - c2 ≤ depth ∧ c1 - d1 ≤ depth ∧ a2 - b2 ≤ depth ∧ b1 - a1 ≤ depth)
    (hlong : 1 < d2 - c2 ∧ 1 < c1 - d1 ∧ 1 < a2 - b2 ∧ 1 < b1 - a1)
    (hvis : ∀ names R, IsStack t x names → Regions kl t x halo names R → ∀ i < names.length,
      ∃ sides, Visits R i depth sides (kl.edges R i))
    (hvis' : ∀ names R, IsStack t x names → Regions kl' t x halo' names R → ∀ i < names.length,
      ∃ sides, Visits R i depth' sides (kl'.edges R i))
    (C off : String → ℚ) (hC : ∀ layer s, IsLast (fun s => s.layer = layer) t.parasitics.sidewalls s →
      s.cap = C layer ∧ s.offset = off layer)
    (cov cs : String → String → ℚ)
    (hcov : ∀ inside outside o, Fringe.PairSpec t.parasitics inside outside o → o.cap = cov inside outside)
    (hcs : ∀ inside outside s, SideOverlapIs t.parasitics inside outside s → s.cap = cs inside outside)
    (hcov0 : ∀ inside outside, 0 ≤ cov inside outside) (hcs0 : ∀ inside outside, 0 ≤ cs inside outside)
    (hpos : 0 < cov upper lower ∧ 0 < cs upper lower ∧ 0 < cov lower upper ∧ 0 < cs lower upper)
    (ε : ℝ) (hε : 0 ≤ ε) (hrnd : ∀ r, 1 / 10000 < r → |(kl.rnd r : ℝ) - r| ≤ ε * r)
    (hrnd' : ∀ r, 1 / 10000 < r → |(kl'.rnd r : ℝ) - r| ≤ ε * r) :
    ∃ (A : ℚ) (F F' : ℝ) (names : List String) (R R' : List (List Poly)) (sides sides' : Nat → List (Poly × Side))
      (views views' : Nat → Poly × Side → List View) (N N' : Nat), F' < F ∧
      Picture kl t x halo depth names R sides views ∧ Picture kl' t x halo' depth' names R' sides' views' ∧
      N = ∑ i ∈ Finset.range names.length, ((sides i).map fun ps => (views i ps).length).sum ∧
      N' = ∑ i ∈ Finset.range names.length, ((sides' i).map fun ps => (views' i ps).length).sum ∧
      |(Rcx25Netlist.parasiticCap c' n m : ℝ) - (A + F)| ≤ ε * F + N / 10000 ∧
      |(Rcx25Netlist.parasiticCap d' n m : ℝ) - (A + F')| ≤ ε * F' + N' / 10000 := by
  obtain ⟨names, R, sides, views, N, A, F, h1, h2, h3, h4, h5, h6, h7, h8⟩ := crossing_netlist kl hkl hrect hk hkb cf t x mode hmode
    true halo res c c' bb hrun hno upper lower n m a1 a2 c1 c2 b1 b2 d1 d2 hcross hsub hnn cap hspec hdbu hdbu' depth hdepth hvis
    C off hC cov cs hcov hcs hcov0 hcs0 hhalo.le ε hε hrnd
  have hcross' : Crossing (withHalo t h') x halo' upper lower n m a1 a2 c1 c2 b1 b2 d1 d2 :=
    ⟨fun l p hl => ((withHalo_poly l p).trans (poly_halo hl p)).trans (hcross.only l p hl), hcross.layers,
      fun names hs => hcross.above names (withHalo_stack.1 hs), hcross.nets, hcross.columns, hcross.rows⟩
  obtain ⟨names', R', sides', views', N', A', F', k1, k2, k3, k4, k5, k6, k7, k8⟩ := crossing_netlist kl' hkl' hrect' hk' hkb' cf
    (withHalo t h') x mode hmode true halo' res' d d' bb hrun' hno' upper lower n m a1 a2 c1 c2 b1 b2 d1 d2 hcross' hsub hnn cap
    (fun names hs => hspec names (withHalo_stack.1 hs)) hdbu hdbu' depth' hdepth'
    (fun names R hs hR => hvis' names R (withHalo_stack.1 hs) hR) C off hC cov cs hcov hcs hcov0 hcs0 (hhalo.le.trans hlt.le) ε hε
    hrnd'
  have k1 := withHalo_stack.1 k1
  obtain rfl := k1.unique h1
  have hA : A' = A := by rw [k6, h6]
  subst hA
  have hdd : depth ≤ depth' := by
    rw [hdepth, hdepth']
    have : ⌊t.parasitics.sideHalo / x.dbu⌋ ≤ ⌊h' / x.dbu⌋ := Int.floor_le_floor (by gcongr)
    omega
  refine ⟨A', F, F', names', R, R', sides, sides', views, views', N, N', ?_, ⟨h1, h2, h3, h4⟩, ⟨k1, k2, k3, k4⟩, h5, k5, h8, k8⟩
  rw [min_eq_right hends.1, min_eq_right hends.2.1, min_eq_right hends.2.2.1, min_eq_right hends.2.2.2] at h7
  rw [min_eq_right (hends.1.trans hdd), min_eq_right (hends.2.1.trans hdd), min_eq_right (hends.2.2.1.trans hdd),
    min_eq_right (hends.2.2.2.trans hdd)] at k7
  have s2 : (withHalo t h').parasitics.sideHalo = h' := rfl
  rw [s2] at k7
  have w1 : (0 : ℝ) < (b2 - b1 : ℤ) := by exact_mod_cast (by have := hcross.columns; omega : 0 < b2 - b1)
  have w2 : (0 : ℝ) < (c2 - c1 : ℤ) := by exact_mod_cast (by have := hcross.rows; omega : 0 < c2 - c1)
  have l1 := scaled_law_shrinks hhalo hlt hdbu hpos.1 hpos.2.1 w1 (near := 1) (far := (d2 - c2 : ℤ)) (by exact_mod_cast hlong.1)
  have l2 := scaled_law_shrinks hhalo hlt hdbu hpos.1 hpos.2.1 w1 (near := 1) (far := (c1 - d1 : ℤ)) (by exact_mod_cast hlong.2.1)
  have l3 := scaled_law_shrinks hhalo hlt hdbu hpos.2.2.1 hpos.2.2.2 w2 (near := 1) (far := (a2 - b2 : ℤ))
    (by exact_mod_cast hlong.2.2.1)
  have l4 := scaled_law_shrinks hhalo hlt hdbu hpos.2.2.1 hpos.2.2.2 w2 (near := 1) (far := (b1 - a1 : ℤ))
    (by exact_mod_cast hlong.2.2.2)
  rw [h7, k7]
  linarith

end Verif.Engine25
