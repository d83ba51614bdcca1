import Verif.Engine25.Plate
import Verif.Pdk.Nearby

/-!
# The capacitance of a plate with the shipped technologies (C96)
-/

namespace Verif.Pdk

open Engine25 (Plate KeepsRect wire tidy tidy_congr tidy_one KLayout Context IsStack Regions AllSides Views View Side Visits)
open Fringe (KernelOK KernelBands PairSpec law)
open Overlap (Poly Cell)
open TechInfo (OverlapIs SideOverlapIs)

set_option maxRecDepth 4000

/-- **C96 for the shipped technologies.** Nothing has to be assumed about the technology: `o` and `s` are its entries for the layer
over the substrate. -/
theorem shipped_plate {t : Technology} (ht : Shipped t) (kl : KLayout) (hkl : Engine25.Faithful kl) (hrect : KeepsRect kl)
    (hk : KernelOK kl.kernel) (hkb : KernelBands kl.kernel) (cf : String → String) (x : Context) (hmim : WithoutMim t x)
    (mode : PexMode.Mode) (hmode : mode = .CC ∨ mode = .RC) (scale : Bool) (halo : ℤ) (hhalo : 1 ≤ halo)
    (res : Except String (List Summary.RNetwork)) (c c' : Netlist.Circuit) (bb : Bool)
    (hrun : Engine25.run kl cf t.read x mode scale halo res c bb = .ok c') (hno : ∀ d ∈ c.devices, d.clsName ≠ "C")
    (layer n : String) (x1 x2 y1 y2 : ℤ) (hplate : Plate t.read x halo layer n x1 x2 y1 y2)
    (o : TechInfo.OverlapSpec) (ho : OverlapIs t.parasitics layer "VSUBS" o)
    (s : TechInfo.SideOverlapSpec) (hs : SideOverlapIs t.parasitics layer "VSUBS" s)
    (hdbu : 0 < x.dbu) (hdbu' : x.dbu ≤ 10) (depth : ℤ) (hdepth : depth = ⌊t.parasitics.sideHalo / x.dbu⌋ + 1)
    (hvis : ∀ names R, IsStack t.read x names → Regions kl t.read x halo names R → ∀ i < names.length,
      ∃ sides, Visits R i depth sides (kl.edges R i))
    (ε : ℝ) (hε : 0 ≤ ε) (hrnd : ∀ r, 1 / 10000 < r → |(kl.rnd r : ℝ) - r| ≤ ε * r) :
    ∃ (names : List String) (R : List (List Poly)) (sides : Nat → List (Poly × Side)) (views : Nat → Poly × Side → List View)
      (N : Nat) (A : ℚ) (F : ℝ),
      IsStack t.read x names ∧ Regions kl t.read x halo names R ∧ (∀ i < names.length, AllSides (R.getD i []) (sides i)) ∧
      (∀ i < names.length, ∀ ps ∈ sides i, Views R names i ps.1 ps.2 depth (views i ps)) ∧
      N = ∑ i ∈ Finset.range names.length, ((sides i).map fun ps => (views i ps).length).sum ∧
      A = ((x2 - x1 : ℤ) * x.dbu) * ((y2 - y1 : ℤ) * x.dbu) * o.cap / 1000 ∧
      F = law scale t.parasitics.sideHalo x.dbu o.cap s.cap (2 * ((x2 - x1 - 2 : ℤ) + (y2 - y1 - 2 : ℤ))) 1 (min depth halo : ℤ) ∧
      |(Rcx25Netlist.parasiticCap c' n "VSUBS" : ℝ) - (A + F)| ≤ ε * F + N / 10000 := by
  obtain ⟨cap, cov, cs, C, off, hv⟩ := shipped_values ht
  obtain ⟨names, R, sides, views, N, A, F, h1, h2, h3, h4, h5, h6, h7, h8⟩ := Engine25.plate_netlist kl hkl hrect hk hkb cf t.read x
    mode hmode scale halo hhalo res c c' bb hrun hno layer n x1 x2 y1 y2 hplate (shipped_no_vsubs ht) (shipped_nonneg ht) cap
    (hv.pairs x hmim) hdbu hdbu' depth hdepth hvis C off hv.wall cov cs hv.over hv.side hv.over0 hv.side0 (side_values_ok ht).1 ε hε
    hrnd
  have e1 : cap layer "VSUBS" = o.cap := by
    obtain ⟨i, hi, hi', hd⟩ := hplate.index h1
    obtain ⟨h0, h0'⟩ := Engine25.stack_zero h1
    obtain ⟨o', ho', he⟩ := hv.pairs x hmim names h1 0 i hi hi'
    rw [hd, h0'] at ho' he
    rw [← he, OverlapIs.unique ho ho']
  have e2 : cov layer "VSUBS" = o.cap := (hv.over _ _ _ (Or.inl ho)).symm
  have e3 : cs layer "VSUBS" = s.cap := (hv.side _ _ _ hs).symm
  rw [e1] at h6
  rw [e2, e3] at h7
  exact ⟨names, R, sides, views, N, A, F, h1, h2, h3, h4, h5, h6, h7, h8⟩

/-! ### An example -/

/-- A plate that fills the cell. -/
def onePlate : List Rect := [⟨"A", 0, 0, 40, 6⟩]

theorem onePlate_clear : ∀ ps ∈ rectSides onePlate, Engine25.Clear (wiresLayers onePlate).values 1 ps.1 ps.2 9 := by
  intro ps hps
  simp only [rectSides, onePlate, List.flatMap_cons, List.flatMap_nil, List.append_nil, List.mem_map] at hps
  obtain ⟨s, hs, rfl⟩ := hps
  refine ⟨?_, fun _ j _ => ?_⟩
  · revert s; decide
  have hcell : ∀ u w, 1 ≤ u → u < s.len - 1 → 1 ≤ w → (s.cell u w ∈ bottom.poly.cells ↔ w < 8) := by
    intro u w h1 h2 h3
    simp only [Engine25.boxSides, List.mem_cons, List.not_mem_nil, or_false] at hs
    rcases hs with rfl | rfl | rfl | rfl <;>
    · dsimp only at h2
      simp only [Side.cell, Rect.poly, bottom, Finset.mem_product, Finset.mem_Ico]
      omega
  have hone : ∀ q, q ∈ Engine25.inFront (wiresLayers onePlate).values 1 (Rect.poly ⟨"A", 0, 0, 40, 6⟩) s 9 j →
      q = ⟨"", Finset.Ico 1 (s.len - 1) ×ˢ Finset.Ico 1 8⟩ := by
    intro q hq
    obtain ⟨q', hq', hcl⟩ := (Engine25.mem_inFront (show 1 < 2 by omega)).1 hq
    obtain ⟨hnet, ⟨⟨u, w⟩, hne⟩, h3⟩ := Engine25.clip_some.1 hcl
    have hplate : q' ≠ Rect.poly ⟨"A", 0, 0, 40, 6⟩ := by
      rintro rfl
      obtain ⟨_, ⟨hw, _⟩, hc⟩ := (h3 u w).1 hne
      exact Engine25.outside_box hs u hw hc
    have hb : q' = bottom.poly := by
      rcases hq' with ⟨h1, h2, h4⟩ | ⟨_, h2, h4⟩ | ⟨_, rfl⟩
      · have h1 : j < 2 := h1
        obtain rfl : j = 0 := by omega
        exact List.mem_singleton.1 h4
      · exact absurd (List.mem_singleton.1 h2) hplate
      · exact absurd rfl hplate
    subst hb
    cases q with
    | mk qn qc =>
      obtain rfl : qn = "" := hnet
      congr 1
      ext ⟨u, w⟩
      rw [h3]
      simp only [Finset.mem_product, Finset.mem_Ico]
      constructor
      · rintro ⟨h1, h2, h4⟩
        exact ⟨h1, h2.1, (hcell u w h1.1 h1.2 h2.1).1 h4⟩
      · rintro ⟨h1, h2, h4⟩
        exact ⟨h1, ⟨h2, by omega⟩, (hcell u w h1.1 h1.2 h2).2 h4⟩
  refine ⟨fun q hq => ⟨1, by decide, 8, by decide, by rw [hone q hq]⟩, ?_⟩
  have hlen : (Engine25.inFront (wiresLayers onePlate).values 1 (Rect.poly ⟨"A", 0, 0, 40, 6⟩) s 9 j).length ≤ 1 := by
    unfold Engine25.inFront
    refine (List.length_filterMap_le _ _).trans ?_
    unfold Engine25.shownList
    split
    · refine (List.length_filter_le _ _).trans ?_
      exact le_refl 1
    · split
      · exact le_refl 1
      · have : j < 2 := by
          rename_i h1 h2 h3
          have h2 : j < 2 + 1 := by assumption
          have h3 : ¬ j = 2 := by assumption
          omega
        obtain rfl : j = 0 := by omega
        exact le_refl 1
  match hm : Engine25.inFront (wiresLayers onePlate).values 1 (Rect.poly ⟨"A", 0, 0, 40, 6⟩) s 9 j, hlen with
  | [], _ => exact List.Pairwise.nil
  | [q], _ => exact List.pairwise_singleton _ _

theorem onePlate_ok : WiresOK onePlate where
  sorted := by decide
  inside := by decide
  apart := by decide
  nodup := by
    simp only [rectSides, onePlate, List.flatMap_cons, List.flatMap_nil, List.append_nil]
    exact List.Nodup.map (fun a b h => congrArg Prod.snd h) (by decide)
  clear := onePlate_clear

theorem onePlate_plate : Plate Sky130A.tech.read (wiresCell onePlate) 8 "met1" "A" 0 40 0 6 where
  only m p hm := by
    rw [wiresPoly_iff]
    constructor
    · rintro (⟨h, _⟩ | ⟨rfl, r, hr, rfl⟩)
      · exact absurd h hm
      · obtain rfl := List.mem_singleton.1 hr
        exact ⟨rfl, rfl⟩
    · rintro ⟨rfl, rfl⟩
      exact Or.inr ⟨rfl, _, List.mem_singleton_self _, rfl⟩
  layer := by decide
  net := by decide
  wide := by decide
  high := by decide
  box := by rintro b (rfl | rfl) <;> rfl

theorem lookKeeps : KeepsRect lookKL := by
  intro n x1 x2 y1 y2 ps hne hall
  show tidy ps = _
  rw [← tidy_one (wire n x1 x2 y1 y2)]
  refine tidy_congr fun p => ?_
  rw [List.mem_singleton]
  refine ⟨hall p, ?_⟩
  rintro rfl
  obtain ⟨q, hq⟩ := List.exists_mem_of_ne_nil _ hne
  rw [← hall q hq]; exact hq

/-- The hypotheses of C96 hold for the plate: 40 × 6 µm² on met1 with 25.78 aF/µm² and 40.57 aF/µm. -/
example : ∃ c', Engine25.run lookKL id Sky130A.tech.read (wiresCell onePlate) .CC true 8 (.ok []) ⟨["A"], []⟩ true = .ok c' ∧
    ∃ (N : Nat) (F : ℝ), F = law true 8 1 25.78 40.57 84 1 8 ∧
      |(Rcx25Netlist.parasiticCap c' "A" "VSUBS" : ℝ) - (((40 * 6 * 25.78 / 1000 : ℚ) : ℝ) + F)| ≤ 1 / 100 * F + N / 10000 := by
  obtain ⟨c', h⟩ := (shipped_runs_partial (Or.inl rfl) Fringe.rowKernel_ok wiresSourced wiresMim (wiresSpaced onePlate_ok) true
    (.ok [])).1 id ⟨["A"], []⟩ true
  have hsub : TechInfo.IsLast (fun s => s.layer = "met1") Sky130A.tech.parasitics.substrates ⟨"met1", 25.78, 40.57⟩ := by
    have := (TechInfo.find_last (fun s : TechInfo.SubstrateCap => decide (s.layer = "met1")) Sky130A.tech.parasitics.substrates
      ⟨"met1", 25.78, 40.57⟩).1 (by decide +kernel)
    simpa using this
  have ho : OverlapIs Sky130A.tech.parasitics "met1" "VSUBS" ⟨"met1", "VSUBS", 25.78⟩ :=
    Or.inr ⟨by decide +kernel, rfl, _, hsub, rfl⟩
  have hs : SideOverlapIs Sky130A.tech.parasitics "met1" "VSUBS" ⟨"met1", "VSUBS", 40.57⟩ :=
    Or.inr ⟨by decide +kernel, rfl, _, hsub, rfl⟩
  obtain ⟨names, R, sides, views, N, A, F, _, _, _, _, _, hA, hF, hc⟩ := shipped_plate (Or.inl rfl) lookKL lookFaithful lookKeeps
    Fringe.rowKernel_ok Fringe.rowKernel_bands id _ wiresMim .CC (Or.inl rfl) true 8 (by decide) _ _ c' true h (by simp) _ _ _ _ _ _
    onePlate_plate _ ho _ hs (by norm_num [wiresCell]) (by norm_num [wiresCell]) 9
    (by show (9 : ℤ) = ⌊(8.0 : ℚ) / 1⌋ + 1; norm_num)
    (fun names R hs hR i hi => wiresVisits onePlate_ok hs hR hi)
    (1 / 100) (by norm_num) (by
      intro r hr
      have h1 := Int.floor_le (r * 1000000)
      have h2 := Int.lt_floor_add_one (r * 1000000)
      have e : ((lookKL.rnd r : ℚ) : ℝ) = (⌊r * 1000000⌋ : ℝ) / 1000000 := by simp [lookKL]
      rw [e, abs_le]
      constructor <;> linarith)
  refine ⟨c', h, N, F, ?_, ?_⟩
  · have e1 : Sky130A.tech.parasitics.sideHalo = 8 := by show (8.0 : ℚ) = 8; norm_num
    rw [hF, e1]
    show law true 8 1 25.78 40.57 _ 1 _ = _
    norm_num
  · have e : A = 40 * 6 * 25.78 / 1000 := by
      rw [hA]
      show (((40 - 0 : ℤ) : ℚ) * 1) * (((6 - 0 : ℤ) : ℚ) * 1) * 25.78 / 1000 = _
      norm_num
    rw [← e]
    exact hc

end Verif.Pdk
