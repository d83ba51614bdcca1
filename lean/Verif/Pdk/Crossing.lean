import Verif.Engine25.Crossing
import Verif.Engine25.Strips
import Verif.Pdk.Plate

/-!
# The capacitance of two crossing wires with the shipped technologies (C103)
-/

namespace Verif.Pdk

open Engine25 (Crossing KeepsRect wire tidy tidy_congr tidy_one KLayout Context IsStack Regions AllSides Views View Side Visits
  ClearIn lookIn)
open Fringe (KernelOK KernelBands PairSpec law)
open Overlap (Poly Cell)
open TechInfo (OverlapIs SideOverlapIs)

set_option maxRecDepth 4000

/-- **C103 for the shipped technologies.** Nothing has to be assumed about the technology: `o` is its entry for the overlap of the two
layers, `o'` the one that is used for them in
the other order (the same unless the technology lists both orders), `s` and `s'` its entries for the sides of the upper wire over the lower one and of the lower wire under the upper one. -/
theorem shipped_crossing {t : Technology} (ht : Shipped t) (kl : KLayout) (hkl : Engine25.Faithful kl) (hrect : KeepsRect kl)
    (hk : KernelOK kl.kernel) (hkb : KernelBands kl.kernel) (cf : String → String) (x : Context) (hmim : WithoutMim t x)
    (mode : PexMode.Mode) (hmode : mode = .CC ∨ mode = .RC) (scale : Bool) (halo : ℤ)
    (res : Except String (List Summary.RNetwork)) (c c' : Netlist.Circuit) (bb : Bool)
    (hrun : Engine25.run kl cf t.read x mode scale halo res c bb = .ok c') (hno : ∀ d ∈ c.devices, d.clsName ≠ "C")
    (upper lower n m : String) (a1 a2 c1 c2 b1 b2 d1 d2 : ℤ)
    (hcross : Crossing t.read x halo upper lower n m a1 a2 c1 c2 b1 b2 d1 d2)
    (o : TechInfo.OverlapSpec) (ho : OverlapIs t.parasitics upper lower o)
    (o' : TechInfo.OverlapSpec) (ho' : PairSpec t.parasitics lower upper o')
    (s : TechInfo.SideOverlapSpec) (hs : SideOverlapIs t.parasitics upper lower s)
    (s' : TechInfo.SideOverlapSpec) (hs' : SideOverlapIs t.parasitics lower upper s')
    (hdbu : 0 < x.dbu) (hdbu' : x.dbu ≤ 10) (depth : ℤ) (hdepth : depth = ⌊t.parasitics.sideHalo / x.dbu⌋ + 1)
    (hvis : ∀ names R, IsStack t.read x names → Regions kl t.read x halo names R → ∀ i < names.length,
      ∃ sides, Visits R i depth sides (kl.edges R i))
    (ε : ℝ) (hε : 0 ≤ ε) (hrnd : ∀ r, 1 / 10000 < r → |(kl.rnd r : ℝ) - r| ≤ ε * r) :
    ∃ (names : List String) (R : List (List Poly)) (sides : Nat → List (Poly × Side)) (views : Nat → Poly × Side → List View)
      (N : Nat) (A : ℚ) (F : ℝ),
      IsStack t.read x names ∧ Regions kl t.read x halo names R ∧ (∀ i < names.length, AllSides (R.getD i []) (sides i)) ∧
      (∀ i < names.length, ∀ ps ∈ sides i, Views R names i ps.1 ps.2 depth (views i ps)) ∧
      N = ∑ i ∈ Finset.range names.length, ((sides i).map fun ps => (views i ps).length).sum ∧
      A = ((b2 - b1 : ℤ) * x.dbu) * ((c2 - c1 : ℤ) * x.dbu) * o.cap / 1000 ∧
      F = law scale t.parasitics.sideHalo x.dbu o.cap s.cap (b2 - b1 : ℤ) 1 (min depth (d2 - c2) : ℤ) +
        law scale t.parasitics.sideHalo x.dbu o.cap s.cap (b2 - b1 : ℤ) 1 (min depth (c1 - d1) : ℤ) +
        law scale t.parasitics.sideHalo x.dbu o'.cap s'.cap (c2 - c1 : ℤ) 1 (min depth (a2 - b2) : ℤ) +
        law scale t.parasitics.sideHalo x.dbu o'.cap s'.cap (c2 - c1 : ℤ) 1 (min depth (b1 - a1) : ℤ) ∧
      |(Rcx25Netlist.parasiticCap c' n m : ℝ) - (A + F)| ≤ ε * F + N / 10000 := by
  obtain ⟨cap, cov, cs, C, off, hv⟩ := shipped_values ht
  obtain ⟨names, R, sides, views, N, A, F, h1, h2, h3, h4, h5, h6, h7, h8⟩ := Engine25.crossing_netlist kl hkl hrect hk hkb cf t.read x
    mode hmode scale halo res c c' bb hrun hno upper lower n m a1 a2 c1 c2 b1 b2 d1 d2 hcross (shipped_no_vsubs ht) (shipped_nonneg ht)
    cap (hv.pairs x hmim) hdbu hdbu' depth hdepth hvis C off hv.wall cov cs hv.over hv.side hv.over0 hv.side0 (side_values_ok ht).1 ε hε
    hrnd
  have e1 : cap upper lower = o.cap := by
    obtain ⟨i, j, h0, hij, hj, ei, ej⟩ := hcross.index h1
    obtain ⟨q, hq, he⟩ := hv.pairs x hmim names h1 i j hij hj
    rw [ej, ei] at hq he
    rw [← he, OverlapIs.unique ho hq]
  have e2 : cov upper lower = o.cap := (hv.over _ _ _ (Or.inl ho)).symm
  have e2' : cov lower upper = o'.cap := (hv.over _ _ _ ho').symm
  have e3 : cs upper lower = s.cap := (hv.side _ _ _ hs).symm
  have e3' : cs lower upper = s'.cap := (hv.side _ _ _ hs').symm
  rw [e1] at h6
  rw [e2, e3, e2', e3'] at h7
  exact ⟨names, R, sides, views, N, A, F, h1, h2, h3, h4, h5, h6, h7, h8⟩

/-! ### An example -/

/-- Where the edges of the example are cut: before, over and behind the other wire. -/
def cutsOf (s : Side) : List (ℤ × ℤ) := if s.len = 8 then [(1, 3), (3, 5), (5, 7)] else []

open Classical in
/-- A KLayout that looks at all edges and cuts them into intervals. -/
noncomputable def cutKL : KLayout where
  merged := tidy
  nbh := fun R _ _ => R.zipIdx.map fun e => (e.2, e.1)
  edges := fun R i => if h : ∃ L, AllSides (R.getD i []) L ∧ (R.getD i [] = [] → L = []) then
    h.choose.map fun ps => (ps.1.net, lookIn R i ps.1 ps.2 9 (cutsOf ps.2)) else []
  kernel := Fringe.rowKernel
  rnd := fun r => (⌊r * 1000000⌋ : ℚ) / 1000000

theorem cutFaithful : Engine25.Faithful cutKL := ⟨geoFaithful.cover, geoFaithful.disjoint, geoFaithful.sound, geoFaithful.complete⟩

theorem cutKeeps : KeepsRect cutKL := fun n x1 x2 y1 y2 ps hne hall => lookKeeps n x1 x2 y1 y2 ps hne hall

theorem cutVisits {R : List (List Poly)} {i : Nat} (hi : i < R.length) {L : List (Poly × Side)}
    (hL : AllSides (R.getD i []) L) (hc : ∀ ps ∈ L, ClearIn R i ps.1 ps.2 9 (cutsOf ps.2)) :
    ∃ sides, Visits R i 9 sides (cutKL.edges R i) := by
  have he : ∃ L, AllSides (R.getD i []) L ∧ (R.getD i [] = [] → L = []) := by
    refine ⟨L, hL, fun h0 => ?_⟩
    rw [List.eq_nil_iff_forall_not_mem]
    rintro ⟨p, s⟩ hps
    have := ((hL.mem p s).1 hps).1
    rw [h0] at this
    exact List.not_mem_nil this
  have e : cutKL.edges R i = he.choose.map fun ps => (ps.1.net, lookIn R i ps.1 ps.2 9 (cutsOf ps.2)) := dif_pos he
  refine ⟨he.choose, he.choose_spec.1, ?_⟩
  rw [e, List.forall₂_map_right_iff, List.forall₂_same]
  rintro ⟨p, s⟩ hps
  refine ⟨rfl, Engine25.lookIn_ok hi (hc (p, s) ?_)⟩
  rw [hL.mem]
  exact (he.choose_spec.1.mem p s).1 hps

/-- A wire on met2 over a wire on met1. -/
def overWire : Rect := ⟨"A", 0, 3, 8, 5⟩
def underWire : Rect := ⟨"B", 3, 0, 5, 8⟩
def crossBottom : Rect := ⟨"", -8, -8, 16, 16⟩

noncomputable def crossCell : Context where
  cellName := "TOP"
  dbu := 1
  annotated := ⟨0, 0, 8, 8⟩
  internal := ⟨0, 0, 8, 8⟩
  extracted := [((68, 20), [[underWire.poly]]), ((69, 20), [[overWire.poly]])]

noncomputable def crossLayers : Dict String (List Poly) :=
  [("VSUBS", [crossBottom.poly]), ("met1", [underWire.poly]), ("met2", [overWire.poly])]

theorem crossLayers_ok : Engine25.layerRegions Sky130A.tech.read crossCell 8 = .ok crossLayers := rfl

theorem crossRegions {names : List String} {R : List (List Poly)} (hs : IsStack Sky130A.tech.read crossCell names)
    (hR : Regions cutKL Sky130A.tech.read crossCell 8 names R) : names = ["VSUBS", "met1", "met2"] ∧ R = crossLayers.values := by
  obtain ⟨h1, h2⟩ := Engine25.layers_exact _ _ _ _ crossLayers_ok
  obtain rfl := hs.unique h1
  refine ⟨rfl, ?_⟩
  have ht : crossLayers.values.map tidy = crossLayers.values := by
    show [tidy [crossBottom.poly], tidy [underWire.poly], tidy [overWire.poly]] = [[crossBottom.poly], [underWire.poly], [overWire.poly]]
    rw [tidy_one, tidy_one, tidy_one]
  rw [← ht]
  refine List.ext_getElem? fun i => ?_
  have hlen : crossLayers.keys.length = crossLayers.values.length := rfl
  by_cases hi : i < crossLayers.keys.length
  · obtain ⟨ps, hps, hmem⟩ := hR.2 i hi
    obtain ⟨qs, hq1, hq2⟩ := Engine25.keys_get h1.nodup hi
    rw [hps, List.getElem?_map, hq1]
    show some (tidy ps) = some (tidy qs)
    rw [tidy_congr fun p => (hmem p).trans (h2 _ _ hq2 p).symm]
  · rw [List.getElem?_eq_none (by rw [hR.1]; omega), List.getElem?_eq_none (by rw [List.length_map]; omega)]

theorem crossPoly (n : String) (p : Poly) : Engine25.PolyOf Sky130A.tech.read crossCell 8 n p ↔
    (n = "VSUBS" ∧ p = crossBottom.poly) ∨ (n = "met1" ∧ p = underWire.poly) ∨ (n = "met2" ∧ p = overWire.poly) := by
  obtain ⟨hs, hp⟩ := Engine25.layers_exact _ _ _ _ crossLayers_ok
  constructor
  · intro h
    have hn : n ∈ crossLayers.keys := by
      rw [hs.mem]
      rcases h with ⟨h, _⟩ | ⟨l, hl, rs, hg, _⟩
      · exact Or.inl h
      · exact Or.inr ⟨l, hl, rs, hg⟩
    simp only [crossLayers, Dict.keys, List.map_cons, List.map_nil, List.mem_cons, List.not_mem_nil, or_false] at hn
    rcases hn with rfl | rfl | rfl
    · exact Or.inl ⟨rfl, List.mem_singleton.1 ((hp _ _ rfl p).2 h)⟩
    · exact Or.inr (Or.inl ⟨rfl, List.mem_singleton.1 ((hp _ _ rfl p).2 h)⟩)
    · exact Or.inr (Or.inr ⟨rfl, List.mem_singleton.1 ((hp _ _ rfl p).2 h)⟩)
  · rintro (⟨rfl, rfl⟩ | ⟨rfl, rfl⟩ | ⟨rfl, rfl⟩)
    · exact (hp "VSUBS" _ rfl _).1 List.mem_cons_self
    · exact (hp "met1" _ rfl _).1 List.mem_cons_self
    · exact (hp "met2" _ rfl _).1 List.mem_cons_self

theorem underClear : ∀ ps ∈ rectSides [underWire], ClearIn crossLayers.values 1 ps.1 ps.2 9 (cutsOf ps.2) := by
  decide +kernel

theorem overClear : ∀ ps ∈ rectSides [overWire], ClearIn crossLayers.values 2 ps.1 ps.2 9 (cutsOf ps.2) := by
  decide +kernel

theorem bottomClear : ∀ ps ∈ rectSides [crossBottom], ClearIn crossLayers.values 0 ps.1 ps.2 9 (cutsOf ps.2) := by
  intro ps hps
  simp only [rectSides, List.flatMap_cons, List.flatMap_nil, List.append_nil, List.mem_map] at hps
  obtain ⟨s, hs, rfl⟩ := hps
  have hcut : cutsOf s = [] := by revert s; decide
  rw [hcut]
  refine ⟨fun c hc => absurd hc List.not_mem_nil, List.Pairwise.nil, fun u hu => Or.inr fun j hj q' hq' w hw hc => ?_⟩
  refine Engine25.outside_box hs u (Finset.mem_Ico.1 hw).1 ?_
  have hsub : q' ∈ crossLayers.values.flatten := by
    rcases (Engine25.shown_list (show 0 < 3 by omega)).1 hq' with ⟨h1, _, h2⟩ | ⟨_, h2, _⟩ | ⟨_, rfl⟩
    · rw [List.getD_eq_getElem _ _ h1] at h2
      exact List.mem_flatten_of_mem (List.getElem_mem h1) h2
    · rw [List.getD_eq_getElem _ _ (show 0 < 3 by omega)] at h2
      exact List.mem_flatten_of_mem (List.getElem_mem _) h2
    · exact List.mem_flatten_of_mem (l := [crossBottom.poly]) List.mem_cons_self List.mem_cons_self
  have hsub : q' ∈ [crossBottom.poly, underWire.poly, overWire.poly] := hsub
  simp only [List.mem_cons, List.not_mem_nil, or_false] at hsub
  generalize s.cell u w = c at hc ⊢
  rcases hsub with rfl | rfl | rfl
  · exact hc
  · simp only [Rect.poly, underWire, crossBottom, Finset.mem_product, Finset.mem_Ico] at hc ⊢
    omega
  · simp only [Rect.poly, overWire, crossBottom, Finset.mem_product, Finset.mem_Ico] at hc ⊢
    omega

theorem crossVisits {names : List String} {R : List (List Poly)} (hs : IsStack Sky130A.tech.read crossCell names)
    (hR : Regions cutKL Sky130A.tech.read crossCell 8 names R) {i : Nat} (hi : i < names.length) :
    ∃ sides, Visits R i 9 sides (cutKL.edges R i) := by
  obtain ⟨rfl, rfl⟩ := crossRegions hs hR
  have hi : i < 3 := hi
  have : i = 0 ∨ i = 1 ∨ i = 2 := by omega
  rcases this with rfl | rfl | rfl
  · exact cutVisits (L := rectSides [crossBottom]) (show 0 < 3 by omega)
      (rect_all (L := [crossBottom]) (by decide) (by
        simp only [rectSides, List.flatMap_cons, List.flatMap_nil, List.append_nil]
        exact List.Nodup.map (fun a b h => congrArg Prod.snd h) (by decide))) bottomClear
  · exact cutVisits (L := rectSides [underWire]) (show 1 < 3 by omega)
      (rect_all (L := [underWire]) (by decide) (by
        simp only [rectSides, List.flatMap_cons, List.flatMap_nil, List.append_nil]
        exact List.Nodup.map (fun a b h => congrArg Prod.snd h) (by decide))) underClear
  · exact cutVisits (L := rectSides [overWire]) (show 2 < 3 by omega)
      (rect_all (L := [overWire]) (by decide) (by
        simp only [rectSides, List.flatMap_cons, List.flatMap_nil, List.append_nil]
        exact List.Nodup.map (fun a b h => congrArg Prod.snd h) (by decide))) overClear

theorem crossMim : WithoutMim Sky130A.tech crossCell := by
  intro l hl n rs hg hm
  obtain ⟨hs, _⟩ := Engine25.layers_exact _ _ _ _ crossLayers_ok
  have hn : n ∈ crossLayers.keys := (hs.mem n).2 (Or.inr ⟨l, hl, rs, hg⟩)
  simp only [crossLayers, Dict.keys, List.map_cons, List.map_nil, List.mem_cons, List.not_mem_nil, or_false] at hn
  rcases hn with rfl | rfl | rfl <;> revert hm <;> decide

theorem crossSpaced : Spaced cutKL Sky130A.tech crossCell 8 := by
  refine spaced_of_layout cutFaithful (depth := 9) (fun names R hs hR i hi => crossVisits hs hR hi) ?_ ?_
    (shipped_no_vsubs (Or.inl rfl)) ?_ ?_
  · rintro R - i hi
    have h0 : R.getD i [] = [] := by
      rw [List.getD_eq_getElem?_getD, List.getElem?_eq_none hi]; rfl
    unfold cutKL
    dsimp only
    split
    · rename_i h
      rw [h.choose_spec.2 h0]; rfl
    · rfl
  · intro ps hne hall
    show tidy ps = _
    rw [← tidy_one (Engine25.substratePoly crossCell 8)]
    refine tidy_congr fun p => ?_
    rw [List.mem_singleton]
    refine ⟨hall p, ?_⟩
    rintro rfl
    obtain ⟨q, hq⟩ := List.exists_mem_of_ne_nil _ hne
    rw [← hall q hq]; exact hq
  · intro n p hp c hc
    have : -8 ≤ c.1 ∧ c.1 < 16 ∧ -8 ≤ c.2 ∧ c.2 < 16 := by
      rcases (crossPoly _ _).1 hp with ⟨_, rfl⟩ | ⟨_, rfl⟩ | ⟨_, rfl⟩ <;>
      · simp only [Rect.poly, crossBottom, underWire, overWire, Finset.mem_product, Finset.mem_Ico] at hc
        omega
    exact (Engine25.inSubstrate_iff _ _ _).2 ⟨fun _ => this, fun _ => this⟩
  · intro n p q hp hq hne c hc c' hc'
    rcases (crossPoly _ _).1 hp with ⟨rfl, rfl⟩ | ⟨rfl, rfl⟩ | ⟨rfl, rfl⟩ <;>
      rcases (crossPoly _ _).1 hq with ⟨h, rfl⟩ | ⟨h, rfl⟩ | ⟨h, rfl⟩ <;>
      first
      | exact absurd rfl hne
      | exact absurd h (by decide)

theorem crossSourced : ∀ g, crossCell.extracted.get? g ≠ some [] := by
  intro g
  simp only [crossCell, Dict.get?]
  split_ifs <;> simp

theorem crossCrossing : Crossing Sky130A.tech.read crossCell 8 "met2" "met1" "A" "B" 0 8 3 5 3 5 0 8 where
  only l p hl := by
    rw [crossPoly]
    constructor
    · rintro (⟨h, _⟩ | ⟨rfl, rfl⟩ | ⟨rfl, rfl⟩)
      · exact absurd h hl
      · exact Or.inr ⟨rfl, rfl⟩
      · exact Or.inl ⟨rfl, rfl⟩
    · rintro (⟨rfl, rfl⟩ | ⟨rfl, rfl⟩)
      · exact Or.inr (Or.inr ⟨rfl, rfl⟩)
      · exact Or.inr (Or.inl ⟨rfl, rfl⟩)
  layers := by decide
  above names hs := by
    obtain ⟨h1, _⟩ := Engine25.layers_exact _ _ _ _ crossLayers_ok
    obtain rfl := hs.unique h1
    exact List.sublist_cons_self _ _
  nets := by decide
  columns := by decide
  rows := by decide

/-- The hypotheses of C103 hold for the crossing: 2 × 2 µm² of met2 over met1 with 133.86 aF/µm², and four pieces of edge 2 µm long
that see the other wire up to 3 µm away. -/
example : ∃ c', Engine25.run cutKL id Sky130A.tech.read crossCell .CC true 8 (.ok []) ⟨["A", "B"], []⟩ true = .ok c' ∧
    ∃ (N : Nat) (F : ℝ), F = 2 * law true 8 1 133.86 67.05 2 1 3 + 2 * law true 8 1 133.86 48.19 2 1 3 ∧
      |(Rcx25Netlist.parasiticCap c' "A" "B" : ℝ) - (((2 * 2 * 133.86 / 1000 : ℚ) : ℝ) + F)| ≤ 1 / 100 * F + N / 10000 := by
  obtain ⟨c', h⟩ := (shipped_runs_partial (Or.inl rfl) Fringe.rowKernel_ok crossSourced crossMim crossSpaced true
    (.ok [])).1 id ⟨["A", "B"], []⟩ true
  have ho : OverlapIs Sky130A.tech.parasitics "met2" "met1" ⟨"met2", "met1", 133.86⟩ := by
    left
    have := (TechInfo.find_last (fun o : TechInfo.OverlapSpec => decide (o.top = "met2" ∧ o.bot = "met1"))
      Sky130A.tech.parasitics.overlaps ⟨"met2", "met1", 133.86⟩).1 (by decide +kernel)
    simpa using this
  have ho' : PairSpec Sky130A.tech.parasitics "met1" "met2" ⟨"met2", "met1", 133.86⟩ := by
    refine Or.inr ⟨?_, ho⟩
    rintro o' (hl | ⟨_, hb, _⟩)
    · have hmem := hl.mem
      obtain ⟨_, _, _, hp, _⟩ := hl
      have : ∀ o ∈ Sky130A.tech.parasitics.overlaps, ¬(o.top = "met1" ∧ o.bot = "met2") := by decide +kernel
      exact this o' hmem hp
    · exact absurd hb (by decide)
  have hs : SideOverlapIs Sky130A.tech.parasitics "met2" "met1" ⟨"met2", "met1", 67.05⟩ := by
    left
    have := (TechInfo.find_last (fun o : TechInfo.SideOverlapSpec => decide (o.inLayer = "met2" ∧ o.outLayer = "met1"))
      Sky130A.tech.parasitics.sideoverlaps ⟨"met2", "met1", 67.05⟩).1 (by decide +kernel)
    simpa using this
  have hs' : SideOverlapIs Sky130A.tech.parasitics "met1" "met2" ⟨"met1", "met2", 48.19⟩ := by
    left
    have := (TechInfo.find_last (fun o : TechInfo.SideOverlapSpec => decide (o.inLayer = "met1" ∧ o.outLayer = "met2"))
      Sky130A.tech.parasitics.sideoverlaps ⟨"met1", "met2", 48.19⟩).1 (by decide +kernel)
    simpa using this
  obtain ⟨names, R, sides, views, N, A, F, _, _, _, _, _, hA, hF, hc⟩ := shipped_crossing (Or.inl rfl) cutKL cutFaithful cutKeeps
    Fringe.rowKernel_ok Fringe.rowKernel_bands id _ crossMim .CC (Or.inl rfl) true 8 _ _ c' true h (by simp) _ _ _ _ _ _ _ _ _ _ _ _
    crossCrossing _ ho _ ho' _ hs _ hs' (by norm_num [crossCell]) (by norm_num [crossCell]) 9
    (by show (9 : ℤ) = ⌊(8.0 : ℚ) / 1⌋ + 1; norm_num)
    (fun names R hs hR i hi => crossVisits hs hR hi)
    (1 / 100) (by norm_num) (by
      intro r hr
      have h1 := Int.floor_le (r * 1000000)
      have h2 := Int.lt_floor_add_one (r * 1000000)
      have e : ((cutKL.rnd r : ℚ) : ℝ) = (⌊r * 1000000⌋ : ℝ) / 1000000 := by simp [cutKL]
      rw [e, abs_le]
      constructor <;> linarith)
  refine ⟨c', h, N, F, ?_, ?_⟩
  · have e1 : Sky130A.tech.parasitics.sideHalo = 8 := by show (8.0 : ℚ) = 8; norm_num
    have e2 : crossCell.dbu = 1 := rfl
    rw [hF, e1, e2]
    norm_num
    ring
  · have e : A = 2 * 2 * 133.86 / 1000 := by
      rw [hA]
      show (((5 - 3 : ℤ) : ℚ) * 1) * (((5 - 3 : ℤ) : ℚ) * 1) * 133.86 / 1000 = _
      norm_num
    rw [← e]
    exact hc

end Verif.Pdk
