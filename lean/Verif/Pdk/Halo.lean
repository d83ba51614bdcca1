import Verif.Engine25.Halo
import Verif.Pdk.Crossing

/-!
# Larger side halos with the shipped technologies (C121)
-/

namespace Verif.Pdk

open Engine25 (Crossing KeepsRect wire tidy tidy_congr tidy_one KLayout Context IsStack Regions AllSides Views View Side Visits
  ClearIn lookIn FacedBy Picture fringeTotal MergesAlike ShapesInside withHalo)
open Fringe (KernelOK KernelBands PairSpec law)
open Overlap (Poly Cell)
open TechInfo (OverlapIs SideOverlapIs)

set_option maxRecDepth 4000

/-- **C121 for the shipped technologies, without scaling to the halo.** Nothing has to be assumed about the technology but that
nets on the same layer are at least 0.057 µm apart, see C87. `hv` says which values the technology has. -/
theorem shipped_larger_halo_partial {t : Technology} (ht : Shipped t) {cap cov cs : String → String → ℚ} {C off : String → ℚ}
    (hv : ValuesAre t cap cov cs C off) (kl kl' : KLayout) (hkl : Engine25.Faithful kl) (hkl' : Engine25.Faithful kl')
    (hm : MergesAlike kl kl') (hk : KernelOK kl.kernel) (hk' : KernelOK kl'.kernel) (hkb : KernelBands kl.kernel)
    (hkb' : KernelBands kl'.kernel) (cf : String → String) (h' : ℚ) (hle : t.parasitics.sideHalo ≤ h') (x : Context)
    (hmim : WithoutMim t x) (mode : PexMode.Mode) (hmode : mode = .CC ∨ mode = .RC) (halo halo' : ℤ) (hhh : halo ≤ halo')
    (res res' : Except String (List Summary.RNetwork)) (c d c' d' : Netlist.Circuit) (bb : Bool)
    (hrun : Engine25.run kl cf t.read x mode false halo res c bb = .ok c')
    (hrun' : Engine25.run kl' cf (withHalo t.read h') x mode false halo' res' d bb = .ok d')
    (hno : ∀ d ∈ c.devices, d.clsName ≠ "C") (hno' : ∀ e ∈ d.devices, e.clsName ≠ "C")
    (hshort : Engine25.NoShorts t.read x halo) (hin : ShapesInside t.read x halo) (hdbu : 0 < x.dbu) (hdbu' : x.dbu ≤ 10)
    (depth depth' : ℤ) (hdepth : depth = ⌊t.parasitics.sideHalo / x.dbu⌋ + 1) (hdepth' : depth' = ⌊h' / x.dbu⌋ + 1)
    (hvis : ∀ names R, IsStack t.read x names → Regions kl t.read x halo names R → ∀ i < names.length,
      ∃ sides, Visits R i depth sides (kl.edges R i))
    (hvis' : ∀ names R, IsStack t.read x names → Regions kl' t.read x halo' names R → ∀ i < names.length,
      ∃ sides, Visits R i depth' sides (kl'.edges R i))
    (hgap : ∀ names R, IsStack t.read x names → Regions kl' t.read x halo' names R → ∀ i < names.length, ∀ p ∈ R.getD i [],
      ∀ (s : Side) (u d : ℤ) (n : String), 1 ≤ d → d * x.dbu ≤ h' → FacedBy R i p s u d n → 0.057 ≤ d * x.dbu)
    (ε : ℝ) (hε : 0 ≤ ε) (hrnd : ∀ r, 1 / 10000 < r → |(kl.rnd r : ℝ) - r| ≤ ε * r)
    (hrnd' : ∀ r, 1 / 10000 < r → |(kl'.rnd r : ℝ) - r| ≤ ε * r) :
    ∃ (names : List String) (R R' : List (List Poly)) (sides sides' : Nat → List (Poly × Side))
      (views views' : Nat → Poly × Side → List View) (N : Nat),
      Picture kl t.read x halo depth names R sides views ∧ Picture kl' t.read x halo' depth' names R' sides' views' ∧
      N = ∑ i ∈ Finset.range names.length, (((sides i).map fun ps => (views i ps).length).sum +
        ((sides' i).map fun ps => (views' i ps).length).sum) ∧
      ∀ a b, a ≠ b → (Rcx25Netlist.parasiticCap c' a b : ℝ) ≤ Rcx25Netlist.parasiticCap d' a b +
        2 * ε * fringeTotal R' names x.dbu h' false cov cs depth' sides' a b + N / 10000 := by
  have hh0 : 0 ≤ t.parasitics.sideHalo := (side_values_ok ht).1
  refine Engine25.larger_halo_partial kl kl' hkl hkl' hm hk hk' hkb hkb' cf t.read h' hle x mode hmode halo halo' hhh res res' c d c'
    d' bb hrun hrun' hno hno' hshort hin (shipped_no_vsubs ht) (shipped_nonneg ht) cap (hv.pairs x hmim) hdbu hdbu' depth depth'
    hdepth hdepth' hvis hvis' (fun l => max (C l) 0) (fun l => max (off l) (-0.057)) ?_ (fun l => le_max_right _ _) ?_ cov cs hv.over
    hv.side hv.over0 hv.side0 hh0 ε hε hrnd hrnd'
  · intro l s hs
    obtain ⟨e1, e2⟩ := hv.wall l s hs
    have p1 := (values_ok ht).2.2.2 s hs.mem
    have p2 := offset_ok ht s hs.mem
    refine ⟨?_, ?_⟩
    · show s.cap = max (C l) 0
      rw [← e1, max_eq_left p1.le]
    · show s.offset = max (off l) (-0.057)
      rw [← e2, max_eq_left p2]
  · intro names R hs hR i hi p hp s u d n h1 h2 h3
    have q1 := hgap names R hs hR i hi p hp s u d n h1 h2 h3
    have q2 := le_max_right (off (names.getD i "")) (-0.057)
    show 0 ≤ (d : ℚ) * x.dbu + max (off (names.getD i "")) (-0.057)
    linarith

/-! ### An example -/

open Classical in
/-- The same as `cutKL`, but it looks one database unit further. -/
noncomputable def farKL : KLayout where
  merged := tidy
  nbh := fun R _ _ => R.zipIdx.map fun e => (e.2, e.1)
  edges := fun R i => if h : ∃ L, AllSides (R.getD i []) L ∧ (R.getD i [] = [] → L = []) then
    h.choose.map fun ps => (ps.1.net, lookIn R i ps.1 ps.2 10 (cutsOf ps.2)) else []
  kernel := Fringe.rowKernel
  rnd := fun r => (⌊r * 1000000⌋ : ℚ) / 1000000

theorem farFaithful : Engine25.Faithful farKL := ⟨geoFaithful.cover, geoFaithful.disjoint, geoFaithful.sound, geoFaithful.complete⟩

theorem farKeeps : KeepsRect farKL := fun n x1 x2 y1 y2 ps hne hall => lookKeeps n x1 x2 y1 y2 ps hne hall

theorem farVisits {R : List (List Poly)} {i : Nat} (hi : i < R.length) {L : List (Poly × Side)}
    (hL : AllSides (R.getD i []) L) (hc : ∀ ps ∈ L, ClearIn R i ps.1 ps.2 10 (cutsOf ps.2)) :
    ∃ sides, Visits R i 10 sides (farKL.edges R i) := by
  have he : ∃ L, AllSides (R.getD i []) L ∧ (R.getD i [] = [] → L = []) := by
    refine ⟨L, hL, fun h0 => ?_⟩
    rw [List.eq_nil_iff_forall_not_mem]
    rintro ⟨p, s⟩ hps
    have := ((hL.mem p s).1 hps).1
    rw [h0] at this
    exact List.not_mem_nil this
  have e : farKL.edges R i = he.choose.map fun ps => (ps.1.net, lookIn R i ps.1 ps.2 10 (cutsOf ps.2)) := dif_pos he
  refine ⟨he.choose, he.choose_spec.1, ?_⟩
  rw [e, List.forall₂_map_right_iff, List.forall₂_same]
  rintro ⟨p, s⟩ hps
  refine ⟨rfl, Engine25.lookIn_ok hi (hc (p, s) ?_)⟩
  rw [hL.mem]
  exact (he.choose_spec.1.mem p s).1 hps

def beyondBottom : Rect := ⟨"", -9, -9, 17, 17⟩

noncomputable def beyondLayers : Dict String (List Poly) :=
  [("VSUBS", [beyondBottom.poly]), ("met1", [underWire.poly]), ("met2", [overWire.poly])]

theorem beyondLayers_ok : Engine25.layerRegions Sky130A.tech.read crossCell 9 = .ok beyondLayers := rfl

theorem beyondRegions {names : List String} {R : List (List Poly)} (hs : IsStack Sky130A.tech.read crossCell names)
    (hR : Regions farKL Sky130A.tech.read crossCell 9 names R) : names = ["VSUBS", "met1", "met2"] ∧ R = beyondLayers.values := by
  obtain ⟨h1, h2⟩ := Engine25.layers_exact _ _ _ _ beyondLayers_ok
  obtain rfl := hs.unique h1
  refine ⟨rfl, ?_⟩
  have ht : beyondLayers.values.map tidy = beyondLayers.values := by
    show [tidy [beyondBottom.poly], tidy [underWire.poly], tidy [overWire.poly]] = [[beyondBottom.poly], [underWire.poly], [overWire.poly]]
    rw [tidy_one, tidy_one, tidy_one]
  rw [← ht]
  refine List.ext_getElem? fun i => ?_
  have hlen : beyondLayers.keys.length = beyondLayers.values.length := rfl
  by_cases hi : i < beyondLayers.keys.length
  · obtain ⟨ps, hps, hmem⟩ := hR.2 i hi
    obtain ⟨qs, hq1, hq2⟩ := Engine25.keys_get h1.nodup hi
    rw [hps, List.getElem?_map, hq1]
    show some (tidy ps) = some (tidy qs)
    rw [tidy_congr fun p => (hmem p).trans (h2 _ _ hq2 p).symm]
  · rw [List.getElem?_eq_none (by rw [hR.1]; omega), List.getElem?_eq_none (by rw [List.length_map]; omega)]

theorem beyondPoly (n : String) (p : Poly) : Engine25.PolyOf Sky130A.tech.read crossCell 9 n p ↔
    (n = "VSUBS" ∧ p = beyondBottom.poly) ∨ (n = "met1" ∧ p = underWire.poly) ∨ (n = "met2" ∧ p = overWire.poly) := by
  obtain ⟨hs, hp⟩ := Engine25.layers_exact _ _ _ _ beyondLayers_ok
  constructor
  · intro h
    have hn : n ∈ beyondLayers.keys := by
      rw [hs.mem]
      rcases h with ⟨h, _⟩ | ⟨l, hl, rs, hg, _⟩
      · exact Or.inl h
      · exact Or.inr ⟨l, hl, rs, hg⟩
    simp only [beyondLayers, Dict.keys, List.map_cons, List.map_nil, List.mem_cons, List.not_mem_nil, or_false] at hn
    rcases hn with rfl | rfl | rfl
    · exact Or.inl ⟨rfl, List.mem_singleton.1 ((hp _ _ rfl p).2 h)⟩
    · exact Or.inr (Or.inl ⟨rfl, List.mem_singleton.1 ((hp _ _ rfl p).2 h)⟩)
    · exact Or.inr (Or.inr ⟨rfl, List.mem_singleton.1 ((hp _ _ rfl p).2 h)⟩)
  · rintro (⟨rfl, rfl⟩ | ⟨rfl, rfl⟩ | ⟨rfl, rfl⟩)
    · exact (hp "VSUBS" _ rfl _).1 List.mem_cons_self
    · exact (hp "met1" _ rfl _).1 List.mem_cons_self
    · exact (hp "met2" _ rfl _).1 List.mem_cons_self

theorem beyondUnderClear : ∀ ps ∈ rectSides [underWire], ClearIn beyondLayers.values 1 ps.1 ps.2 10 (cutsOf ps.2) := by
  decide +kernel

theorem beyondOverClear : ∀ ps ∈ rectSides [overWire], ClearIn beyondLayers.values 2 ps.1 ps.2 10 (cutsOf ps.2) := by
  decide +kernel

theorem beyondBottomClear : ∀ ps ∈ rectSides [beyondBottom], ClearIn beyondLayers.values 0 ps.1 ps.2 10 (cutsOf ps.2) := by
  intro ps hps
  simp only [rectSides, List.flatMap_cons, List.flatMap_nil, List.append_nil, List.mem_map] at hps
  obtain ⟨s, hs, rfl⟩ := hps
  have hcut : cutsOf s = [] := by revert s; decide
  rw [hcut]
  refine ⟨fun c hc => absurd hc List.not_mem_nil, List.Pairwise.nil, fun u hu => Or.inr fun j hj q' hq' w hw hc => ?_⟩
  refine Engine25.outside_box hs u (Finset.mem_Ico.1 hw).1 ?_
  have hsub : q' ∈ beyondLayers.values.flatten := by
    rcases (Engine25.shown_list (show 0 < 3 by omega)).1 hq' with ⟨h1, _, h2⟩ | ⟨_, h2, _⟩ | ⟨_, rfl⟩
    · rw [List.getD_eq_getElem _ _ h1] at h2
      exact List.mem_flatten_of_mem (List.getElem_mem h1) h2
    · rw [List.getD_eq_getElem _ _ (show 0 < 3 by omega)] at h2
      exact List.mem_flatten_of_mem (List.getElem_mem _) h2
    · exact List.mem_flatten_of_mem (l := [beyondBottom.poly]) List.mem_cons_self List.mem_cons_self
  have hsub : q' ∈ [beyondBottom.poly, underWire.poly, overWire.poly] := hsub
  simp only [List.mem_cons, List.not_mem_nil, or_false] at hsub
  generalize s.cell u w = c at hc ⊢
  rcases hsub with rfl | rfl | rfl
  · exact hc
  · simp only [Rect.poly, underWire, beyondBottom, Finset.mem_product, Finset.mem_Ico] at hc ⊢
    omega
  · simp only [Rect.poly, overWire, beyondBottom, Finset.mem_product, Finset.mem_Ico] at hc ⊢
    omega

theorem beyondVisits {names : List String} {R : List (List Poly)} (hs : IsStack Sky130A.tech.read crossCell names)
    (hR : Regions farKL Sky130A.tech.read crossCell 9 names R) {i : Nat} (hi : i < names.length) :
    ∃ sides, Visits R i 10 sides (farKL.edges R i) := by
  obtain ⟨rfl, rfl⟩ := beyondRegions hs hR
  have hi : i < 3 := hi
  have : i = 0 ∨ i = 1 ∨ i = 2 := by omega
  rcases this with rfl | rfl | rfl
  · exact farVisits (L := rectSides [beyondBottom]) (show 0 < 3 by omega)
      (rect_all (L := [beyondBottom]) (by decide) (by
        simp only [rectSides, List.flatMap_cons, List.flatMap_nil, List.append_nil]
        exact List.Nodup.map (fun a b h => congrArg Prod.snd h) (by decide))) beyondBottomClear
  · exact farVisits (L := rectSides [underWire]) (show 1 < 3 by omega)
      (rect_all (L := [underWire]) (by decide) (by
        simp only [rectSides, List.flatMap_cons, List.flatMap_nil, List.append_nil]
        exact List.Nodup.map (fun a b h => congrArg Prod.snd h) (by decide))) beyondUnderClear
  · exact farVisits (L := rectSides [overWire]) (show 2 < 3 by omega)
      (rect_all (L := [overWire]) (by decide) (by
        simp only [rectSides, List.flatMap_cons, List.flatMap_nil, List.append_nil]
        exact List.Nodup.map (fun a b h => congrArg Prod.snd h) (by decide))) beyondOverClear

theorem beyondSpaced : Spaced farKL Sky130A.tech crossCell 9 := by
  refine spaced_of_layout farFaithful (depth := 10) (fun names R hs hR i hi => beyondVisits hs hR hi) ?_ ?_
    (shipped_no_vsubs (Or.inl rfl)) ?_ ?_
  · rintro R - i hi
    have h0 : R.getD i [] = [] := by
      rw [List.getD_eq_getElem?_getD, List.getElem?_eq_none hi]; rfl
    unfold farKL
    dsimp only
    split
    · rename_i h
      rw [h.choose_spec.2 h0]; rfl
    · rfl
  · intro ps hne hall
    show tidy ps = _
    rw [← tidy_one (Engine25.substratePoly crossCell 9)]
    refine tidy_congr fun p => ?_
    rw [List.mem_singleton]
    refine ⟨hall p, ?_⟩
    rintro rfl
    obtain ⟨q, hq⟩ := List.exists_mem_of_ne_nil _ hne
    rw [← hall q hq]; exact hq
  · intro n p hp c hc
    have : -9 ≤ c.1 ∧ c.1 < 17 ∧ -9 ≤ c.2 ∧ c.2 < 17 := by
      rcases (beyondPoly _ _).1 hp with ⟨_, rfl⟩ | ⟨_, rfl⟩ | ⟨_, rfl⟩ <;>
      · simp only [Rect.poly, beyondBottom, underWire, overWire, Finset.mem_product, Finset.mem_Ico] at hc
        omega
    exact (Engine25.inSubstrate_iff _ _ _).2 ⟨fun _ => this, fun _ => this⟩
  · intro n p q hp hq hne c hc c' hc'
    rcases (beyondPoly _ _).1 hp with ⟨rfl, rfl⟩ | ⟨rfl, rfl⟩ | ⟨rfl, rfl⟩ <;>
      rcases (beyondPoly _ _).1 hq with ⟨h, rfl⟩ | ⟨h, rfl⟩ | ⟨h, rfl⟩ <;>
      first
      | exact absurd rfl hne
      | exact absurd h (by decide)


theorem alike : MergesAlike cutKL farKL := by
  intro ps ps' hmem p
  show p ∈ tidy ps' ↔ p ∈ tidy ps
  rw [tidy_congr hmem]

theorem crossShorts : Engine25.NoShorts Sky130A.tech.read crossCell 8 := by
  intro l p q hp hq c hc hc'
  rcases (crossPoly _ _).1 hp with ⟨rfl, rfl⟩ | ⟨rfl, rfl⟩ | ⟨rfl, rfl⟩ <;>
    rcases (crossPoly _ _).1 hq with ⟨h, rfl⟩ | ⟨h, rfl⟩ | ⟨h, rfl⟩ <;>
    first
    | rfl
    | exact absurd h (by decide)

theorem crossInside : ShapesInside Sky130A.tech.read crossCell 8 := by
  intro n p c hp hc
  have : -8 ≤ c.1 ∧ c.1 < 16 ∧ -8 ≤ c.2 ∧ c.2 < 16 := by
    rcases (crossPoly _ _).1 hp with ⟨_, rfl⟩ | ⟨_, rfl⟩ | ⟨_, rfl⟩ <;>
    · simp only [Rect.poly, crossBottom, underWire, overWire, Finset.mem_product, Finset.mem_Ico] at hc
      omega
  exact (Engine25.inSubstrate_iff _ _ _).2 ⟨fun _ => this, fun _ => this⟩

theorem floorClose (r : ℝ) (hr : 1 / 10000 < r) : |(((⌊r * 1000000⌋ : ℚ) / 1000000 : ℚ) : ℝ) - r| ≤ 1 / 100 * r := by
  have h1 := Int.floor_le (r * 1000000)
  have h2 := Int.lt_floor_add_one (r * 1000000)
  push_cast
  rw [abs_le]
  constructor <;> linarith

theorem crossFar {d : ℤ} (hd : 1 ≤ d) : (0.057 : ℚ) ≤ d * crossCell.dbu := by
  have : (1 : ℚ) ≤ d := by exact_mod_cast hd
  show (0.057 : ℚ) ≤ d * 1
  linarith

/-- The hypotheses of `shipped_larger_halo_partial` hold for the crossing with a halo of 9 µm instead of 8 µm. -/
example : ∃ c' d', Engine25.run cutKL id Sky130A.tech.read crossCell .CC false 8 (.ok []) ⟨["A", "B"], []⟩ true = .ok c' ∧
    Engine25.run farKL id (withHalo Sky130A.tech.read 9) crossCell .CC false 9 (.ok []) ⟨["A", "B"], []⟩ true = .ok d' ∧
    ∃ (N : Nat) (F : ℝ), (Rcx25Netlist.parasiticCap c' "A" "B" : ℝ) ≤
      Rcx25Netlist.parasiticCap d' "A" "B" + 2 * (1 / 100) * F + N / 10000 := by
  obtain ⟨c', h⟩ := (shipped_runs_partial (Or.inl rfl) Fringe.rowKernel_ok crossSourced crossMim crossSpaced false
    (.ok [])).1 id ⟨["A", "B"], []⟩ true
  obtain ⟨d', h'⟩ := (shipped_runs_halo_partial (Or.inl rfl) (h := 9) (by norm_num) Fringe.rowKernel_ok crossSourced crossMim
    beyondSpaced false (.ok [])).1 id ⟨["A", "B"], []⟩ true
  obtain ⟨cap, cov, cs, C, off, hv⟩ := shipped_values (t := Sky130A.tech) (Or.inl rfl)
  obtain ⟨names, R, R', sides, sides', views, views', N, _, _, _, hc⟩ := shipped_larger_halo_partial (Or.inl rfl) hv cutKL farKL
    cutFaithful farFaithful alike Fringe.rowKernel_ok Fringe.rowKernel_ok Fringe.rowKernel_bands Fringe.rowKernel_bands id 9
    (by show (8.0 : ℚ) ≤ 9; norm_num) crossCell crossMim .CC (Or.inl rfl) 8 9 (by norm_num) _ _ _ _ c' d' true h h' (by simp)
    (by simp) crossShorts crossInside (by norm_num [crossCell]) (by norm_num [crossCell]) 9 10
    (by show (9 : ℤ) = ⌊(8.0 : ℚ) / 1⌋ + 1; norm_num) (by show (10 : ℤ) = ⌊(9 : ℚ) / 1⌋ + 1; norm_num)
    (fun names R hs hR i hi => crossVisits hs hR hi) (fun names R hs hR i hi => beyondVisits hs hR hi)
    (fun _ _ _ _ _ _ _ _ _ _ _ _ hd _ _ => crossFar hd) (1 / 100) (by norm_num) floorClose floorClose
  exact ⟨c', d', h, h', N, _, hc "A" "B" (by decide)⟩

theorem over_met : OverlapIs Sky130A.tech.parasitics "met2" "met1" ⟨"met2", "met1", 133.86⟩ := by
  left
  have := (TechInfo.find_last (fun o : TechInfo.OverlapSpec => decide (o.top = "met2" ∧ o.bot = "met1"))
    Sky130A.tech.parasitics.overlaps ⟨"met2", "met1", 133.86⟩).1 (by decide +kernel)
  simpa using this

theorem under_met : PairSpec Sky130A.tech.parasitics "met1" "met2" ⟨"met2", "met1", 133.86⟩ := by
  refine Or.inr ⟨?_, over_met⟩
  rintro o' (hl | ⟨_, hb, _⟩)
  · have hmem := hl.mem
    obtain ⟨_, _, _, hp, _⟩ := hl
    have : ∀ o ∈ Sky130A.tech.parasitics.overlaps, ¬(o.top = "met1" ∧ o.bot = "met2") := by decide +kernel
    exact this o' hmem hp
  · exact absurd hb (by decide)

theorem side_met2 : SideOverlapIs Sky130A.tech.parasitics "met2" "met1" ⟨"met2", "met1", 67.05⟩ := by
  left
  have := (TechInfo.find_last (fun o : TechInfo.SideOverlapSpec => decide (o.inLayer = "met2" ∧ o.outLayer = "met1"))
    Sky130A.tech.parasitics.sideoverlaps ⟨"met2", "met1", 67.05⟩).1 (by decide +kernel)
  simpa using this

theorem side_met1 : SideOverlapIs Sky130A.tech.parasitics "met1" "met2" ⟨"met1", "met2", 48.19⟩ := by
  left
  have := (TechInfo.find_last (fun o : TechInfo.SideOverlapSpec => decide (o.inLayer = "met1" ∧ o.outLayer = "met2"))
    Sky130A.tech.parasitics.sideoverlaps ⟨"met1", "met2", 48.19⟩).1 (by decide +kernel)
  simpa using this

/-- The hypotheses of `scaled_halo_shrinks` hold for the crossing with sky130A: with the default options, `--halo 9` instead of
the 8 µm of the technology makes the fringe capacitance of the crossing smaller. -/
example : ∃ c' d', Engine25.run cutKL id Sky130A.tech.read crossCell .CC true 8 (.ok []) ⟨["A", "B"], []⟩ true = .ok c' ∧
    Engine25.run farKL id (withHalo Sky130A.tech.read 9) crossCell .CC true 9 (.ok []) ⟨["A", "B"], []⟩ true = .ok d' ∧
    ∃ (A : ℚ) (F F' : ℝ) (N N' : Nat), F' < F ∧
      |(Rcx25Netlist.parasiticCap c' "A" "B" : ℝ) - (A + F)| ≤ 1 / 100 * F + N / 10000 ∧
      |(Rcx25Netlist.parasiticCap d' "A" "B" : ℝ) - (A + F')| ≤ 1 / 100 * F' + N' / 10000 := by
  obtain ⟨c', h⟩ := (shipped_runs_partial (Or.inl rfl) Fringe.rowKernel_ok crossSourced crossMim crossSpaced true
    (.ok [])).1 id ⟨["A", "B"], []⟩ true
  obtain ⟨d', h'⟩ := (shipped_runs_halo_partial (Or.inl rfl) (h := 9) (by norm_num) Fringe.rowKernel_ok crossSourced crossMim
    beyondSpaced true (.ok [])).1 id ⟨["A", "B"], []⟩ true
  have ht : Shipped Sky130A.tech := Or.inl rfl
  obtain ⟨cap, cov, cs, C, off, hv⟩ := shipped_values ht
  obtain ⟨A, F, F', names, R, R', sides, sides', views, views', N, N', hlt, _, _, _, _, q1, q2⟩ := Engine25.scaled_halo_shrinks
    cutKL farKL cutFaithful farFaithful cutKeeps farKeeps Fringe.rowKernel_ok Fringe.rowKernel_ok Fringe.rowKernel_bands
    Fringe.rowKernel_bands id Sky130A.tech.read 9 (by show (0 : ℚ) < 8.0; norm_num) (by show (8.0 : ℚ) < 9; norm_num) crossCell .CC
    (Or.inl rfl) 8 9 _ _ _ _ c' d' true h h' (by simp) (by simp) _ _ _ _ _ _ _ _ _ _ _ _ crossCrossing (shipped_no_vsubs ht)
    (shipped_nonneg ht) cap (hv.pairs _ crossMim) (by norm_num [crossCell]) (by norm_num [crossCell]) 9 10
    (by show (9 : ℤ) = ⌊(8.0 : ℚ) / 1⌋ + 1; norm_num) (by show (10 : ℤ) = ⌊(9 : ℚ) / 1⌋ + 1; norm_num) (by decide) (by decide)
    (fun names R hs hR i hi => crossVisits hs hR hi) (fun names R hs hR i hi => beyondVisits hs hR hi) C off hv.wall cov cs hv.over
    hv.side hv.over0 hv.side0
    (by
      rw [← hv.over _ _ _ (Or.inl over_met), ← hv.over _ _ _ under_met, ← hv.side _ _ _ side_met2, ← hv.side _ _ _ side_met1]
      norm_num) (1 / 100) (by norm_num) floorClose floorClose
  exact ⟨c', d', h, h', A, F, F', N, N', hlt, q1, q2⟩

end Verif.Pdk
