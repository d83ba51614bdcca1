import Verif.Engine25.Near
import Verif.Pdk.Moved

/-!
# Locality with the shipped technologies (C93)
-/

namespace Verif.Pdk

open Engine25 (SameNear MergesPerNet Near Picture tidy mem_foldr_union boxSides box_sides outside_box lookAt look_ok Clear inFront
  mem_inFront clip_some KLayout Context IsStack IsMetal Regions AllSides Views View Side IsSide Visits tidy_congr tidy_one)
open Fringe (KernelOK KernelBands)
open Overlap (Poly Cell)

set_option maxRecDepth 4000

/-- **C93 for the shipped technologies.** Nothing has to be assumed about the technology. -/
theorem shipped_local {t : Technology} (ht : Shipped t) (kl : KLayout) (hkl : Engine25.Faithful kl) (hk : KernelOK kl.kernel)
    (hkb : KernelBands kl.kernel) (hm : MergesPerNet kl) (cf : String → String) (x x' : Context) (hmim : WithoutMim t x)
    (halo depth : ℤ) (a b : String) (hab : a ≠ b) (ha : a ≠ "VSUBS") (hb : b ≠ "VSUBS")
    (hsame : SameNear t.read x x' halo depth a b) (mode : PexMode.Mode)
    (hmode : mode = .CC ∨ mode = .RC) (scale : Bool) (res res' : Except String (List Summary.RNetwork))
    (c d c' d' : Netlist.Circuit) (bb : Bool) (hrun : Engine25.run kl cf t.read x mode scale halo res c bb = .ok c')
    (hrun' : Engine25.run kl cf t.read x' mode scale halo res' d bb = .ok d')
    (hno : ∀ d ∈ c.devices, d.clsName ≠ "C") (hno' : ∀ e ∈ d.devices, e.clsName ≠ "C")
    (hshort : Engine25.NoShorts t.read x halo) (hshort' : Engine25.NoShorts t.read x' halo)
    (hdbu : 0 < x.dbu) (hdbu' : x.dbu ≤ 10) (hdepth : depth = ⌊t.parasitics.sideHalo / x.dbu⌋ + 1)
    (hvis : ∀ names R, IsStack t.read x names → Regions kl t.read x halo names R → ∀ i < names.length,
      ∃ sides, Visits R i depth sides (kl.edges R i))
    (hvis' : ∀ names R, IsStack t.read x' names → Regions kl t.read x' halo names R → ∀ i < names.length,
      ∃ sides, Visits R i depth sides (kl.edges R i))
    (ε : ℝ) (hε : 0 ≤ ε) (hrnd : ∀ r, 1 / 10000 < r → |(kl.rnd r : ℝ) - r| ≤ ε * r) :
    ∃ (cap cov cs : String → String → ℚ) (C off : String → ℚ) (names : List String) (R R' : List (List Poly))
      (sides sides' : Nat → List (Poly × Side)) (views views' : Nat → Poly × Side → List View) (N : Nat),
      ValuesAre t cap cov cs C off ∧
      Picture kl t.read x halo depth names R sides views ∧ Picture kl t.read x' halo depth names R' sides' views' ∧
      N = ∑ i ∈ Finset.range names.length, (((sides i).map fun ps => (views i ps).length).sum +
        ((sides' i).map fun ps => (views' i ps).length).sum) ∧
      |(Rcx25Netlist.parasiticCap c' a b : ℝ) - Rcx25Netlist.parasiticCap d' a b| ≤
        2 * ε * Engine25.fringeTotal R names x.dbu t.parasitics.sideHalo scale cov cs depth sides a b + N / 10000 := by
  obtain ⟨cap, cov, cs, C, off, hv⟩ := shipped_values ht
  obtain ⟨names, R, R', sides, sides', views, views', N, h1, h2, h3, h4⟩ := Engine25.local_netlist kl hkl hk hkb hm cf t.read x x'
    halo depth a b hab ha hb hsame mode hmode scale res res' c d c' d' bb hrun hrun' hno hno' hshort hshort' (shipped_no_vsubs ht)
    (shipped_nonneg ht) cap (hv.pairs x hmim) hdbu hdbu' hdepth hvis hvis' C off hv.wall cov cs hv.over hv.side hv.over0 hv.side0
    (side_values_ok ht).1 ε hε hrnd
  exact ⟨cap, cov, cs, C, off, names, R, R', sides, sides', views, views', N, hv, h1, h2, h3, h4⟩

/-! ### An example -/

/-- A rectangle of a net. -/
structure Rect where
  net : String
  x1 : ℤ
  y1 : ℤ
  x2 : ℤ
  y2 : ℤ
  deriving DecidableEq

noncomputable def Rect.poly (r : Rect) : Poly := ⟨r.net, Finset.Ico r.x1 r.x2 ×ˢ Finset.Ico r.y1 r.y2⟩

noncomputable def rectSides (L : List Rect) : List (Poly × Side) :=
  L.flatMap fun r => (boxSides r.x1 r.y1 r.x2 r.y2).map fun s => (r.poly, s)

theorem rect_all {L : List Rect} (hok : ∀ r ∈ L, r.x1 < r.x2 ∧ r.y1 < r.y2) (hn : (rectSides L).Nodup) :
    AllSides (L.map Rect.poly) (rectSides L) := by
  refine ⟨hn, fun p s => ?_⟩
  unfold rectSides
  simp only [List.mem_flatMap, List.mem_map, Prod.mk.injEq]
  constructor
  · rintro ⟨r, hr, s', hs, rfl, rfl⟩
    exact ⟨⟨r, hr, rfl⟩, (box_sides (hok r hr).1 (hok r hr).2 _).2 hs⟩
  · rintro ⟨⟨r, hr, rfl⟩, hs⟩
    exact ⟨r, hr, s, (box_sides (hok r hr).1 (hok r hr).2 _).1 hs, rfl, rfl⟩

/-- Polygons in the order of their nets, one for each net. -/
theorem tidy_sorted {ps : List Poly} (h : ps.Pairwise fun p q => p.net < q.net) : tidy ps = ps := by
  unfold tidy
  have hnd : (ps.map Poly.net).Nodup := by
    rw [List.nodup_iff_pairwise_ne, List.pairwise_map]
    exact h.imp fun h => h.ne
  have e : (ps.map Poly.net).toFinset.sort (· ≤ ·) = ps.map Poly.net := by
    have hp : ((ps.map Poly.net).toFinset.sort (· ≤ ·)).Perm (ps.map Poly.net) := by
      rw [List.perm_ext_iff_of_nodup (Finset.sort_nodup _ _) hnd]
      intro n
      simp
    refine hp.eq_of_pairwise' (Finset.pairwise_sort _ _) ?_
    rw [List.pairwise_map]
    exact h.imp fun h => h.le
  rw [e, List.map_map]
  conv_rhs => rw [← List.map_id ps]
  refine List.map_congr_left fun p hp => ?_
  have hone : ∀ q ∈ ps, q.net = p.net → q = p := fun q hq he => List.inj_on_of_nodup_map hnd hq hp he
  cases p with
  | mk net cells =>
  simp only [Function.comp_def, id, Poly.mk.injEq, true_and]
  ext c
  rw [mem_foldr_union]
  simp only [List.mem_filter, decide_eq_true_eq]
  constructor
  · rintro ⟨q, ⟨hq, he⟩, hc⟩
    rw [hone q hq he] at hc
    exact hc
  · intro hc
    exact ⟨_, ⟨hp, rfl⟩, hc⟩

open Classical in
/-- A KLayout that looks at all edges. -/
noncomputable def lookKL : KLayout where
  merged := tidy
  nbh := fun R _ _ => R.zipIdx.map fun e => (e.2, e.1)
  edges := fun R i => if h : ∃ L, AllSides (R.getD i []) L ∧ (R.getD i [] = [] → L = []) then
    h.choose.map fun ps => (ps.1.net, lookAt R i ps.1 ps.2 9) else []
  kernel := Fringe.rowKernel
  rnd := fun r => (⌊r * 1000000⌋ : ℚ) / 1000000

theorem lookFaithful : Engine25.Faithful lookKL := ⟨geoFaithful.cover, geoFaithful.disjoint, geoFaithful.sound, geoFaithful.complete⟩

theorem lookMerges : MergesPerNet lookKL := by
  intro ps ps' net h p hp
  show p ∈ tidy ps' ↔ p ∈ tidy ps
  rw [mem_tidy, mem_tidy]
  have key : ∀ c n, n = net → ((∃ r ∈ ps', r.net = n ∧ c ∈ r.cells) ↔ ∃ r ∈ ps, r.net = n ∧ c ∈ r.cells) := by
    rintro c n rfl
    constructor
    · rintro ⟨r, h1, h2, h3⟩; exact ⟨r, (h r h2).1 h1, h2, h3⟩
    · rintro ⟨r, h1, h2, h3⟩; exact ⟨r, (h r h2).2 h1, h2, h3⟩
  constructor
  · rintro ⟨q, h1, h2, h3⟩
    have hq : q.net = net := h2.symm.trans hp
    exact ⟨q, (h q hq).1 h1, h2, fun c => (h3 c).trans (key c _ hq)⟩
  · rintro ⟨q, h1, h2, h3⟩
    have hq : q.net = net := h2.symm.trans hp
    exact ⟨q, (h q hq).2 h1, h2, fun c => (h3 c).trans (key c _ hq).symm⟩

theorem lookVisits {R : List (List Poly)} {i : Nat} (hi : i < R.length) {L : List (Poly × Side)}
    (hL : AllSides (R.getD i []) L) (hc : ∀ ps ∈ L, Clear R i ps.1 ps.2 9) : ∃ sides, Visits R i 9 sides (lookKL.edges R i) := by
  have he : ∃ L, AllSides (R.getD i []) L ∧ (R.getD i [] = [] → L = []) := by
    refine ⟨L, hL, fun h0 => ?_⟩
    rw [List.eq_nil_iff_forall_not_mem]
    rintro ⟨p, s⟩ hps
    have := ((hL.mem p s).1 hps).1
    rw [h0] at this
    exact List.not_mem_nil this
  have e : lookKL.edges R i = he.choose.map fun ps => (ps.1.net, lookAt R i ps.1 ps.2 9) := dif_pos he
  refine ⟨he.choose, he.choose_spec.1, ?_⟩
  rw [e, List.forall₂_map_right_iff, List.forall₂_same]
  rintro ⟨p, s⟩ hps
  refine ⟨rfl, look_ok hi (hc (p, s) ?_)⟩
  rw [hL.mem]
  exact (he.choose_spec.1.mem p s).1 hps

/-- Wires on met1. -/
noncomputable def wiresCell (L : List Rect) : Context where
  cellName := "TOP"
  dbu := 1
  annotated := ⟨0, 0, 40, 6⟩
  internal := ⟨0, 0, 40, 6⟩
  extracted := [((68, 20), [L.map Rect.poly])]

def bottom : Rect := ⟨"", -8, -8, 48, 14⟩

noncomputable def wiresLayers (L : List Rect) : Dict String (List Poly) :=
  [("VSUBS", [bottom.poly]), ("met1", L.map Rect.poly)]

theorem wiresLayers_ok (L : List Rect) : Engine25.layerRegions Sky130A.tech.read (wiresCell L) 8 = .ok (wiresLayers L) := by
  have : Engine25.layerRegions Sky130A.tech.read (wiresCell L) 8 =
      .ok [("VSUBS", [bottom.poly]), ("met1", L.map Rect.poly ++ [])] := rfl
  rw [this, List.append_nil]
  rfl

/-- What is used of the wires: their nets are in order, they lie in the cell, at least two units apart, and are looked at
without trouble. -/
structure WiresOK (L : List Rect) : Prop where
  sorted : L.Pairwise fun r r' => r.net < r'.net
  inside : ∀ r ∈ L, 0 ≤ r.x1 ∧ r.x1 < r.x2 ∧ r.x2 ≤ 40 ∧ 0 ≤ r.y1 ∧ r.y1 < r.y2 ∧ r.y2 ≤ 6
  apart : L.Pairwise fun r r' => r.x2 + 1 ≤ r'.x1 ∨ r'.x2 + 1 ≤ r.x1 ∨ r.y2 + 1 ≤ r'.y1 ∨ r'.y2 + 1 ≤ r.y1
  nodup : (rectSides L).Nodup
  clear : ∀ ps ∈ rectSides L, Clear (wiresLayers L).values 1 ps.1 ps.2 9

variable {L : List Rect}

theorem WiresOK.apart' (hL : WiresOK L) : ∀ r ∈ L, ∀ r' ∈ L, r ≠ r' →
    r.x2 + 1 ≤ r'.x1 ∨ r'.x2 + 1 ≤ r.x1 ∨ r.y2 + 1 ≤ r'.y1 ∨ r'.y2 + 1 ≤ r.y1 := by
  have : Std.Symm fun r r' : Rect =>
      r.x2 + 1 ≤ r'.x1 ∨ r'.x2 + 1 ≤ r.x1 ∨ r.y2 + 1 ≤ r'.y1 ∨ r'.y2 + 1 ≤ r.y1 := ⟨fun a b h => by omega⟩
  exact fun r hr r' hr' hne => hL.apart.forall hr hr' hne

theorem wiresRegions (hL : WiresOK L) {names : List String} {R : List (List Poly)}
    (hs : IsStack Sky130A.tech.read (wiresCell L) names)
    (hR : Regions lookKL Sky130A.tech.read (wiresCell L) 8 names R) : names = ["VSUBS", "met1"] ∧ R = (wiresLayers L).values := by
  obtain ⟨h1, h2⟩ := Engine25.layers_exact _ _ _ _ (wiresLayers_ok L)
  obtain rfl := hs.unique h1
  refine ⟨rfl, ?_⟩
  have ht : (wiresLayers L).values.map tidy = (wiresLayers L).values := by
    show [tidy [bottom.poly], tidy (L.map Rect.poly)] = [[bottom.poly], L.map Rect.poly]
    rw [tidy_one, tidy_sorted]
    rw [List.pairwise_map]
    exact hL.sorted
  rw [← ht]
  refine List.ext_getElem? fun i => ?_
  have hlen : (wiresLayers L).keys.length = (wiresLayers L).values.length := rfl
  by_cases hi : i < (wiresLayers L).keys.length
  · obtain ⟨ps, hps, hmem⟩ := hR.2 i hi
    obtain ⟨qs, hq1, hq2⟩ := Engine25.keys_get h1.nodup hi
    rw [hps, List.getElem?_map, hq1]
    show some (tidy ps) = some (tidy qs)
    rw [tidy_congr fun p => (hmem p).trans (h2 _ _ hq2 p).symm]
  · rw [List.getElem?_eq_none (by rw [hR.1]; omega), List.getElem?_eq_none (by rw [List.length_map]; omega)]

theorem wiresPoly {n : String} {p : Poly} (h : Engine25.PolyOf Sky130A.tech.read (wiresCell L) 8 n p) :
    (n = "VSUBS" ∧ p = bottom.poly) ∨ (n = "met1" ∧ ∃ r ∈ L, p = r.poly) := by
  obtain ⟨hs, hp⟩ := Engine25.layers_exact _ _ _ _ (wiresLayers_ok L)
  have hn : n ∈ (wiresLayers L).keys := by
    rw [hs.mem]
    rcases h with ⟨h, _⟩ | ⟨l, hl, rs, hg, _⟩
    · exact Or.inl h
    · exact Or.inr ⟨l, hl, rs, hg⟩
  simp only [wiresLayers, Dict.keys, List.map_cons, List.map_nil, List.mem_cons, List.not_mem_nil, or_false] at hn
  rcases hn with rfl | rfl
  · exact Or.inl ⟨rfl, by simpa using (hp _ _ rfl p).2 h⟩
  · refine Or.inr ⟨rfl, ?_⟩
    obtain ⟨r, hr, e⟩ := List.mem_map.1 ((hp _ _ rfl p).2 h)
    exact ⟨r, hr, e.symm⟩

theorem wiresPoly' (r : Rect) (hr : r ∈ L) : Engine25.PolyOf Sky130A.tech.read (wiresCell L) 8 "met1" r.poly := by
  obtain ⟨_, hp⟩ := Engine25.layers_exact _ _ _ _ (wiresLayers_ok L)
  exact (hp "met1" (L.map Rect.poly) rfl _).1 (List.mem_map_of_mem hr)

theorem wiresVisits (hL : WiresOK L) {names : List String} {R : List (List Poly)}
    (hs : IsStack Sky130A.tech.read (wiresCell L) names)
    (hR : Regions lookKL Sky130A.tech.read (wiresCell L) 8 names R) {i : Nat} (hi : i < names.length) :
    ∃ sides, Visits R i 9 sides (lookKL.edges R i) := by
  obtain ⟨rfl, rfl⟩ := wiresRegions hL hs hR
  have hi : i < 2 := hi
  have : i = 0 ∨ i = 1 := by omega
  rcases this with rfl | rfl
  · refine lookVisits (L := rectSides [bottom]) (show 0 < 2 by omega) ?_ ?_
    · exact rect_all (L := [bottom]) (by decide) (by decide +kernel)
    · intro ps hps
      simp only [rectSides, List.flatMap_cons, List.flatMap_nil, List.append_nil, List.mem_map] at hps
      obtain ⟨s, hs, rfl⟩ := hps
      refine ⟨?_, fun _ j _ => ?_⟩
      · revert s; decide
      · have : inFront (wiresLayers L).values 0 bottom.poly s 9 j = [] := by
          rw [List.eq_nil_iff_forall_not_mem]
          intro q hq
          obtain ⟨q', hq', hcl⟩ := (mem_inFront (show 0 < 2 by omega)).1 hq
          obtain ⟨_, ⟨⟨u, w⟩, hne⟩, h3⟩ := clip_some.1 hcl
          obtain ⟨_, ⟨hw, _⟩, hc⟩ := (h3 u w).1 hne
          refine outside_box hs u hw ?_
          have hsub : q' ∈ (wiresLayers L).values.flatten := by
            rcases hq' with ⟨h1, _, h2⟩ | ⟨_, h2, _⟩ | ⟨_, rfl⟩
            · rw [List.getD_eq_getElem _ _ h1] at h2
              exact List.mem_flatten_of_mem (List.getElem_mem h1) h2
            · rw [List.getD_eq_getElem _ _ (show 0 < 2 by omega)] at h2
              exact List.mem_flatten_of_mem (List.getElem_mem _) h2
            · exact List.mem_flatten_of_mem (l := [bottom.poly]) List.mem_cons_self List.mem_cons_self
          have hsub : q' ∈ [bottom.poly] ++ (L.map Rect.poly ++ []) := hsub
          simp only [List.append_nil, List.mem_append, List.mem_singleton, List.mem_map] at hsub
          generalize s.cell u w = c at hc ⊢
          rcases hsub with rfl | ⟨r, hr, rfl⟩
          · exact hc
          · have := hL.inside r hr
            simp only [Rect.poly, bottom, Finset.mem_product, Finset.mem_Ico] at hc ⊢
            omega
        rw [this]
        simp
  · refine lookVisits (L := rectSides L) (show 1 < 2 by omega) ?_ hL.clear
    exact rect_all (fun r hr => ⟨(hL.inside r hr).2.1, (hL.inside r hr).2.2.2.2.1⟩) hL.nodup

theorem wiresShorts (hL : WiresOK L) : Engine25.NoShorts Sky130A.tech.read (wiresCell L) 8 := by
  intro n p q hp hq c hc hc'
  rcases wiresPoly hp with ⟨rfl, rfl⟩ | ⟨rfl, r, hr, rfl⟩ <;> rcases wiresPoly hq with ⟨h, rfl⟩ | ⟨h, r', hr', rfl⟩
  · rfl
  · exact absurd h (by decide)
  · exact absurd h (by decide)
  · by_contra hne
    have := hL.apart' r hr r' hr' (fun he => hne (by rw [he]))
    simp only [Rect.poly, Finset.mem_product, Finset.mem_Ico] at hc hc'
    omega

theorem wiresMim : WithoutMim Sky130A.tech (wiresCell L) := by
  intro l hl n rs hg hm
  obtain ⟨hs, _⟩ := Engine25.layers_exact _ _ _ _ (wiresLayers_ok L)
  have hn : n ∈ (wiresLayers L).keys := (hs.mem n).2 (Or.inr ⟨l, hl, rs, hg⟩)
  simp only [wiresLayers, Dict.keys, List.map_cons, List.map_nil, List.mem_cons, List.not_mem_nil, or_false] at hn
  rcases hn with rfl | rfl <;> revert hm <;> decide

theorem wiresSpaced (hL : WiresOK L) : Spaced lookKL Sky130A.tech (wiresCell L) 8 := by
  refine spaced_of_layout lookFaithful (depth := 9) (fun names R hs hR i hi => wiresVisits hL hs hR hi) ?_ ?_
    (shipped_no_vsubs (Or.inl rfl)) ?_ ?_
  · rintro R - i hi
    have h0 : R.getD i [] = [] := by
      rw [List.getD_eq_getElem?_getD, List.getElem?_eq_none hi]; rfl
    unfold lookKL
    dsimp only
    split
    · rename_i h
      rw [h.choose_spec.2 h0]; rfl
    · rfl
  · intro ps hne hall
    show tidy ps = _
    rw [← tidy_one (Engine25.substratePoly (wiresCell L) 8)]
    refine tidy_congr fun p => ?_
    rw [List.mem_singleton]
    refine ⟨hall p, ?_⟩
    rintro rfl
    obtain ⟨q, hq⟩ := List.exists_mem_of_ne_nil _ hne
    rw [← hall q hq]; exact hq
  · intro n p hp c hc
    have : -8 ≤ c.1 ∧ c.1 < 48 ∧ -8 ≤ c.2 ∧ c.2 < 14 := by
      rcases wiresPoly hp with ⟨_, rfl⟩ | ⟨_, r, hr, rfl⟩
      · simp only [Rect.poly, bottom, Finset.mem_product, Finset.mem_Ico] at hc
        omega
      · have := hL.inside r hr
        simp only [Rect.poly, Finset.mem_product, Finset.mem_Ico] at hc
        omega
    exact (Engine25.inSubstrate_iff _ _ _).2 ⟨fun _ => this, fun _ => this⟩
  · intro n p q hp hq hne c hc c' hc'
    have key : ∀ k : ℤ, 2 ≤ k → (0.057 : ℚ) < ((k - 1 : ℤ) : ℚ) * (wiresCell L).dbu := by
      intro k hk
      have h1 : (1 : ℚ) ≤ ((k - 1 : ℤ) : ℚ) := by exact_mod_cast (by omega : (1 : ℤ) ≤ k - 1)
      show (0.057 : ℚ) < _ * 1
      linarith
    rcases wiresPoly hp with ⟨rfl, rfl⟩ | ⟨rfl, r, hr, rfl⟩ <;> rcases wiresPoly hq with ⟨h, rfl⟩ | ⟨h, r', hr', rfl⟩
    · exact absurd rfl hne
    · exact absurd h (by decide)
    · exact absurd h (by decide)
    · have := hL.apart' r hr r' hr' (fun he => hne (by rw [he]))
      simp only [Rect.poly, Finset.mem_product, Finset.mem_Ico] at hc hc'
      refine ⟨fun _ => key _ ?_, fun _ => key _ ?_⟩ <;>
      · rw [le_abs]; omega

theorem wiresSourced : ∀ g, (wiresCell L).extracted.get? g ≠ some [] := by
  intro g
  simp only [wiresCell, Dict.get?]
  split_ifs <;> simp

/-- Two wires, and the same with a third one far away. -/
def twoWires : List Rect := [⟨"A", 0, 0, 4, 2⟩, ⟨"B", 0, 4, 4, 6⟩]
def threeWires : List Rect := [⟨"A", 0, 0, 4, 2⟩, ⟨"B", 0, 4, 4, 6⟩, ⟨"D", 20, 0, 24, 6⟩]

theorem twoWires_ok : WiresOK twoWires where
  sorted := by decide
  inside := by decide
  apart := by decide
  nodup := by decide +kernel
  clear := by decide +kernel

theorem threeWires_ok : WiresOK threeWires where
  sorted := by decide
  inside := by decide
  apart := by decide
  nodup := by decide +kernel
  clear := by decide +kernel

theorem wiresPoly_iff (n : String) (p : Poly) : Engine25.PolyOf Sky130A.tech.read (wiresCell L) 8 n p ↔
    (n = "VSUBS" ∧ p = bottom.poly) ∨ (n = "met1" ∧ ∃ r ∈ L, p = r.poly) := by
  refine ⟨wiresPoly, ?_⟩
  rintro (⟨rfl, rfl⟩ | ⟨rfl, r, hr, rfl⟩)
  · obtain ⟨_, hp⟩ := Engine25.layers_exact _ _ _ _ (wiresLayers_ok L)
    exact (hp "VSUBS" [bottom.poly] rfl _).1 List.mem_cons_self
  · exact wiresPoly' r hr

theorem wiresSame : SameNear Sky130A.tech.read (wiresCell twoWires) (wiresCell threeWires) 8 9 "A" "B" where
  dbu := rfl
  stack names := by
    obtain ⟨h1, _⟩ := Engine25.layers_exact _ _ _ _ (wiresLayers_ok twoWires)
    obtain ⟨h2, _⟩ := Engine25.layers_exact _ _ _ _ (wiresLayers_ok threeWires)
    have h2 : IsStack Sky130A.tech.read (wiresCell threeWires) (wiresLayers twoWires).keys := h2
    exact ⟨fun h => by rw [h.unique h2]; exact h1, fun h => by rw [h.unique h1]; exact h2⟩
  own n p hp := by
    rw [wiresPoly_iff, wiresPoly_iff]
    refine or_congr Iff.rfl (and_congr Iff.rfl ?_)
    simp only [twoWires, threeWires, List.mem_cons, List.not_mem_nil, or_false, exists_eq_or_imp, exists_eq_left]
    refine ⟨?_, fun h => h.elim Or.inl fun h => Or.inr (Or.inl h)⟩
    rintro (h | h | rfl)
    · exact Or.inl h
    · exact Or.inr h
    · rcases hp with hp | hp <;> exact absurd hp (by decide)
  near n net c := by
    rintro ⟨n0, p, c0, hp, hnet, hc0, h1, _⟩
    refine or_congr Iff.rfl (and_congr Iff.rfl (exists_congr fun q => ?_))
    rw [wiresPoly_iff, wiresPoly_iff]
    have hx : c0.1 < 4 := by
      rcases wiresPoly hp with ⟨_, rfl⟩ | ⟨_, r, hr, rfl⟩
      · rcases hnet with h | h <;> exact absurd h (by decide)
      · have : ∀ r ∈ twoWires, r.x2 = 4 := by decide
        simp only [Rect.poly, Finset.mem_product, Finset.mem_Ico, this r hr] at hc0
        omega
    rw [abs_le] at h1
    constructor
    · rintro ⟨(h | ⟨h, r, hr, rfl⟩), h2, h3⟩
      · exact ⟨Or.inl h, h2, h3⟩
      · refine ⟨Or.inr ⟨h, r, ?_, rfl⟩, h2, h3⟩
        simp only [threeWires, List.mem_cons, List.not_mem_nil, or_false] at hr
        rcases hr with rfl | rfl | rfl
        · decide
        · decide
        · simp only [Rect.poly, Finset.mem_product, Finset.mem_Ico] at h3
          omega
    · rintro ⟨(h | ⟨h, r, hr, rfl⟩), h2, h3⟩
      · exact ⟨Or.inl h, h2, h3⟩
      · refine ⟨Or.inr ⟨h, r, ?_, rfl⟩, h2, h3⟩
        have : ∀ r ∈ twoWires, r ∈ threeWires := by decide
        exact this r hr

/-- The hypotheses of C93 hold for the two wires and the three wires: both run, and the capacitance between `A` and `B` is the
same up to rounding. -/
example : ∃ c' d', Engine25.run lookKL id Sky130A.tech.read (wiresCell twoWires) .CC true 8 (.ok []) ⟨["A", "B"], []⟩ true = .ok c' ∧
    Engine25.run lookKL id Sky130A.tech.read (wiresCell threeWires) .CC true 8 (.ok []) ⟨["A", "B", "D"], []⟩ true = .ok d' ∧
    ∃ (cov cs : String → String → ℚ) (names : List String) (R : List (List Poly)) (sides : Nat → List (Poly × Side)) (N : Nat),
      |(Rcx25Netlist.parasiticCap c' "A" "B" : ℝ) - Rcx25Netlist.parasiticCap d' "A" "B"| ≤
        2 * (1 / 100) * Engine25.fringeTotal R names 1 Sky130A.tech.parasitics.sideHalo true cov cs 9 sides "A" "B" + N / 10000 := by
  obtain ⟨c', h⟩ := (shipped_runs_partial (Or.inl rfl) Fringe.rowKernel_ok wiresSourced wiresMim (wiresSpaced twoWires_ok) true
    (.ok [])).1 id ⟨["A", "B"], []⟩ true
  obtain ⟨d', h'⟩ := (shipped_runs_partial (Or.inl rfl) Fringe.rowKernel_ok wiresSourced wiresMim (wiresSpaced threeWires_ok) true
    (.ok [])).1 id ⟨["A", "B", "D"], []⟩ true
  obtain ⟨cap, cov, cs, C, off, names, R, R', sides, sides', views, views', N, _, _, _, _, hc⟩ := shipped_local (Or.inl rfl) lookKL
    lookFaithful Fringe.rowKernel_ok Fringe.rowKernel_bands lookMerges id _ _ wiresMim 8 9 "A" "B" (by decide) (by decide)
    (by decide) wiresSame .CC (Or.inl rfl) true _ _ _ _ c' d' true h h' (by simp) (by simp) (wiresShorts twoWires_ok)
    (wiresShorts threeWires_ok) (by norm_num [wiresCell]) (by norm_num [wiresCell])
    (by show (9 : ℤ) = ⌊(8.0 : ℚ) / 1⌋ + 1; norm_num)
    (fun names R hs hR i hi => wiresVisits twoWires_ok hs hR hi) (fun names R hs hR i hi => wiresVisits threeWires_ok hs hR hi)
    (1 / 100) (by norm_num) (by
      intro r hr
      have h1 := Int.floor_le (r * 1000000)
      have h2 := Int.lt_floor_add_one (r * 1000000)
      have e : ((lookKL.rnd r : ℚ) : ℝ) = (⌊r * 1000000⌋ : ℝ) / 1000000 := by simp [lookKL]
      rw [e, abs_le]
      constructor <;> linarith)
  exact ⟨c', d', h, h', cov, cs, names, R, sides, N, hc⟩

end Verif.Pdk
