import Verif.Engine25.Look
import Verif.Pdk.Cap
import Verif.Pdk.Res

/-!
# The capacitances of a cell in terms of its layout, for the shipped technologies (C66)
-/

namespace Verif.Pdk

open TechInfo (Parasitics OverlapIs SideOverlapIs IsLast SidewallSpec)
open Engine25 (boxSides box_sides outside_box lookAt look_ok Clear inFront mem_inFront clip_some tidy tidy_congr tidy_one tidy_two
  KLayout Context IsStack IsMetal Regions AllSides Views View Side Dir IsSide Visits EdgeOK IntervalOK)
open Fringe (KernelOK KernelBands PairSpec Reported)
open Overlap (Poly Cell)

set_option maxRecDepth 4000

theorem side_values_ok {t : Technology} (ht : Shipped t) : 0 ≤ t.parasitics.sideHalo ∧
    (∀ s ∈ t.parasitics.sideoverlaps, 0 < s.cap) ∧ ∀ s ∈ t.parasitics.substrates, 0 < s.perimeter := by
  rcases ht with rfl | rfl <;> decide +kernel

theorem OverlapIs.unique {p : Parasitics} {a b : String} {o o' : TechInfo.OverlapSpec} (h : OverlapIs p a b o)
    (h' : OverlapIs p a b o') : o = o' := by
  rw [← Overlap.specOf_iff] at h h'
  exact Option.some.inj (h.symm.trans h')

theorem PairSpec.unique {p : Parasitics} {a b : String} {o o' : TechInfo.OverlapSpec} (h : PairSpec p a b o)
    (h' : PairSpec p a b o') : o = o' := by
  rcases h with h | ⟨hn, h⟩ <;> rcases h' with h' | ⟨hn', h'⟩
  · exact OverlapIs.unique h h'
  · exact absurd h (hn' _)
  · exact absurd h' (hn _)
  · exact OverlapIs.unique h h'

theorem side_unique {p : Parasitics} {a b : String} {o o' : TechInfo.SideOverlapSpec} (h : SideOverlapIs p a b o)
    (h' : SideOverlapIs p a b o') : o = o' := by
  rcases h with h | ⟨hn, _, s, hs, rfl⟩ <;> rcases h' with h' | ⟨hn', _, s', hs', rfl⟩
  · exact Fringe.IsLast.unique h h'
  · exact absurd h.prop (hn' _ h.mem)
  · exact absurd h'.prop (hn _ h'.mem)
  · rw [Fringe.IsLast.unique hs hs']

/-- The values of a technology, as functions of the names of the layers. -/
structure ValuesAre (t : Technology) (cap cov cs : String → String → ℚ) (C off : String → ℚ) : Prop where
  wall : ∀ layer s, IsLast (fun s => s.layer = layer) t.parasitics.sidewalls s → s.cap = C layer ∧ s.offset = off layer
  over : ∀ inside outside o, PairSpec t.parasitics inside outside o → o.cap = cov inside outside
  side : ∀ inside outside s, SideOverlapIs t.parasitics inside outside s → s.cap = cs inside outside
  pairs : ∀ x : Context, WithoutMim t x → ∀ names, IsStack t.read x names → ∀ i j, i < j → j < names.length →
    ∃ s, OverlapIs t.parasitics (names.getD j "") (names.getD i "") s ∧ s.cap = cap (names.getD j "") (names.getD i "")
  over0 : ∀ inside outside, 0 ≤ cov inside outside
  side0 : ∀ inside outside, 0 ≤ cs inside outside

theorem shipped_values {t : Technology} (ht : Shipped t) : ∃ (cap cov cs : String → String → ℚ) (C off : String → ℚ),
    ValuesAre t cap cov cs C off := by
  classical
  obtain ⟨v1, v2, v3, v4⟩ := values_ok ht
  obtain ⟨v5, v6, v7⟩ := side_values_ok ht
  let cap : String → String → ℚ := fun a b => ((Overlap.specOf t.parasitics a b).map (·.cap)).getD 0
  let C : String → ℚ := fun l => if h : ∃ s : SidewallSpec, IsLast (fun s => s.layer = l) t.parasitics.sidewalls s then
    h.choose.cap else 0
  let off : String → ℚ := fun l => if h : ∃ s : SidewallSpec, IsLast (fun s => s.layer = l) t.parasitics.sidewalls s then
    h.choose.offset else 0
  let cov : String → String → ℚ := fun a b => if h : ∃ o, PairSpec t.parasitics a b o then h.choose.cap else 0
  let cs : String → String → ℚ := fun a b => if h : ∃ o, SideOverlapIs t.parasitics a b o then h.choose.cap else 0
  have hC : ∀ layer s, IsLast (fun s => s.layer = layer) t.parasitics.sidewalls s → s.cap = C layer ∧ s.offset = off layer := by
    intro l s hs
    have he : ∃ s : SidewallSpec, IsLast (fun s => s.layer = l) t.parasitics.sidewalls s := ⟨s, hs⟩
    have hu := Fringe.IsLast.unique hs he.choose_spec
    simp only [C, off, dif_pos he]
    exact ⟨congrArg _ hu, congrArg _ hu⟩
  have hcov : ∀ inside outside o, PairSpec t.parasitics inside outside o → o.cap = cov inside outside := by
    intro a b o ho
    have he : ∃ o, PairSpec t.parasitics a b o := ⟨o, ho⟩
    simp only [cov, dif_pos he]
    exact congrArg _ (PairSpec.unique ho he.choose_spec)
  have hcs : ∀ inside outside s, SideOverlapIs t.parasitics inside outside s → s.cap = cs inside outside := by
    intro a b o ho
    have he : ∃ o, SideOverlapIs t.parasitics a b o := ⟨o, ho⟩
    simp only [cs, dif_pos he]
    exact congrArg _ (side_unique ho he.choose_spec)
  have hnn : Overlap.NonNeg t.read.parasitics := ⟨fun o ho => (v2 o ho).le, fun s hs => (v3 s hs).le⟩
  have hcap : ∀ x : Context, WithoutMim t x → ∀ names, IsStack t.read x names → ∀ i j, i < j → j < names.length →
      ∃ s, OverlapIs t.read.parasitics (names.getD j "") (names.getD i "") s ∧
        s.cap = cap (names.getD j "") (names.getD i "") := by
    intro x hmim names hs i j hij hj
    obtain ⟨s, hsp⟩ := overlap_given ht hmim hs i j hij hj
    refine ⟨s, hsp, ?_⟩
    show s.cap = ((Overlap.specOf t.parasitics _ _).map (·.cap)).getD 0
    rw [(Overlap.specOf_iff _ _ _ _).2 hsp]; rfl
  refine ⟨cap, cov, cs, C, off, hC, hcov, hcs, hcap, ?_, ?_⟩
  · intro a b
    simp only [cov]
    split
    · rename_i h
      rcases h.choose_spec with h' | ⟨_, h'⟩ <;> exact Overlap.spec_nonneg hnn h'
    · exact le_refl _
  · intro a b
    simp only [cs]
    split
    · rename_i h
      have hspec := h.choose_spec
      generalize h.choose = o at hspec
      rcases hspec with h' | ⟨_, _, s, hs, rfl⟩
      · exact (v6 _ h'.mem).le
      · exact (v7 _ hs.mem).le
    · exact le_refl _

theorem shipped_nonneg {t : Technology} (ht : Shipped t) : Overlap.NonNeg t.read.parasitics := by
  obtain ⟨v1, v2, v3, v4⟩ := values_ok ht
  exact ⟨fun o ho => (v2 o ho).le, fun s hs => (v3 s hs).le⟩

theorem shipped_no_vsubs {t : Technology} (ht : Shipped t) :
    ∀ l ∈ t.read.stack, IsMetal l → ¬ Engine25.CanonicalIs t.read l.name "VSUBS" := by
  intro l hl hm hc
  obtain ⟨n, hn, _, hne⟩ := metal_name ht hl hm
  exact hne (hn.unique hc)

open Classical in
/-- **C66 for the shipped technologies.** The capacitance between two nets in the netlist is the sum of their overlap,
sidewall and fringe capacitance over the cells of the layout, with the values of the technology, up to the rounding of the
fringe capacitances and 0.0001 fF for every rectangle that is seen; nothing has to be assumed about the technology. -/
theorem shipped_cells {t : Technology} (ht : Shipped t) (kl : KLayout) (hkl : Engine25.Faithful kl)
    (hk : KernelOK kl.kernel) (hkb : KernelBands kl.kernel) (cf : String → String) (x : Context) (hmim : WithoutMim t x)
    (mode : PexMode.Mode) (hmode : mode = .CC ∨ mode = .RC) (scale : Bool) (halo : ℤ)
    (res : Except String (List Summary.RNetwork)) (c c' : Netlist.Circuit) (bb : Bool)
    (hrun : Engine25.run kl cf t.read x mode scale halo res c bb = .ok c')
    (hno : ∀ d ∈ c.devices, d.clsName ≠ "C") (hshort : Engine25.NoShorts t.read x halo)
    (hdbu : 0 < x.dbu) (hdbu' : x.dbu ≤ 10) (depth : ℤ) (hdepth : depth = ⌊t.parasitics.sideHalo / x.dbu⌋ + 1)
    (hvis : ∀ names R, IsStack t.read x names → Regions kl t.read x halo names R → ∀ i < names.length,
      ∃ sides, Visits R i depth sides (kl.edges R i))
    (ε : ℝ) (hε : 0 ≤ ε) (hrnd : ∀ r, 1 / 10000 < r → |(kl.rnd r : ℝ) - r| ≤ ε * r) :
    ∃ (cap cov cs : String → String → ℚ) (C off : String → ℚ) (names : List String) (R : List (List Poly))
      (sides : Nat → List (Poly × Side)) (views : Nat → Poly × Side → List View) (N : Nat),
      (∀ layer s, IsLast (fun s => s.layer = layer) t.parasitics.sidewalls s → s.cap = C layer ∧ s.offset = off layer) ∧
      (∀ inside outside o, PairSpec t.parasitics inside outside o → o.cap = cov inside outside) ∧
      (∀ inside outside s, SideOverlapIs t.parasitics inside outside s → s.cap = cs inside outside) ∧
      IsStack t.read x names ∧ Regions kl t.read x halo names R ∧
      (∀ i j, i < j → j < names.length → ∃ s, OverlapIs t.parasitics (names.getD j "") (names.getD i "") s ∧
        s.cap = cap (names.getD j "") (names.getD i "")) ∧
      (∀ i < names.length, AllSides (R.getD i []) (sides i)) ∧
      (∀ i < names.length, ∀ ps ∈ sides i, Views R names i ps.1 ps.2 depth (views i ps)) ∧
      N = ∑ i ∈ Finset.range names.length, ((sides i).map fun ps => (views i ps).length).sum ∧
      ∀ a b, a ≠ b → |(Rcx25Netlist.parasiticCap c' a b : ℝ) - (Engine25.overlapTotal t.read x halo names cap a b +
        Engine25.wallTotal R names x.dbu depth C off sides a b +
        Engine25.fringeTotal R names x.dbu t.parasitics.sideHalo scale cov cs depth sides a b)| ≤
        ε * Engine25.fringeTotal R names x.dbu t.parasitics.sideHalo scale cov cs depth sides a b + N / 10000 := by
  obtain ⟨cap, cov, cs, C, off, hv⟩ := shipped_values ht
  obtain ⟨names, R, sides, views, N, h1, h2, h3, h4, h5, h6⟩ := Engine25.netlist_cells kl hkl hk hkb cf t.read x mode hmode
    scale halo res c c' bb hrun hno hshort (shipped_no_vsubs ht) (shipped_nonneg ht) cap (hv.pairs x hmim) hdbu hdbu' depth hdepth
    hvis C off hv.wall cov cs hv.over hv.side hv.over0 hv.side0 (side_values_ok ht).1 ε hε hrnd
  exact ⟨cap, cov, cs, C, off, names, R, sides, views, N, hv.wall, hv.over, hv.side, h1, h2, hv.pairs x hmim names h1, h3, h4, h5,
    h6⟩

/-! ### The layout conditions of C86 and C87 -/

/-- Cells of different nets on one layer that lie in one row or column have more than 0.057 µm between them. -/
def Apart (t : Technology) (x : Context) (halo : ℤ) : Prop :=
  ∀ n p q, Engine25.PolyOf t.read x halo n p → Engine25.PolyOf t.read x halo n q → p.net ≠ q.net →
    ∀ c ∈ p.cells, ∀ c' ∈ q.cells,
      (c.1 = c'.1 → 0.057 < ((|c.2 - c'.2| - 1 : ℤ) : ℚ) * x.dbu) ∧ (c.2 = c'.2 → 0.057 < ((|c.1 - c'.1| - 1 : ℤ) : ℚ) * x.dbu)

/-- All shapes lie within the bounding box of the cell. -/
def Within (t : Technology) (x : Context) (halo : ℤ) : Prop :=
  ∀ n p, Engine25.PolyOf t.read x halo n p → ∀ c ∈ p.cells, Engine25.InSubstrate x halo c

/-- Along a row or column of cells across an edge. -/
theorem cell_line (s : Side) (u v w : ℤ) : ((s.cell u v).1 = (s.cell u w).1 ∧ |(s.cell u v).2 - (s.cell u w).2| = |v - w|) ∨
    ((s.cell u v).2 = (s.cell u w).2 ∧ |(s.cell u v).1 - (s.cell u w).1| = |v - w|) := by
  obtain ⟨x, y, d, len⟩ := s
  cases d <;> simp only [Side.cell]
  · left; refine ⟨trivial, ?_⟩; congr 1; ring
  · right; refine ⟨trivial, ?_⟩; rw [abs_sub_comm]; congr 1; ring
  · left; refine ⟨trivial, ?_⟩; rw [abs_sub_comm]; congr 1; ring
  · right; refine ⟨trivial, ?_⟩; congr 1; ring

/-- If KLayout visits the edges of all polygons, and the substrate is visited as one polygon, the conditions of C86 and C87
hold for every layout that keeps its nets apart. -/
theorem spaced_of_layout {t : Technology} {kl : KLayout} (hkl : Engine25.Faithful kl) {x : Context} {halo depth : ℤ}
    (hvis : ∀ names R, IsStack t.read x names → Regions kl t.read x halo names R → ∀ i < names.length,
      ∃ sides, Visits R i depth sides (kl.edges R i))
    (hrest : ∀ R, IsRegions kl t x halo R → ∀ i, R.length ≤ i → kl.edges R i = [])
    (hone : ∀ ps, ps ≠ [] → (∀ q ∈ ps, q = Engine25.substratePoly x halo) → kl.merged ps = [Engine25.substratePoly x halo])
    (hsub : ∀ l ∈ t.read.stack, IsMetal l → ¬ Engine25.CanonicalIs t.read l.name "VSUBS")
    (hin : Within t x halo) (hap : Apart t x halo) : Spaced kl t x halo := by
  have key : ∀ R, IsRegions kl t x halo R → ∃ d, Engine25.layerRegions t.read x halo = .ok d ∧ R = d.values.map kl.merged ∧
      Regions kl t.read x halo d.keys R ∧ IsStack t.read x d.keys := by
    rintro R ⟨d, hd, rfl⟩
    obtain ⟨h1, h2⟩ := Engine25.layers_exact _ _ _ _ hd
    refine ⟨d, hd, rfl, ⟨?_, fun i hi => ?_⟩, h1⟩
    · simp [Dict.values, Dict.keys]
    · obtain ⟨ps, e1, e2⟩ := Engine25.keys_get h1.nodup hi
      exact ⟨ps, by rw [List.getElem?_map, e1]; rfl, h2 _ _ e2⟩
  have pick : ∀ R, IsRegions kl t x halo R → ∀ i, ∀ e ∈ kl.edges R i, i < R.length ∧
      ∃ p s, p ∈ R.getD i [] ∧ IsSide p.cells s ∧ e.1 = p.net ∧ EdgeOK R i p s depth e.2 := by
    intro R hR i e he
    obtain ⟨d, _, _, hreg, hst⟩ := key R hR
    by_cases hi : i < R.length
    · obtain ⟨sides, hall, hf⟩ := hvis _ _ hst hreg i (by rw [← hreg.1]; exact hi)
      obtain ⟨ps, hps, h1, h2⟩ := forall₂_right hf he
      obtain ⟨hp, hs⟩ := (hall.mem ps.1 ps.2).1 hps
      exact ⟨hi, ps.1, ps.2, hp, hs, h1, h2⟩
    · rw [hrest R hR i (by omega)] at he
      simp at he
  -- every cell of a visited polygon belongs to a polygon of the layer
  have poly : ∀ R, IsRegions kl t x halo R → ∀ i, ∃ n, ∀ p ∈ R.getD i [], ∀ c ∈ p.cells,
      ∃ p', Engine25.PolyOf t.read x halo n p' ∧ p'.net = p.net ∧ c ∈ p'.cells := by
    intro R hR i
    obtain ⟨d, _, _, hreg, hst⟩ := key R hR
    by_cases hi : i < R.length
    · obtain ⟨ps, e1, e2⟩ := hreg.2 i (by rw [← hreg.1]; exact hi)
      refine ⟨d.keys.getD i "", fun p hp c hc => ?_⟩
      rw [List.getD_eq_getElem?_getD, e1] at hp
      obtain ⟨p', h1, h2, h3⟩ := (hkl.cover ps p.net c).1 ⟨p, hp, rfl, hc⟩
      exact ⟨p', (e2 p').1 h1, h2, h3⟩
    · refine ⟨"", fun p hp => ?_⟩
      rw [List.getD_eq_getElem?_getD, List.getElem?_eq_none (by omega)] at hp
      simp at hp
  refine ⟨?_, ?_, ?_⟩
  · intro R hR i e he v hv
    obtain ⟨_, p, s, _, _, _, hok⟩ := pick R hR i e he
    obtain ⟨lo, hi, _, hiv⟩ := hok.intervals v hv
    exact hiv.boxes.rep
  · intro R hR e he v hv
    obtain ⟨h0, p, s, hp, hs, _, hok⟩ := pick R hR 0 e he
    obtain ⟨lo, hi, _, hiv⟩ := hok.intervals v hv
    obtain ⟨d, _, _, hreg, hst⟩ := key R hR
    -- the polygon is the substrate
    have hpsub : p = Engine25.substratePoly x halo := by
      obtain ⟨ps, e1, e2⟩ := hreg.2 0 (by rw [← hreg.1]; exact h0)
      have hname : d.keys.getD 0 "" = "VSUBS" := by
        have h2 := hst.head
        rw [List.head?_eq_getElem?] at h2
        rw [List.getD_eq_getElem?_getD, h2]; rfl
      rw [hname] at e2
      have hall : ∀ q ∈ ps, q = Engine25.substratePoly x halo := by
        intro q hq
        rcases (e2 q).1 hq with ⟨_, hn, hc⟩ | ⟨l, hl, rs, hg, _⟩
        · obtain ⟨n, cells⟩ := q
          dsimp only at hn hc
          subst hn
          have : cells = (Engine25.substratePoly x halo).cells := by
            ext c
            rw [hc, Engine25.mem_substratePoly]
          rw [this]; rfl
        · exact absurd hg.2.1 (hsub l hl hg.1)
      have hne : ps ≠ [] := by
        have : Engine25.substratePoly x halo ∈ ps :=
          (e2 _).2 (Or.inl ⟨rfl, rfl, fun c => Engine25.mem_substratePoly x halo c⟩)
        exact List.ne_nil_of_mem this
      rw [List.getD_eq_getElem?_getD, e1, hone ps hne hall] at hp
      simpa using hp
    -- nothing lies in front of it
    have hout : ∀ u w, 1 ≤ w → s.cell u w ∉ (Engine25.substratePoly x halo).cells := by
      rw [hpsub] at hs
      intro u w hw
      have hne : ((Engine25.topBox x).enlarged halo).x1 < ((Engine25.topBox x).enlarged halo).x2 ∧
          ((Engine25.topBox x).enlarged halo).y1 < ((Engine25.topBox x).enlarged halo).y2 := by
        have := (hs.2.1 0 le_rfl hs.1).1
        unfold Engine25.substratePoly Engine25.Box.cells at this
        simp only [Finset.mem_product, Finset.mem_Ico] at this
        omega
      exact outside_box ((box_sides hne.1 hne.2 s).1 hs) u hw
    rw [List.eq_nil_iff_forall_not_mem]
    rintro ⟨j, qs⟩ hj
    obtain ⟨q, hq⟩ := List.exists_mem_of_ne_nil _ (hiv.boxes.rep.nonempty _ hj).1
    obtain ⟨y, z, hy, hyz, hz, hc⟩ := hiv.boxes.box _ hj q hq
    have hr := hiv.range
    have hmem : (lo, y) ∈ q.cells := by
      rw [hc]; simp only [Finset.mem_product, Finset.mem_Ico]; omega
    obtain ⟨q', hsh, _, hc'⟩ := (hiv.shows j q.net lo y le_rfl (by omega) hy (by omega)).1 ⟨qs, hj, q, hq, rfl, hmem⟩
    refine hout lo y hy ?_
    rw [Engine25.mem_substratePoly]
    have hfrom : ∃ k, q' ∈ R.getD k [] := by
      rcases hsh with ⟨_, _, h⟩ | ⟨_, h, _⟩ | ⟨_, h⟩
      · exact ⟨_, h⟩
      · exact ⟨_, h⟩
      · exact ⟨0, by rw [h]; exact hp⟩
    obtain ⟨k, hk⟩ := hfrom
    obtain ⟨n, hn⟩ := poly R hR k
    obtain ⟨p', h1, _, h3⟩ := hn q' hk _ hc'
    exact hin n p' h1 _ h3
  · intro R hR i e he v hv qs hj q hq hne y hy
    obtain ⟨hi', p, s, hp, hs, hnet, hok⟩ := pick R hR i e he
    obtain ⟨lo, hi, _, hiv⟩ := hok.intervals v hv
    obtain ⟨y', z, hy1, hyz, hz, hc⟩ := hiv.boxes.box _ hj q hq
    have hr := hiv.range
    have hmem : (lo, y') ∈ q.cells := by
      rw [hc]; simp only [Finset.mem_product, Finset.mem_Ico]; omega
    have hyy : y = y' := by
      obtain ⟨⟨c, hc1, rfl⟩, hc2⟩ := hy
      have h1 := hc2 _ hmem
      rw [hc] at hc1
      simp only [Finset.mem_product, Finset.mem_Ico] at hc1
      dsimp only at h1
      omega
    subst hyy
    obtain ⟨q', hsh, hqn, hc'⟩ := (hiv.shows i q.net lo y le_rfl (by omega) hy1 (by omega)).1 ⟨qs, hj, q, hq, rfl, hmem⟩
    have hq' : q' ∈ R.getD i [] := by
      rcases hsh with ⟨_, h, _⟩ | ⟨_, h, _⟩ | ⟨h, _⟩
      · exact absurd rfl h
      · exact h
      · omega
    obtain ⟨n, hn⟩ := poly R hR i
    obtain ⟨p1, h1, h2, h3⟩ := hn p hp _ (hs.2.1 lo (by omega) (by omega)).1
    obtain ⟨q1, k1, k2, k3⟩ := hn q' hq' _ hc'
    have := hap n p1 q1 h1 k1 (by rw [h2, k2, hqn, ← hnet]; exact Ne.symm hne) _ h3 _ k3
    have habs : |(-1 : ℤ) - y| = y + 1 := by rw [abs_sub_comm, abs_of_nonneg (by omega)]; ring
    rcases cell_line s lo (-1) y with ⟨l1, l2⟩ | ⟨l1, l2⟩
    · have := this.1 l1
      rw [l2, habs] at this
      simpa using this
    · have := this.2 l1
      rw [l2, habs] at this
      simpa using this

/-- **C86 and C87 for the layout (partial).** With a shipped technology, the capacitances of every cell without MIM capacitors
whose nets keep a distance of more than 0.057 µm on every layer are extracted, and none of them is negative. Missing: MIM
capacitors and nets that are closer (`mim_fails`, `too_close_fails`, `metal1_negative`). -/
theorem shipped_layout_partial {t : Technology} (ht : Shipped t) {kl : KLayout} (hkl : Engine25.Faithful kl)
    (hk : KernelOK kl.kernel) (hrnd : ∀ r, 0 ≤ r → 0 ≤ kl.rnd r) {x : Context} (hdbu : 0 < x.dbu)
    (hsrc : ∀ g, x.extracted.get? g ≠ some []) (hmim : WithoutMim t x) {halo depth : ℤ}
    (hvis : ∀ names R, IsStack t.read x names → Regions kl t.read x halo names R → ∀ i < names.length,
      ∃ sides, Visits R i depth sides (kl.edges R i))
    (hrest : ∀ R, IsRegions kl t x halo R → ∀ i, R.length ≤ i → kl.edges R i = [])
    (hone : ∀ ps, ps ≠ [] → (∀ q ∈ ps, q = Engine25.substratePoly x halo) → kl.merged ps = [Engine25.substratePoly x halo])
    (hin : Within t x halo) (hap : Apart t x halo) (scale : Bool) (cf : String → String)
    (res : Except String (List Summary.RNetwork)) (c : Netlist.Circuit) (hno : ∀ d ∈ c.devices, d.clsName ≠ "C") (bb : Bool) :
    ∃ c', Engine25.run kl cf t.read x .CC scale halo res c bb = .ok c' ∧ ∀ a b, 0 ≤ Rcx25Netlist.parasiticCap c' a b := by
  have hsp := spaced_of_layout hkl hvis hrest hone (fun l hl hm hc => by
    obtain ⟨n, hn, _, hne⟩ := metal_name ht hl hm
    exact hne (hn.unique hc)) hin hap
  obtain ⟨c', h⟩ := (shipped_runs_partial ht hk hsrc hmim hsp scale res).1 cf c bb
  exact ⟨c', h, shipped_nonneg_partial ht hk hrnd hdbu hsp (by decide) hno h⟩

/-! ### An example -/

/-- Two wires on met1, 2 µm apart, and a third one on met2 above the gap; the unit is 1 µm. -/
noncomputable def geoCell : Context where
  cellName := "TOP"
  dbu := 1
  annotated := ⟨0, 0, 4, 6⟩
  internal := ⟨0, 0, 4, 6⟩
  extracted := [((68, 20), [[⟨"A", Finset.Ico 0 4 ×ˢ Finset.Ico 0 2⟩, ⟨"B", Finset.Ico 0 4 ×ˢ Finset.Ico 4 6⟩]]),
    ((69, 20), [[⟨"C", Finset.Ico 0 4 ×ˢ Finset.Ico 2 4⟩]])]

noncomputable def geoLayers : Dict String (List Poly) :=
  [("VSUBS", [⟨"", Finset.Ico (-8) 12 ×ˢ Finset.Ico (-8) 14⟩]),
   ("met1", [⟨"A", Finset.Ico 0 4 ×ˢ Finset.Ico 0 2⟩, ⟨"B", Finset.Ico 0 4 ×ˢ Finset.Ico 4 6⟩]),
   ("met2", [⟨"C", Finset.Ico 0 4 ×ˢ Finset.Ico 2 4⟩])]

theorem geoLayers_ok : Engine25.layerRegions Sky130A.tech.read geoCell 8 = .ok geoLayers := rfl

/-- The polygons of the example with their edges. -/
noncomputable def geoSides (i : Nat) : List (Poly × Side) :=
  if i = 0 then (boxSides (-8) (-8) 12 14).map fun s => (⟨"", Finset.Ico (-8) 12 ×ˢ Finset.Ico (-8) 14⟩, s)
  else if i = 1 then ((boxSides 0 0 4 2).map fun s => (⟨"A", Finset.Ico 0 4 ×ˢ Finset.Ico 0 2⟩, s)) ++
    (boxSides 0 4 4 6).map fun s => (⟨"B", Finset.Ico 0 4 ×ˢ Finset.Ico 4 6⟩, s)
  else if i = 2 then (boxSides 0 2 4 4).map fun s => (⟨"C", Finset.Ico 0 4 ×ˢ Finset.Ico 2 4⟩, s) else []

/-- A KLayout that visits the edges of the example. -/
noncomputable def geoKL : KLayout where
  merged := tidy
  nbh := fun R _ _ => R.zipIdx.map fun e => (e.2, e.1)
  edges := fun _ i => (geoSides i).map fun ps => (ps.1.net, lookAt geoLayers.values i ps.1 ps.2 9)
  kernel := Fringe.rowKernel
  rnd := fun r => (⌊r * 1000000⌋ : ℚ) / 1000000

theorem geo_values : geoLayers.values = [[⟨"", Finset.Ico (-8) 12 ×ˢ Finset.Ico (-8) 14⟩],
    [⟨"A", Finset.Ico 0 4 ×ˢ Finset.Ico 0 2⟩, ⟨"B", Finset.Ico 0 4 ×ˢ Finset.Ico 4 6⟩],
    [⟨"C", Finset.Ico 0 4 ×ˢ Finset.Ico 2 4⟩]] := rfl

theorem geoTidy : geoLayers.values.map tidy = geoLayers.values := by
  rw [geo_values]
  simp only [List.map_cons, List.map_nil, tidy_one]
  rw [tidy_two]
  show "A" < "B"
  decide

theorem geoBorder {s : Side} (hs : s ∈ boxSides (-8) (-8) 12 14) (j : Nat) :
    inFront geoLayers.values 0 ⟨"", Finset.Ico (-8) 12 ×ˢ Finset.Ico (-8) 14⟩ s 9 j = [] := by
  rw [List.eq_nil_iff_forall_not_mem]
  intro q hq
  obtain ⟨q', hq', hcl⟩ := (mem_inFront (by decide)).1 hq
  obtain ⟨_, ⟨⟨u, w⟩, hne⟩, h3⟩ := clip_some.1 hcl
  obtain ⟨_, ⟨hw, _⟩, hc⟩ := (h3 u w).1 hne
  refine outside_box hs u hw ?_
  have hsub : q' ∈ geoLayers.values.flatten := by
    rcases hq' with ⟨h1, _, h2⟩ | ⟨_, h2, _⟩ | ⟨_, rfl⟩
    · rw [List.getD_eq_getElem _ _ h1] at h2
      exact List.mem_flatten_of_mem (List.getElem_mem h1) h2
    · rw [List.getD_eq_getElem _ _ (by decide)] at h2
      exact List.mem_flatten_of_mem (List.getElem_mem _) h2
    · rw [geo_values]; simp
  rw [geo_values] at hsub
  simp only [List.flatten_cons, List.flatten_nil, List.append_nil, List.cons_append, List.nil_append, List.mem_cons,
    List.not_mem_nil, or_false] at hsub
  generalize s.cell u w = c at hc ⊢
  rcases hsub with rfl | rfl | rfl | rfl
  · exact hc
  all_goals
    simp only [Finset.mem_product, Finset.mem_Ico] at hc ⊢
    omega

theorem geoClear : ∀ i < 3, ∀ ps ∈ geoSides i, Clear geoLayers.values i ps.1 ps.2 9 := by
  intro i hi ps hps
  by_cases h0 : i = 0
  · subst h0
    simp only [geoSides, if_true, List.mem_map] at hps
    obtain ⟨s, hs, rfl⟩ := hps
    refine ⟨?_, fun _ j _ => ?_⟩
    · revert s
      decide
    · dsimp only
      rw [geoBorder hs j]
      simp
  · have key : ∀ i < 3, 0 < i → ∀ ps ∈ geoSides i, Clear geoLayers.values i ps.1 ps.2 9 := by decide +kernel
    exact key i hi (by omega) ps hps

theorem geoFaithful : Engine25.Faithful geoKL where
  cover := by
    intro ps net c
    constructor
    · rintro ⟨p, hp, rfl, hc⟩
      obtain ⟨n, _, rfl⟩ := List.mem_map.1 hp
      obtain ⟨q, hq, hqc⟩ := (Engine25.mem_foldr_union _ _).1 hc
      rw [List.mem_filter] at hq
      exact ⟨q, hq.1, of_decide_eq_true hq.2, hqc⟩
    · rintro ⟨p, hp, rfl, hc⟩
      refine ⟨_, List.mem_map_of_mem (a := p.net) (by simp only [Finset.mem_sort, List.mem_toFinset]; exact List.mem_map_of_mem hp), rfl, ?_⟩
      exact (Engine25.mem_foldr_union _ _).2 ⟨p, List.mem_filter.2 ⟨hp, by simp⟩, hc⟩
  disjoint := by
    intro ps
    change (tidy ps).Pairwise _
    unfold tidy
    rw [List.pairwise_map]
    exact (Finset.sort_nodup _ _).imp fun hne he => absurd he hne
  sound := by
    intro R i p j l h
    have h' := Engine25.zipIdx_get R 0 j
    rw [Nat.zero_add] at h'
    exact ⟨l, h'.symm.trans h, fun q hq => hq⟩
  complete := by
    intro R i p j L K _ _ hK q hq _
    have h' := Engine25.zipIdx_get R 0 j
    rw [Nat.zero_add] at h'
    exact ⟨K, h'.trans hK, hq⟩

theorem geoRegions {names : List String} {R : List (List Poly)} (hs : IsStack Sky130A.tech.read geoCell names)
    (hR : Regions geoKL Sky130A.tech.read geoCell 8 names R) : names = geoLayers.keys ∧ R = geoLayers.values := by
  obtain ⟨h1, h2⟩ := Engine25.layers_exact _ _ _ _ geoLayers_ok
  obtain rfl := hs.unique h1
  refine ⟨rfl, ?_⟩
  rw [← geoTidy]
  refine List.ext_getElem? fun i => ?_
  have hlen : geoLayers.keys.length = geoLayers.values.length := rfl
  by_cases hi : i < geoLayers.keys.length
  · obtain ⟨ps, hps, hmem⟩ := hR.2 i hi
    obtain ⟨qs, hq1, hq2⟩ := Engine25.keys_get h1.nodup hi
    rw [hps, List.getElem?_map, hq1]
    show some (tidy ps) = some (tidy qs)
    rw [tidy_congr fun p => (hmem p).trans (h2 _ _ hq2 p).symm]
  · rw [List.getElem?_eq_none (by rw [hR.1]; omega), List.getElem?_eq_none (by rw [List.length_map]; omega)]

theorem geoAll : ∀ i < 3, AllSides (geoLayers.values.getD i []) (geoSides i) := by
  intro i hi
  have : i = 0 ∨ i = 1 ∨ i = 2 := by omega
  rw [geo_values]
  rcases this with rfl | rfl | rfl
  · refine ⟨by decide +kernel, fun p s => ?_⟩
    simp only [geoSides, if_true, List.mem_map, Prod.mk.injEq, List.getD_cons_zero, List.mem_singleton]
    constructor
    · rintro ⟨s', hs, rfl, rfl⟩
      exact ⟨rfl, (box_sides (by decide) (by decide) _).2 hs⟩
    · rintro ⟨rfl, hs⟩
      exact ⟨s, (box_sides (by decide) (by decide) _).1 hs, rfl, rfl⟩
  · refine ⟨by decide +kernel, fun p s => ?_⟩
    simp only [geoSides, if_true, List.mem_map, Prod.mk.injEq, List.getD_cons_zero, List.getD_cons_succ, List.mem_cons,
      List.not_mem_nil, or_false, one_ne_zero, if_false, List.mem_append]
    constructor
    · rintro (⟨s', hs, rfl, rfl⟩ | ⟨s', hs, rfl, rfl⟩)
      · exact ⟨Or.inl rfl, (box_sides (by decide) (by decide) _).2 hs⟩
      · exact ⟨Or.inr rfl, (box_sides (by decide) (by decide) _).2 hs⟩
    · rintro ⟨rfl | rfl, hs⟩
      · exact Or.inl ⟨s, (box_sides (by decide) (by decide) _).1 hs, rfl, rfl⟩
      · exact Or.inr ⟨s, (box_sides (by decide) (by decide) _).1 hs, rfl, rfl⟩
  · refine ⟨by decide +kernel, fun p s => ?_⟩
    simp only [geoSides, if_true, List.mem_map, Prod.mk.injEq, List.getD_cons_zero, List.getD_cons_succ, List.mem_singleton,
      OfNat.ofNat_ne_zero, OfNat.ofNat_ne_one, if_false]
    constructor
    · rintro ⟨s', hs, rfl, rfl⟩
      exact ⟨rfl, (box_sides (by decide) (by decide) _).2 hs⟩
    · rintro ⟨rfl, hs⟩
      exact ⟨s, (box_sides (by decide) (by decide) _).1 hs, rfl, rfl⟩

theorem geoVisits {names : List String} {R : List (List Poly)} (hs : IsStack Sky130A.tech.read geoCell names)
    (hR : Regions geoKL Sky130A.tech.read geoCell 8 names R) {i : Nat} (hi : i < names.length) :
    Visits R i 9 (geoSides i) (geoKL.edges R i) := by
  obtain ⟨rfl, rfl⟩ := geoRegions hs hR
  have hi : i < 3 := hi
  refine ⟨geoAll i hi, ?_⟩
  show List.Forall₂ _ _ ((geoSides i).map _)
  rw [List.forall₂_map_right_iff, List.forall₂_same]
  intro ps hps
  exact ⟨rfl, look_ok hi (geoClear i hi ps hps)⟩

theorem geoSub : ∀ l ∈ Sky130A.tech.read.stack, IsMetal l → ¬ Engine25.CanonicalIs Sky130A.tech.read l.name "VSUBS" :=
  shipped_no_vsubs (Or.inl rfl)

/-- The polygons of the example. -/
theorem geoPoly {n : String} {p : Poly} (h : Engine25.PolyOf Sky130A.tech.read geoCell 8 n p) :
    (n = "VSUBS" ∧ p = ⟨"", Finset.Ico (-8) 12 ×ˢ Finset.Ico (-8) 14⟩) ∨
    (n = "met1" ∧ (p = ⟨"A", Finset.Ico 0 4 ×ˢ Finset.Ico 0 2⟩ ∨ p = ⟨"B", Finset.Ico 0 4 ×ˢ Finset.Ico 4 6⟩)) ∨
    (n = "met2" ∧ p = ⟨"C", Finset.Ico 0 4 ×ˢ Finset.Ico 2 4⟩) := by
  obtain ⟨hs, hp⟩ := Engine25.layers_exact _ _ _ _ geoLayers_ok
  have hn : n ∈ geoLayers.keys := by
    rw [hs.mem]
    rcases h with ⟨h, _⟩ | ⟨l, hl, rs, hg, _⟩
    · exact Or.inl h
    · exact Or.inr ⟨l, hl, rs, hg⟩
  simp only [geoLayers, Dict.keys, List.map_cons, List.map_nil, List.mem_cons, List.not_mem_nil, or_false] at hn
  rcases hn with rfl | rfl | rfl
  · exact Or.inl ⟨rfl, by simpa using (hp _ _ rfl p).2 h⟩
  · exact Or.inr (Or.inl ⟨rfl, by simpa using (hp _ _ rfl p).2 h⟩)
  · exact Or.inr (Or.inr ⟨rfl, by simpa using (hp _ _ rfl p).2 h⟩)

theorem geoSpaced : Spaced geoKL Sky130A.tech geoCell 8 := by
  refine spaced_of_layout geoFaithful (depth := 9) (fun names R hs hR i hi => ⟨_, geoVisits hs hR hi⟩) ?_ ?_ geoSub ?_ ?_
  · rintro R ⟨d, hd, rfl⟩ i hi
    rw [geoLayers_ok] at hd
    obtain rfl := Except.ok.inj hd
    have hi : 3 ≤ i := hi
    show (geoSides i).map _ = []
    unfold geoSides
    rw [if_neg (by omega), if_neg (by omega), if_neg (by omega)]
    rfl
  · intro ps hne hall
    show tidy ps = _
    rw [← tidy_one (Engine25.substratePoly geoCell 8)]
    refine tidy_congr fun p => ?_
    rw [List.mem_singleton]
    refine ⟨hall p, ?_⟩
    rintro rfl
    obtain ⟨q, hq⟩ := List.exists_mem_of_ne_nil _ hne
    rw [← hall q hq]; exact hq
  · intro n p hp c hc
    have : -8 ≤ c.1 ∧ c.1 < 12 ∧ -8 ≤ c.2 ∧ c.2 < 14 := by
      rcases geoPoly hp with ⟨_, rfl⟩ | ⟨_, rfl | rfl⟩ | ⟨_, rfl⟩ <;>
      · simp only [Finset.mem_product, Finset.mem_Ico] at hc
        omega
    exact (Engine25.inSubstrate_iff _ _ _).2 ⟨fun _ => this, fun _ => this⟩
  · intro n p q hp hq hne c hc c' hc'
    have key : ∀ k : ℤ, 2 ≤ k → (0.057 : ℚ) < ((k - 1 : ℤ) : ℚ) * geoCell.dbu := by
      intro k hk
      have h1 : (1 : ℚ) ≤ ((k - 1 : ℤ) : ℚ) := by exact_mod_cast (by omega : (1 : ℤ) ≤ k - 1)
      show (0.057 : ℚ) < _ * 1
      linarith
    rcases geoPoly hp with ⟨rfl, rfl⟩ | ⟨rfl, rfl | rfl⟩ | ⟨rfl, rfl⟩ <;>
      rcases geoPoly hq with ⟨h, rfl⟩ | ⟨h, rfl | rfl⟩ | ⟨h, rfl⟩ <;>
      first
      | exact absurd rfl hne
      | exact absurd h (by decide)
      | (simp only [Finset.mem_product, Finset.mem_Ico] at hc hc'
         refine ⟨fun _ => key _ ?_, fun _ => ?_⟩
         · rw [le_abs]; omega
         · omega)

theorem geoSourced : ∀ g, geoCell.extracted.get? g ≠ some [] := by
  intro g
  simp only [geoCell, Dict.get?]
  split_ifs <;> simp

theorem geoWithoutMim : WithoutMim Sky130A.tech geoCell := by
  intro l hl n rs hg hm
  obtain ⟨hs, _⟩ := Engine25.layers_exact _ _ _ _ geoLayers_ok
  have hn : n ∈ geoLayers.keys := (hs.mem n).2 (Or.inr ⟨l, hl, rs, hg⟩)
  simp only [geoLayers, Dict.keys, List.map_cons, List.map_nil, List.mem_cons, List.not_mem_nil, or_false] at hn
  rcases hn with rfl | rfl | rfl <;> revert hm <;> decide

theorem geoNoShorts : Engine25.NoShorts Sky130A.tech.read geoCell 8 := by
  intro n p q hp hq c hc hc'
  rcases geoPoly hp with ⟨rfl, rfl⟩ | ⟨rfl, rfl | rfl⟩ | ⟨rfl, rfl⟩ <;>
    rcases geoPoly hq with ⟨h, rfl⟩ | ⟨h, rfl | rfl⟩ | ⟨h, rfl⟩ <;>
    first
    | rfl
    | exact absurd h (by decide)
    | (simp only [Finset.mem_product, Finset.mem_Ico] at hc hc'
       omega)

/-- The example runs, and its capacitances are those of the layout. -/
example : ∃ c', Engine25.run geoKL id Sky130A.tech.read geoCell .CC true 8 (.ok []) ⟨["A", "B"], []⟩ true = .ok c' ∧
    ∃ (cap cov cs : String → String → ℚ) (C off : String → ℚ) (names : List String) (R : List (List Poly))
      (sides : Nat → List (Poly × Side)) (N : Nat), ∀ a b, a ≠ b → |(Rcx25Netlist.parasiticCap c' a b : ℝ) -
        (Engine25.overlapTotal Sky130A.tech.read geoCell 8 names cap a b +
        Engine25.wallTotal R names geoCell.dbu 9 C off sides a b +
        Engine25.fringeTotal R names geoCell.dbu Sky130A.tech.parasitics.sideHalo true cov cs 9 sides a b)| ≤
        1 / 100 * Engine25.fringeTotal R names geoCell.dbu Sky130A.tech.parasitics.sideHalo true cov cs 9 sides a b + N / 10000 := by
  obtain ⟨c', h⟩ := (shipped_runs_partial (Or.inl rfl) Fringe.rowKernel_ok geoSourced geoWithoutMim geoSpaced true
    (.ok [])).1 id ⟨["A", "B"], []⟩ true
  obtain ⟨cap, cov, cs, C, off, names, R, sides, views, N, _, _, _, _, _, _, _, _, _, hc⟩ := shipped_cells (Or.inl rfl) geoKL geoFaithful
    Fringe.rowKernel_ok Fringe.rowKernel_bands id geoCell geoWithoutMim .CC (Or.inl rfl) true 8 (.ok []) _ c' true h (by simp)
    geoNoShorts (by norm_num [geoCell]) (by norm_num [geoCell]) 9
    (by show (9 : ℤ) = ⌊(8.0 : ℚ) / 1⌋ + 1; norm_num)
    (fun names R hs hR i hi => ⟨_, geoVisits hs hR hi⟩) (1 / 100) (by norm_num) (by
      intro r hr
      have h1 := Int.floor_le (r * 1000000)
      have h2 := Int.lt_floor_add_one (r * 1000000)
      have e : ((geoKL.rnd r : ℚ) : ℝ) = (⌊r * 1000000⌋ : ℝ) / 1000000 := by simp [geoKL]
      rw [e, abs_le]
      constructor <;> linarith)
  exact ⟨c', h, cap, cov, cs, C, off, names, R, sides, N, hc⟩

end Verif.Pdk
