import Verif.Engine25.Moves

/-!
# Renaming of nets (C97)
-/

namespace Verif.Engine25

open Summary PexMode TechInfo Fringe
open Overlap (Poly Cell)

/-! ### Specification -/

/-- A renaming of nets: no two nets get the same name, and the substrate and shapes without net stay what they are. -/
structure Renaming where
  name : String ≃ String
  substrate : name "VSUBS" = "VSUBS"
  none : name "" = ""

/-- The same shape, with the new name of its net. -/
def Renaming.poly (σ : Renaming) (p : Poly) : Poly := ⟨σ.name p.net, p.cells⟩

/-- `x'` is the layout `x` with other names of the nets. -/
structure RenamedTo (σ : Renaming) (x x' : Context) : Prop where
  dbu : x'.dbu = x.dbu
  annotated : x'.annotated = x.annotated
  internal : x'.internal = x.internal
  extracted : ∀ g, x'.extracted.get? g = (x.extracted.get? g).map fun rs => rs.map fun r => r.map σ.poly

/-- Merging of polygons does not depend on the names of the nets. -/
def MergesRenamed (kl : KLayout) (σ : Renaming) : Prop :=
  ∀ ps ps', (∀ p, p ∈ ps' ↔ ∃ q ∈ ps, p = σ.poly q) → ∀ p, p ∈ kl.merged ps' ↔ ∃ q ∈ kl.merged ps, p = σ.poly q

/-! ### Proofs -/

variable {σ : Renaming}

theorem Renaming.poly_inj {p q : Poly} (h : σ.poly p = σ.poly q) : p = q := by
  cases p; cases q
  simp only [Renaming.poly, Poly.mk.injEq, EmbeddingLike.apply_eq_iff_eq] at h
  rw [h.1, h.2]

theorem Renaming.counts (σ : Renaming) (layer net : String) : countsAs layer (σ.name net) = σ.name (countsAs layer net) := by
  unfold countsAs
  split
  · exact σ.substrate.symm
  · rfl

theorem Renaming.samePair (σ : Renaming) (p q a b : String) :
    SamePair (σ.name p) (σ.name q) (σ.name a) (σ.name b) ↔ SamePair p q a b := by
  unfold SamePair
  simp only [EmbeddingLike.apply_eq_iff_eq]

/-- The polygons of the layers, renamed. -/
def RenamedLayers (σ : Renaming) (R R' : List (List Poly)) : Prop :=
  ∀ i p, p ∈ R'.getD i [] ↔ ∃ q ∈ R.getD i [], p = σ.poly q

theorem RenamedLayers.mem {R R' : List (List Poly)} (h : RenamedLayers σ R R') (i : Nat) (q : Poly) :
    σ.poly q ∈ R'.getD i [] ↔ q ∈ R.getD i [] := by
  rw [h]
  constructor
  · rintro ⟨q', h1, h2⟩
    rwa [Renaming.poly_inj h2]
  · exact fun h => ⟨q, h, rfl⟩

theorem RenamedLayers.sides {R R' : List (List Poly)} (h : RenamedLayers σ R R') {i : Nat} {L L' : List (Poly × Side)}
    (hL : AllSides (R.getD i []) L) (hL' : AllSides (R'.getD i []) L') :
    L'.Perm (L.map fun ps => (σ.poly ps.1, ps.2)) := by
  have hinj : Function.Injective fun ps : Poly × Side => (σ.poly ps.1, ps.2) := by
    rintro ⟨p, s⟩ ⟨q, r⟩ h
    simp only [Prod.mk.injEq] at h
    rw [Renaming.poly_inj h.1, h.2]
  rw [List.perm_ext_iff_of_nodup hL'.nodup (hL.nodup.map hinj)]
  rintro ⟨p, s⟩
  rw [hL'.mem, List.mem_map, h]
  constructor
  · rintro ⟨⟨q, hq, rfl⟩, hs⟩
    exact ⟨(q, s), (hL.mem _ _).2 ⟨hq, hs⟩, rfl⟩
  · rintro ⟨⟨q, r⟩, hq, he⟩
    simp only [Prod.mk.injEq] at he
    obtain ⟨rfl, rfl⟩ := he
    obtain ⟨h1, h2⟩ := (hL.mem _ _).1 hq
    exact ⟨⟨q, h1, rfl⟩, h2⟩

theorem RenamedLayers.faced {R R' : List (List Poly)} (h : RenamedLayers σ R R') (i : Nat) (p : Poly) (s : Side) (u d : ℤ)
    (n : String) : FacedBy R' i (σ.poly p) s u d (σ.name n) ↔ FacedBy R i p s u d n := by
  constructor
  · rintro ⟨⟨q', h1, h2, h3, h4⟩, h5⟩
    obtain ⟨q, hq, rfl⟩ := (h _ _).1 h1
    refine ⟨⟨q, hq, fun he => h2 (by rw [he]), σ.name.injective h3, h4⟩, fun w w1 w2 r hr hrp hc => ?_⟩
    exact h5 w w1 w2 (σ.poly r) ((h.mem _ _).2 hr) (fun he => hrp (Renaming.poly_inj he)) hc
  · rintro ⟨⟨q, h1, h2, h3, h4⟩, h5⟩
    refine ⟨⟨σ.poly q, (h.mem _ _).2 h1, fun he => h2 (Renaming.poly_inj he), congrArg σ.name h3, h4⟩,
      fun w w1 w2 r' hr' hrp hc => ?_⟩
    obtain ⟨r, hr, rfl⟩ := (h _ _).1 hr'
    exact h5 w w1 w2 r hr (fun he => hrp (by rw [he])) hc

theorem RenamedLayers.free {R R' : List (List Poly)} (h : RenamedLayers σ R R') (i : Nat) (c : Cell) :
    (∀ q ∈ R'.getD i [], c ∉ q.cells) ↔ ∀ q ∈ R.getD i [], c ∉ q.cells := by
  constructor
  · intro h1 q hq hc
    exact h1 _ ((h.mem _ _).2 hq) hc
  · intro h1 q' hq' hc
    obtain ⟨q, hq, rfl⟩ := (h _ _).1 hq'
    exact h1 q hq hc

theorem RenamedLayers.seen {R R' : List (List Poly)} (h : RenamedLayers σ R R') (i : Nat) (s : Side) (u w : ℤ) (j : Nat)
    (n : String) : SeenFrom R' i s u w j (σ.name n) ↔ SeenFrom R i s u w j n := by
  unfold SeenFrom
  simp only [h.free]
  refine and_congr_left fun _ => ?_
  constructor
  · rintro ⟨q', h1, h2, h3⟩
    obtain ⟨q, hq, rfl⟩ := (h _ _).1 h1
    exact ⟨q, hq, σ.name.injective h2, h3⟩
  · rintro ⟨q, h1, h2, h3⟩
    exact ⟨σ.poly q, (h.mem _ _).2 h1, congrArg σ.name h2, h3⟩

theorem RenamedLayers.wall {R R' : List (List Poly)} (h : RenamedLayers σ R R') (names : List String) (dbu : ℚ) (depth : ℤ)
    (C off : String → ℚ) {sides sides' : Nat → List (Poly × Side)} (hs : ∀ i < names.length, AllSides (R.getD i []) (sides i))
    (hs' : ∀ i < names.length, AllSides (R'.getD i []) (sides' i)) (a b : String) :
    wallTotal R' names dbu depth C off sides' (σ.name a) (σ.name b) = wallTotal R names dbu depth C off sides a b := by
  classical
  unfold wallTotal
  refine Finset.sum_congr rfl fun i hi => ?_
  rw [Finset.mem_range] at hi
  rw [((h.sides (hs i hi) (hs' i hi)).map _).sum_eq, List.map_map]
  refine congrArg List.sum (List.map_congr_left fun ps _ => ?_)
  refine Finset.sum_congr rfl fun u _ => Finset.sum_congr rfl fun d _ => ?_
  have e : (∃ n, FacedBy R' i (σ.poly ps.1) ps.2 u d n ∧ SamePair (σ.poly ps.1).net n (σ.name a) (σ.name b)) ↔
      ∃ n, FacedBy R i ps.1 ps.2 u d n ∧ SamePair ps.1.net n a b := by
    constructor
    · rintro ⟨n', h1, h2⟩
      obtain ⟨n, rfl⟩ := σ.name.surjective n'
      exact ⟨n, (h.faced _ _ _ _ _ _).1 h1, (σ.samePair _ _ _ _).1 h2⟩
    · rintro ⟨n, h1, h2⟩
      exact ⟨σ.name n, (h.faced _ _ _ _ _ _).2 h1, (σ.samePair _ _ _ _).2 h2⟩
  exact if_congr e rfl rfl

theorem RenamedLayers.fringe {R R' : List (List Poly)} (h : RenamedLayers σ R R') (names : List String) (dbu halo : ℚ)
    (scale : Bool) (cov cs : String → String → ℚ) (depth : ℤ) {sides sides' : Nat → List (Poly × Side)}
    (hs : ∀ i < names.length, AllSides (R.getD i []) (sides i))
    (hs' : ∀ i < names.length, AllSides (R'.getD i []) (sides' i)) (a b : String) :
    fringeTotal R' names dbu halo scale cov cs depth sides' (σ.name a) (σ.name b) =
      fringeTotal R names dbu halo scale cov cs depth sides a b := by
  classical
  unfold fringeTotal
  refine Finset.sum_congr rfl fun i hi => ?_
  rw [Finset.mem_range] at hi
  rw [((h.sides (hs i hi) (hs' i hi)).map _).sum_eq, List.map_map]
  refine congrArg List.sum (List.map_congr_left fun ps _ => ?_)
  simp only [Function.comp_def]
  unfold seenTotal
  refine Finset.sum_congr rfl fun j _ => Finset.sum_congr rfl fun u _ => Finset.sum_congr rfl fun w _ => ?_
  have e : (∃ n, SeenFrom R' i ps.2 u w j n ∧
      SamePair (countsAs (names.getD i "") (σ.poly ps.1).net) (countsAs (names.getD j "") n) (σ.name a) (σ.name b)) ↔
      ∃ n, SeenFrom R i ps.2 u w j n ∧ SamePair (countsAs (names.getD i "") ps.1.net) (countsAs (names.getD j "") n) a b := by
    constructor
    · rintro ⟨n', h1, h2⟩
      obtain ⟨n, rfl⟩ := σ.name.surjective n'
      refine ⟨n, (h.seen _ _ _ _ _ _).1 h1, ?_⟩
      rw [σ.counts, show (σ.poly ps.1).net = σ.name ps.1.net from rfl, σ.counts, σ.samePair] at h2
      exact h2
    · rintro ⟨n, h1, h2⟩
      refine ⟨σ.name n, (h.seen _ _ _ _ _ _).2 h1, ?_⟩
      rw [σ.counts, show (σ.poly ps.1).net = σ.name ps.1.net from rfl, σ.counts, σ.samePair]
      exact h2
  exact if_congr e rfl rfl

/-! ### The layers of the renamed cell -/

variable {x x' : Context}

theorem RenamedTo.gives (h : RenamedTo σ x x') (t : Tech) (l : StackLayer) (n : String) (rs' : List (List Poly)) :
    Gives t x' l n rs' ↔ ∃ rs, Gives t x l n rs ∧ rs' = rs.map fun r => r.map σ.poly := by
  unfold Gives
  constructor
  · rintro ⟨h1, h2, g, h3, h4⟩
    rw [h.extracted, Option.map_eq_some_iff] at h4
    obtain ⟨rs, h5, h6⟩ := h4
    exact ⟨rs, ⟨h1, h2, g, h3, h5⟩, h6.symm⟩
  · rintro ⟨rs, ⟨h1, h2, g, h3, h4⟩, rfl⟩
    exact ⟨h1, h2, g, h3, by rw [h.extracted, h4]; rfl⟩

theorem RenamedTo.gives_iff (h : RenamedTo σ x x') (t : Tech) (l : StackLayer) (n : String) :
    (∃ rs, Gives t x' l n rs) ↔ ∃ rs, Gives t x l n rs := by
  simp only [h.gives]
  constructor
  · rintro ⟨_, rs, h, _⟩; exact ⟨rs, h⟩
  · rintro ⟨rs, h⟩; exact ⟨_, rs, h, rfl⟩

theorem RenamedTo.isStack (h : RenamedTo σ x x') {t : Tech} {names : List String} (hs : IsStack t x' names) :
    IsStack t x names where
  nodup := hs.nodup
  head := hs.head
  mem n := by rw [hs.mem]; simp only [h.gives_iff]
  order i j a b h1 h2 h3 := by
    rcases hs.order i j a b h1 h2 h3 with h4 | ⟨s₁, l, s₂, e, g, hn⟩
    · exact Or.inl h4
    · refine Or.inr ⟨s₁, l, s₂, e, (h.gives_iff t l a).1 g, fun l' hl' rs hg => ?_⟩
      obtain ⟨rs', hg'⟩ := (h.gives_iff t l' b).2 ⟨rs, hg⟩
      exact hn l' hl' rs' hg'

theorem RenamedTo.inSubstrate (h : RenamedTo σ x x') (halo : ℤ) (c : Cell) : InSubstrate x' halo c ↔ InSubstrate x halo c := by
  unfold InSubstrate
  rw [h.annotated, h.internal]

theorem RenamedTo.polyOf (h : RenamedTo σ x x') (t : Tech) (halo : ℤ) (n : String) (p : Poly) :
    PolyOf t x' halo n p ↔ ∃ q, PolyOf t x halo n q ∧ p = σ.poly q := by
  constructor
  · rintro (⟨h1, h2, h3⟩ | ⟨l, hl, rs', hg, r', hr', hp⟩)
    · refine ⟨p, Or.inl ⟨h1, h2, fun c => by rw [h3, h.inSubstrate]⟩, ?_⟩
      cases p with
      | mk net cells =>
      obtain rfl : net = "" := h2
      simp only [Renaming.poly, σ.none]
    · obtain ⟨rs, hg', rfl⟩ := (h.gives _ _ _ _).1 hg
      obtain ⟨r, hr, rfl⟩ := List.mem_map.1 hr'
      obtain ⟨q, hq, rfl⟩ := List.mem_map.1 hp
      exact ⟨q, Or.inr ⟨l, hl, rs, hg', r, hr, hq⟩, rfl⟩
  · rintro ⟨q, ⟨h1, h2, h3⟩ | ⟨l, hl, rs, hg, r, hr, hq⟩, rfl⟩
    · refine Or.inl ⟨h1, ?_, fun c => ?_⟩
      · show σ.name q.net = ""
        rw [h2, σ.none]
      · rw [h.inSubstrate, ← h3]; rfl
    · exact Or.inr ⟨l, hl, _, (h.gives _ _ _ _).2 ⟨rs, hg, rfl⟩, _, List.mem_map.2 ⟨r, hr, rfl⟩, List.mem_map.2 ⟨q, hq, rfl⟩⟩

theorem RenamedTo.on (h : RenamedTo σ x x') (t : Tech) (halo : ℤ) (n net : String) (c : Cell) :
    On t x' halo n (σ.name net) c ↔ On t x halo n net c := by
  unfold On
  rw [h.inSubstrate]
  have e : σ.name net = "VSUBS" ↔ net = "VSUBS" := by
    constructor
    · intro he; rw [← σ.substrate] at he; exact σ.name.injective he
    · rintro rfl; exact σ.substrate
  rw [e]
  refine or_congr Iff.rfl (and_congr Iff.rfl ?_)
  constructor
  · rintro ⟨p, hp, h1, h2⟩
    obtain ⟨q, hq, rfl⟩ := (h.polyOf _ _ _ _).1 hp
    exact ⟨q, hq, σ.name.injective h1, h2⟩
  · rintro ⟨q, hq, h1, h2⟩
    exact ⟨σ.poly q, (h.polyOf _ _ _ _).2 ⟨q, hq, rfl⟩, congrArg σ.name h1, h2⟩

theorem RenamedTo.noShorts (h : RenamedTo σ x x') {t : Tech} {halo : ℤ} (hs : NoShorts t x halo) : NoShorts t x' halo := by
  intro n p q hp hq c h1 h2
  obtain ⟨p', hp', rfl⟩ := (h.polyOf _ _ _ _).1 hp
  obtain ⟨q', hq', rfl⟩ := (h.polyOf _ _ _ _).1 hq
  exact congrArg σ.name (hs n p' q' hp' hq' _ h1 h2)

theorem RenamedTo.overlap (h : RenamedTo σ x x') (t : Tech) (halo : ℤ) (names : List String) (cap : String → String → ℚ)
    (a b : String) :
    overlapTotal t x' halo names cap (σ.name a) (σ.name b) = overlapTotal t x halo names cap a b := by
  have key : ∀ i j a b c, Faces t x' halo names i j (σ.name a) (σ.name b) c ↔ Faces t x halo names i j a b c := by
    intro i j a b c
    unfold Faces
    rw [h.on, h.on]
    refine and_congr_right fun _ => and_congr_right fun _ => forall₃_congr fun k _ _ => ?_
    constructor
    · intro hn n hon
      exact σ.name.injective (hn _ ((h.on _ _ _ _ _).2 hon))
    · intro hn n' hon
      obtain ⟨n, rfl⟩ := σ.name.surjective n'
      exact congrArg σ.name (hn n ((h.on _ _ _ _ _).1 hon))
  unfold overlapTotal
  simp only [key, h.dbu]

theorem RenamedTo.layers (h : RenamedTo σ x x') {kl : KLayout} (hm : MergesRenamed kl σ) {t : Tech} {halo : ℤ}
    {names : List String} {R R' : List (List Poly)} (hR : Regions kl t x halo names R) (hR' : Regions kl t x' halo names R') :
    RenamedLayers σ R R' := by
  intro i p
  by_cases hi : i < names.length
  · obtain ⟨ps, e, hps⟩ := hR.2 i hi
    obtain ⟨ps', e', hps'⟩ := hR'.2 i hi
    rw [List.getD_eq_getElem?_getD, List.getD_eq_getElem?_getD, e, e']
    simp only [Option.getD_some]
    refine hm ps ps' (fun q => ?_) p
    rw [hps', h.polyOf]
    simp only [hps]
  · have e : R.getD i [] = [] := by
      rw [List.getD_eq_getElem?_getD, List.getElem?_eq_none (by rw [hR.1]; omega)]; rfl
    have e' : R'.getD i [] = [] := by
      rw [List.getD_eq_getElem?_getD, List.getElem?_eq_none (by rw [hR'.1]; omega)]; rfl
    rw [e, e']
    simp

/-! ### Theorem -/

/-- **C97.** A layout and the same layout with other names of the nets have the same capacitances between corresponding nets, up
to the rounding of the fringe capacitances and 0.0001 fF for every rectangle that is seen. -/
theorem renamed_netlist (kl : KLayout) (hkl : Faithful kl) (hk : Fringe.KernelOK kl.kernel)
    (hkb : Fringe.KernelBands kl.kernel) (σ : Renaming) (hm : MergesRenamed kl σ) (cf : String → String) (t : Tech)
    {x x' : Context} (hren : RenamedTo σ x x') (mode : Mode)
    (hmode : mode = .CC ∨ mode = .RC) (scale : Bool) (halo : ℤ) (res res' : Except String (List RNetwork))
    (c d c' d' : Netlist.Circuit) (bb : Bool) (hrun : run kl cf t x mode scale halo res c bb = .ok c')
    (hrun' : run kl cf t x' mode scale halo res' d bb = .ok d')
    (hno : ∀ d ∈ c.devices, d.clsName ≠ "C") (hno' : ∀ e ∈ d.devices, e.clsName ≠ "C")
    (hshort : NoShorts t x halo) (hsub : ∀ l ∈ t.stack, IsMetal l → ¬ CanonicalIs t l.name "VSUBS")
    (hnn : Overlap.NonNeg t.parasitics) (cap : String → String → ℚ)
    (hspec : ∀ names, IsStack t x names → ∀ i j, i < j → j < names.length →
      ∃ s, TechInfo.OverlapIs t.parasitics (names.getD j "") (names.getD i "") s ∧
        s.cap = cap (names.getD j "") (names.getD i ""))
    (hdbu : 0 < x.dbu) (hdbu' : x.dbu ≤ 10) (depth : ℤ) (hdepth : depth = ⌊t.parasitics.sideHalo / x.dbu⌋ + 1)
    (hvis : ∀ names R, IsStack t x names → Regions kl t x halo names R → ∀ i < names.length,
      ∃ sides, Visits R i depth sides (kl.edges R i))
    (hvis' : ∀ names R, IsStack t x' names → Regions kl t x' halo names R → ∀ i < names.length,
      ∃ sides, Visits R i depth sides (kl.edges R i))
    (C off : String → ℚ) (hC : ∀ layer s, IsLast (fun s => s.layer = layer) t.parasitics.sidewalls s →
      s.cap = C layer ∧ s.offset = off layer)
    (cov cs : String → String → ℚ)
    (hcov : ∀ inside outside o, Fringe.PairSpec t.parasitics inside outside o → o.cap = cov inside outside)
    (hcs : ∀ inside outside s, SideOverlapIs t.parasitics inside outside s → s.cap = cs inside outside)
    (hcov0 : ∀ inside outside, 0 ≤ cov inside outside) (hcs0 : ∀ inside outside, 0 ≤ cs inside outside)
    (hhalo : 0 ≤ t.parasitics.sideHalo) (ε : ℝ) (hε : 0 ≤ ε)
    (hrnd : ∀ r, 1 / 10000 < r → |(kl.rnd r : ℝ) - r| ≤ ε * r) :
    ∃ (names : List String) (R R' : List (List Poly)) (sides sides' : Nat → List (Poly × Side))
      (views views' : Nat → Poly × Side → List View) (N : Nat),
      Picture kl t x halo depth names R sides views ∧ Picture kl t x' halo depth names R' sides' views' ∧
      N = ∑ i ∈ Finset.range names.length, (((sides i).map fun ps => (views i ps).length).sum +
        ((sides' i).map fun ps => (views' i ps).length).sum) ∧
      ∀ a b, a ≠ b →
        |(Rcx25Netlist.parasiticCap c' a b : ℝ) - Rcx25Netlist.parasiticCap d' (σ.name a) (σ.name b)| ≤
          2 * ε * fringeTotal R names x.dbu t.parasitics.sideHalo scale cov cs depth sides a b + N / 10000 := by
  obtain ⟨names, R, sides, views, N, h1, h2, h3, h4, h5, h6⟩ := netlist_cells kl hkl hk hkb cf t x mode hmode scale halo res c c'
    bb hrun hno hshort hsub hnn cap hspec hdbu hdbu' depth hdepth hvis C off hC cov cs hcov hcs hcov0 hcs0 hhalo ε hε hrnd
  obtain ⟨names', R', sides', views', N', k1, k2, k3, k4, k5, k6⟩ := netlist_cells kl hkl hk hkb cf t x' mode hmode scale halo
    res' d d' bb hrun' hno' (hren.noShorts hshort) hsub hnn cap (fun names hs => hspec names (hren.isStack hs))
    (by rw [hren.dbu]; exact hdbu) (by rw [hren.dbu]; exact hdbu') depth (by rw [hren.dbu]; exact hdepth) hvis' C off hC cov cs
    hcov hcs hcov0 hcs0 hhalo ε hε hrnd
  obtain rfl := (hren.isStack k1).unique h1
  have hl := hren.layers hm h2 k2
  refine ⟨names', R, R', sides, sides', views, views', _, ⟨h1, h2, h3, h4⟩, ⟨k1, k2, k3, k4⟩, rfl, fun a b hab => ?_⟩
  have e1 := abs_le.1 (h6 a b hab)
  have e2 := abs_le.1 (k6 (σ.name a) (σ.name b) fun he => hab (σ.name.injective he))
  rw [hren.dbu, hren.overlap, hl.wall names' _ depth C off h3 k3, hl.fringe names' _ _ scale cov cs depth h3 k3] at e2
  have e3 : ((∑ i ∈ Finset.range names'.length, (((sides i).map fun ps => (views i ps).length).sum +
        ((sides' i).map fun ps => (views' i ps).length).sum) : ℕ) : ℝ) = N + N' := by
    rw [Finset.sum_add_distrib, ← h5, ← k5]; push_cast; rfl
  rw [e3, abs_le]
  constructor <;> linarith [e1.1, e1.2, e2.1, e2.2]

end Verif.Engine25
