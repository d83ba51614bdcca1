import Verif.Engine25.Look

/-!
# Layers of one net that lie above each other (C120)
-/

namespace Verif.Engine25

open TechInfo (Tech Parasitics IsLast SideOverlapIs OverlapIs)
open Overlap (Cell Poly)
open Summary (RNetwork SamePair)
open PexMode (Mode)

/-! ### Specification -/

/-- Over cell `c` the layers number `i` and `j` count as facing each other for the nets `a` and `b`, whichever of them is
below. -/
def Counted (t : Tech) (x : Context) (halo : ℤ) (names : List String) (a b : String) (c : Cell) (i j : Nat) : Prop :=
  i < j ∧ (Faces t x halo names i j a b c ∨ Faces t x halo names i j b a c)

/-! ### Proofs -/

theorem on_unique {t : Tech} {x : Context} {halo : ℤ} (hs : NoShorts t x halo) {n a b : String} {c : Cell}
    (h1 : On t x halo n a c) (h2 : On t x halo n b c) : a = b := by
  rcases h1 with ⟨e1, rfl, _⟩ | ⟨e1, p, hp, rfl, hc⟩ <;> rcases h2 with ⟨e2, rfl, _⟩ | ⟨e2, q, hq, rfl, hd⟩
  · rfl
  · exact absurd e1 e2
  · exact absurd e2 e1
  · exact hs n p q hp hq c hc hd

/-- **C120 (except for stacked layers of the lower net).** Of two pairs of layers that count over the same place for the
same two nets, one lies completely above the other, or they have the upper layer in common and the net of the lower layers
is alone between the lowest of them and the upper layer. -/
theorem counted_once_partial (t : Tech) (x : Context) (halo : ℤ) (hs : NoShorts t x halo) (names : List String)
    (a b : String) (hab : a ≠ b) (c : Cell) (i j i' j' : Nat) (h : Counted t x halo names a b c i j)
    (h' : Counted t x halo names a b c i' j') :
    j ≤ i' ∨ j' ≤ i ∨ (j = j' ∧ ∃ n, On t x halo (names.getD i "") n c ∧ On t x halo (names.getD i' "") n c ∧
      ∀ k, min i i' < k → k < j → ∀ m, On t x halo (names.getD k "") m c → m = n) := by
  -- the claim for the pair that begins lower
  have key : ∀ i j i' j', Counted t x halo names a b c i j → Counted t x halo names a b c i' j' →
      i ≤ i' → j ≤ i' ∨ (j = j' ∧ ∃ n, On t x halo (names.getD i "") n c ∧ On t x halo (names.getD i' "") n c ∧
      ∀ k, i < k → k < j → ∀ m, On t x halo (names.getD k "") m c → m = n) := by
    intro i j i' j' h h' hle
    -- bottom and top net of both pairs
    obtain ⟨hij, p, q, hpq, hp, hq, hbet⟩ : i < j ∧ ∃ p q, p ≠ q ∧ On t x halo (names.getD i "") p c ∧
        On t x halo (names.getD j "") q c ∧ ∀ k, i < k → k < j → ∀ n, On t x halo (names.getD k "") n c → n = p := by
      obtain ⟨h0, ⟨h1, h2, h3⟩ | ⟨h1, h2, h3⟩⟩ := h
      · exact ⟨h0, b, a, hab.symm, h1, h2, h3⟩
      · exact ⟨h0, a, b, hab, h1, h2, h3⟩
    obtain ⟨hij', p', q', hpq', hp', hq', hbet'⟩ : i' < j' ∧ ∃ p q, p ≠ q ∧ On t x halo (names.getD i' "") p c ∧
        On t x halo (names.getD j' "") q c ∧ ∀ k, i' < k → k < j' → ∀ n, On t x halo (names.getD k "") n c → n = p := by
      obtain ⟨h0, ⟨h1, h2, h3⟩ | ⟨h1, h2, h3⟩⟩ := h'
      · exact ⟨h0, b, a, hab.symm, h1, h2, h3⟩
      · exact ⟨h0, a, b, hab, h1, h2, h3⟩
    by_cases hji : j ≤ i'
    · exact Or.inl hji
    have hpp : p' = p := by
      rcases Nat.eq_or_lt_of_le hle with rfl | hlt
      · exact on_unique hs hp' hp
      · exact hbet i' hlt (by omega) p' hp'
    subst hpp
    have hj : j = j' := by
      rcases Nat.lt_trichotomy j j' with hlt | heq | hgt
      · exact absurd (hbet' j (by omega) hlt q hq).symm hpq
      · exact heq
      · exact absurd (hbet j' (by omega) hgt q' hq').symm hpq'
    exact Or.inr ⟨hj, p', hp, hp', hbet⟩
  rcases Nat.le_total i i' with hle | hle
  · rcases key i j i' j' h h' hle with h1 | ⟨h1, n, h2, h3, h4⟩
    · exact Or.inl h1
    · exact Or.inr (Or.inr ⟨h1, n, h2, h3, by rw [Nat.min_eq_left hle]; exact h4⟩)
  · rcases key i' j' i j h' h hle with h1 | ⟨h1, n, h2, h3, h4⟩
    · exact Or.inr (Or.inl h1)
    · refine Or.inr (Or.inr ⟨h1.symm, n, h3, h2, ?_⟩)
      rw [Nat.min_eq_right hle, ← h1]
      exact h4

/-- **C120, the exception.** When net `b` on layer `k` faces net `a` above it, a lower layer counts as well exactly if it
has net `b` there and nothing but `b` lies between the two: the layer of the same net does not shield it. -/
theorem stack_not_shielded (t : Tech) (x : Context) (halo : ℤ) (hs : NoShorts t x halo) (names : List String) (a b : String) (c : Cell)
    (i k j : Nat) (hik : i < k) (hkj : k < j) (h : Faces t x halo names k j a b c) :
    Faces t x halo names i j a b c ↔ On t x halo (names.getD i "") b c ∧
      ∀ l, i < l → l < k → ∀ n, On t x halo (names.getD l "") n c → n = b := by
  constructor
  · rintro ⟨h1, _, h3⟩
    exact ⟨h1, fun l h4 h5 => h3 l h4 (by omega)⟩
  · rintro ⟨h1, h2⟩
    refine ⟨h1, h.2.1, fun l h4 h5 n hn => ?_⟩
    rcases Nat.lt_trichotomy l k with hl | rfl | hl
    · exact h2 l h4 hl n hn
    · exact on_unique hs hn h.1
    · exact h.2.2 l hl h5 n hn

theorem faces_finite {kl : KLayout} {t : Tech} {x : Context} {halo : ℤ} {names : List String} {R : List (List Poly)}
    (hs : IsStack t x names) (hR : Regions kl t x halo names R) {i j : Nat} (hij : i < j) (hj : j < names.length)
    (a b : String) : {c | Faces t x halo names i j a b c}.Finite := by
  obtain ⟨ps, _, hps⟩ := hR.2 j hj
  refine Set.Finite.subset (s := {c | ∃ p ∈ ps, c ∈ p.cells}) ?_ ?_
  · refine Set.Finite.subset (Finset.finite_toSet (ps.foldr (fun p s => p.cells ∪ s) ∅)) ?_
    rintro c hc
    exact (mem_foldr_union _ _).2 hc
  · rintro c ⟨_, h, _⟩
    rcases h with ⟨h, _⟩ | ⟨_, p, hp, _, hc⟩
    · exact absurd h (stack_nonsub hs (by omega) hj)
    · exact ⟨p, (hps p).2 hp, hc⟩

theorem wallTotal_nonneg {R : List (List Poly)} {names : List String} {dbu : ℚ} {depth : ℤ} {C off : String → ℚ}
    {sides : Nat → List (Poly × Side)} (hdbu : 0 ≤ dbu) (hC : ∀ n, 0 ≤ C n)
    (hgap : ∀ i < names.length, ∀ ps ∈ sides i, ∀ u d n, 1 ≤ d → d < depth → FacedBy R i ps.1 ps.2 u d n →
      0 ≤ d * dbu + off (names.getD i "")) (a b : String) :
    0 ≤ wallTotal R names dbu depth C off sides a b := by
  unfold wallTotal
  refine Finset.sum_nonneg fun i hi => List.sum_nonneg ?_
  intro r hr
  obtain ⟨ps, hps, rfl⟩ := List.mem_map.1 hr
  refine Finset.sum_nonneg fun u _ => Finset.sum_nonneg fun d hd => ?_
  split
  · rename_i hf
    obtain ⟨n, hf, _⟩ := hf
    obtain ⟨h0, h1⟩ := Finset.mem_Ico.1 hd
    have h2 := hC (names.getD i "")
    have h3 := hgap i (Finset.mem_range.1 hi) ps hps u d n h0 h1 hf
    positivity
  · exact le_rfl

/-- **C120 at the netlist.** Where a net has two layers above each other and nothing but itself between the lower one and
another net above them, the area counts for both layers: the capacitance in the netlist is at least the area times the sum
of both capacitances per area, although the lower layer is completely hidden by the upper one. -/
theorem stack_counted_twice (kl : KLayout) (hkl : Faithful kl) (hk : Fringe.KernelOK kl.kernel)
    (hkb : Fringe.KernelBands kl.kernel) (cf : String → String) (t : Tech) (x : Context) (mode : Mode)
    (hmode : mode = .CC ∨ mode = .RC) (scale : Bool) (halo : ℤ) (res : Except String (List RNetwork))
    (c c' : Netlist.Circuit) (bb : Bool) (hrun : run kl cf t x mode scale halo res c bb = .ok c')
    (hno : ∀ d ∈ c.devices, d.clsName ≠ "C")
    (hshort : NoShorts t x halo) (hsub : ∀ l ∈ t.stack, IsMetal l → ¬ CanonicalIs t l.name "VSUBS")
    (hnn : Overlap.NonNeg t.parasitics) (cap : String → String → ℚ)
    (hspec : ∀ names, IsStack t x names → ∀ i j, i < j → j < names.length →
      ∃ s, TechInfo.OverlapIs t.parasitics (names.getD j "") (names.getD i "") s ∧
        s.cap = cap (names.getD j "") (names.getD i ""))
    (hdbu : 0 < x.dbu) (hdbu' : x.dbu ≤ 10)
    (hvis : ∀ names R, IsStack t x names → Regions kl t x halo names R → ∀ i < names.length,
      ∃ sides, Visits R i (⌊t.parasitics.sideHalo / x.dbu⌋ + 1) sides (kl.edges R i))
    (C off : String → ℚ) (hC : ∀ layer s, IsLast (fun s => s.layer = layer) t.parasitics.sidewalls s →
      s.cap = C layer ∧ s.offset = off layer) (hC0 : ∀ layer, 0 ≤ C layer)
    (hgap : ∀ names R, IsStack t x names → Regions kl t x halo names R → ∀ i < names.length, ∀ p ∈ R.getD i [],
      ∀ (s : Side) (u d : ℤ) (n : String), 1 ≤ d → d * x.dbu ≤ t.parasitics.sideHalo → FacedBy R i p s u d n → 0 ≤ d * x.dbu + off (names.getD i ""))
    (cov cs : String → String → ℚ)
    (hcov : ∀ inside outside o, Fringe.PairSpec t.parasitics inside outside o → o.cap = cov inside outside)
    (hcs : ∀ inside outside s, SideOverlapIs t.parasitics inside outside s → s.cap = cs inside outside)
    (hrnd : ∀ r, 0 ≤ r → 0 ≤ kl.rnd r)
    (names : List String) (hnames : IsStack t x names) (i k j : Nat) (hik : i < k) (hkj : k < j) (hj : j < names.length)
    (a b : String) (hab : a ≠ b) (A : Finset Cell)
    (hA : ∀ c ∈ A, On t x halo (names.getD i "") b c ∧ On t x halo (names.getD k "") b c ∧
      On t x halo (names.getD j "") a c ∧ ∀ l, i < l → l < j → ∀ n, On t x halo (names.getD l "") n c → n = b) :
    A.card * x.dbu ^ 2 * (cap (names.getD j "") (names.getD k "") + cap (names.getD j "") (names.getD i "")) / 1000 ≤
      Rcx25Netlist.parasiticCap c' a b := by
  classical
  obtain ⟨names', R, sides, views, h1, h2, h3, h4, h5⟩ := netlist_geometry kl hkl hk hkb cf t x mode hmode scale halo res
    c c' bb hrun hno hshort hsub hnn cap hspec hdbu hdbu' _ rfl hvis C off hC cov cs hcov hcs
  obtain rfl := hnames.unique h1
  rw [h5 a b hab]
  have w0 := wallTotal_nonneg (R := R) (names := names) (depth := ⌊t.parasitics.sideHalo / x.dbu⌋ + 1) (sides := sides)
    hdbu.le hC0 (fun i hi ps hps u d n hd1 hd2 hf => hgap names R hnames h2 i hi ps.1
      (((h3 i hi).mem ps.1 ps.2).1 hps).1 ps.2 u d n hd1 (by
        rw [← le_div_iff₀ hdbu]
        exact_mod_cast Int.le_floor.1 (by omega : d ≤ ⌊t.parasitics.sideHalo / x.dbu⌋)) hf) a b
  have v0 : 0 ≤ ∑ i ∈ Finset.range names.length, ((sides i).map fun ps =>
      viewTotal names x.dbu t.parasitics.sideHalo scale cov cs kl.rnd i ps.1.net a b (views i ps)).sum := by
    refine Finset.sum_nonneg fun i _ => List.sum_nonneg ?_
    intro r hr
    obtain ⟨ps, _, rfl⟩ := List.mem_map.1 hr
    unfold viewTotal
    refine List.sum_nonneg ?_
    intro r hr
    obtain ⟨v, _, rfl⟩ := List.mem_map.1 hr
    split
    · rename_i hlt
      exact hrnd _ (le_trans (by norm_num) hlt.2.le)
    · exact le_rfl
  have hcap : ∀ i j, i < j → j < names.length → 0 ≤ cap (names.getD j "") (names.getD i "") := by
    intro i j hij hj
    obtain ⟨s, hs, e⟩ := hspec names hnames i j hij hj
    rw [← e]
    exact Overlap.spec_nonneg hnn hs
  -- the two terms of the overlap capacitance
  have key : A.card * x.dbu ^ 2 * (cap (names.getD j "") (names.getD k "") + cap (names.getD j "") (names.getD i "")) / 1000 ≤
      overlapTotal t x halo names cap a b := by
    have hterm : ∀ i j, i < j → j < names.length → (∀ c ∈ A, Faces t x halo names i j a b c) →
        A.card * x.dbu ^ 2 * cap (names.getD j "") (names.getD i "") / 1000 ≤
        ((Set.ncard {c | Faces t x halo names i j a b c} : ℚ) + Set.ncard {c | Faces t x halo names i j b a c}) * x.dbu ^ 2 *
          cap (names.getD j "") (names.getD i "") / 1000 := by
      intro i j hij hj hAll
      have hc : (A.card : ℚ) ≤ Set.ncard {c | Faces t x halo names i j a b c} := by
        rw [← Set.ncard_coe_finset]
        exact_mod_cast Set.ncard_le_ncard (fun c hc => hAll c hc) (faces_finite hnames h2 hij hj a b)
      have h0 := hcap i j hij hj
      have h0' : (0 : ℚ) ≤ Set.ncard {c | Faces t x halo names i j b a c} := by positivity
      have : (A.card : ℚ) ≤ Set.ncard {c | Faces t x halo names i j a b c} + Set.ncard {c | Faces t x halo names i j b a c} := by
        linarith
      gcongr
    have t1 := hterm i j (by omega) hj fun c hc => ⟨(hA c hc).1, (hA c hc).2.2.1, (hA c hc).2.2.2⟩
    have t2 := hterm k j hkj hj fun c hc => ⟨(hA c hc).2.1, (hA c hc).2.2.1, fun l h6 h7 => (hA c hc).2.2.2 l (by omega) h7⟩
    have hnonneg : ∀ i j, i < j → j < names.length →
        0 ≤ ((Set.ncard {c | Faces t x halo names i j a b c} : ℚ) + Set.ncard {c | Faces t x halo names i j b a c}) *
          x.dbu ^ 2 * cap (names.getD j "") (names.getD i "") / 1000 := by
      intro i j hij hj
      have h0 := hcap i j hij hj
      positivity
    have hone : ∀ i, i < j → ((Set.ncard {c | Faces t x halo names i j a b c} : ℚ) +
        Set.ncard {c | Faces t x halo names i j b a c}) * x.dbu ^ 2 * cap (names.getD j "") (names.getD i "") / 1000 ≤
        ∑ j ∈ (Finset.range names.length).filter (i < ·), ((Set.ncard {c | Faces t x halo names i j a b c} : ℚ) +
        Set.ncard {c | Faces t x halo names i j b a c}) * x.dbu ^ 2 * cap (names.getD j "") (names.getD i "") / 1000 := by
      intro i hij
      refine Finset.single_le_sum (f := fun j => ((Set.ncard {c | Faces t x halo names i j a b c} : ℚ) +
        Set.ncard {c | Faces t x halo names i j b a c}) * x.dbu ^ 2 * cap (names.getD j "") (names.getD i "") / 1000)
        (fun j' hj' => ?_) (Finset.mem_filter.2 ⟨Finset.mem_range.2 hj, hij⟩)
      obtain ⟨e1, e2⟩ := Finset.mem_filter.1 hj'
      exact hnonneg i j' e2 (Finset.mem_range.1 e1)
    have hpair := Finset.sum_le_sum_of_subset_of_nonneg (f := fun i => ∑ j ∈ (Finset.range names.length).filter (i < ·),
        ((Set.ncard {c | Faces t x halo names i j a b c} : ℚ) + Set.ncard {c | Faces t x halo names i j b a c}) *
          x.dbu ^ 2 * cap (names.getD j "") (names.getD i "") / 1000) (s := {i, k}) (t := Finset.range names.length)
        (by
          intro l hl
          simp only [Finset.mem_insert, Finset.mem_singleton] at hl
          rw [Finset.mem_range]
          omega)
        (fun l _ _ => Finset.sum_nonneg fun j' hj' => by
          obtain ⟨e1, e2⟩ := Finset.mem_filter.1 hj'
          exact hnonneg l j' e2 (Finset.mem_range.1 e1))
    rw [Finset.sum_pair (by omega)] at hpair
    have o1 := hone i (by omega)
    have o2 := hone k hkj
    unfold overlapTotal
    refine le_trans ?_ hpair
    have e : (A.card : ℚ) * x.dbu ^ 2 * (cap (names.getD j "") (names.getD k "") + cap (names.getD j "") (names.getD i "")) / 1000 =
        A.card * x.dbu ^ 2 * cap (names.getD j "") (names.getD i "") / 1000 +
        A.card * x.dbu ^ 2 * cap (names.getD j "") (names.getD k "") / 1000 := by ring
    rw [e]
    linarith
  linarith

/-! ### An example: two plates of net `B` above each other, below a plate of net `A` -/

/-- Three metals. -/
def stTech : Tech where
  layers := [{ name := "m1", drw := (1, 0) }, { name := "m2", drw := (2, 0) }, { name := "m3", drw := (3, 0) }]
  computed := [{ info := { name := "m1_con", drw := (1, 0) }, original := "m1" },
    { info := { name := "m2_con", drw := (2, 0) }, original := "m2" },
    { info := { name := "m3_con", drw := (3, 0) }, original := "m3" }]
  stack := [⟨"m1_con", .metal none⟩, ⟨"m2_con", .metal none⟩, ⟨"m3_con", .metal none⟩]
  parasitics := { substrates := [⟨"m1", 10, 1⟩, ⟨"m2", 5, 1⟩, ⟨"m3", 3, 1⟩],
                  overlaps := [⟨"m2", "m1", 50⟩, ⟨"m3", "m2", 70⟩, ⟨"m3", "m1", 20⟩], sideHalo := 1 }

noncomputable def stPlate (net : String) : Poly := ⟨net, (Box.mk 0 0 2 2).cells⟩

noncomputable def stBottom : Poly := ⟨"", (Box.mk (-1) (-1) 3 3).cells⟩

noncomputable def stCell : Context where
  cellName := "TOP"
  dbu := 1
  annotated := ⟨0, 0, 2, 2⟩
  internal := ⟨0, 0, 2, 2⟩
  extracted := [((1, 0), [[stPlate "B"]]), ((2, 0), [[stPlate "B"]]), ((3, 0), [[stPlate "A"]])]

/-- A KLayout that sees nothing in front of the edges. -/
def stKL : KLayout where
  merged := unite
  nbh := fun R _ _ => R.zipIdx.map fun e => (e.2, e.1)
  edges := fun R i => (R.getD i []).flatMap fun p => List.replicate 4 (p.net, [])
  kernel := Fringe.rowKernel
  rnd := fun _ => 0

theorem stFaithful : Faithful stKL := ⟨exFaithful.cover, exFaithful.disjoint, exFaithful.sound, exFaithful.complete⟩

noncomputable def stLayers : Dict String (List Poly) :=
  [("VSUBS", [stBottom]), ("m1", [stPlate "B"]), ("m2", [stPlate "B"]), ("m3", [stPlate "A"])]

theorem stLayers_ok : layerRegions stTech stCell 1 = .ok stLayers := rfl

/-- The capacitance in the netlist: 4 µm² with 70 aF/µm² for the upper plate of `B` and once more 4 µm² with 20 aF/µm² for
the lower plate of `B`, which it hides. -/
theorem stNetlist : (run stKL id stTech stCell .CC true 1 (.ok []) ⟨["A", "B"], []⟩ true).toOption.map (fun c' =>
    Rcx25Netlist.parasiticCap c' "A" "B") = some (4 * (70 + 20) / 1000) := by decide +kernel

theorem unite_one {ps : List Poly} {p : Poly} (hne : ps ≠ []) (h : ∀ q ∈ ps, q = p) : unite ps = [p] := by
  obtain ⟨k, hk⟩ : ∃ k, ps = List.replicate (k + 1) p := by
    refine ⟨ps.length - 1, List.eq_replicate_iff.2 ⟨?_, h⟩⟩
    have := List.length_pos_of_ne_nil hne
    omega
  subst hk
  have hf : ∀ (k : Nat) (n : String), firsts (List.replicate (k + 1) n) = [n] := by
    intro k n
    induction k with
    | zero => rfl
    | succ k ih => rw [List.replicate_succ', firsts_snoc, ih]; simp
  unfold unite
  rw [List.map_replicate, hf]
  cases p with
  | mk net cells =>
  simp only [List.map_cons, List.map_nil, List.cons.injEq, Poly.mk.injEq, true_and, and_true]
  ext c
  rw [mem_foldr_union]
  constructor
  · rintro ⟨q, hq, hc⟩
    rw [h q (List.mem_filter.1 hq).1] at hc
    exact hc
  · intro hc
    exact ⟨_, List.mem_filter.2 ⟨List.mem_replicate.2 ⟨by omega, rfl⟩, by simp⟩, hc⟩

theorem stRegions {names : List String} {R : List (List Poly)} (hs : IsStack stTech stCell names)
    (hR : Regions stKL stTech stCell 1 names R) : names = ["VSUBS", "m1", "m2", "m3"] ∧ R = stLayers.values := by
  obtain ⟨h1, h2⟩ := layers_exact _ _ _ _ stLayers_ok
  obtain rfl := hs.unique h1
  refine ⟨rfl, List.ext_getElem? fun i => ?_⟩
  by_cases hi : i < stLayers.keys.length
  · obtain ⟨ps, hps, hmem⟩ := hR.2 i hi
    obtain ⟨qs, hq1, hq2⟩ := keys_get h1.nodup hi
    rw [hps, hq1]
    have hone : ∃ p, qs = [p] := by
      have : ∀ l ∈ stLayers.values, ∃ p, l = [p] := by
        intro l hl
        simp only [stLayers, Dict.values, List.map_cons, List.map_nil, List.mem_cons, List.not_mem_nil, or_false] at hl
        rcases hl with rfl | rfl | rfl | rfl <;> exact ⟨_, rfl⟩
      exact this _ (List.mem_of_getElem? hq1)
    obtain ⟨p, rfl⟩ := hone
    have hall : ∀ q, q ∈ ps ↔ q = p := fun q => ((hmem q).trans (h2 _ _ hq2 q).symm).trans List.mem_singleton
    rw [show stKL.merged ps = unite ps from rfl, unite_one (List.ne_nil_of_mem ((hall p).2 rfl)) fun q hq => (hall q).1 hq]
  · have hlen : stLayers.keys.length = stLayers.values.length := rfl
    rw [List.getElem?_eq_none (by rw [hR.1]; omega), List.getElem?_eq_none (by omega)]

theorem stPoly {n : String} {p : Poly} (h : PolyOf stTech stCell 1 n p) :
    (n = "VSUBS" ∧ p = stBottom) ∨ (n = "m1" ∧ p = stPlate "B") ∨ (n = "m2" ∧ p = stPlate "B") ∨
      (n = "m3" ∧ p = stPlate "A") := by
  obtain ⟨hs, hp⟩ := layers_exact _ _ _ _ stLayers_ok
  have hn : n ∈ stLayers.keys := by
    rw [hs.mem]
    rcases h with ⟨h, _⟩ | ⟨l, hl, rs, hg, _⟩
    · exact Or.inl h
    · exact Or.inr ⟨l, hl, rs, hg⟩
  simp only [stLayers, Dict.keys, List.map_cons, List.map_nil, List.mem_cons, List.not_mem_nil, or_false] at hn
  rcases hn with rfl | rfl | rfl | rfl
  · exact Or.inl ⟨rfl, List.mem_singleton.1 ((hp _ _ rfl p).2 h)⟩
  · exact Or.inr (Or.inl ⟨rfl, List.mem_singleton.1 ((hp _ _ rfl p).2 h)⟩)
  · exact Or.inr (Or.inr (Or.inl ⟨rfl, List.mem_singleton.1 ((hp _ _ rfl p).2 h)⟩))
  · exact Or.inr (Or.inr (Or.inr ⟨rfl, List.mem_singleton.1 ((hp _ _ rfl p).2 h)⟩))

theorem stShorts : NoShorts stTech stCell 1 := by
  intro n p q hp hq c _ _
  rcases stPoly hp with ⟨rfl, rfl⟩ | ⟨rfl, rfl⟩ | ⟨rfl, rfl⟩ | ⟨rfl, rfl⟩ <;>
    rcases stPoly hq with ⟨h, rfl⟩ | ⟨h, rfl⟩ | ⟨h, rfl⟩ | ⟨h, rfl⟩ <;>
    first
    | rfl
    | exact absurd h (by decide)

theorem stVisits {names : List String} {R : List (List Poly)} (hs : IsStack stTech stCell names)
    (hR : Regions stKL stTech stCell 1 names R) {i : Nat} (hi : i < names.length) :
    ∃ sides, Visits R i 2 sides (stKL.edges R i) := by
  obtain ⟨rfl, rfl⟩ := stRegions hs hR
  have hi : i < 4 := hi
  have key : ∀ (p : Poly) (x1 y1 x2 y2 : ℤ), stLayers.values.getD i [] = [p] → x1 < x2 → y1 < y2 →
      p.cells = Finset.Ico x1 x2 ×ˢ Finset.Ico y1 y2 →
      (∀ s ∈ boxSides x1 y1 x2 y2, EdgeOK stLayers.values i p s 2 []) →
      ∃ sides, Visits stLayers.values i 2 sides (stKL.edges stLayers.values i) := by
    intro p x1 y1 x2 y2 hp hx hy hc hok
    refine ⟨(boxSides x1 y1 x2 y2).map fun s => (p, s), ⟨?_, ?_⟩, ?_⟩
    · refine List.Nodup.map (fun a b h => congrArg Prod.snd h) ?_
      simp [boxSides]
    · intro q s
      rw [hp, List.mem_singleton, List.mem_map]
      constructor
      · rintro ⟨s', hs', e⟩
        cases e
        exact ⟨rfl, by rw [hc]; exact (box_sides hx hy _).2 hs'⟩
      · rintro ⟨rfl, h⟩
        exact ⟨s, (box_sides hx hy s).1 (by rw [← hc]; exact h), rfl⟩
    · have e : stKL.edges stLayers.values i = [(p.net, []), (p.net, []), (p.net, []), (p.net, [])] := by
        show (stLayers.values.getD i []).flatMap (fun p => List.replicate 4 (p.net, [])) = _
        rw [hp]; rfl
      rw [e]
      refine List.Forall₂.cons ⟨rfl, hok _ ?_⟩ (.cons ⟨rfl, hok _ ?_⟩ (.cons ⟨rfl, hok _ ?_⟩ (.cons ⟨rfl, hok _ ?_⟩ .nil))) <;>
        simp [boxSides]
  have plate : ∀ (p : Poly) s, s ∈ boxSides 0 0 2 2 → EdgeOK stLayers.values i p s 2 [] := by
    intro p s hs
    refine ⟨fun v hv => absurd hv List.not_mem_nil, List.Pairwise.nil, fun u h1 h2 => ?_⟩
    have hlen : ∀ s ∈ boxSides 0 0 2 2, s.len = 2 := by decide
    have := hlen s hs
    omega
  have : i = 0 ∨ i = 1 ∨ i = 2 ∨ i = 3 := by omega
  rcases this with rfl | rfl | rfl | rfl
  · refine key stBottom (-1) (-1) 3 3 rfl (by omega) (by omega) rfl fun s hs => ?_
    refine ⟨fun v hv => absurd hv List.not_mem_nil, List.Pairwise.nil, fun u h1 h2 => Or.inr fun j q hq w hw1 hw2 hc => ?_⟩
    refine outside_box hs u hw1 ?_
    have hsub : q ∈ [stBottom, stPlate "B", stPlate "A"] := by
      have hall : ∀ j, ∀ q ∈ stLayers.values.getD j [], q ∈ [stBottom, stPlate "B", stPlate "A"] := by
        intro j q hq
        by_cases hj : j < 4
        · have : j = 0 ∨ j = 1 ∨ j = 2 ∨ j = 3 := by omega
          rcases this with rfl | rfl | rfl | rfl <;> simp [stLayers, Dict.values] at hq <;> simp [hq]
        · rw [List.getD_eq_getElem?_getD, List.getElem?_eq_none (by show 4 ≤ j; omega)] at hq
          exact absurd hq List.not_mem_nil
      rcases hq with ⟨_, _, h⟩ | ⟨_, h, _⟩ | ⟨_, rfl⟩
      · exact hall _ _ h
      · exact hall _ _ h
      · simp
    simp only [List.mem_cons, List.not_mem_nil, or_false] at hsub
    generalize s.cell u w = c at hc ⊢
    rcases hsub with rfl | rfl | rfl <;>
    · simp only [stBottom, stPlate, Box.cells, Finset.mem_product, Finset.mem_Ico] at hc ⊢
      omega
  · exact key (stPlate "B") 0 0 2 2 rfl (by omega) (by omega) rfl (plate _)
  · exact key (stPlate "B") 0 0 2 2 rfl (by omega) (by omega) rfl (plate _)
  · exact key (stPlate "A") 0 0 2 2 rfl (by omega) (by omega) rfl (plate _)

theorem stOn (c : Cell) (hc : c ∈ (stPlate "A").cells) : On stTech stCell 1 "m1" "B" c ∧ On stTech stCell 1 "m2" "B" c ∧
    On stTech stCell 1 "m3" "A" c := by
  obtain ⟨_, hp⟩ := layers_exact _ _ _ _ stLayers_ok
  exact ⟨Or.inr ⟨by decide, stPlate "B", (hp "m1" _ rfl _).1 List.mem_cons_self, rfl, hc⟩,
     Or.inr ⟨by decide, stPlate "B", (hp "m2" _ rfl _).1 List.mem_cons_self, rfl, hc⟩,
     Or.inr ⟨by decide, stPlate "A", (hp "m3" _ rfl _).1 List.mem_cons_self, rfl, hc⟩⟩

/-- Over the plates two pairs of layers count for `A` and `B`. -/
example (c : Cell) (hc : c ∈ (stPlate "A").cells) : Counted stTech stCell 1 ["VSUBS", "m1", "m2", "m3"] "A" "B" c 2 3 ∧
    Counted stTech stCell 1 ["VSUBS", "m1", "m2", "m3"] "A" "B" c 1 3 := by
  obtain ⟨h1, h2, h3⟩ := stOn c hc
  have hf : Faces stTech stCell 1 ["VSUBS", "m1", "m2", "m3"] 2 3 "A" "B" c := ⟨h2, h3, fun k hk1 hk2 => by omega⟩
  exact ⟨⟨by omega, Or.inl hf⟩, by omega, Or.inl ((stack_not_shielded _ _ _ stShorts _ _ _ _ 1 2 3 (by omega) (by omega) hf).2
    ⟨h1, fun l hl1 hl2 => by omega⟩)⟩

/-- The hypotheses of C120 hold for the plates. -/
example : ∃ c', run stKL id stTech stCell .CC true 1 (.ok []) ⟨["A", "B"], []⟩ true = .ok c' ∧
    4 * (70 + 20) / 1000 ≤ Rcx25Netlist.parasiticCap c' "A" "B" := by
  have hok : (run stKL id stTech stCell .CC true 1 (.ok []) ⟨["A", "B"], []⟩ true).isOk = true := by decide +kernel
  obtain ⟨c', h⟩ : ∃ c', run stKL id stTech stCell .CC true 1 (.ok []) ⟨["A", "B"], []⟩ true = .ok c' := by
    cases h : run stKL id stTech stCell .CC true 1 (.ok []) ⟨["A", "B"], []⟩ true with
    | ok c' => exact ⟨c', rfl⟩
    | error m => rw [h] at hok; cases hok
  refine ⟨c', h, ?_⟩
  obtain ⟨hs, _⟩ := layers_exact _ _ _ _ stLayers_ok
  have hon := stOn
  have := stack_counted_twice stKL stFaithful Fringe.rowKernel_ok Fringe.rowKernel_bands id stTech stCell .CC (Or.inl rfl) true 1
    (.ok []) _ c' true h (by simp) stShorts (by
      intro l hl hm hc
      rw [← canonical_iff] at hc
      clear hm
      revert hc hl
      revert l
      decide +kernel) (by constructor <;> decide +kernel)
    (fun a b => ((Overlap.specOf stTech.parasitics a b).map (·.cap)).getD 0) (by
      intro names hn i j hij hj
      obtain rfl := hn.unique hs
      have hj : j < 4 := hj
      have hsome : ∀ j < 4, ∀ i < j, (Overlap.specOf stTech.parasitics (stLayers.keys.getD j "")
          (stLayers.keys.getD i "")).isSome = true := by decide +kernel
      obtain ⟨s, e⟩ := Option.isSome_iff_exists.1 (hsome j hj i hij)
      exact ⟨s, (Overlap.specOf_iff _ _ _ _).1 e, by rw [e]; rfl⟩)
    (by norm_num [stCell]) (by norm_num [stCell])
    (fun names R hn hR i hi => by
      have : ⌊stTech.parasitics.sideHalo / stCell.dbu⌋ + 1 = 2 := by
        show ⌊(1 : ℚ) / 1⌋ + 1 = 2
        norm_num
      rw [this]
      exact stVisits hn hR hi)
    (fun _ => 0) (fun _ => 0) (by rintro _ _ ⟨_, _, e, _⟩; simp [stTech] at e) (fun _ => le_rfl)
    (by
      intro names R _ _ i _ p _ s u d n hd _ _
      have : (1 : ℚ) ≤ d := by exact_mod_cast hd
      show 0 ≤ (d : ℚ) * 1 + 0
      linarith)
    (fun a b => (((Overlap.specOf stTech.parasitics a b).or (Overlap.specOf stTech.parasitics b a)).map (·.cap)).getD 0)
    (fun _ _ => 1)
    (by
      rintro a b o (ho | ⟨hn, ho⟩)
      · rw [(Overlap.specOf_iff _ _ _ _).2 ho]; rfl
      · have : Overlap.specOf stTech.parasitics a b = none := by
          rw [Option.eq_none_iff_forall_ne_some]
          exact fun o' e => hn o' ((Overlap.specOf_iff _ _ _ _).1 e)
        rw [this, (Overlap.specOf_iff _ _ _ _).2 ho]; rfl)
    (by
      rintro a b o (h | ⟨_, _, s, hs, rfl⟩)
      · exact absurd h.mem List.not_mem_nil
      · have : ∀ s ∈ stTech.parasitics.substrates, s.perimeter = 1 := by decide +kernel
        exact this s hs.mem) (fun _ _ => le_rfl) _ hs 1 2 3 (by omega) (by omega) (by decide) "A" "B" (by decide)
    (stPlate "A").cells (fun c hc => ⟨(hon c hc).1, (hon c hc).2.1, (hon c hc).2.2, fun l h1 h2 n hn => by
      obtain rfl : l = 2 := by omega
      exact on_unique stShorts hn (hon c hc).2.1⟩)
  refine le_trans (le_of_eq ?_) this
  have e1 : (stPlate "A").cells.card = 4 := rfl
  have e2 : ((Overlap.specOf stTech.parasitics "m3" "m2").map (·.cap)).getD 0 = 70 := by decide +kernel
  have e3 : ((Overlap.specOf stTech.parasitics "m3" "m1").map (·.cap)).getD 0 = 20 := by decide +kernel
  show _ = ((stPlate "A").cells.card : ℚ) * 1 ^ 2 * (((Overlap.specOf stTech.parasitics "m3" "m2").map (·.cap)).getD 0 +
    ((Overlap.specOf stTech.parasitics "m3" "m1").map (·.cap)).getD 0) / 1000
  rw [e1, e2, e3]
  norm_num

end Verif.Engine25
