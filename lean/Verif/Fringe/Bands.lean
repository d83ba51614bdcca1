import Verif.Fringe.Props
import Verif.Summary.Props

/-!
# One edge interval in terms of the cells in front of it

KLayout cuts an edge into intervals such that, in front of an interval, every reported polygon spans the whole interval.
-/

namespace Verif.Fringe

open TechInfo (Parasitics OverlapSpec SideOverlapSpec SidewallSpec IsLast OverlapIs SideOverlapIs)
open Summary (SidewallKey SidewallCap SideOverlapKey SamePair)
open Overlap (Cell Poly)

theorem pairwise_pick {α : Type} {R : α → α → Prop} (hR : ∀ a b, R a b → R b a) {l : List α} (h : l.Pairwise R) {a b : α}
    (ha : a ∈ l) (hb : b ∈ l) (hab : a ≠ b) : R a b := by
  induction l with
  | nil => simp at ha
  | cons x l ih =>
    rw [List.pairwise_cons] at h
    rcases List.mem_cons.1 ha with ea | ma
    · rcases List.mem_cons.1 hb with eb | mb
      · exact absurd (ea.trans eb.symm) hab
      · rw [ea]; exact h.1 b mb
    · rcases List.mem_cons.1 hb with eb | mb
      · rw [eb]; exact hR _ _ (h.1 a ma)
      · exact ih h.2 ma mb

/-- Net `n` is reported for child `j` at the cell. -/
def Occupies (nb : Dict Nat (List Poly)) (j : Nat) (n : String) (c : Cell) : Prop :=
  ∃ ps, (j, ps) ∈ nb ∧ ∃ q ∈ ps, q.net = n ∧ c ∈ q.cells

/-- What is reported in front of the interval from `a` to `b`, up to the distance `depth`: polygons that span the interval
and do not overlap within a layer. -/
structure Boxes (nb : Dict Nat (List Poly)) (a b depth : ℤ) : Prop where
  rep : Reported nb
  box : ∀ e ∈ nb, ∀ p ∈ e.2, ∃ y z, 1 ≤ y ∧ y < z ∧ z ≤ depth ∧ p.cells = Finset.Ico a b ×ˢ Finset.Ico y z
  disj : ∀ e ∈ nb, e.2.Pairwise fun p q => Disjoint p.cells q.cells

/-- The nearest polygon of the own layer in front of column `u` is at distance `d` and has net `n`. -/
def NearestAt (nb : Dict Nat (List Poly)) (i : Nat) (u d : ℤ) (n : String) : Prop :=
  Occupies nb i n (u, d) ∧ ∀ w < d, ∀ m, ¬ Occupies nb i m (u, w)

/-- Net `n` of layer `j` is seen from the edge at the cell: no lateral polygon (child `inside` or the last child) lies
nearer in the same column or at the cell, and no layer in between covers the cell. -/
def SeenAt (x : Ctx) (nb : Dict Nat (List Poly)) (j : Nat) (n : String) (u w : ℤ) : Prop :=
  Occupies nb j n (u, w) ∧
  (∀ w' ≤ w, ∀ m, ¬ Occupies nb x.inside m (u, w') ∧ ¬ Occupies nb x.names.length m (u, w')) ∧
  ∀ i, (j < i ∧ i < x.inside ∨ x.inside < i ∧ i < j) → ∀ m, ¬ Occupies nb i m (u, w)

theorem Boxes.mem {nb : Dict Nat (List Poly)} {a b depth : ℤ} (h : Boxes nb a b depth) {e : Nat × List Poly} (he : e ∈ nb)
    {p : Poly} (hp : p ∈ e.2) {u v w : ℤ} (hu : (u, w) ∈ p.cells) (hv1 : a ≤ v) (hv2 : v < b) : (v, w) ∈ p.cells := by
  obtain ⟨y, z, _, _, _, hc⟩ := h.box e he p hp
  rw [hc] at hu ⊢
  simp only [Finset.mem_product, Finset.mem_Ico] at hu ⊢
  exact ⟨⟨hv1, hv2⟩, hu.2⟩

theorem Boxes.occupies {nb : Dict Nat (List Poly)} {a b depth : ℤ} (h : Boxes nb a b depth) {j : Nat} {n : String}
    {u v w : ℤ} (hu : Occupies nb j n (u, w)) (hv1 : a ≤ v) (hv2 : v < b) : Occupies nb j n (v, w) := by
  obtain ⟨ps, hps, q, hq, hn, hc⟩ := hu
  exact ⟨ps, hps, q, hq, hn, h.mem hps hq hc hv1 hv2⟩

theorem Boxes.range {nb : Dict Nat (List Poly)} {a b depth : ℤ} (h : Boxes nb a b depth) {j : Nat} {n : String}
    {u w : ℤ} (hu : Occupies nb j n (u, w)) : a ≤ u ∧ u < b ∧ 1 ≤ w ∧ w < depth := by
  obtain ⟨ps, hps, q, hq, hn, hc⟩ := hu
  obtain ⟨y, z, h1, h2, h3, he⟩ := h.box _ hps q hq
  rw [he] at hc
  simp only [Finset.mem_product, Finset.mem_Ico] at hc
  omega

theorem Boxes.seen {nb : Dict Nat (List Poly)} {a b depth : ℤ} (h : Boxes nb a b depth) {x : Ctx} {j : Nat} {n : String}
    {u v w : ℤ} (hu : SeenAt x nb j n u w) (hv1 : a ≤ v) (hv2 : v < b) : SeenAt x nb j n v w := by
  obtain ⟨h1, h2, h3⟩ := hu
  have hr := h.range h1
  refine ⟨h.occupies h1 hv1 hv2, fun w' hw m => ⟨fun ho => ?_, fun ho => ?_⟩, fun i hi m ho => ?_⟩
  · exact (h2 w' hw m).1 (h.occupies ho hr.1 hr.2.1)
  · exact (h2 w' hw m).2 (h.occupies ho hr.1 hr.2.1)
  · exact h3 i hi m (h.occupies ho hr.1 hr.2.1)

/-- The nearest polygon is the nearest one in front of every column. -/
theorem Boxes.nearest {nb : Dict Nat (List Poly)} {a b depth : ℤ} (hab : a < b) (h : Boxes nb a b depth) {i : Nat}
    {ps : List Poly} (hps : (i, ps) ∈ nb) {d : ℤ} {p : Poly} (hn : Nearest ps d p) :
    Bottom p.cells d ∧ ∀ u, a ≤ u → u < b → ∀ d' n, NearestAt nb i u d' n ↔ d' = d ∧ n = p.net := by
  have hp := hn.mem
  obtain ⟨y, z, h1, h2, h3, hc⟩ := h.box _ hps p hp
  have hbot : Bottom p.cells y := by rw [hc]; exact band_low hab h2
  have hdist : Dist p d := by obtain ⟨A, B, _, hd, _⟩ := hn; exact hd
  have hdy : d = y := by
    obtain ⟨y', hy', e⟩ := hdist
    cases hbot.unique hy'
    omega
  subst hdy
  refine ⟨hbot, fun u hu1 hu2 => ?_⟩
  have hmin : ∀ q ∈ ps, ∀ v w, (v, w) ∈ q.cells → d ≤ w := by
    intro q hq v w hw
    obtain ⟨y', z', h1', h2', _, hc'⟩ := h.box _ hps q hq
    have hbot' : Bottom q.cells y' := by rw [hc']; exact band_low hab h2'
    have hle : d ≤ y' := by
      obtain ⟨A, B, hAB, hd, hA, hB⟩ := hn
      rw [hAB] at hq
      have hdq : Dist q y' := ⟨y', hbot', by omega⟩
      rcases List.mem_append.1 hq with hq | hq
      · exact le_of_lt (hA q hq y' hdq)
      · rcases List.mem_cons.1 hq with rfl | hq
        · cases hbot.unique hbot'; exact le_refl _
        · exact hB q hq y' hdq
    exact hle.trans (hbot'.2 _ hw)
  have hpin : (u, d) ∈ p.cells := by
    rw [hc]; simp only [Finset.mem_product, Finset.mem_Ico]; omega
  have huniq : ∀ qs, (i, qs) ∈ nb → qs = ps := by
    intro qs hqs
    have e1 := Dict.get?_of_mem h.rep.nodup hqs
    have e2 := Dict.get?_of_mem h.rep.nodup hps
    rw [e1] at e2; exact Option.some.inj e2
  intro d' n
  constructor
  · rintro ⟨⟨qs, hqs, q, hq, rfl, hcq⟩, hlow⟩
    obtain rfl := huniq qs hqs
    have hle := hmin q hq u d' hcq
    have hge : ¬ d < d' := fun hlt => hlow d hlt p.net ⟨_, hps, p, hp, rfl, hpin⟩
    obtain rfl : d' = d := by omega
    refine ⟨rfl, ?_⟩
    by_contra hne
    have hpq : p ≠ q := fun e => hne (by rw [e])
    have hd := h.disj _ hps
    have : Disjoint p.cells q.cells := by
      exact pairwise_pick (fun _ _ h => Disjoint.symm h) hd hp hq hpq
    exact Finset.disjoint_left.1 this hpin hcq
  · rintro ⟨rfl, rfl⟩
    refine ⟨⟨ps, hps, p, hp, rfl, hpin⟩, ?_⟩
    rintro w hw m ⟨qs, hqs, q, hq, _, hcq⟩
    obtain rfl := huniq qs hqs
    have := hmin q hq u w hcq
    omega

/-! ### Sidewall -/

open Classical in
/-- The sidewall capacitance between `a` and `b` that is recorded for an interval is the sum over its columns: for every
column the law for a piece of unit length and the distance of the nearest polygon of the layer. -/
theorem interval_wall (x : Ctx) (hin : x.inside < x.names.length) (hnames : x.names.Nodup) (k : Kernel) (hk : KernelOK k)
    (edgeNet : String) (lo hi depth : ℤ) (hlen : 1 < hi - lo) (nb : Dict Nat (List Poly)) (hnb : Boxes nb lo hi depth)
    (C off : String → ℚ)
    (hC : ∀ s, IsLast (fun s => s.layer = x.names.getD x.inside "") x.par.sidewalls s →
      s.cap = C (x.names.getD x.inside "") ∧ s.offset = off (x.names.getD x.inside ""))
    (recs : List Rec) (h : onInterval x k edgeNet (lo, hi) nb = .ok recs) (a b : String) (hab : a ≠ b) :
    ((sidewalls recs).map fun c => if SamePair c.key.net1 c.key.net2 a b then c.capValue else 0).sum =
      ∑ u ∈ Finset.Ico lo hi, ∑ d ∈ Finset.Ico 1 depth,
        if ∃ n, NearestAt nb x.inside u d n ∧ SamePair edgeNet n a b then
          x.dbu * C (x.names.getD x.inside "") / (d * x.dbu + off (x.names.getD x.inside "")) / 2 / 1000 else 0 := by
  have hlo : lo < hi := by omega
  have hlen' : (1 : ℚ) < ((lo : ℚ), (hi : ℚ)).2 - ((lo : ℚ), (hi : ℚ)).1 := by
    have : ((1 : ℤ) : ℚ) < ((hi - lo : ℤ) : ℚ) := by exact_mod_cast hlen
    push_cast at this; exact this
  obtain ⟨h1, h2, _⟩ := interval_exact x hin hnames k hk edgeNet _ hlen' nb hnb.rep recs h
  by_cases hex : ∃ ps, (x.inside, ps) ∈ nb
  · obtain ⟨ps, hps⟩ := hex
    obtain ⟨d, p, hn, hsame, hother⟩ := h2 ps hps
    obtain ⟨hbot, hnear⟩ := hnb.nearest hlo hps hn
    have hd : 1 ≤ d ∧ d < depth := by
      have := (hnear lo (le_refl _) hlo d p.net).2 ⟨rfl, rfl⟩
      exact (hnb.range this.1).2.2
    have hcol : ∀ u ∈ Finset.Ico lo hi, (∑ d' ∈ Finset.Ico 1 depth,
        if ∃ n, NearestAt nb x.inside u d' n ∧ SamePair edgeNet n a b then
          x.dbu * C (x.names.getD x.inside "") / (d' * x.dbu + off (x.names.getD x.inside "")) / 2 / 1000 else 0) =
        if SamePair edgeNet p.net a b then
          x.dbu * C (x.names.getD x.inside "") / (d * x.dbu + off (x.names.getD x.inside "")) / 2 / 1000 else 0 := by
      intro u hu
      rw [Finset.mem_Ico] at hu
      rw [Finset.sum_eq_single d]
      · refine if_congr ?_ rfl rfl
        constructor
        · rintro ⟨n, hh, hs⟩
          obtain ⟨_, rfl⟩ := (hnear u hu.1 hu.2 d n).1 hh
          exact hs
        · intro hs
          exact ⟨p.net, (hnear u hu.1 hu.2 d p.net).2 ⟨rfl, rfl⟩, hs⟩
      · intro d' _ hne
        rw [if_neg]
        rintro ⟨n, hh, _⟩
        exact hne ((hnear u hu.1 hu.2 d' n).1 hh).1
      · intro hnd
        exact absurd (Finset.mem_Ico.2 hd) hnd
    rw [Finset.sum_congr rfl hcol, Finset.sum_const, Int.card_Ico]
    by_cases hnet : p.net = edgeNet
    · rw [hsame hnet, if_neg]
      · simp
      · rw [hnet]
        rintro (⟨rfl, rfl⟩ | ⟨rfl, rfl⟩) <;> exact hab rfl
    · obtain ⟨c, hc, s, y, hs, hy, hkey, hval⟩ := hother hnet
      rw [hc]
      cases hbot.unique hy
      obtain ⟨e1, e2⟩ := hC s hs
      simp only [List.map_cons, List.map_nil, List.sum_cons, List.sum_nil, add_zero, hkey]
      by_cases hp : SamePair edgeNet p.net a b
      · rw [if_pos hp, if_pos hp, hval, e1, e2, nsmul_eq_mul]
        have : ((hi - lo).toNat : ℚ) = (hi : ℚ) - lo := by
          have h0 : ((hi - lo).toNat : ℤ) = hi - lo := Int.toNat_of_nonneg (by omega)
          have : (((hi - lo).toNat : ℤ) : ℚ) = ((hi - lo : ℤ) : ℚ) := by rw [h0]
          push_cast at this; exact this
        rw [this]
        ring
      · rw [if_neg hp, if_neg hp]; simp
  · rw [h1 (fun ps hps => hex ⟨ps, hps⟩)]
    symm
    refine Finset.sum_eq_zero fun u _ => Finset.sum_eq_zero fun d _ => ?_
    rw [if_neg]
    rintro ⟨n, ⟨⟨ps, hps, _⟩, _⟩, _⟩
    exact hex ⟨ps, hps⟩

/-! ### Fringe -/

/-- What shields the cells in front of the interval. -/
theorem shielded_iff (x : Ctx) (lo hi depth : ℤ) (hlo : lo < hi) (nb : Dict Nat (List Poly)) (hnb : Boxes nb lo hi depth)
    (hdepth : depth ≤ ⌊(x.par.sideHalo + 10) / x.dbu⌋) (near : Option Poly) (hnear : NearestLateral x nb near) (j : Nat)
    (u w : ℤ) (hu1 : lo ≤ u) (hu2 : u < hi) (hw : w < depth) :
    Shielded x nb near j (u, w) ↔
      (∃ w' ≤ w, ∃ m, Occupies nb x.inside m (u, w') ∨ Occupies nb x.names.length m (u, w')) ∨
      ∃ i, (j < i ∧ i < x.inside ∨ x.inside < i ∧ i < j) ∧ ∃ m, Occupies nb i m (u, w) := by
  unfold Shielded
  refine or_congr ?_ ?_
  · constructor
    · rintro ⟨p, rfl, _, _, ⟨⟨v, y⟩, hc, hy⟩, _⟩
      obtain ⟨⟨ps, hps, hp⟩, _⟩ := hnear
      refine ⟨y, hy, p.net, ?_⟩
      rcases hps with hps | hps
      · exact Or.inr ⟨ps, hps, p, hp, rfl, hnb.mem hps hp hc hu1 hu2⟩
      · exact Or.inl ⟨ps, hps, p, hp, rfl, hnb.mem hps hp hc hu1 hu2⟩
    · rintro ⟨w', hw', m, ho⟩
      have hq : ∃ q, LateralPoly x nb q ∧ (u, w') ∈ q.cells := by
        rcases ho with ⟨qs, hqs, q, hq, _, hc⟩ | ⟨qs, hqs, q, hq, _, hc⟩
        · exact ⟨q, ⟨qs, Or.inr hqs, hq⟩, hc⟩
        · exact ⟨q, ⟨qs, Or.inl hqs, hq⟩, hc⟩
      obtain ⟨q, hq, hqc⟩ := hq
      cases near with
      | none => exact absurd hq (hnear q)
      | some p =>
        refine ⟨p, rfl, ?_⟩
        obtain ⟨hp, d, hd, hmin⟩ := hnear
        have hbox : ∀ r, LateralPoly x nb r → ∃ y z, 1 ≤ y ∧ y < z ∧ r.cells = Finset.Ico lo hi ×ˢ Finset.Ico y z := by
          rintro r ⟨rs, hrs, hr⟩
          rcases hrs with hrs | hrs
          · obtain ⟨y, z, h1, h2, _, h3⟩ := hnb.box _ hrs r hr; exact ⟨y, z, h1, h2, h3⟩
          · obtain ⟨y, z, h1, h2, _, h3⟩ := hnb.box _ hrs r hr; exact ⟨y, z, h1, h2, h3⟩
        obtain ⟨y, z, hy, hyz, hpc⟩ := hbox p hp
        obtain ⟨y', z', hy', hyz', hqc'⟩ := hbox q hq
        have hb : Bottom p.cells y := by rw [hpc]; exact band_low hlo hyz
        have hb' : Bottom q.cells y' := by rw [hqc']; exact band_low hlo hyz'
        have hle : y ≤ y' := by
          obtain ⟨y0, hy0, rfl⟩ := hd
          cases hb.unique hy0
          have := hmin q (max 0 y') hq ⟨y', hb', rfl⟩
          omega
        have := hb'.2 _ hqc
        refine ⟨⟨(lo, y), ?_, hu1⟩, ⟨(hi - 1, y), ?_, by simp only; omega⟩, ⟨(lo, y), ?_, by simp only at this ⊢; omega⟩, by simp only; omega⟩
        all_goals rw [hpc]; simp only [Finset.mem_product, Finset.mem_Ico]; omega
  · refine exists_congr fun i => and_congr Iff.rfl ?_
    constructor
    · rintro ⟨qs, hqs, q, hq, hc⟩; exact ⟨q.net, qs, hqs, q, hq, rfl, hc⟩
    · rintro ⟨_, qs, hqs, q, hq, _, hc⟩; exact ⟨qs, hqs, q, hq, hc⟩

theorem shield_exists (x : Ctx) (lo hi depth : ℤ) (nb : Dict Nat (List Poly)) (hnb : Boxes nb lo hi depth)
    (near : Option Poly) (hnear : NearestLateral x nb near) (j : Nat) :
    ∃ shield : Finset Cell, ∀ c, c ∈ shield ↔ Shielded x nb near j c := by
  have hfin : {c | Shielded x nb near j c}.Finite := by
    refine Set.Finite.subset (Finset.finite_toSet (Finset.Ico lo hi ×ˢ
      (Finset.Ico 1 depth ∪ Finset.Ico 1 ⌊(x.par.sideHalo + 10) / x.dbu⌋))) ?_
    rintro c (⟨p, rfl, ⟨u, hu, h1⟩, ⟨v, hv, h2⟩, ⟨w, hw, h3⟩, h4⟩ | ⟨i, _, qs, hq, p, hp, hc⟩)
    · obtain ⟨⟨qs, hqs, hp⟩, _⟩ := hnear
      have hbox : ∃ y z, 1 ≤ y ∧ p.cells = Finset.Ico lo hi ×ˢ Finset.Ico y z := by
        rcases hqs with hqs | hqs
        · obtain ⟨y, z, h1, _, _, h3⟩ := hnb.box _ hqs p hp; exact ⟨y, z, h1, h3⟩
        · obtain ⟨y, z, h1, _, _, h3⟩ := hnb.box _ hqs p hp; exact ⟨y, z, h1, h3⟩
      obtain ⟨y, z, hy, hpc⟩ := hbox
      rw [hpc] at hu hv hw
      simp only [Finset.mem_product, Finset.mem_Ico] at hu hv hw
      simp only [Finset.coe_product, Set.mem_prod, Finset.mem_coe, Finset.mem_Ico, Finset.mem_union]
      exact ⟨⟨by omega, by omega⟩, Or.inr ⟨by omega, h4⟩⟩
    · obtain ⟨y, z, h1, h2, h3, hpc⟩ := hnb.box _ hq p hp
      rw [hpc] at hc
      simp only [Finset.mem_product, Finset.mem_Ico] at hc
      simp only [Finset.coe_product, Set.mem_prod, Finset.mem_coe, Finset.mem_Ico, Finset.mem_union]
      exact ⟨hc.1, Or.inl ⟨by omega, by omega⟩⟩
  exact ⟨hfin.toFinset, fun c => by rw [Set.Finite.mem_toFinset]; rfl⟩

/-- A visible part of a net on a layer: the net, and the distances of its near and its far border. -/
structure Band where
  net : String
  near : ℤ
  far : ℤ

/-- The bands in front of an interval that are seen on layer `j`: within the depth, of other nets than the one of the edge,
not overlapping, seen everywhere, and nothing else is seen. -/
structure Bands (x : Ctx) (nb : Dict Nat (List Poly)) (insideNet : String) (lo hi depth : ℤ) (j : Nat) (bands : List Band) :
    Prop where
  range : ∀ e ∈ bands, 1 ≤ e.near ∧ e.near < e.far ∧ e.far ≤ depth ∧ e.net ≠ insideNet
  seen : ∀ e ∈ bands, ∀ u w, lo ≤ u → u < hi → e.near ≤ w → w < e.far →
    ∃ n, countsAs (x.names.getD j "") n = e.net ∧ SeenAt x nb j n u w
  disj : bands.Pairwise fun e f => ∀ w, e.near ≤ w → w < e.far → f.near ≤ w → w < f.far → False
  all : ∀ n u w, SeenAt x nb j n u w → countsAs (x.names.getD j "") n ≠ insideNet →
    ∃ e ∈ bands, e.net = countsAs (x.names.getD j "") n ∧ e.near ≤ w ∧ w < e.far

open Classical in
/-- The fringe records of an interval towards layer `j` are those of the visible bands: for every band the law, recorded if
above 0.0001 fF. -/
theorem interval_bands (x : Ctx) (hin : x.inside < x.names.length) (hnames : x.names.Nodup) (k : Kernel) (hk : KernelOK k)
    (hkb : KernelBands k) (edgeNet : String) (lo hi depth : ℤ) (hlen : 1 < hi - lo) (nb : Dict Nat (List Poly))
    (hnb : Boxes nb lo hi depth) (hdepth : depth ≤ ⌊(x.par.sideHalo + 10) / x.dbu⌋)
    (cov cs : String → String → ℚ)
    (hcov : ∀ outside o, PairSpec x.par (x.names.getD x.inside "") outside o → o.cap = cov (x.names.getD x.inside "") outside)
    (hcs : ∀ outside s, SideOverlapIs x.par (x.names.getD x.inside "") outside s →
      s.cap = cs (x.names.getD x.inside "") outside)
    (recs : List Rec) (h : onInterval x k edgeNet (lo, hi) nb = .ok recs) (j : Nat) (hj : j ≠ x.inside)
    (hjl : j < x.names.length) :
    ∃ bands, Bands x nb (countsAs (x.names.getD x.inside "") edgeNet) lo hi depth j bands ∧
      (fringesTo (x.names.getD j "") recs).Perm (bands.filterMap fun e =>
        if 1 / 10000 < law x.scale x.par.sideHalo x.dbu (cov (x.names.getD x.inside "") (x.names.getD j ""))
            (cs (x.names.getD x.inside "") (x.names.getD j "")) (hi - lo : ℤ) e.near e.far then
          some (⟨x.names.getD x.inside "", countsAs (x.names.getD x.inside "") edgeNet, x.names.getD j "", e.net⟩,
            law x.scale x.par.sideHalo x.dbu (cov (x.names.getD x.inside "") (x.names.getD j ""))
              (cs (x.names.getD x.inside "") (x.names.getD j "")) (hi - lo : ℤ) e.near e.far)
        else none) := by
  have hlo : lo < hi := by omega
  have hlen' : (1 : ℚ) < ((lo : ℚ), (hi : ℚ)).2 - ((lo : ℚ), (hi : ℚ)).1 := by
    have : ((1 : ℤ) : ℚ) < ((hi - lo : ℤ) : ℚ) := by exact_mod_cast hlen
    push_cast at this; exact this
  obtain ⟨_, _, near, hnear, hmain⟩ := interval_exact x hin hnames k hk edgeNet _ hlen' nb hnb.rep recs h
  obtain ⟨hnone, hsome⟩ := hmain j hj hjl
  by_cases hex : ∃ ps, (j, ps) ∈ nb
  swap
  · refine ⟨[], ⟨by simp, by simp, List.Pairwise.nil, ?_⟩, ?_⟩
    · rintro n u w ⟨⟨ps, hps, _⟩, _⟩
      exact absurd ⟨ps, hps⟩ hex
    · rw [hnone fun ps hps => hex ⟨ps, hps⟩]; exact List.Perm.refl _
  obtain ⟨ps, hps⟩ := hex
  obtain ⟨shield, hshield⟩ := shield_exists x lo hi depth nb hnb near hnear j
  have hsh : ∀ u w, lo ≤ u → u < hi → w < depth → ((u, w) ∈ shield ↔
      (∃ w' ≤ w, ∃ m, Occupies nb x.inside m (u, w') ∨ Occupies nb x.names.length m (u, w')) ∨
      ∃ i, (j < i ∧ i < x.inside ∨ x.inside < i ∧ i < j) ∧ ∃ m, Occupies nb i m (u, w)) := fun u w h1 h2 h3 =>
    (hshield _).trans (shielded_iff x lo hi depth hlo nb hnb hdepth near hnear j u w h1 h2 h3)
  have hrow : ∀ u v w : ℤ, lo ≤ u → u < hi → lo ≤ v → v < hi → w < depth → (u, w) ∈ shield → (v, w) ∈ shield := by
    intro u v w hu1 hu2 hv1 hv2 hw hs
    rw [hsh _ _ hu1 hu2 hw] at hs
    rw [hsh _ _ hv1 hv2 hw]
    rcases hs with ⟨w', hw', m, ho | ho⟩ | ⟨i, hi', m, ho⟩
    · exact Or.inl ⟨w', hw', m, Or.inl (hnb.occupies ho hv1 hv2)⟩
    · exact Or.inl ⟨w', hw', m, Or.inr (hnb.occupies ho hv1 hv2)⟩
    · exact Or.inr ⟨i, hi', m, hnb.occupies ho hv1 hv2⟩
  have hseen : ∀ q ∈ ps, ∀ u w, (u, w) ∈ q.cells → ((u, w) ∉ shield ↔ SeenAt x nb j q.net u w) := by
    intro q hq u w hc
    have ho : Occupies nb j q.net (u, w) := ⟨ps, hps, q, hq, rfl, hc⟩
    have hr := hnb.range ho
    rw [hsh u w hr.1 hr.2.1 hr.2.2.2]
    unfold SeenAt
    constructor
    · intro hn
      refine ⟨ho, fun w' hw' m => ⟨fun h => hn (Or.inl ⟨w', hw', m, Or.inl h⟩), fun h => hn (Or.inl ⟨w', hw', m, Or.inr h⟩)⟩,
        fun i hi' m h => hn (Or.inr ⟨i, hi', m, h⟩)⟩
    · rintro ⟨_, h1, h2⟩ (⟨w', hw', m, h | h⟩ | ⟨i, hi', m, h⟩)
      · exact (h1 w' hw' m).1 h
      · exact (h1 w' hw' m).2 h
      · exact h2 i hi' m h
  obtain ⟨rs, ⟨o, s, A, B, cap, ho, hs, hperm, hA, hB, hcap, rfl⟩, hrs⟩ := hsome ps hps shield hshield
  -- every piece is a band
  have hpiece : ∀ e ∈ visible k (countsAs (x.names.getD x.inside "") edgeNet) (x.names.getD j "") shield ps,
      e.1 ≠ countsAs (x.names.getD x.inside "") edgeNet ∧
      ∃ p ∈ ps, e.1 = countsAs (x.names.getD j "") p.net ∧ (∀ c ∈ e.2, c ∈ p.cells ∧ c ∉ shield) ∧
      ∃ y z, 1 ≤ y ∧ y < z ∧ z ≤ depth ∧ e.2 = Finset.Ico lo hi ×ˢ Finset.Ico y z := by
    intro e he
    unfold visible at he
    obtain ⟨p, hp, he⟩ := List.mem_flatMap.1 he
    split_ifs at he with hne
    · simp at he
    · obtain ⟨q, hq, rfl⟩ := List.mem_map.1 he
      obtain ⟨y1, z1, hy1, hyz1, hz1, hpc⟩ := hnb.box _ hps p hp
      have hqs : ∀ c ∈ q, c ∈ p.cells ∧ c ∉ shield := by
        unfold remains at hq
        split_ifs at hq with hem
        · rw [List.mem_singleton] at hq; rw [hq, hem]; exact fun c hc => ⟨hc, by simp⟩
        · exact fun c hc => Finset.mem_sdiff.1 (hk.sub _ q hq hc)
      have hqb : ∃ y z, y < z ∧ q = Finset.Ico lo hi ×ˢ Finset.Ico y z := by
        unfold remains at hq
        split_ifs at hq
        · rw [List.mem_singleton] at hq; rw [hq]; exact ⟨y1, z1, hyz1, hpc⟩
        · refine hkb lo hi _ hlo ⟨(Finset.Ico y1 z1).filter fun y => (lo, y) ∉ shield, ?_⟩ q hq
          ext c
          rw [hpc]
          simp only [Finset.mem_sdiff, Finset.mem_product, Finset.mem_filter, Finset.mem_Ico]
          constructor
          · rintro ⟨⟨h1, h2⟩, h3⟩
            exact ⟨h1, h2, fun h4 => h3 (hrow lo c.1 c.2 (le_refl _) hlo h1.1 h1.2 (by omega) h4)⟩
          · rintro ⟨h1, h2, h3⟩
            exact ⟨⟨h1, h2⟩, fun h4 => h3 (hrow c.1 lo c.2 h1.1 h1.2 (le_refl _) hlo (by omega) h4)⟩
      obtain ⟨y, z, hyz, hqe⟩ := hqb
      refine ⟨fun h => hne h.symm, p, hp, rfl, hqs, y, z, ?_, hyz, ?_, hqe⟩
      · have h1 := (hqs (lo, y) (by rw [hqe]; simp only [Finset.mem_product, Finset.mem_Ico]; omega)).1
        rw [hpc] at h1
        simp only [Finset.mem_product, Finset.mem_Ico] at h1; omega
      · have h1 := (hqs (lo, z - 1) (by rw [hqe]; simp only [Finset.mem_product, Finset.mem_Ico]; omega)).1
        rw [hpc] at h1
        simp only [Finset.mem_product, Finset.mem_Ico] at h1; omega
  -- no piece ends at the edge
  have hBnil : B = [] := by
    cases B with
    | nil => rfl
    | cons e B =>
      exfalso
      obtain ⟨_, p, _, _, _, y, z, h1, h2, _, he⟩ := hpiece e (hperm.mem_iff.1 (by simp))
      have := hB e (by simp) (lo, y) (by rw [he]; simp only [Finset.mem_product, Finset.mem_Ico]; omega)
      simp only at this; omega
  subst hBnil
  rw [List.append_nil] at hperm
  let toBand : String × Finset Cell → Band := fun e => ⟨e.1, yLow e.2, yHigh e.2⟩
  have hto : ∀ e ∈ A, ∃ p ∈ ps, (toBand e).net = countsAs (x.names.getD j "") p.net ∧ (∀ c ∈ e.2, c ∈ p.cells ∧ c ∉ shield) ∧
      1 ≤ (toBand e).near ∧ (toBand e).near < (toBand e).far ∧ (toBand e).far ≤ depth ∧
      (toBand e).net ≠ countsAs (x.names.getD x.inside "") edgeNet ∧
      e.2 = Finset.Ico lo hi ×ˢ Finset.Ico (toBand e).near (toBand e).far := by
    intro e he
    obtain ⟨hne, p, hp, hnet, hcells, y, z, h1, h2, h3, hc⟩ := hpiece e (hperm.mem_iff.1 he)
    have ey : yLow e.2 = y := by rw [hc]; exact (band_low hlo h2).eq
    have ez : yHigh e.2 = z := by rw [hc]; exact (band_high hlo h2).eq
    refine ⟨p, hp, hnet, hcells, ?_, ?_, ?_, hne, ?_⟩
    · simp only [toBand, ey]; exact h1
    · simp only [toBand, ey, ez]; exact h2
    · simp only [toBand, ez]; exact h3
    · simp only [toBand, ey, ez]; exact hc
  refine ⟨A.map toBand, ⟨?_, ?_, ?_, ?_⟩, ?_⟩
  · intro f hf
    obtain ⟨e, he, rfl⟩ := List.mem_map.1 hf
    obtain ⟨p, _, _, _, h1, h2, h3, h4, _⟩ := hto e he
    exact ⟨h1, h2, h3, h4⟩
  · intro f hf u w hu1 hu2 hw1 hw2
    obtain ⟨e, he, rfl⟩ := List.mem_map.1 hf
    obtain ⟨p, hp, hnet, hcells, _, _, _, _, hc⟩ := hto e he
    have hm : (u, w) ∈ e.2 := by
      rw [hc]; simp only [Finset.mem_product, Finset.mem_Ico]; exact ⟨⟨hu1, hu2⟩, hw1, hw2⟩
    exact ⟨p.net, hnet.symm, (hseen p hp u w (hcells _ hm).1).1 (hcells _ hm).2⟩
  · rw [List.pairwise_map]
    have h1 : (A.map Prod.snd).Pairwise Disjoint :=
      ((hperm.map Prod.snd).pairwise_iff (fun {_ _} h => Disjoint.symm h)).2 (visible_disjoint hk (hnb.disj _ hps))
    rw [List.pairwise_map] at h1
    refine List.Pairwise.imp_of_mem ?_ h1
    intro e f he hf hd w hw1 hw2 hw3 hw4
    obtain ⟨_, _, _, _, _, _, _, _, hce⟩ := hto e he
    obtain ⟨_, _, _, _, _, _, _, _, hcf⟩ := hto f hf
    have hnot : (lo, w) ∈ e.2 → (lo, w) ∉ f.2 := fun h => Finset.disjoint_left.1 hd h
    refine hnot ?_ ?_
    · rw [hce]; simp only [Finset.mem_product, Finset.mem_Ico]; omega
    · rw [hcf]; simp only [Finset.mem_product, Finset.mem_Ico]; omega
  · intro n u w hsw hne
    obtain ⟨⟨qs, hqs, q, hq, rfl, hc⟩, _⟩ := id hsw
    obtain rfl : qs = ps := by
      have e1 := Dict.get?_of_mem hnb.rep.nodup hqs
      have e2 := Dict.get?_of_mem hnb.rep.nodup hps
      rw [e1] at e2; exact Option.some.inj e2
    have hns := (hseen q hq u w hc).2 hsw
    have hrem : ∃ r ∈ remains k shield q, (u, w) ∈ r := by
      unfold remains
      split_ifs with hem
      · exact ⟨q.cells, by simp, hc⟩
      · exact hk.cover _ _ (Finset.mem_sdiff.2 ⟨hc, hns⟩)
    obtain ⟨r, hr, hcr⟩ := hrem
    have hvis : (countsAs (x.names.getD j "") q.net, r) ∈
        visible k (countsAs (x.names.getD x.inside "") edgeNet) (x.names.getD j "") shield qs := by
      unfold visible
      refine List.mem_flatMap.2 ⟨q, hq, ?_⟩
      rw [if_neg (fun h => hne h.symm)]
      exact List.mem_map.2 ⟨r, hr, rfl⟩
    have hmA := hperm.mem_iff.2 hvis
    obtain ⟨_, _, _, _, _, _, _, _, hce⟩ := hto _ hmA
    refine ⟨_, List.mem_map_of_mem hmA, rfl, ?_⟩
    simp only at hce
    rw [hce] at hcr
    simp only [Finset.mem_product, Finset.mem_Ico] at hcr
    exact hcr.2
  · rw [hrs]
    unfold fringesTo
    rw [List.filterMap_filterMap, List.filterMap_map]
    refine List.Perm.of_eq (List.filterMap_congr fun e he => ?_)
    obtain ⟨p, hp, _, _, h1, h2, h3, _, hc⟩ := hto e he
    have hb : Bottom e.2 (toBand e).near := by rw [hc]; exact band_low hlo h2
    have ht : Top e.2 (toBand e).far := by rw [hc]; exact band_high hlo h2
    have hv : cap e.2 = law x.scale x.par.sideHalo x.dbu (cov (x.names.getD x.inside "") (x.names.getD j ""))
            (cs (x.names.getD x.inside "") (x.names.getD j "")) (hi - lo : ℤ) (toBand e).near (toBand e).far := by
      rw [hcap e.2 _ _ hb ht, hcov _ o ho, hcs _ s hs]
      have m1 : max 0 (toBand e).near = (toBand e).near := by omega
      have m2 : max 0 (toBand e).far = (toBand e).far := by omega
      rw [m1, m2]
      push_cast
      rfl
    simp only [Function.comp]
    rw [hv]
    split_ifs with hg
    · simp [toBand]
    · rfl

end Verif.Fringe
