import Verif.Fringe.Lemmas
import Mathlib.Data.Finset.Sort
import Mathlib.Tactic.Tauto
import Mathlib.Data.List.GetD
import Mathlib.Algebra.BigOperators.Intervals

/-!
# Properties of the sidewall and fringe extraction (C32, C33, C34, C35, C59)
-/

namespace Verif.Fringe

open TechInfo (Parasitics OverlapSpec SideOverlapSpec SidewallSpec IsLast OverlapIs SideOverlapIs)
open Summary (SidewallKey SidewallCap SideOverlapKey)
open Overlap (Cell Poly)

/-! ### C35: the nearest polygon -/

/-- **C35.** The search finds a polygon with minimal distance, and the first listed one of these. -/
theorem nearest_selected (ps : List Poly) (hne : ps ≠ []) (hp : ∀ p ∈ ps, p.cells.Nonempty) :
    ∃ d p, findNearest ps = .ok (some d, p) ∧ Nearest ps d p := findNearest_spec ps hne hp

/-! ### C32: sidewall capacitance -/

/-- The law of a sidewall record: half of `length · C / (distance + offset)`, in fF, for the last specification listed
for the layer. -/
def SidewallLaw (par : Parasitics) (layer edgeNet : String) (dbu length : ℚ) (p : Poly) (c : SidewallCap) : Prop :=
  ∃ s y, IsLast (fun s => s.layer = layer) par.sidewalls s ∧ Bottom p.cells y ∧ c.key = ⟨layer, edgeNet, p.net⟩ ∧
    c.capValue = length * dbu * s.cap / (y * dbu + s.offset) / 2 / 1000

/-- **C32.** A sidewall record is made exactly for a polygon of another net, and it follows the law. -/
theorem sidewall_record (x : Ctx) (edgeNet : String) (iv : ℚ × ℚ) (p : Poly) (hp : p.cells.Nonempty)
    (rs : List SidewallCap) (h : emitSidewall x edgeNet iv p = .ok rs) :
    (edgeNet = p.net → rs = []) ∧
    (edgeNet ≠ p.net → ∃ c, rs = [c] ∧
      SidewallLaw x.par (x.names.getD x.inside "") edgeNet x.dbu (iv.2 - iv.1) p c) := by
  unfold emitSidewall at h
  by_cases hn : edgeNet = p.net
  · simp only [hn, if_true] at h
    exact ⟨fun _ => (Except.ok.inj h).symm, fun h' => absurd hn h'⟩
  · refine ⟨fun h' => absurd h' hn, fun _ => ?_⟩
    simp only [hn, if_false] at h
    cases hs : (TechInfo.sidewallTable x.par).get? (x.names.getD x.inside "") with
    | none => rw [hs] at h; cases h
    | some s =>
      rw [hs] at h
      simp only [min_low_high] at h
      split_ifs at h
      exact ⟨_, (Except.ok.inj h).symm, s, _, (sidewallTable_get _ _ _).1 hs, bottom_yLow hp, rfl, rfl⟩

theorem IsLast.unique {α : Type} {P : α → Prop} {l : List α} {a b : α} (ha : IsLast P l a) (hb : IsLast P l b) :
    a = b := by
  classical
  have h := fun c => TechInfo.find_last (fun y => decide (P y)) l c
  have e : ∀ c, IsLast P l c → l.reverse.find? (fun y => decide (P y)) = some c :=
    fun c hc => (h c).2 ((TechInfo.IsLast.congr (by simp)).1 hc)
  have := (e a ha).symm.trans (e b hb)
  exact Option.some.inj this

/-- **C32, sign, length and distance.** With a positive specification and a distance whose sum with the offset is positive a
record is non-negative (positive for a positive length), a `t` times longer interval gives `t` times the value, and a larger
distance gives a strictly smaller value. -/
theorem sidewall_law (par : Parasitics) (layer net : String) (dbu : ℚ) (hdbu : 0 < dbu)
    (hs : ∀ s ∈ par.sidewalls, 0 < s.cap) (length : ℚ) (p : Poly)
    (hd : ∀ s ∈ par.sidewalls, s.layer = layer → ∀ y, Bottom p.cells y → 0 < y * dbu + s.offset)
    (c : SidewallCap) (hc : SidewallLaw par layer net dbu length p c) :
    (0 ≤ length → 0 ≤ c.capValue) ∧ (0 < length → 0 < c.capValue) ∧
    (∀ t c', SidewallLaw par layer net dbu (t * length) p c' → c'.capValue = t * c.capValue) ∧
    (∀ q net' c' y z, SidewallLaw par layer net' dbu length q c' → Bottom p.cells y → Bottom q.cells z → y < z →
      0 < length → c'.capValue < c.capValue) := by
  obtain ⟨s, y, hl, hy, _, hv⟩ := hc
  have h1 := hs s hl.mem
  have hden : 0 < (y : ℚ) * dbu + s.offset := hd s hl.mem hl.prop y hy
  refine ⟨fun h => by rw [hv]; positivity, fun h => by rw [hv]; positivity, ?_, ?_⟩
  · rintro t c' ⟨s', y', hl', hy', _, hv'⟩
    cases IsLast.unique hl hl'
    cases hy.unique hy'
    rw [hv, hv']; ring
  · rintro q net' c' y1 z ⟨s', y', hl', hy', _, hv'⟩ hy1 hz hlt hlen
    cases IsLast.unique hl hl'
    cases hy.unique hy1
    cases hz.unique hy'
    rw [hv, hv']
    have hlt' : (y : ℚ) < z := by exact_mod_cast hlt
    have hd : (y : ℚ) * dbu + s.offset < z * dbu + s.offset := by
      have := mul_lt_mul_of_pos_right hlt' hdbu; linarith
    have hnum : 0 < length * dbu * s.cap := by positivity
    have := div_lt_div_of_pos_left hnum hden hd
    linarith

/-- **C32, both sides.** The records of two edges that face each other (same layer, same facing length, same distance,
nets `a` and `b`) are for the same pair of nets and add up to `length · C / (distance + offset)` (in fF). -/
theorem sidewall_pair (par : Parasitics) (layer a b : String) (dbu length : ℚ) (p q : Poly) (c c' : SidewallCap)
    (hq : q.net = b) (hp : p.net = a) (hc : SidewallLaw par layer a dbu length q c)
    (hc' : SidewallLaw par layer b dbu length p c') (y : ℤ) (hy : Bottom q.cells y) (hy' : Bottom p.cells y) :
    c.key = ⟨layer, a, b⟩ ∧ c'.key = ⟨layer, b, a⟩ ∧
    ∃ s, IsLast (fun s => s.layer = layer) par.sidewalls s ∧
      c.capValue + c'.capValue = length * dbu * s.cap / (y * dbu + s.offset) / 1000 := by
  obtain ⟨s, y1, hl, hy1, hk, hv⟩ := hc
  obtain ⟨s', y2, hl', hy2, hk', hv'⟩ := hc'
  cases IsLast.unique hl hl'
  cases hy.unique hy1
  cases hy'.unique hy2
  refine ⟨by rw [hk, hq], by rw [hk', hp], s, hl, ?_⟩
  rw [hv, hv']; ring

/-! ### C33: the fringe law -/

/-- Result of a fringe evaluation. -/
theorem fringeCap_ok {x : Ctx} {len near far c : ℝ} {o : OverlapSpec} {s : SideOverlapSpec}
    (h : fringeCap x len near far o s = .ok c) :
    ¬ (x.scale = true ∧ ratio o.cap x.par.sideHalo = 0) ∧
      c = law x.scale x.par.sideHalo x.dbu o.cap s.cap len near far := by
  rw [fringeCap_eq] at h
  split_ifs at h with hb
  exact ⟨hb, (Except.ok.inj h).symm⟩

/-- **C33, additivity.** Bands that adjoin add up to the joint band. -/
theorem fringe_additive (x : Ctx) (len a b c u v w : ℝ) (o : OverlapSpec) (s : SideOverlapSpec)
    (h1 : fringeCap x len a b o s = .ok u) (h2 : fringeCap x len b c o s = .ok v)
    (h3 : fringeCap x len a c o s = .ok w) : u + v = w := by
  rw [(fringeCap_ok h1).2, (fringeCap_ok h2).2, (fringeCap_ok h3).2]
  unfold law; ring

theorem scale_pos {x : Ctx} {o : OverlapSpec} (ho : 0 ≤ o.cap) (hh : 0 ≤ x.par.sideHalo)
    (hb : ¬ (x.scale = true ∧ ratio o.cap x.par.sideHalo = 0)) :
    0 < (if x.scale then ratio o.cap x.par.sideHalo else 1 : ℝ) := by
  by_cases hs : x.scale = true
  · rw [if_pos hs]
    have h0 : 0 ≤ ratio o.cap x.par.sideHalo := ratio_nonneg ho (by exact_mod_cast hh)
    exact lt_of_le_of_ne h0 (fun h => hb ⟨hs, h.symm⟩)
  · rw [if_neg hs]; exact one_pos

theorem law_mono {x : Ctx} {o : OverlapSpec} {s : SideOverlapSpec} (ho : 0 ≤ o.cap) (hsd : 0 ≤ s.cap)
    (hh : 0 ≤ x.par.sideHalo) (hd : 0 ≤ x.dbu) {len : ℝ} (hl : 0 ≤ len)
    (hb : ¬ (x.scale = true ∧ ratio o.cap x.par.sideHalo = 0)) {a b a' b' : ℝ} (h1 : a' ≤ a) (h2 : b ≤ b') :
    law x.scale x.par.sideHalo x.dbu o.cap s.cap len a b ≤ law x.scale x.par.sideHalo x.dbu o.cap s.cap len a' b' := by
  have hd' : (0 : ℝ) ≤ x.dbu := by exact_mod_cast hd
  have hs' : (0 : ℝ) ≤ s.cap := by exact_mod_cast hsd
  have e1 := ratio_mono ho (mul_le_mul_of_nonneg_right h1 hd')
  have e2 := ratio_mono ho (mul_le_mul_of_nonneg_right h2 hd')
  have hp := scale_pos ho hh hb
  unfold law
  have : (ratio o.cap (b * x.dbu) - ratio o.cap (a * x.dbu)) / (if x.scale then ratio o.cap x.par.sideHalo else 1) ≤
      (ratio o.cap (b' * x.dbu) - ratio o.cap (a' * x.dbu)) / (if x.scale then ratio o.cap x.par.sideHalo else 1) :=
    div_le_div_of_nonneg_right (by linarith) (le_of_lt hp)
  have h3 := mul_le_mul_of_nonneg_right this (mul_nonneg hl hd')
  have h4 := mul_le_mul_of_nonneg_right h3 hs'
  exact div_le_div_of_nonneg_right h4 (by norm_num)

theorem law_self (scale : Bool) (halo dbu cov cside : ℚ) (len a : ℝ) : law scale halo dbu cov cside len a a = 0 := by
  unfold law; simp

/-- **C33, sign and monotonicity.** A band has a non-negative capacitance, and a band that contains another one has at
least its capacitance. -/
theorem fringe_nonneg_mono (x : Ctx) (len a b a' b' u v : ℝ) (o : OverlapSpec) (s : SideOverlapSpec)
    (ho : 0 ≤ o.cap) (hs : 0 ≤ s.cap) (hh : 0 ≤ x.par.sideHalo) (hd : 0 ≤ x.dbu) (hl : 0 ≤ len)
    (h1 : fringeCap x len a b o s = .ok u) (h2 : fringeCap x len a' b' o s = .ok v) :
    (a ≤ b → 0 ≤ u) ∧ (a' ≤ a → b ≤ b' → u ≤ v) := by
  obtain ⟨hb, e1⟩ := fringeCap_ok h1
  obtain ⟨_, e2⟩ := fringeCap_ok h2
  refine ⟨fun h => ?_, fun h h' => ?_⟩
  · rw [e1, ← law_self x.scale x.par.sideHalo x.dbu o.cap s.cap len a]
    exact law_mono ho hs hh hd hl hb (le_refl a) h
  · rw [e1, e2]; exact law_mono ho hs hh hd hl hb h h'

/-- **C33, the whole halo.** With scaling, the band from the edge to the halo gets exactly the nominal capacitance, length
times capacitance per length (in fF), and every band within the halo gets at most that; without scaling every band gets
strictly less. -/
theorem fringe_full_halo (x : Ctx) (len a b u : ℝ) (o : OverlapSpec) (s : SideOverlapSpec)
    (ho : 0 < o.cap) (hs : 0 < s.cap) (hh : 0 < x.par.sideHalo) (hd : 0 < x.dbu) (hl : 0 < len) (ha : 0 ≤ a)
    (h : fringeCap x len a b o s = .ok u) :
    (x.scale = true → a = 0 → b * x.dbu = x.par.sideHalo → u = len * x.dbu * s.cap / 1000) ∧
    (x.scale = true → b * x.dbu ≤ x.par.sideHalo → u ≤ len * x.dbu * s.cap / 1000) ∧
    (x.scale = false → u < len * x.dbu * s.cap / 1000) := by
  obtain ⟨hb, rfl⟩ := fringeCap_ok h
  have hh' : (0 : ℝ) < x.par.sideHalo := by exact_mod_cast hh
  have hd' : (0 : ℝ) < x.dbu := by exact_mod_cast hd
  have hs' : (0 : ℝ) < s.cap := by exact_mod_cast hs
  have hr := ratio_pos ho hh'
  have ha' := ratio_nonneg (le_of_lt ho) (mul_nonneg ha (le_of_lt hd'))
  refine ⟨fun h1 h2 h3 => ?_, fun h1 h2 => ?_, fun h1 => ?_⟩
  · unfold law
    rw [h1, h2, h3, zero_mul, ratio_zero]
    simp only [if_true, sub_zero, div_self (ne_of_gt hr), one_mul]
  · unfold law
    rw [h1]
    simp only [if_true]
    have h4 := ratio_mono (le_of_lt ho) h2
    have : (ratio o.cap (b * x.dbu) - ratio o.cap (a * x.dbu)) / ratio o.cap x.par.sideHalo ≤ 1 := by
      rw [div_le_one hr]; linarith
    have h5 := mul_le_mul_of_nonneg_right (mul_le_mul_of_nonneg_right this (le_of_lt (mul_pos hl hd'))) (le_of_lt hs')
    rw [one_mul] at h5
    exact div_le_div_of_nonneg_right h5 (by norm_num)
  · unfold law
    rw [h1]
    simp only [Bool.false_eq_true, if_false, div_one]
    have h4 := ratio_lt_one o.cap (b * x.dbu)
    have : ratio o.cap (b * x.dbu) - ratio o.cap (a * x.dbu) < 1 := by linarith
    have h5 := mul_lt_mul_of_pos_right (mul_lt_mul_of_pos_right this (mul_pos hl hd')) hs'
    rw [one_mul] at h5
    exact div_lt_div_of_pos_right h5 (by norm_num)

/-! ### C34: the records of one layer pair -/

/-- What is assumed of KLayout's decomposition of a region: it has no empty polygons, they lie in the region, cover it
and do not overlap. -/
structure KernelOK (k : Kernel) : Prop where
  nonempty : ∀ s, ∀ q ∈ k s, q.Nonempty
  sub : ∀ s, ∀ q ∈ k s, q ⊆ s
  cover : ∀ s, ∀ c ∈ s, ∃ q ∈ k s, c ∈ q
  disjoint : ∀ s, (k s).Pairwise Disjoint

theorem visible_nonempty {k : Kernel} (hk : KernelOK k) {net outside : String} {shield : Finset Cell} {ps : List Poly}
    (hp : ∀ p ∈ ps, p.cells.Nonempty) {e : String × Finset Cell} (he : e ∈ visible k net outside shield ps) :
    e.2.Nonempty := by
  unfold visible at he
  rw [List.mem_flatMap] at he
  obtain ⟨p, hps, he⟩ := he
  split_ifs at he
  · simp at he
  · rw [List.mem_map] at he
    obtain ⟨q, hq, rfl⟩ := he
    unfold remains at hq
    split_ifs at hq
    · rw [List.mem_singleton] at hq; subst hq; exact hp p hps
    · exact hk.nonempty _ q hq

theorem emitFringe_eq (x : Ctx) (k : Kernel) (outside edgeNet : String) (iv : ℚ × ℚ) (ps : List Poly)
    (shield : Finset Cell) (recs : List Rec) :
    emitFringe x k outside edgeNet iv ps shield = .ok recs ↔
    ∃ o s, fringeSpecs x.par (x.names.getD x.inside "") outside = .ok (o, s) ∧
      fringeLoop x (x.names.getD x.inside "") (countsAs (x.names.getD x.inside "") edgeNet) outside iv o s
        ((unshielded k (countsAs (x.names.getD x.inside "") edgeNet) outside shield ps).flatMap
          fun e => e.2.map fun q => (e.1, q)) = .ok recs := by
  unfold emitFringe
  rw [bind_ok]
  exact ⟨fun ⟨a, h, h'⟩ => ⟨a.1, a.2, h, h'⟩, fun ⟨o, s, h, h'⟩ => ⟨(o, s), h, h'⟩⟩

open Classical in
/-- **C34, exactness.** If the technology has the specifications, no division by zero occurs and every remaining piece of
a polygon of another net reaches beyond the edge, then the records are exactly: for each piece the law's value for the
band from its lower to its upper border, if this is above 0.0001 fF. -/
theorem fringe_exact (x : Ctx) (k : Kernel) (hk : KernelOK k) (outside edgeNet : String) (iv : ℚ × ℚ) (ps : List Poly)
    (hp : ∀ p ∈ ps, p.cells.Nonempty) (shield : Finset Cell) (o : OverlapSpec) (s : SideOverlapSpec)
    (hsub : ∃ t ∈ x.par.substrates, t.layer = x.names.getD x.inside "")
    (hload : ∀ t ∈ x.par.sideoverlaps, ∃ u ∈ x.par.substrates, u.layer = t.inLayer)
    (ho : PairSpec x.par (x.names.getD x.inside "") outside o)
    (hs : SideOverlapIs x.par (x.names.getD x.inside "") outside s)
    (hz : x.scale = true → o.cap ≠ 0 ∧ x.par.sideHalo ≠ 0)
    (hflat : ∀ e ∈ visible k (countsAs (x.names.getD x.inside "") edgeNet) outside shield ps, ∃ c ∈ e.2, 0 ≤ c.2)
    (cap : Finset Cell → ℝ)
    (hcap : ∀ q y z, Bottom q y → Top q z → cap q = law x.scale x.par.sideHalo x.dbu o.cap s.cap
      ((iv.2 - iv.1 : ℚ) : ℝ) (max 0 y : ℤ) (max 0 z : ℤ)) :
    ∃ recs, emitFringe x k outside edgeNet iv ps shield = .ok recs ∧
      recs.Perm ((visible k (countsAs (x.names.getD x.inside "") edgeNet) outside shield ps).filterMap fun e =>
        if 1 / 10000 < cap e.2 then some (.fringe ⟨x.names.getD x.inside "",
          countsAs (x.names.getD x.inside "") edgeNet, outside, e.1⟩ (cap e.2)) else none) := by
  have hb : ¬ (x.scale = true ∧ ratio o.cap x.par.sideHalo = 0) := by
    rintro ⟨h1, h2⟩
    obtain ⟨h3, h4⟩ := hz h1
    unfold ratio at h2
    have hpi := Real.pi_pos
    have h5 : (2 : ℝ) / Real.pi ≠ 0 := by positivity
    rcases mul_eq_zero.1 h2 with h | h
    · exact h5 h
    · rw [Real.arctan_eq_zero_iff] at h
      rcases mul_eq_zero.1 h with h | h
      · have : (o.cap : ℝ) ≠ 0 := by exact_mod_cast h3
        exact this (by linarith)
      · exact h4 (by exact_mod_cast h)
  have hperm := flat_unshielded k (countsAs (x.names.getD x.inside "") edgeNet) outside shield ps
  have hL : ∀ e ∈ (unshielded k (countsAs (x.names.getD x.inside "") edgeNet) outside shield ps).flatMap
      (fun e => e.2.map fun q => (e.1, q)), e.2.Nonempty ∧ ¬ Flat e.2 := by
    intro e he
    have he' := hperm.mem_iff.1 he
    have hne := visible_nonempty hk hp he'
    refine ⟨hne, ?_⟩
    obtain ⟨c, hc, h0⟩ := hflat e he'
    have := (top_yHigh hne).2 c hc
    unfold Flat; omega
  have hloop := fringeLoop_ok x (x.names.getD x.inside "") (countsAs (x.names.getD x.inside "") edgeNet) outside iv o s _
    hL hb
  refine ⟨_, (emitFringe_eq _ _ _ _ _ _ _ _).2 ⟨o, s, (fringeSpecs_ok _ _ _ _ _).2 ⟨hsub, hload, ho, hs⟩, hloop⟩, ?_⟩
  refine (hperm.filterMap _).trans (List.Perm.of_eq (List.filterMap_congr fun e he => ?_))
  have hne := visible_nonempty hk hp he
  unfold recOf
  rw [hcap e.2 _ _ (bottom_yLow hne) (top_yHigh hne)]

/-- **C34 (partial).** The records for an edge interval and a neighbouring layer do not depend on the order of the
polygons, as long as every remaining piece reaches beyond the edge.  Missing: pieces that end at the edge, for which the
claim is false (`fringe_order_fails`). -/
theorem fringe_order_partial (x : Ctx) (k : Kernel) (hk : KernelOK k) (outside edgeNet : String) (iv : ℚ × ℚ)
    (ps ps' : List Poly) (hps : ps.Perm ps') (hp : ∀ p ∈ ps, p.cells.Nonempty) (shield : Finset Cell)
    (hflat : ∀ e ∈ visible k (countsAs (x.names.getD x.inside "") edgeNet) outside shield ps, ∃ c ∈ e.2, 0 ≤ c.2)
    (recs : List Rec) (h : emitFringe x k outside edgeNet iv ps shield = .ok recs) :
    ∃ recs', emitFringe x k outside edgeNet iv ps' shield = .ok recs' ∧ recs.Perm recs' := by
  obtain ⟨o, s, hsp, hl⟩ := (emitFringe_eq _ _ _ _ _ _ _ _).1 h
  have hperm := flat_unshielded k (countsAs (x.names.getD x.inside "") edgeNet) outside shield ps
  have hperm' := flat_unshielded k (countsAs (x.names.getD x.inside "") edgeNet) outside shield ps'
  have hvis : (visible k (countsAs (x.names.getD x.inside "") edgeNet) outside shield ps).Perm
      (visible k (countsAs (x.names.getD x.inside "") edgeNet) outside shield ps') := hps.flatMap_right _
  have hfull := hperm.trans (hvis.trans hperm'.symm)
  generalize (unshielded k (countsAs (x.names.getD x.inside "") edgeNet) outside shield ps).flatMap
    (fun e => e.2.map fun q => (e.1, q)) = L at *
  generalize hL' : (unshielded k (countsAs (x.names.getD x.inside "") edgeNet) outside shield ps').flatMap
    (fun e => e.2.map fun q => (e.1, q)) = L' at *
  have hL : ∀ e ∈ L, e.2.Nonempty ∧ ¬ Flat e.2 := by
    intro e he
    have he' := hperm.mem_iff.1 he
    have hne := visible_nonempty hk hp he'
    refine ⟨hne, ?_⟩
    obtain ⟨c, hc, h0⟩ := hflat e he'
    have := (top_yHigh hne).2 c hc
    unfold Flat; omega
  by_cases hb : x.scale = true ∧ ratio o.cap x.par.sideHalo = 0
  · cases L with
    | nil =>
      have : L' = [] := List.nil_perm.1 hfull
      subst this
      refine ⟨recs, (emitFringe_eq _ _ _ _ _ _ _ _).2 ⟨o, s, hsp, ?_⟩, List.Perm.refl _⟩
      rw [hL']; exact hl
    | cons e L =>
      have := hL e List.mem_cons_self
      rw [fringeLoop_err _ _ _ _ _ _ _ _ _ this.1 this.2 hb] at hl
      cases hl
  · rw [fringeLoop_ok _ _ _ _ _ _ _ _ hL hb] at hl
    cases hl
    refine ⟨_, (emitFringe_eq _ _ _ _ _ _ _ _).2 ⟨o, s, hsp, ?_⟩, hfull.filterMap _⟩
    rw [hL']
    exact fringeLoop_ok _ _ _ _ _ _ _ _ (fun e he => hL e (hfull.mem_iff.2 he)) hb


/-! ### A decomposition that meets the assumptions -/

/-- Decomposition into rows. -/
def rowKernel : Kernel := fun s => ((s.image Prod.snd).sort (· ≤ ·)).map fun y => s.filter fun c => c.2 = y

theorem rowKernel_ok : KernelOK rowKernel where
  nonempty := by
    intro s q hq
    simp only [rowKernel, List.mem_map, Finset.mem_sort, Finset.mem_image] at hq
    obtain ⟨y, ⟨c, hc, rfl⟩, rfl⟩ := hq
    exact ⟨c, Finset.mem_filter.2 ⟨hc, rfl⟩⟩
  sub := by
    intro s q hq
    simp only [rowKernel, List.mem_map] at hq
    obtain ⟨y, _, rfl⟩ := hq
    exact Finset.filter_subset _ _
  cover := by
    intro s c hc
    refine ⟨s.filter fun d => d.2 = c.2, ?_, Finset.mem_filter.2 ⟨hc, rfl⟩⟩
    simp only [rowKernel, List.mem_map, Finset.mem_sort, Finset.mem_image]
    exact ⟨c.2, ⟨c, hc, rfl⟩, rfl⟩
  disjoint := by
    intro s
    unfold rowKernel
    rw [List.pairwise_map]
    refine (Finset.sort_nodup _ _).imp ?_
    intro a b hab
    rw [Finset.disjoint_left]
    intro c h1 h2
    exact hab ((Finset.mem_filter.1 h1).2.symm.trans (Finset.mem_filter.1 h2).2)

/-! ### C34 is false in general -/

/-- Technology of the counterexample. -/
def exPar : Parasitics :=
  { sideHalo := 8, substrates := [⟨"m1", 50, 50⟩], overlaps := [⟨"m2", "m1", 50⟩],
    sideoverlaps := [⟨"m1", "m2", 1000⟩], sidewalls := [⟨"m1", 40, 1⟩] }

/-- Visitor for the layer `m1`. -/
def exCtx : Ctx := ⟨["m1", "m2"], 0, 1, false, exPar⟩

/-- A polygon that ends at the edge. -/
def exFlat : Poly := ⟨"A", {((0 : ℤ), (-1 : ℤ))}⟩

/-- A polygon in front of the edge. -/
def exFront : Poly := ⟨"B", {((0 : ℤ), (0 : ℤ))}⟩

theorem exSpecs : fringeSpecs exPar "m1" "m2" = .ok (⟨"m2", "m1", 50⟩, ⟨"m1", "m2", 1000⟩) := by decide +kernel

/-- **C34 is false.** Two polygons of other nets, one of which ends at the edge: listed first, it removes the record of
the other one. -/
theorem fringe_order_fails : ∃ (x : Ctx) (k : Kernel) (ps ps' : List Poly) (r : Rec), KernelOK k ∧ ps.Perm ps' ∧
    (∀ p ∈ ps, p.cells.Nonempty) ∧ emitFringe x k "m2" "C" (0, 2) ps ∅ = .ok [] ∧
    emitFringe x k "m2" "C" (0, 2) ps' ∅ = .ok [r] := by
  have hspec : fringeSpecs exCtx.par (exCtx.names.getD exCtx.inside "") "m2" =
      .ok (⟨"m2", "m1", 50⟩, ⟨"m1", "m2", 1000⟩) := exSpecs
  have hb : ¬ (exCtx.scale = true ∧ ratio 50 exCtx.par.sideHalo = 0) := fun h => by cases h.1
  have hflat : Flat exFlat.cells := by unfold Flat; decide +kernel
  have hfront : ¬ Flat exFront.cells := by unfold Flat; decide +kernel
  have n1 : exFlat.cells.Nonempty := ⟨(0, -1), by decide +kernel⟩
  have n2 : exFront.cells.Nonempty := ⟨(0, 0), by decide +kernel⟩
  have u1 : (unshielded rowKernel (countsAs (exCtx.names.getD exCtx.inside "") "C") "m2" ∅ [exFlat, exFront]).flatMap
      (fun e => e.2.map fun q => (e.1, q)) = [("A", exFlat.cells), ("B", exFront.cells)] := by decide +kernel
  have u2 : (unshielded rowKernel (countsAs (exCtx.names.getD exCtx.inside "") "C") "m2" ∅ [exFront, exFlat]).flatMap
      (fun e => e.2.map fun q => (e.1, q)) = [("B", exFront.cells), ("A", exFlat.cells)] := by decide +kernel
  have hrec : ∃ r, recOf exCtx "m1" "C" "m2" (0, 2) ⟨"m2", "m1", 50⟩ ⟨"m1", "m2", 1000⟩ ("B", exFront.cells) = some r := by
    have y0 : yLow exFront.cells = 0 := by decide +kernel
    have y1 : yHigh exFront.cells = 1 := by decide +kernel
    unfold recOf
    simp only [y0, y1]
    have hv : law exCtx.scale exCtx.par.sideHalo exCtx.dbu 50 1000 (((2 : ℚ) - 0 : ℚ) : ℝ) (max 0 0 : ℤ) (max 0 1 : ℤ) =
        1 := by
      have hpi := Real.pi_pos
      unfold law ratio exCtx exPar
      norm_num
      field_simp
      norm_num
    rw [if_pos (by rw [hv]; norm_num)]
    exact ⟨_, rfl⟩
  obtain ⟨r, hr⟩ := hrec
  have fl : ∀ L, fringeLoop exCtx (exCtx.names.getD exCtx.inside "") (countsAs (exCtx.names.getD exCtx.inside "") "C") "m2"
      (0, 2) ⟨"m2", "m1", 50⟩ ⟨"m1", "m2", 1000⟩ (("A", exFlat.cells) :: L) = .ok [] :=
    fun L => fringeLoop_flat _ _ _ _ _ _ _ ("A", exFlat.cells) L n1 hflat
  refine ⟨exCtx, rowKernel, [exFlat, exFront], [exFront, exFlat], r, rowKernel_ok, List.Perm.swap _ _ _, ?_, ?_, ?_⟩
  · simp [n1, n2]
  · refine (emitFringe_eq _ _ _ _ _ _ _ _).2 ⟨_, _, hspec, ?_⟩
    rw [u1]
    exact fl _
  · refine (emitFringe_eq _ _ _ _ _ _ _ _).2 ⟨_, _, hspec, ?_⟩
    rw [u2, fringeLoop_cons exCtx _ _ _ _ ⟨"m2", "m1", 50⟩ ⟨"m1", "m2", 1000⟩ ("B", exFront.cells) _ n2 hfront hb,
      fl]
    change Except.ok ((recOf exCtx "m1" "C" "m2" (0, 2) ⟨"m2", "m1", 50⟩ ⟨"m1", "m2", 1000⟩
      ("B", exFront.cells)).toList ++ []) = _
    rw [hr]; rfl

/-! ### C59: one edge interval -/

/-- The sidewall records. -/
def sidewalls (recs : List Rec) : List SidewallCap :=
  recs.filterMap fun r => match r with
    | .sidewall c => some c
    | .fringe _ _ => none

/-- The fringe records to a layer. -/
def fringesTo (layer : String) (recs : List Rec) : List (SideOverlapKey × ℝ) :=
  recs.filterMap fun r => match r with
    | .sidewall _ => none
    | .fringe key c => if key.layerOutside = layer then some (key, c) else none

/-- The cells that lie behind the polygon `p` as seen from the edge: in its columns, not nearer than its lower border, up
to the halo plus 10 µm. -/
def Shadow (x : Ctx) (p : Poly) (c : Cell) : Prop :=
  (∃ a ∈ p.cells, a.1 ≤ c.1) ∧ (∃ b ∈ p.cells, c.1 ≤ b.1) ∧ (∃ a ∈ p.cells, a.2 ≤ c.2) ∧
    c.2 < ⌊(x.par.sideHalo + 10) / x.dbu⌋

/-- The nearest of the lateral polygons (shapes of the same layer, including the opposite side of the polygon that the
edge belongs to), if there is any. -/
def NearestLateral (x : Ctx) (nb : Dict Nat (List Poly)) : Option Poly → Prop
  | none => ∀ p, ¬ LateralPoly x nb p
  | some p => LateralPoly x nb p ∧ ∃ d, Dist p d ∧ ∀ q e, LateralPoly x nb q → Dist q e → d ≤ e

theorem mem_lateralShield (x : Ctx) (d : Option ℤ) (p : Poly) (hp : p.cells.Nonempty) (c : Cell) :
    c ∈ lateralShield x (some (d, p)) ↔ Shadow x p c := by
  have hx : (p.cells.image Prod.fst).Nonempty := hp.image _
  have hy := bottom_yLow hp
  unfold lateralShield nearestEdge Shadow xLow xHigh
  simp only [dif_pos hx, Finset.mem_product, Finset.mem_Ico]
  constructor
  · rintro ⟨⟨h1, h2⟩, h3, h4⟩
    refine ⟨?_, ?_, ?_, h4⟩
    · obtain ⟨a, ha, e⟩ := Finset.mem_image.1 (Finset.min'_mem _ hx)
      exact ⟨a, ha, by omega⟩
    · obtain ⟨a, ha, e⟩ := Finset.mem_image.1 (Finset.max'_mem _ hx)
      exact ⟨a, ha, by omega⟩
    · obtain ⟨⟨a, ha, e⟩, _⟩ := hy
      exact ⟨a, ha, by omega⟩
  · rintro ⟨⟨a, ha, h1⟩, ⟨b, hb, h2⟩, ⟨e, he, h3⟩, h4⟩
    have e1 := Finset.min'_le _ _ (Finset.mem_image_of_mem Prod.fst ha)
    have e2 := Finset.le_max' _ _ (Finset.mem_image_of_mem Prod.fst hb)
    have e3 := hy.2 e he
    exact ⟨⟨by omega, by omega⟩, by omega, h4⟩

theorem mem_foldl_union {α : Type} (l : List α) (f : α → Finset Cell) (s : Finset Cell) (c : Cell) :
    c ∈ l.foldl (fun s a => s ∪ f a) s ↔ c ∈ s ∨ ∃ a ∈ l, c ∈ f a := by
  induction l generalizing s with
  | nil => simp
  | cons a l ih =>
    rw [List.foldl_cons, ih, Finset.mem_union]
    simp only [List.mem_cons, exists_eq_or_imp]
    tauto

/-- The cells that do not see the edge: the shadow of the nearest lateral polygon and the polygons of the layers strictly
between. -/
def Shielded (x : Ctx) (nb : Dict Nat (List Poly)) (near : Option Poly) (j : Nat) (c : Cell) : Prop :=
  (∃ p, near = some p ∧ Shadow x p c) ∨
  ∃ i, (j < i ∧ i < x.inside ∨ x.inside < i ∧ i < j) ∧ ∃ qs, (i, qs) ∈ nb ∧ ∃ p ∈ qs, c ∈ p.cells

theorem mem_fringeShield (x : Ctx) (nb : Dict Nat (List Poly)) (hnd : nb.keys.Nodup) (lat : Finset Cell) (j : Nat)
    (c : Cell) : c ∈ fringeShield x nb lat j ↔ c ∈ lat ∨
      ∃ i, (j < i ∧ i < x.inside ∨ x.inside < i ∧ i < j) ∧ ∃ qs, (i, qs) ∈ nb ∧ ∃ p ∈ qs, c ∈ p.cells := by
  have hc : ∀ i, c ∈ childCells nb i ↔ ∃ qs, (i, qs) ∈ nb ∧ ∃ p ∈ qs, c ∈ p.cells := by
    intro i
    unfold childCells
    rw [mem_foldl_union]
    simp only [Finset.notMem_empty, false_or]
    constructor
    · rintro ⟨p, hp, hcp⟩
      unfold Dict.getD at hp
      cases h : nb.get? i with
      | none => rw [h] at hp; simp at hp
      | some qs => rw [h] at hp; exact ⟨qs, Dict.mem_of_get? h, p, hp, hcp⟩
    · rintro ⟨qs, hq, p, hp, hcp⟩
      refine ⟨p, ?_, hcp⟩
      unfold Dict.getD
      rw [Dict.get?_of_mem hnd hq]; exact hp
  unfold fringeShield
  rw [mem_foldl_union]
  refine or_congr Iff.rfl (exists_congr fun i => ?_)
  rw [hc]
  refine and_congr ?_ Iff.rfl
  by_cases h1 : j < x.inside
  · rw [if_pos h1, List.mem_range'_1]; omega
  · rw [if_neg h1]
    by_cases h2 : x.inside < j
    · rw [if_pos h2, List.mem_range'_1]; omega
    · rw [if_neg h2]; simp only [List.not_mem_nil, false_iff]; omega

/-- What holds of a neighbourhood as KLayout reports it: the children are distinct, every listed child has polygons and no
polygon is empty. -/
structure Reported (nb : Dict Nat (List Poly)) : Prop where
  nodup : nb.keys.Nodup
  nonempty : ∀ e ∈ nb, e.2 ≠ [] ∧ ∀ p ∈ e.2, p.cells.Nonempty

theorem emitFringe_shape (x : Ctx) (k : Kernel) (hk : KernelOK k) (outside edgeNet : String) (iv : ℚ × ℚ)
    (ps : List Poly) (hp : ∀ p ∈ ps, p.cells.Nonempty) (shield : Finset Cell) (rs : List Rec)
    (h : emitFringe x k outside edgeNet iv ps shield = .ok rs) :
    ∃ (o : OverlapSpec) (s : SideOverlapSpec) (A B : List (String × Finset Cell)), fringeSpecs x.par (x.names.getD x.inside "") outside = .ok (o, s) ∧
      (A ++ B).Perm (visible k (countsAs (x.names.getD x.inside "") edgeNet) outside shield ps) ∧
      (∀ e ∈ A, ¬ Flat e.2) ∧ (∀ e ∈ B.head?, Flat e.2) ∧
      rs = A.filterMap (recOf x (x.names.getD x.inside "") (countsAs (x.names.getD x.inside "") edgeNet) outside iv o s) := by
  obtain ⟨o, s, hs, hl⟩ := (emitFringe_eq _ _ _ _ _ _ _ _).1 h
  have hperm := flat_unshielded k (countsAs (x.names.getD x.inside "") edgeNet) outside shield ps
  obtain ⟨A, B, hAB, hA, hB, rfl⟩ := fringeLoop_prefix _ _ _ _ _ _ _ _
    (fun e he => visible_nonempty hk hp (hperm.mem_iff.1 he)) _ hl
  rw [hAB] at hperm
  exact ⟨o, s, A, B, hs, hperm, hA, hB, rfl⟩

/-- The fringe records of an edge interval towards the polygons `ps` of a layer behind a shield: with the specifications
of the pair of layers, the pieces that remain are evaluated one after the other, each with the law for its band and
recorded if above 0.0001 fF.  The evaluation ends at the first piece that does not reach beyond the edge. -/
def FringeRecs (x : Ctx) (k : Kernel) (outside edgeNet : String) (iv : ℚ × ℚ) (ps : List Poly) (shield : Finset Cell)
    (rs : List Rec) : Prop :=
  ∃ (o : OverlapSpec) (s : SideOverlapSpec) (A B : List (String × Finset Cell)) (cap : Finset Cell → ℝ),
    PairSpec x.par (x.names.getD x.inside "") outside o ∧ SideOverlapIs x.par (x.names.getD x.inside "") outside s ∧
    (A ++ B).Perm (visible k (countsAs (x.names.getD x.inside "") edgeNet) outside shield ps) ∧
    (∀ e ∈ A, ∃ c ∈ e.2, 0 ≤ c.2) ∧ (∀ e ∈ B.head?, ∀ c ∈ e.2, c.2 < 0) ∧
    (∀ q y z, Bottom q y → Top q z → cap q = law x.scale x.par.sideHalo x.dbu o.cap s.cap
      ((iv.2 - iv.1 : ℚ) : ℝ) (max 0 y : ℤ) (max 0 z : ℤ)) ∧
    rs = A.filterMap fun e => open Classical in
      if 1 / 10000 < cap e.2 then some (.fringe ⟨x.names.getD x.inside "",
        countsAs (x.names.getD x.inside "") edgeNet, outside, e.1⟩ (cap e.2)) else none

/-- **C34, whatever is reported.** Every successful evaluation gives the records described by `FringeRecs`. -/
theorem fringe_records (x : Ctx) (k : Kernel) (hk : KernelOK k) (outside edgeNet : String) (iv : ℚ × ℚ)
    (ps : List Poly) (hp : ∀ p ∈ ps, p.cells.Nonempty) (shield : Finset Cell) (rs : List Rec)
    (h : emitFringe x k outside edgeNet iv ps shield = .ok rs) : FringeRecs x k outside edgeNet iv ps shield rs := by
  obtain ⟨o, s, A, B, hs, hperm, hA, hB, rfl⟩ := emitFringe_shape x k hk outside edgeNet iv ps hp shield rs h
  obtain ⟨_, _, ho, hso⟩ := (fringeSpecs_ok _ _ _ _ _).1 hs
  have hne : ∀ e ∈ A ++ B, e.2.Nonempty := fun e he => visible_nonempty hk hp (hperm.mem_iff.1 he)
  refine ⟨o, s, A, B, fun q => law x.scale x.par.sideHalo x.dbu o.cap s.cap ((iv.2 - iv.1 : ℚ) : ℝ)
    (max 0 (yLow q) : ℤ) (max 0 (yHigh q) : ℤ), ho, hso, hperm, ?_, ?_, ?_, ?_⟩
  · intro e he
    have h1 := hA e he
    obtain ⟨⟨c, hc, hc'⟩, _⟩ := top_yHigh (hne e (by simp [he]))
    unfold Flat at h1
    exact ⟨c, hc, by omega⟩
  · intro e he c hc
    have h1 := hB e he
    have := (top_yHigh (hne e (List.mem_append_right _ (List.mem_of_mem_head? he)))).2 c hc
    unfold Flat at h1
    omega
  · intro q y z hy hz
    simp only [hy.eq, hz.eq]
  · rfl

theorem recOf_some {x : Ctx} {inside net outside : String} {iv : ℚ × ℚ} {o : OverlapSpec} {s : SideOverlapSpec}
    {e : String × Finset Cell} {r : Rec} (h : recOf x inside net outside iv o s e = some r) :
    r = .fringe ⟨inside, net, outside, e.1⟩ (law x.scale x.par.sideHalo x.dbu o.cap s.cap ((iv.2 - iv.1 : ℚ) : ℝ)
      (max 0 (yLow e.2) : ℤ) (max 0 (yHigh e.2) : ℤ)) := by
  unfold recOf at h
  simp only at h
  split_ifs at h
  exact (Option.some.inj h).symm

theorem sidewalls_emit {x : Ctx} {k : Kernel} (hk : KernelOK k) {outside edgeNet : String} {iv : ℚ × ℚ}
    {ps : List Poly} (hp : ∀ p ∈ ps, p.cells.Nonempty) {shield : Finset Cell} {rs : List Rec}
    (h : emitFringe x k outside edgeNet iv ps shield = .ok rs) :
    ∀ r ∈ rs, ∃ key c, r = .fringe key c ∧ key.layerOutside = outside := by
  obtain ⟨o, s, A, B, _, _, _, _, rfl⟩ := emitFringe_shape x k hk outside edgeNet iv ps hp shield rs h
  intro r hr
  obtain ⟨e, _, he⟩ := List.mem_filterMap.1 hr
  rw [recOf_some he]
  exact ⟨_, _, rfl, rfl⟩

theorem sidewalls_append (a b : List Rec) : sidewalls (a ++ b) = sidewalls a ++ sidewalls b := List.filterMap_append
theorem fringesTo_append (n : String) (a b : List Rec) : fringesTo n (a ++ b) = fringesTo n a ++ fringesTo n b :=
  List.filterMap_append

theorem sidewalls_map (l : List SidewallCap) : sidewalls (l.map .sidewall) = l := by
  induction l with
  | nil => rfl
  | cons c l ih => rw [List.map_cons]; unfold sidewalls at ih ⊢; rw [List.filterMap_cons]; simp only [ih]

theorem fringesTo_map (n : String) (l : List SidewallCap) : fringesTo n (l.map .sidewall) = [] := by
  unfold fringesTo; rw [List.filterMap_eq_nil_iff]
  intro r hr
  obtain ⟨c, _, rfl⟩ := List.mem_map.1 hr
  rfl

/-- Records of one edge interval in terms of `emit_fringe`. -/
theorem interval_emit (x : Ctx) (hin : x.inside < x.names.length) (hnames : x.names.Nodup) (k : Kernel)
    (hk : KernelOK k) (edgeNet : String) (iv : ℚ × ℚ) (hlen : 1 < iv.2 - iv.1) (nb : Dict Nat (List Poly))
    (hnb : Reported nb) (recs : List Rec) (h : onInterval x k edgeNet iv nb = .ok recs) :
    ((∀ ps, (x.inside, ps) ∉ nb) → sidewalls recs = []) ∧
    (∀ ps, (x.inside, ps) ∈ nb → ∃ d p, Nearest ps d p ∧ (p.net = edgeNet → sidewalls recs = []) ∧
      (p.net ≠ edgeNet → ∃ c, sidewalls recs = [c] ∧
        SidewallLaw x.par (x.names.getD x.inside "") edgeNet x.dbu (iv.2 - iv.1) p c)) ∧
    ∃ near, NearestLateral x nb near ∧ ∀ j, j ≠ x.inside → j < x.names.length →
      ((∀ ps, (j, ps) ∉ nb) → fringesTo (x.names.getD j "") recs = []) ∧
      ∀ ps, (j, ps) ∈ nb → ∀ shield : Finset Cell, (∀ c, c ∈ shield ↔ Shielded x nb near j c) →
        ∃ rs, emitFringe x k (x.names.getD j "") edgeNet iv ps shield = .ok rs ∧
          fringesTo (x.names.getD j "") recs = fringesTo (x.names.getD j "") rs := by
  by_cases he : nb.isEmpty = true
  · -- nothing reported
    have hnil : nb = [] := List.isEmpty_iff.1 he
    subst hnil
    have : recs = [] := by
      unfold onInterval at h
      rw [if_pos he] at h
      exact (Except.ok.inj h).symm
    subst this
    refine ⟨fun _ => rfl, fun ps hps => absurd hps (by simp), none, ?_, ?_⟩
    · rintro p ⟨ps, hps, _⟩; simp at hps
    · intro j _ _; exact ⟨fun _ => rfl, fun ps hps => absurd hps (by simp)⟩
  · unfold onInterval at h
    rw [if_neg he, if_neg (not_le.2 hlen), bind_ok] at h
    obtain ⟨l, hl, hf⟩ := h
    obtain ⟨hfin, hbest, R, hR, hR1, hR2⟩ := lateral_loop x hin edgeNet iv nb hnb.nodup hnb.nonempty ⟨none, []⟩ l
      (by intro n hn; cases hn) hl
    obtain ⟨out, hrecs, hkeys, hout⟩ := fringe_fold x k edgeNet iv nb _ nb _ recs hf
    simp only [List.nil_append] at hR
    have hswout : sidewalls (out.flatMap Prod.snd) = [] := by
      unfold sidewalls; rw [List.filterMap_eq_nil_iff]
      intro r hr
      obtain ⟨o, ho, hro⟩ := List.mem_flatMap.1 hr
      obtain ⟨ps, hps, hemit⟩ := hout o ho
      obtain ⟨key, c, rfl, _⟩ := sidewalls_emit hk (hnb.nonempty _ hps).2 hemit r hro
      rfl
    have hsw : sidewalls recs = R := by
      rw [hrecs, sidewalls_append, sidewalls_map, hswout, hR, List.append_nil]
    refine ⟨?_, ?_, ?_⟩
    · intro hno
      rw [hsw]
      refine hR1 fun hm => ?_
      obtain ⟨e, he, hee⟩ := List.mem_map.1 hm
      exact hno e.2 (by rw [← hee]; exact he)
    · intro ps hps
      obtain ⟨d, p, hn, hemit⟩ := hR2 ps hps
      have hpne := (hnb.nonempty _ hps).2 p hn.mem
      obtain ⟨s1, s2⟩ := sidewall_record x edgeNet iv p hpne R hemit
      exact ⟨d, p, hn, fun h => by rw [hsw]; exact s1 h.symm, fun h => by rw [hsw]; exact s2 (fun h' => h h'.symm)⟩
    · refine ⟨l.nearest.map Prod.snd, ?_, ?_⟩
      · unfold IsBest at hbest
        cases hl' : l.nearest with
        | none => rw [hl'] at hbest; exact hbest.2
        | some n =>
          rw [hl'] at hbest
          obtain ⟨d, p⟩ := n
          obtain ⟨z, rfl, hor, hmin, _⟩ := hbest
          rcases hor with h | ⟨h, hd⟩
          · cases h
          · exact ⟨h, z, hd, hmin⟩
      · have hlat : ∀ c, c ∈ lateralShield x l.nearest ↔ ∃ p, l.nearest.map Prod.snd = some p ∧ Shadow x p c := by
          intro c
          cases hl' : l.nearest with
          | none => simp [lateralShield]
          | some n =>
            obtain ⟨d, p⟩ := n
            have hp : p.cells.Nonempty := by
              unfold IsBest at hbest
              rw [hl'] at hbest
              obtain ⟨z, rfl, hor, _, _⟩ := hbest
              rcases hor with h | ⟨⟨ps, hps | hps, hp⟩, _⟩
              · cases h
              · exact (hnb.nonempty _ hps).2 p hp
              · exact (hnb.nonempty _ hps).2 p hp
            rw [mem_lateralShield x d p hp]
            simp
        intro j hj1 hj2
        -- records of the other children do not name this layer
        have hother : ∀ o ∈ out, o.1 ≠ j → fringesTo (x.names.getD j "") o.2 = [] := by
          intro o ho hne
          obtain ⟨ps, hps, hemit⟩ := hout o ho
          have hoj : o.1 < x.names.length := by
            have : o.1 ∈ out.map Prod.fst := List.mem_map_of_mem ho
            rw [hkeys, List.mem_filter] at this
            simpa using (by simpa using this.2 : ¬ o.1 = x.inside ∧ o.1 < x.names.length).2
          unfold fringesTo; rw [List.filterMap_eq_nil_iff]
          intro r hr
          obtain ⟨key, c, rfl, hkey⟩ := sidewalls_emit hk (hnb.nonempty _ hps).2 hemit r hr
          have : key.layerOutside ≠ x.names.getD j "" := by
            rw [hkey]
            intro he
            have h1 := List.getD_eq_getElem x.names "" hoj
            have h2 := List.getD_eq_getElem x.names "" hj2
            rw [h1, h2] at he
            exact hne ((List.Nodup.getElem_inj_iff hnames).1 he)
          simp only [if_neg this]
        have hnodup : (out.map Prod.fst).Nodup := by rw [hkeys]; exact List.Nodup.filter _ hnb.nodup
        have hsum : fringesTo (x.names.getD j "") recs = out.flatMap fun o => fringesTo (x.names.getD j "") o.2 := by
          rw [hrecs, fringesTo_append, fringesTo_map, List.nil_append]
          clear hrecs hkeys hout hother hnodup hf hswout
          induction out with
          | nil => rfl
          | cons o out ih => rw [List.flatMap_cons, fringesTo_append, ih, List.flatMap_cons]
        refine ⟨fun hno => ?_, fun ps hps shield hsh => ?_⟩
        · rw [hsum, List.flatMap_eq_nil_iff]
          intro o ho
          by_cases hoj : o.1 = j
          · obtain ⟨ps, hps, _⟩ := hout o ho
            exact absurd (hoj ▸ hps) (hno ps)
          · exact hother o ho hoj
        · have hmem : j ∈ out.map Prod.fst := by
            rw [hkeys, List.mem_filter]
            exact ⟨List.mem_map_of_mem (f := Prod.fst) hps, by simp [hj1, hj2]⟩
          obtain ⟨o, ho, hoj⟩ := List.mem_map.1 hmem
          obtain ⟨ps', hps', hemit⟩ := hout o ho
          rw [hoj] at hps' hemit
          have hpp : ps' = ps := by
            have h1 := Dict.get?_of_mem hnb.nodup hps'
            have h2 := Dict.get?_of_mem hnb.nodup hps
            rw [h1] at h2; exact Option.some.inj h2
          subst hpp
          have hshield : fringeShield x nb (lateralShield x l.nearest) j = shield := by
            ext c
            rw [hsh c, mem_fringeShield x nb hnb.nodup]
            exact or_congr (hlat c) Iff.rfl
          rw [hshield] at hemit
          refine ⟨o.2, hemit, ?_⟩
          rw [hsum]
          clear hsum hrecs hkeys hout hmem hf hswout
          induction out with
          | nil => simp at ho
          | cons a out ih =>
            rw [List.map_cons, List.nodup_cons] at hnodup
            rw [List.flatMap_cons]
            rcases List.mem_cons.1 ho with rfl | ho'
            · have : (out.flatMap fun o => fringesTo (x.names.getD j "") o.2) = [] := by
                rw [List.flatMap_eq_nil_iff]
                intro b hb
                refine hother b (List.mem_cons_of_mem _ hb) fun hbj => hnodup.1 ?_
                rw [hoj, ← hbj]; exact List.mem_map_of_mem hb
              rw [this, List.append_nil]
            · have ha : a.1 ≠ j := fun haj => hnodup.1 (by rw [haj, ← hoj]; exact List.mem_map_of_mem ho')
              rw [hother a List.mem_cons_self ha, List.nil_append]
              exact ih (fun o ho => hother o (List.mem_cons_of_mem _ ho)) hnodup.2 ho'

/-- **C59, nothing else.** Every fringe record of an edge interval goes to another layer that is listed in the
neighbourhood. -/
theorem interval_layers (x : Ctx) (k : Kernel) (hk : KernelOK k) (edgeNet : String) (iv : ℚ × ℚ)
    (nb : Dict Nat (List Poly)) (hnb : Reported nb) (recs : List Rec) (h : onInterval x k edgeNet iv nb = .ok recs)
    (key : SideOverlapKey) (c : ℝ) (hr : .fringe key c ∈ recs) :
    ∃ j ps, (j, ps) ∈ nb ∧ j ≠ x.inside ∧ j < x.names.length ∧ key.layerOutside = x.names.getD j "" := by
  unfold onInterval at h
  split_ifs at h
  · cases Except.ok.inj h; simp at hr
  · cases Except.ok.inj h; simp at hr
  · rw [bind_ok] at h
    obtain ⟨l, hl, hf⟩ := h
    obtain ⟨out, hrecs, hkeys, hout⟩ := fringe_fold x k edgeNet iv nb _ nb _ recs hf
    rw [hrecs, List.mem_append] at hr
    rcases hr with hr | hr
    · obtain ⟨_, _, he⟩ := List.mem_map.1 hr; cases he
    · obtain ⟨o, ho, hro⟩ := List.mem_flatMap.1 hr
      obtain ⟨ps, hps, hemit⟩ := hout o ho
      obtain ⟨key', c', he, hkey⟩ := sidewalls_emit hk (hnb.nonempty _ hps).2 hemit _ hro
      cases he
      have : o.1 ∈ out.map Prod.fst := List.mem_map_of_mem ho
      rw [hkeys, List.mem_filter] at this
      have h2 := of_decide_eq_true this.2
      exact ⟨o.1, ps, hps, h2.1, h2.2, hkey⟩

/-- **C59, one edge interval.** There is a nearest lateral polygon or no lateral one at all, such that: the sidewall
records are those of the nearest polygon on the same layer (one record if it has another net, none otherwise); and for
every other layer `j` with reported polygons the fringe records to that layer are given by the law for what
remains of the polygons with exactly the shielded cells taken away. -/
theorem interval_exact (x : Ctx) (hin : x.inside < x.names.length) (hnames : x.names.Nodup) (k : Kernel)
    (hk : KernelOK k) (edgeNet : String) (iv : ℚ × ℚ) (hlen : 1 < iv.2 - iv.1) (nb : Dict Nat (List Poly))
    (hnb : Reported nb) (recs : List Rec) (h : onInterval x k edgeNet iv nb = .ok recs) :
    ((∀ ps, (x.inside, ps) ∉ nb) → sidewalls recs = []) ∧
    (∀ ps, (x.inside, ps) ∈ nb → ∃ d p, Nearest ps d p ∧ (p.net = edgeNet → sidewalls recs = []) ∧
      (p.net ≠ edgeNet → ∃ c, sidewalls recs = [c] ∧
        SidewallLaw x.par (x.names.getD x.inside "") edgeNet x.dbu (iv.2 - iv.1) p c)) ∧
    ∃ near, NearestLateral x nb near ∧ ∀ j, j ≠ x.inside → j < x.names.length →
      ((∀ ps, (j, ps) ∉ nb) → fringesTo (x.names.getD j "") recs = []) ∧
      ∀ ps, (j, ps) ∈ nb → ∀ shield : Finset Cell, (∀ c, c ∈ shield ↔ Shielded x nb near j c) →
        ∃ rs, FringeRecs x k (x.names.getD j "") edgeNet iv ps shield rs ∧
          fringesTo (x.names.getD j "") recs = fringesTo (x.names.getD j "") rs := by
  obtain ⟨h1, h2, near, h3, h4⟩ := interval_emit x hin hnames k hk edgeNet iv hlen nb hnb recs h
  refine ⟨h1, h2, near, h3, fun j hj1 hj2 => ⟨(h4 j hj1 hj2).1, fun ps hps shield hsh => ?_⟩⟩
  obtain ⟨rs, hrs, he⟩ := (h4 j hj1 hj2).2 ps hps shield hsh
  exact ⟨rs, fringe_records x k hk _ edgeNet iv ps (hnb.nonempty _ hps).2 shield rs hrs, he⟩

/-- **C59, short and empty intervals** give no records at all. -/
theorem interval_skipped (x : Ctx) (k : Kernel) (edgeNet : String) (iv : ℚ × ℚ) (nb : Dict Nat (List Poly))
    (h : nb = [] ∨ iv.2 - iv.1 ≤ 1) : onInterval x k edgeNet iv nb = .ok [] := by
  unfold onInterval
  by_cases he : nb.isEmpty = true
  · rw [if_pos he]; rfl
  · rw [if_neg he]
    rcases h with rfl | h
    · simp at he
    · rw [if_pos h]; rfl


/-! ### C59: the total never exceeds the nominal capacitance -/

/-- A region that covers, in every row it touches, exactly the columns from `a` to `b`. -/
def FullWidth (a b : ℤ) (s : Finset Cell) : Prop := ∃ Y : Finset ℤ, s = Finset.Ico a b ×ˢ Y

/-- A region that spans an interval is taken apart into bands: polygons are connected. -/
def KernelBands (k : Kernel) : Prop := ∀ a b s, a < b → FullWidth a b s → ∀ q ∈ k s, ∃ y z, y < z ∧
  q = Finset.Ico a b ×ˢ Finset.Ico y z

theorem rowKernel_bands : KernelBands rowKernel := by
  rintro a b s hab ⟨Y, rfl⟩ q hq
  simp only [rowKernel, List.mem_map, Finset.mem_sort, Finset.mem_image] at hq
  obtain ⟨y, ⟨c, hc, rfl⟩, rfl⟩ := hq
  refine ⟨c.2, c.2 + 1, by omega, ?_⟩
  ext d
  have hcy := (Finset.mem_product.1 hc).2
  simp only [Finset.mem_filter, Finset.mem_product, Finset.mem_Ico]
  constructor
  · rintro ⟨⟨h1, h2⟩, h3⟩; exact ⟨h1, by omega, by omega⟩
  · rintro ⟨h1, h2, h3⟩
    have : d.2 = c.2 := by omega
    exact ⟨⟨h1, by rw [this]; exact hcy⟩, this⟩

theorem telescope (G : ℤ → ℝ) (a : ℤ) : ∀ b, a ≤ b → ∑ y ∈ Finset.Ico a b, (G (y + 1) - G y) = G b - G a := by
  refine Int.le_induction (by simp) ?_
  intro b hab ih
  have : Finset.Ico a (b + 1) = insert b (Finset.Ico a b) := by
    ext y; simp only [Finset.mem_Ico, Finset.mem_insert]; omega
  rw [this, Finset.sum_insert (by simp), ih]; ring

theorem sum_disjoint_le (inc : ℤ → ℝ) (hinc : ∀ y, 0 ≤ inc y) (L : List (Finset ℤ)) (hd : L.Pairwise Disjoint)
    (U : Finset ℤ) (hU : ∀ s ∈ L, s ⊆ U) : (L.map fun s => ∑ y ∈ s, inc y).sum ≤ ∑ y ∈ U, inc y := by
  induction L generalizing U with
  | nil => simp only [List.map_nil, List.sum_nil]; exact Finset.sum_nonneg fun y _ => hinc y
  | cons s L ih =>
    rw [List.pairwise_cons] at hd
    have h1 := ih hd.2 (U \ s) (fun t ht => by
      intro y hy
      refine Finset.mem_sdiff.2 ⟨hU t (List.mem_cons_of_mem _ ht) hy, fun hys => ?_⟩
      exact Finset.disjoint_left.1 (hd.1 t ht) hys hy)
    rw [List.map_cons, List.sum_cons, ← Finset.sum_sdiff (hU s List.mem_cons_self)]
    linarith

theorem rows_band {a b y z : ℤ} (hab : a < b) : (Finset.Ico a b ×ˢ Finset.Ico y z).image Prod.snd = Finset.Ico y z := by
  ext v
  simp only [Finset.mem_image, Finset.mem_product, Finset.mem_Ico]
  constructor
  · rintro ⟨c, ⟨_, h⟩, rfl⟩; exact h
  · intro h; exact ⟨(a, v), ⟨⟨le_refl _, hab⟩, h⟩, rfl⟩

theorem band_low {a b y z : ℤ} (hab : a < b) (hyz : y < z) : Bottom (Finset.Ico a b ×ˢ Finset.Ico y z) y := by
  refine ⟨⟨(a, y), ?_, rfl⟩, fun c hc => ?_⟩
  · simp only [Finset.mem_product, Finset.mem_Ico]; omega
  · simp only [Finset.mem_product, Finset.mem_Ico] at hc; omega

theorem band_high {a b y z : ℤ} (hab : a < b) (hyz : y < z) : Top (Finset.Ico a b ×ˢ Finset.Ico y z) z := by
  refine ⟨⟨(a, z - 1), ?_, by simp⟩, fun c hc => ?_⟩
  · simp only [Finset.mem_product, Finset.mem_Ico]; omega
  · simp only [Finset.mem_product, Finset.mem_Ico] at hc; omega

/-- Pieces of disjoint polygons are disjoint. -/
theorem visible_disjoint {k : Kernel} (hk : KernelOK k) {net outside : String} {shield : Finset Cell} {ps : List Poly}
    (hps : ps.Pairwise fun p q => Disjoint p.cells q.cells) :
    ((visible k net outside shield ps).map Prod.snd).Pairwise Disjoint := by
  have hsub : ∀ p : Poly, ∀ q ∈ remains k shield p, q ⊆ p.cells := by
    intro p q hq
    unfold remains at hq
    split_ifs at hq
    · rw [List.mem_singleton] at hq; rw [hq]
    · exact (hk.sub _ q hq).trans Finset.sdiff_subset
  have hin : ∀ p : Poly, (remains k shield p).Pairwise Disjoint := by
    intro p
    unfold remains
    split_ifs
    · exact List.pairwise_singleton _ _
    · exact hk.disjoint _
  have hmem : ∀ (p : Poly) (q : Finset Cell),
      q ∈ (if net = countsAs outside p.net then [] else
        (remains k shield p).map fun q => (countsAs outside p.net, q)).map Prod.snd → q ∈ remains k shield p := by
    intro p q hq
    split_ifs at hq
    · simp at hq
    · simpa using hq
  unfold visible
  rw [List.map_flatMap]
  induction ps with
  | nil => exact List.Pairwise.nil
  | cons p ps ih =>
    rw [List.pairwise_cons] at hps
    rw [List.flatMap_cons, List.pairwise_append]
    refine ⟨?_, ih hps.2, ?_⟩
    · split_ifs
      · exact List.Pairwise.nil
      · rw [List.map_map]
        have : (Prod.snd ∘ fun q : Finset Cell => (countsAs outside p.net, q)) = id := rfl
        rw [this, List.map_id]; exact hin p
    · intro q hq r hr
      obtain ⟨p', hp', hr⟩ := List.mem_flatMap.1 hr
      exact Disjoint.mono (hsub p q (hmem p q hq)) (hsub p' r (hmem p' r hr)) (hps.1 p' hp')

theorem fringesTo_recs {x : Ctx} {inside net outside : String} {iv : ℚ × ℚ} {o : OverlapSpec} {s : SideOverlapSpec}
    (A : List (String × Finset Cell)) (hnn : ∀ e ∈ A, 0 ≤ law x.scale x.par.sideHalo x.dbu o.cap s.cap
      ((iv.2 - iv.1 : ℚ) : ℝ) (max 0 (yLow e.2) : ℤ) (max 0 (yHigh e.2) : ℤ)) :
    ((fringesTo outside (A.filterMap (recOf x inside net outside iv o s))).map Prod.snd).sum ≤
      (A.map fun e => law x.scale x.par.sideHalo x.dbu o.cap s.cap
        ((iv.2 - iv.1 : ℚ) : ℝ) (max 0 (yLow e.2) : ℤ) (max 0 (yHigh e.2) : ℤ)).sum := by
  induction A with
  | nil => simp [fringesTo]
  | cons e A ih =>
    have ih' := ih (fun e he => hnn e (List.mem_cons_of_mem _ he))
    have he := hnn e List.mem_cons_self
    rw [List.map_cons, List.sum_cons, List.filterMap_cons]
    cases hr : recOf x inside net outside iv o s e with
    | none => simp only; linarith
    | some r =>
      rw [recOf_some hr]
      simp only
      unfold fringesTo at ih' ⊢
      rw [List.filterMap_cons]
      simp only [if_true, List.map_cons, List.sum_cons]
      linarith

/-- **C59, upper bound.** With halo scaling, on an interval whose polygons span the interval (Manhattan layouts), the
fringe capacitances recorded from the edge to all shapes of a layer together never exceed the nominal one, length times
capacitance per length: no part of the field is counted twice. -/
theorem fringe_total_bounded (x : Ctx) (hin : x.inside < x.names.length) (hnames : x.names.Nodup) (k : Kernel)
    (hk : KernelOK k) (hkb : KernelBands k) (edgeNet : String) (iv : ℚ × ℚ) (hlen : 1 < iv.2 - iv.1)
    (nb : Dict Nat (List Poly)) (hnb : Reported nb) (recs : List Rec) (h : onInterval x k edgeNet iv nb = .ok recs)
    (hscale : x.scale = true) (hdbu : 0 < x.dbu) (hhalo : 0 < x.par.sideHalo)
    (hcap : ∀ o ∈ x.par.overlaps, 0 < o.cap) (hsubs : ∀ t ∈ x.par.substrates, 0 < t.area ∧ 0 < t.perimeter)
    (hside : ∀ s ∈ x.par.sideoverlaps, 0 < s.cap)
    (a b H : ℤ) (hab : a < b) (hH : (H : ℚ) * x.dbu ≤ x.par.sideHalo) (hH0 : 0 ≤ H)
    (hfull : ∀ e ∈ nb, ∀ p ∈ e.2, ∃ y z, y < z ∧ p.cells = Finset.Ico a b ×ˢ Finset.Ico y z)
    (hrange : ∀ e ∈ nb, ∀ p ∈ e.2, ∀ c ∈ p.cells, -1 ≤ c.2 ∧ c.2 < H)
    (j : Nat) (hj : j ≠ x.inside) (hjl : j < x.names.length) (ps : List Poly) (hps : (j, ps) ∈ nb)
    (hdis : ps.Pairwise fun p q => Disjoint p.cells q.cells) :
    ∃ s, SideOverlapIs x.par (x.names.getD x.inside "") (x.names.getD j "") s ∧
      ((fringesTo (x.names.getD j "") recs).map Prod.snd).sum ≤ ((iv.2 - iv.1 : ℚ) : ℝ) * x.dbu * s.cap / 1000 := by
  classical
  obtain ⟨_, _, near, hnear, hmain⟩ := interval_emit x hin hnames k hk edgeNet iv hlen nb hnb recs h
  -- the shield, cut to the relevant rows and columns, is a union of rows
  have hnearfull : ∀ p, near = some p → ∃ y z, y < z ∧ p.cells = Finset.Ico a b ×ˢ Finset.Ico y z := by
    rintro p rfl
    obtain ⟨⟨qs, hq | hq, hp⟩, _⟩ := hnear
    · exact hfull _ hq p hp
    · exact hfull _ hq p hp
  obtain ⟨shield, hshield⟩ : ∃ shield : Finset Cell, ∀ c, c ∈ shield ↔ Shielded x nb near j c := by
    have hfin : {c | Shielded x nb near j c}.Finite := by
      refine Set.Finite.subset (Finset.finite_toSet (Finset.Ico a b ×ˢ
        (Finset.Ico (-1) H ∪ Finset.Ico (-1) ⌊(x.par.sideHalo + 10) / x.dbu⌋))) ?_
      rintro c (⟨p, hp, hsh⟩ | ⟨i, _, qs, hq, p, hp, hc⟩)
      · obtain ⟨y, z, _, hpc⟩ := hnearfull p hp
        obtain ⟨⟨u, hu, h1⟩, ⟨v, hv, h2⟩, ⟨w, hw, h3⟩, h4⟩ := hsh
        have hwr : -1 ≤ w.2 := by
          cases hp
          obtain ⟨⟨qs, hq | hq, hp'⟩, _⟩ := hnear
          · exact (hrange _ hq _ hp' w hw).1
          · exact (hrange _ hq _ hp' w hw).1
        rw [hpc] at hu hv
        simp only [Finset.mem_product, Finset.mem_Ico] at hu hv
        simp only [Finset.coe_product, Set.mem_prod, Finset.mem_coe, Finset.mem_Ico, Finset.mem_union]
        exact ⟨⟨by omega, by omega⟩, Or.inr ⟨by omega, h4⟩⟩
      · obtain ⟨y, z, _, hpc⟩ := hfull _ hq p hp
        have hr := hrange _ hq p hp c hc
        rw [hpc] at hc
        simp only [Finset.mem_product, Finset.mem_Ico] at hc
        simp only [Finset.coe_product, Set.mem_prod, Finset.mem_coe, Finset.mem_Ico, Finset.mem_union]
        exact ⟨hc.1, Or.inl hr⟩
    exact ⟨hfin.toFinset, fun c => by rw [Set.Finite.mem_toFinset]; rfl⟩
  have hrow : ∀ u v y : ℤ, a ≤ u → u < b → a ≤ v → v < b → ((u, y) ∈ shield ↔ (v, y) ∈ shield) := by
    have key : ∀ u v y : ℤ, a ≤ u → u < b → a ≤ v → v < b → (u, y) ∈ shield → (v, y) ∈ shield := by
      intro u v y hu1 hu2 hv1 hv2 hs
      rw [hshield] at hs ⊢
      rcases hs with ⟨p, hp, hsh⟩ | ⟨i, hi, qs, hq, p, hp, hc⟩
      · left
        obtain ⟨y1, z1, hyz, hpc⟩ := hnearfull p hp
        obtain ⟨_, _, h3, h4⟩ := hsh
        refine ⟨p, hp, ⟨(a, y1), ?_, hv1⟩, ⟨(b - 1, y1), ?_, by omega⟩, h3, h4⟩
        · rw [hpc]; simp only [Finset.mem_product, Finset.mem_Ico]; omega
        · rw [hpc]; simp only [Finset.mem_product, Finset.mem_Ico]; omega
      · right
        refine ⟨i, hi, qs, hq, p, hp, ?_⟩
        obtain ⟨y1, z1, _, hpc⟩ := hfull _ hq p hp
        rw [hpc] at hc ⊢
        simp only [Finset.mem_product, Finset.mem_Ico] at hc ⊢
        exact ⟨⟨hv1, hv2⟩, hc.2⟩
    exact fun u v y h1 h2 h3 h4 => ⟨key u v y h1 h2 h3 h4, key v u y h3 h4 h1 h2⟩
  obtain ⟨rs, hemit, hrs⟩ := (hmain j hj hjl).2 ps hps shield hshield
  have hpne := (hnb.nonempty _ hps).2
  obtain ⟨o, s, A, B, hspec, hperm, _, _, hA⟩ := emitFringe_shape x k hk _ edgeNet iv ps hpne shield rs hemit
  obtain ⟨_, _, hpair, hso⟩ := (fringeSpecs_ok _ _ _ _ _).1 hspec
  have hocap : 0 < o.cap := by
    have : ∀ a' b', OverlapIs x.par a' b' o → 0 < o.cap := by
      rintro a' b' (h | ⟨_, _, t, ht, rfl⟩)
      · exact hcap o h.mem
      · exact (hsubs t ht.mem).1
    rcases hpair with h | ⟨_, h⟩
    · exact this _ _ h
    · exact this _ _ h
  have hscap : 0 < s.cap := by
    rcases hso with h | ⟨_, _, t, ht, rfl⟩
    · exact hside s h.mem
    · exact (hsubs t ht.mem).2
  refine ⟨s, hso, ?_⟩
  rw [hrs, hA]
  have hdbu' : (0 : ℝ) < x.dbu := by exact_mod_cast hdbu
  have hhalo' : (0 : ℝ) < x.par.sideHalo := by exact_mod_cast hhalo
  have hscap' : (0 : ℝ) < s.cap := by exact_mod_cast hscap
  have hlen' : (0 : ℝ) < ((iv.2 - iv.1 : ℚ) : ℝ) := by
    have : (0 : ℚ) < iv.2 - iv.1 := by linarith
    exact_mod_cast this
  have hr0 := ratio_pos hocap hhalo'
  -- every piece is a band
  have hband : ∀ e ∈ visible k (countsAs (x.names.getD x.inside "") edgeNet) (x.names.getD j "") shield ps,
      ∃ y z, y < z ∧ e.2 = Finset.Ico a b ×ˢ Finset.Ico y z ∧ -1 ≤ y ∧ z ≤ H := by
    intro e he
    unfold visible at he
    obtain ⟨p, hp, he⟩ := List.mem_flatMap.1 he
    split_ifs at he
    · simp at he
    · obtain ⟨q, hq, rfl⟩ := List.mem_map.1 he
      obtain ⟨y1, z1, hyz1, hpc⟩ := hfull _ hps p hp
      have hr : ∀ c ∈ q, -1 ≤ c.2 ∧ c.2 < H := by
        have hqs : q ⊆ p.cells := by
          unfold remains at hq
          split_ifs at hq
          · rw [List.mem_singleton] at hq; rw [hq]
          · exact (hk.sub _ q hq).trans Finset.sdiff_subset
        exact fun c hc => hrange _ hps p hp c (hqs hc)
      have hqb : ∃ y z, y < z ∧ q = Finset.Ico a b ×ˢ Finset.Ico y z := by
        unfold remains at hq
        split_ifs at hq
        · rw [List.mem_singleton] at hq; rw [hq]; exact ⟨y1, z1, hyz1, hpc⟩
        · refine hkb a b _ hab ⟨(Finset.Ico y1 z1).filter fun y => (a, y) ∉ shield, ?_⟩ q hq
          ext c
          rw [hpc]
          simp only [Finset.mem_sdiff, Finset.mem_product, Finset.mem_filter, Finset.mem_Ico]
          constructor
          · rintro ⟨⟨h1, h2⟩, h3⟩
            exact ⟨h1, h2, fun h4 => h3 ((hrow a c.1 c.2 (le_refl _) hab h1.1 h1.2).1 h4)⟩
          · rintro ⟨h1, h2, h3⟩
            exact ⟨⟨h1, h2⟩, fun h4 => h3 ((hrow a c.1 c.2 (le_refl _) hab h1.1 h1.2).2 h4)⟩
      obtain ⟨y, z, hyz, hqe⟩ := hqb
      refine ⟨y, z, hyz, hqe, ?_, ?_⟩
      · exact (hr (a, y) (by rw [hqe]; simp only [Finset.mem_product, Finset.mem_Ico]; omega)).1
      · have := (hr (a, z - 1) (by rw [hqe]; simp only [Finset.mem_product, Finset.mem_Ico]; omega)).2
        simp only at this; omega
  -- increments of the field
  let G : ℤ → ℝ := fun y => ratio o.cap (((max 0 y : ℤ) : ℝ) * x.dbu)
  have hG : ∀ y, 0 ≤ G (y + 1) - G y := by
    intro y
    have : ((max 0 y : ℤ) : ℝ) ≤ ((max 0 (y + 1) : ℤ) : ℝ) := by
      have : max 0 y ≤ max 0 (y + 1) := by omega
      exact_mod_cast this
    have := ratio_mono (le_of_lt hocap) (mul_le_mul_of_nonneg_right this (le_of_lt hdbu'))
    simp only [G]; linarith
  let K : ℝ := ((iv.2 - iv.1 : ℚ) : ℝ) * x.dbu * s.cap / 1000 / ratio o.cap x.par.sideHalo
  have hK : 0 ≤ K := by positivity
  have hlaw : ∀ e ∈ A ++ B, law x.scale x.par.sideHalo x.dbu o.cap s.cap ((iv.2 - iv.1 : ℚ) : ℝ)
      (max 0 (yLow e.2) : ℤ) (max 0 (yHigh e.2) : ℤ) = K * ∑ y ∈ e.2.image Prod.snd, (G (y + 1) - G y) := by
    intro e he
    obtain ⟨y, z, hyz, hqe, _, _⟩ := hband e (hperm.mem_iff.1 he)
    rw [hqe, rows_band hab, telescope G y z (le_of_lt hyz), (band_low hab hyz).eq, (band_high hab hyz).eq]
    simp only [law, hscale, if_true, K, G]
    field_simp
  have hnn : ∀ e ∈ A ++ B, 0 ≤ law x.scale x.par.sideHalo x.dbu o.cap s.cap ((iv.2 - iv.1 : ℚ) : ℝ)
      (max 0 (yLow e.2) : ℤ) (max 0 (yHigh e.2) : ℤ) := by
    intro e he
    rw [hlaw e he]
    exact mul_nonneg hK (Finset.sum_nonneg fun y _ => hG y)
  refine (fringesTo_recs A (fun e he => hnn e (List.mem_append_left _ he))).trans ?_
  have hle : (A.map fun e => law x.scale x.par.sideHalo x.dbu o.cap s.cap ((iv.2 - iv.1 : ℚ) : ℝ)
      (max 0 (yLow e.2) : ℤ) (max 0 (yHigh e.2) : ℤ)).sum ≤
      ((A ++ B).map fun e => K * ∑ y ∈ e.2.image Prod.snd, (G (y + 1) - G y)).sum := by
    have h1 : ((A ++ B).map fun e => K * ∑ y ∈ e.2.image Prod.snd, (G (y + 1) - G y)) =
        (A ++ B).map fun e => law x.scale x.par.sideHalo x.dbu o.cap s.cap ((iv.2 - iv.1 : ℚ) : ℝ)
          (max 0 (yLow e.2) : ℤ) (max 0 (yHigh e.2) : ℤ) := List.map_congr_left fun e he => (hlaw e he).symm
    rw [h1, List.map_append, List.sum_append]
    have : 0 ≤ (B.map fun e => law x.scale x.par.sideHalo x.dbu o.cap s.cap ((iv.2 - iv.1 : ℚ) : ℝ)
          (max 0 (yLow e.2) : ℤ) (max 0 (yHigh e.2) : ℤ)).sum := by
      refine List.sum_nonneg fun v hv => ?_
      obtain ⟨e, he, rfl⟩ := List.mem_map.1 hv
      exact hnn e (List.mem_append_right _ he)
    linarith
  refine hle.trans ?_
  have hsum : ((A ++ B).map fun e => K * ∑ y ∈ e.2.image Prod.snd, (G (y + 1) - G y)).sum =
      K * (((A ++ B).map fun e => e.2.image Prod.snd).map fun Y => ∑ y ∈ Y, (G (y + 1) - G y)).sum := by
    rw [List.map_map, ← List.sum_map_mul_left]; rfl
  rw [hsum]
  have hdisj : ((A ++ B).map fun e => e.2.image Prod.snd).Pairwise Disjoint := by
    have h1 : ((A ++ B).map Prod.snd).Pairwise Disjoint :=
      ((hperm.map Prod.snd).pairwise_iff (fun {_ _} h => Disjoint.symm h)).2 (visible_disjoint hk hdis)
    rw [List.pairwise_map] at h1 ⊢
    refine List.Pairwise.imp_of_mem ?_ h1
    intro e f he hf hef
    obtain ⟨y, z, hyz, hqe, _, _⟩ := hband e (hperm.mem_iff.1 he)
    obtain ⟨y', z', hyz', hqe', _, _⟩ := hband f (hperm.mem_iff.1 hf)
    rw [hqe, hqe'] at hef ⊢
    rw [rows_band hab, rows_band hab, Finset.disjoint_left]
    intro v hv hv'
    have m : ∀ {y z : ℤ}, v ∈ Finset.Ico y z → (a, v) ∈ Finset.Ico a b ×ˢ Finset.Ico y z :=
      fun h => Finset.mem_product.2 ⟨Finset.mem_Ico.2 ⟨le_refl _, hab⟩, h⟩
    exact Finset.disjoint_left.1 hef (m hv) (m hv')
  have hU : ∀ Y ∈ (A ++ B).map (fun e => e.2.image Prod.snd), Y ⊆ Finset.Ico (-1) H := by
    intro Y hY
    obtain ⟨e, he, rfl⟩ := List.mem_map.1 hY
    obtain ⟨y, z, hyz, hqe, h1, h2⟩ := hband e (hperm.mem_iff.1 he)
    rw [hqe, rows_band hab]
    intro v hv
    rw [Finset.mem_Ico] at hv ⊢; omega
  have hbound := sum_disjoint_le (fun y => G (y + 1) - G y) hG _ hdisj _ hU
  rw [telescope G (-1) H (by omega)] at hbound
  have hGH : G H - G (-1) ≤ ratio o.cap x.par.sideHalo := by
    have h1 : G (-1) = 0 := by simp only [G]; norm_num [ratio_zero]
    have h2 : G H ≤ ratio o.cap x.par.sideHalo := by
      simp only [G]
      refine ratio_mono (le_of_lt hocap) ?_
      rw [max_eq_right hH0]
      have : ((H : ℚ) * x.dbu : ℚ) ≤ x.par.sideHalo := hH
      have : (((H : ℚ) * x.dbu : ℚ) : ℝ) ≤ x.par.sideHalo := by exact_mod_cast this
      push_cast at this; exact this
    linarith
  have := mul_le_mul_of_nonneg_left (hbound.trans hGH) hK
  refine this.trans (le_of_eq ?_)
  simp only [K]
  field_simp


/-! ### The whole extraction -/

theorem foldlM_concat {α β : Type} (f : α → Except String (List β)) (l : List α) (acc recs : List β)
    (h : l.foldlM (fun rs a => do return rs ++ (← f a)) acc = .ok recs) :
    (∀ a ∈ l, ∃ r, f a = .ok r) ∧
      ∀ g : α → List β, (∀ a ∈ l, f a = .ok (g a)) → recs = acc ++ l.flatMap g := by
  induction l generalizing acc with
  | nil => cases (Except.ok.inj h : acc = recs); exact ⟨by simp, fun g _ => by simp⟩
  | cons a l ih =>
    rw [List.foldlM_cons, bind_ok] at h
    obtain ⟨acc1, h1, h2⟩ := h
    rw [bind_ok] at h1
    obtain ⟨r, hr, h1⟩ := h1
    obtain ⟨i1, i2⟩ := ih acc1 h2
    refine ⟨?_, ?_⟩
    · intro b hb
      rcases List.mem_cons.1 hb with rfl | hb
      · exact ⟨r, hr⟩
      · exact i1 b hb
    · intro g hg
      have hra : r = g a := by have := hg a List.mem_cons_self; rw [hr] at this; exact Except.ok.inj this
      rw [i2 g (fun b hb => hg b (List.mem_cons_of_mem _ hb)), ← Except.ok.inj h1, List.flatMap_cons, hra,
        List.append_assoc]

/-- **C59, the whole extraction.** A run that ends without exception has visited every interval of every edge of every
layer, each with the names, the layer, the units and the technology of the run, and its records are those of the
intervals, in order. -/
theorem extract_concat (names : List String) (dbu : ℚ) (scale : Bool) (par : Parasitics) (k : Kernel)
    (edges : Nat → List (String × Neighborhood)) (recs : List Rec) (h : extract names dbu scale par k edges = .ok recs) :
    ∃ out : Nat → String → (ℚ × ℚ) × Dict Nat (List Poly) → List Rec,
      (∀ i < names.length, ∀ e ∈ edges i, ∀ v ∈ e.2,
        onInterval ⟨names, i, dbu, scale, par⟩ k e.1 v.1 v.2 = .ok (out i e.1 v)) ∧
      recs = (List.range names.length).flatMap fun i => (edges i).flatMap fun e => e.2.flatMap (out i e.1) := by
  have getOk : ∀ e : Except String (List Rec), ∃ r, ∀ r', e = .ok r' → e = .ok r := by
    intro e
    cases e with
    | error m => exact ⟨[], fun r' h => by cases h⟩
    | ok r => exact ⟨r, fun _ _ => rfl⟩
  choose pick hpick using getOk
  unfold extract at h
  obtain ⟨o1, o2⟩ := foldlM_concat _ _ _ _ h
  refine ⟨fun i net v => pick (onInterval ⟨names, i, dbu, scale, par⟩ k net v.1 v.2), ?_, ?_⟩
  · intro i hi e he v hv
    obtain ⟨r, hr⟩ := o1 i (List.mem_range.2 hi)
    obtain ⟨r', hr'⟩ := (foldlM_concat _ _ _ _ hr).1 e he
    obtain ⟨r'', hr''⟩ := (foldlM_concat _ _ _ _ hr').1 v hv
    exact hpick _ r'' hr''
  · have := o2 (fun i => (edges i).flatMap fun e => e.2.flatMap fun v =>
      pick (onInterval ⟨names, i, dbu, scale, par⟩ k e.1 v.1 v.2)) ?_
    · simpa using this
    · intro i hi
      obtain ⟨r, hr⟩ := o1 i hi
      obtain ⟨e1, e2⟩ := foldlM_concat _ _ _ _ hr
      rw [hr, e2 (fun e => e.2.flatMap fun v => pick (onInterval ⟨names, i, dbu, scale, par⟩ k e.1 v.1 v.2)) ?_,
        List.nil_append]
      intro e he
      obtain ⟨r', hr'⟩ := e1 e he
      obtain ⟨d1, d2⟩ := foldlM_concat _ _ _ _ hr'
      have := d2 (fun v => pick (onInterval ⟨names, i, dbu, scale, par⟩ k e.1 v.1 v.2)) (fun v hv => by
        obtain ⟨r'', hr''⟩ := d1 v hv
        exact hpick _ r'' hr'')
      rw [List.nil_append] at this
      rw [← this]; exact hr'

/-! ### The hypotheses are met: an edge of `m1` with a facing wire of another net and two shapes on `m2` -/

/-- Visitor with halo scaling. -/
def exCtx2 : Ctx := ⟨["m1", "m2"], 0, 1, true, exPar⟩

/-- Facing wire on `m1`, at distance 3. -/
noncomputable def exSide : Poly := ⟨"B", Finset.Ico 0 2 ×ˢ Finset.Ico 3 5⟩

/-- First shape on `m2`, next to the edge. -/
noncomputable def exUp1 : Poly := ⟨"B", Finset.Ico 0 2 ×ˢ Finset.Ico 0 2⟩

/-- Second shape on `m2`, partly behind the facing wire. -/
noncomputable def exUp2 : Poly := ⟨"D", Finset.Ico 0 2 ×ˢ Finset.Ico 2 6⟩

/-- The neighbourhood. -/
noncomputable def exNb : Dict Nat (List Poly) := [(0, [exSide]), (1, [exUp1, exUp2])]

theorem exReported : Reported exNb where
  nodup := by decide +kernel
  nonempty := by
    intro e he
    simp only [exNb, List.mem_cons, List.not_mem_nil, or_false] at he
    rcases he with rfl | rfl
    · refine ⟨by simp, fun p hp => ?_⟩
      simp only [List.mem_cons, List.not_mem_nil, or_false] at hp
      subst hp
      exact ⟨(0, 3), by decide +kernel⟩
    · refine ⟨by simp, fun p hp => ?_⟩
      simp only [List.mem_cons, List.not_mem_nil, or_false] at hp
      rcases hp with rfl | rfl
      · exact ⟨(0, 0), by decide +kernel⟩
      · exact ⟨(0, 2), by decide +kernel⟩

/-- The sidewall capacitance of the example: 2 µm facing length, distance 3 µm, offset 1 µm. -/
theorem exSidewall : (emitSidewall exCtx2 "C" (0, 2) exSide).map (fun l => l.map fun c => (c.key, c.capValue)) =
    .ok [(⟨"m1", "C", "B"⟩, 2 * 40 / (3 + 1) / 2 / 1000)] := by decide +kernel

/-- The extraction of the example interval succeeds. -/
theorem exInterval : ∃ recs, onInterval exCtx2 rowKernel "C" (0, 2) exNb = .ok recs := by
  have hlat : ∃ l, exNb.foldlM (lateralStep exCtx2 "C" (0, 2)) ⟨none, []⟩ = .ok l := by
    cases h : exNb.foldlM (lateralStep exCtx2 "C" (0, 2)) ⟨none, []⟩ with
    | ok l => exact ⟨l, rfl⟩
    | error m =>
      have : (exNb.foldlM (lateralStep exCtx2 "C" (0, 2)) ⟨none, []⟩).isOk = true := by decide +kernel
      rw [h] at this; cases this
  obtain ⟨l, hl⟩ := hlat
  have hspec : fringeSpecs exCtx2.par (exCtx2.names.getD exCtx2.inside "") "m2" =
      .ok (⟨"m2", "m1", 50⟩, ⟨"m1", "m2", 1000⟩) := exSpecs
  have hbad : ¬ (exCtx2.scale = true ∧ ratio (OverlapSpec.cap ⟨"m2", "m1", 50⟩) exCtx2.par.sideHalo = 0) := by
    rintro ⟨_, h⟩
    have := ratio_pos (cov := 50) (by norm_num) (d := (8 : ℚ)) (by norm_num)
    exact absurd h (ne_of_gt this)
  have hemit : ∀ shield, ∃ rs, emitFringe exCtx2 rowKernel "m2" "C" (0, 2) [exUp1, exUp2] shield = .ok rs := by
    intro shield
    have hL : ∀ e ∈ (unshielded rowKernel (countsAs (exCtx2.names.getD exCtx2.inside "") "C") "m2" shield
        [exUp1, exUp2]).flatMap (fun e => e.2.map fun q => (e.1, q)), e.2.Nonempty ∧ ¬ Flat e.2 := by
      intro e he
      have he' := (flat_unshielded _ _ _ _ _).mem_iff.1 he
      have hne := visible_nonempty rowKernel_ok
        (exReported.nonempty (1, [exUp1, exUp2]) (by simp [exNb])).2 he'
      refine ⟨hne, ?_⟩
      have hpos : ∀ c ∈ e.2, 0 ≤ c.2 := by
        obtain ⟨p, hp, he⟩ := List.mem_flatMap.1 he'
        have hpp : ∀ c ∈ p.cells, 0 ≤ c.2 := by
          simp only [List.mem_cons, List.not_mem_nil, or_false] at hp
          rcases hp with rfl | rfl
          · decide +kernel
          · decide +kernel
        split_ifs at he
        · simp at he
        · obtain ⟨q, hq, rfl⟩ := List.mem_map.1 he
          unfold remains at hq
          split_ifs at hq
          · rw [List.mem_singleton] at hq; rw [hq]; exact hpp
          · exact fun c hc => hpp c (Finset.sdiff_subset (rowKernel_ok.sub _ q hq hc))
      obtain ⟨c, hc⟩ := hne
      have := (top_yHigh ⟨c, hc⟩).2 c hc
      have := hpos c hc
      unfold Flat; omega
    exact ⟨_, (emitFringe_eq _ _ _ _ _ _ _ _).2 ⟨_, _, hspec, fringeLoop_ok exCtx2 _ _ _ _ _ _ _ hL hbad⟩⟩
  obtain ⟨rs, hrs⟩ := hemit (fringeShield exCtx2 exNb (lateralShield exCtx2 l.nearest) 1)
  refine ⟨l.recs.map .sidewall ++ rs, ?_⟩
  unfold onInterval
  rw [if_neg (by decide), if_neg (by norm_num), bind_ok]
  refine ⟨l, hl, ?_⟩
  unfold exNb
  rw [List.foldlM_cons, bind_ok]
  refine ⟨l.recs.map .sidewall, ?_, ?_⟩
  · unfold fringeStep; rw [if_pos (by decide)]; rfl
  · rw [List.foldlM_cons, bind_ok]
    refine ⟨_, ?_, rfl⟩
    unfold fringeStep
    rw [if_neg (by decide), if_pos (by decide), bind_ok]
    exact ⟨rs, hrs, rfl⟩

example : ∃ recs, onInterval exCtx2 rowKernel "C" (0, 2) exNb = .ok recs ∧
    ∃ s, SideOverlapIs exPar "m1" "m2" s ∧
      ((fringesTo "m2" recs).map Prod.snd).sum ≤ (((2 : ℚ) - 0 : ℚ) : ℝ) * (1 : ℚ) * s.cap / 1000 := by
  obtain ⟨recs, h⟩ := exInterval
  refine ⟨recs, h, ?_⟩
  refine fringe_total_bounded exCtx2 (by decide) (by decide) rowKernel rowKernel_ok rowKernel_bands "C" (0, 2) (by norm_num)
    exNb exReported recs h rfl (by decide +kernel) (by decide +kernel) (by decide +kernel) (by decide +kernel)
    (by decide +kernel) 0 2 8 (by norm_num) (by decide +kernel) (by norm_num) ?_ ?_ 1 (by decide) (by decide)
    [exUp1, exUp2] (by simp [exNb]) ?_
  · intro e he p hp
    simp only [exNb, List.mem_cons, List.not_mem_nil, or_false] at he
    rcases he with rfl | rfl
    · simp only [List.mem_cons, List.not_mem_nil, or_false] at hp
      subst hp; exact ⟨3, 5, by norm_num, rfl⟩
    · simp only [List.mem_cons, List.not_mem_nil, or_false] at hp
      rcases hp with rfl | rfl
      · exact ⟨0, 2, by norm_num, rfl⟩
      · exact ⟨2, 6, by norm_num, rfl⟩
  · intro e he p hp
    simp only [exNb, List.mem_cons, List.not_mem_nil, or_false] at he
    rcases he with rfl | rfl
    · simp only [List.mem_cons, List.not_mem_nil, or_false] at hp
      subst hp; decide +kernel
    · simp only [List.mem_cons, List.not_mem_nil, or_false] at hp
      rcases hp with rfl | rfl <;> decide +kernel
  · decide +kernel

example : nearestEdgeDistance exSide = 3 ∧ Nearest [exUp2, exUp1, exSide] 0 exUp1 := by
  refine ⟨by decide +kernel, [exUp2], [exSide], rfl, ⟨0, band_low (by norm_num) (by norm_num), rfl⟩, ?_, ?_⟩
  · intro q hq e he
    simp only [List.mem_cons, List.not_mem_nil, or_false] at hq
    subst hq
    rw [← he.eq]; decide +kernel
  · intro q hq e he
    simp only [List.mem_cons, List.not_mem_nil, or_false] at hq
    subst hq
    rw [← he.eq]; decide +kernel

end Verif.Fringe
