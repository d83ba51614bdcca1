import Verif.Fringe.Props

/-!
# When the sidewall and fringe extraction runs to the end

An exception of the extraction ends the whole run.  Here are the conditions under which there is none, and the cases in
which a missing specification makes one.
-/

namespace Verif.Fringe

open TechInfo (Parasitics OverlapSpec SideOverlapSpec SidewallSpec IsLast SideOverlapIs)
open Overlap (Cell Poly)
open Summary (SidewallCap)

theorem foldlM_succeeds {α β : Type} (f : β → α → Except String β) (l : List α)
    (h : ∀ b, ∀ a ∈ l, ∃ b', f b a = .ok b') (b : β) : ∃ b', l.foldlM f b = .ok b' := by
  induction l generalizing b with
  | nil => exact ⟨b, rfl⟩
  | cons a l ih =>
    obtain ⟨b1, h1⟩ := h b a List.mem_cons_self
    obtain ⟨b2, h2⟩ := ih (fun b a ha => h b a (List.mem_cons_of_mem _ ha)) b1
    exact ⟨b2, by rw [List.foldlM_cons, bind_ok]; exact ⟨b1, h1, h2⟩⟩

theorem foldlM_fails {α β : Type} (f : β → α → Except String β) (l : List α) (a : α) (ha : a ∈ l)
    (h : ∀ b b', f b a ≠ .ok b') (b b' : β) : l.foldlM f b ≠ .ok b' := by
  induction l generalizing b with
  | nil => simp at ha
  | cons x l ih =>
    rw [List.foldlM_cons, Ne, bind_ok]
    rintro ⟨b1, h1, h2⟩
    rcases List.mem_cons.1 ha with rfl | ha
    · exact h _ _ h1
    · exact ih ha _ h2

/-- The technology says how an edge on layer `a` couples to shapes on layer `b`. -/
def CanCouple (par : Parasitics) (a b : String) : Prop :=
  (∃ t ∈ par.substrates, t.layer = a) ∧ (∃ o, PairSpec par a b o) ∧ ∃ s, SideOverlapIs par a b s

/-- The values of the technology do not lead to a division by zero: the overlap capacitances and the halo are not 0. -/
def NoZero (par : Parasitics) : Prop :=
  par.sideHalo ≠ 0 ∧ (∀ o ∈ par.overlaps, o.cap ≠ 0) ∧ ∀ t ∈ par.substrates, t.area ≠ 0

/-- The sidewall of a polygon `p` in front of an edge on the layer can be evaluated. -/
def CanFace (par : Parasitics) (dbu : ℚ) (layer : String) (p : Poly) : Prop :=
  ∃ s y, IsLast (fun s => s.layer = layer) par.sidewalls s ∧ Bottom p.cells y ∧ y * dbu + s.offset ≠ 0

theorem overlap_nonzero {par : Parasitics} (h : NoZero par) {a b : String} {o : OverlapSpec}
    (ho : TechInfo.OverlapIs par a b o) : o.cap ≠ 0 := by
  rcases ho with ho | ⟨_, _, s, hs, rfl⟩
  · exact h.2.1 o ho.mem
  · exact h.2.2 s hs.mem

theorem ratio_ne_zero {par : Parasitics} (h : NoZero par) {a b : String} {o : OverlapSpec} (ho : PairSpec par a b o) :
    ratio o.cap par.sideHalo ≠ 0 := by
  have hc : o.cap ≠ 0 := by
    rcases ho with ho | ⟨_, ho⟩ <;> exact overlap_nonzero h ho
  intro h2
  unfold ratio at h2
  have hpi := Real.pi_pos
  have h5 : (2 : ℝ) / Real.pi ≠ 0 := by positivity
  rcases mul_eq_zero.1 h2 with e | e
  · exact h5 e
  · rw [Real.arctan_eq_zero_iff] at e
    rcases mul_eq_zero.1 e with e | e
    · have : (o.cap : ℝ) ≠ 0 := by exact_mod_cast hc
      exact this (by linarith)
    · exact h.1 (by exact_mod_cast e)

theorem fringeLoop_succeeds (x : Ctx) (inside insideNet outside : String) (iv : ℚ × ℚ) (o : OverlapSpec)
    (s : SideOverlapSpec) (L : List (String × Finset Cell)) (hL : ∀ e ∈ L, e.2.Nonempty)
    (hb : ¬ (x.scale = true ∧ ratio o.cap x.par.sideHalo = 0)) :
    ∃ recs, fringeLoop x inside insideNet outside iv o s L = .ok recs := by
  induction L with
  | nil => exact ⟨_, rfl⟩
  | cons e L ih =>
    obtain ⟨recs, h⟩ := ih fun e he => hL e (List.mem_cons_of_mem _ he)
    have he := hL e List.mem_cons_self
    by_cases hf : Flat e.2
    · exact ⟨_, fringeLoop_flat _ _ _ _ _ _ _ _ _ he hf⟩
    · exact ⟨_, by rw [fringeLoop_cons _ _ _ _ _ _ _ _ _ he hf hb, h]; rfl⟩

/-- The technology gives the substrate capacitance of every layer for which it gives side overlap capacitances. -/
def Loads (par : Parasitics) : Prop := ∀ t ∈ par.sideoverlaps, ∃ u ∈ par.substrates, u.layer = t.inLayer

theorem emitFringe_succeeds (x : Ctx) (k : Kernel) (hk : KernelOK k) (hload : Loads x.par)
    (hz : x.scale = true → NoZero x.par) (outside edgeNet : String) (iv : ℚ × ℚ) (ps : List Poly)
    (hp : ∀ p ∈ ps, p.cells.Nonempty) (shield : Finset Cell)
    (hc : CanCouple x.par (x.names.getD x.inside "") outside) :
    ∃ recs, emitFringe x k outside edgeNet iv ps shield = .ok recs := by
  obtain ⟨h1, ⟨o, ho⟩, s, hs⟩ := hc
  have hperm := flat_unshielded k (countsAs (x.names.getD x.inside "") edgeNet) outside shield ps
  obtain ⟨recs, h⟩ := fringeLoop_succeeds x (x.names.getD x.inside "") (countsAs (x.names.getD x.inside "") edgeNet)
    outside iv o s _ (fun e he => visible_nonempty hk hp (hperm.mem_iff.1 he))
    (fun hb => ratio_ne_zero (hz hb.1) ho hb.2)
  exact ⟨recs, (emitFringe_eq _ _ _ _ _ _ _ _).2 ⟨o, s, (fringeSpecs_ok _ _ _ _ _).2 ⟨h1, hload, ho, hs⟩, h⟩⟩

theorem emitFringe_fails (x : Ctx) (k : Kernel) (outside edgeNet : String) (iv : ℚ × ℚ) (ps : List Poly)
    (shield : Finset Cell) (hc : ¬ CanCouple x.par (x.names.getD x.inside "") outside) (recs : List Rec) :
    emitFringe x k outside edgeNet iv ps shield ≠ .ok recs := by
  intro h
  obtain ⟨o, s, hsp, _⟩ := (emitFringe_eq _ _ _ _ _ _ _ _).1 h
  obtain ⟨h1, _, h3, h4⟩ := (fringeSpecs_ok _ _ _ _ _).1 hsp
  exact hc ⟨h1, ⟨o, h3⟩, s, h4⟩

theorem emitSidewall_succeeds (x : Ctx) (edgeNet : String) (iv : ℚ × ℚ) (p : Poly) (hp : p.cells.Nonempty)
    (h : p.net ≠ edgeNet → CanFace x.par x.dbu (x.names.getD x.inside "") p) :
    ∃ rs, emitSidewall x edgeNet iv p = .ok rs := by
  unfold emitSidewall
  by_cases hn : edgeNet = p.net
  · exact ⟨[], by simp only [hn, if_true]⟩
  · obtain ⟨s, y, hs, hy, hne⟩ := h (Ne.symm hn)
    have hs' := (sidewallTable_get _ _ _).2 hs
    cases hy.unique (bottom_yLow hp)
    simp only [hn, if_false, hs', min_low_high, if_neg hne]
    exact ⟨_, rfl⟩

/-- Nothing in the neighbourhood of an edge interval stops the extraction. -/
structure Evaluable (x : Ctx) (edgeNet : String) (nb : Dict Nat (List Poly)) : Prop where
  nonempty : ∀ e ∈ nb, e.2 ≠ [] ∧ ∀ p ∈ e.2, p.cells.Nonempty
  faces : ∀ ps, (x.inside, ps) ∈ nb → ∀ p ∈ ps, p.net ≠ edgeNet → CanFace x.par x.dbu (x.names.getD x.inside "") p
  couples : ∀ j ps, (j, ps) ∈ nb → j ≠ x.inside → j < x.names.length →
    CanCouple x.par (x.names.getD x.inside "") (x.names.getD j "")

theorem onInterval_succeeds (x : Ctx) (k : Kernel) (hk : KernelOK k) (hload : Loads x.par)
    (hz : x.scale = true → NoZero x.par) (edgeNet : String) (iv : ℚ × ℚ) (nb : Dict Nat (List Poly))
    (hnb : 1 < iv.2 - iv.1 → Evaluable x edgeNet nb) : ∃ recs, onInterval x k edgeNet iv nb = .ok recs := by
  unfold onInterval
  split_ifs with h1 h2
  · exact ⟨_, rfl⟩
  · exact ⟨_, rfl⟩
  · have he := hnb (not_le.1 h2)
    have hnear : ∀ e ∈ nb, ∃ d p, findNearest e.2 = .ok (some d, p) ∧ p ∈ e.2 := by
      intro e hm
      obtain ⟨d, p, h, hn⟩ := nearest_selected e.2 (he.nonempty e hm).1 (he.nonempty e hm).2
      exact ⟨d, p, h, hn.mem⟩
    obtain ⟨l, hl⟩ := foldlM_succeeds (lateralStep x edgeNet iv) nb (by
      intro b e hm
      obtain ⟨d, p, h, hpm⟩ := hnear e hm
      unfold lateralStep
      split_ifs with c1 c2
      · exact ⟨_, by rw [bind_ok]; exact ⟨_, h, rfl⟩⟩
      · have hmem : (x.inside, e.2) ∈ nb := by rw [c2]; exact hm
        obtain ⟨rs, hrs⟩ := emitSidewall_succeeds x edgeNet iv p ((he.nonempty e hm).2 p hpm)
          (he.faces e.2 hmem p hpm)
        refine ⟨{ b.update (some d) p with recs := b.recs ++ rs }, ?_⟩
        rw [bind_ok]
        refine ⟨_, h, ?_⟩
        rw [bind_ok]
        exact ⟨_, hrs, rfl⟩
      · exact ⟨_, rfl⟩) ⟨none, []⟩
    obtain ⟨recs, hr⟩ := foldlM_succeeds (fringeStep x k edgeNet iv nb (lateralShield x l.nearest)) nb (by
      intro b e hm
      unfold fringeStep
      split_ifs with c1 c2
      · exact ⟨_, rfl⟩
      · obtain ⟨r, hr⟩ := emitFringe_succeeds x k hk hload hz (x.names.getD e.1 "") edgeNet iv e.2
          (he.nonempty e hm).2 (fringeShield x nb (lateralShield x l.nearest) e.1)
          (he.couples e.1 e.2 hm (Ne.symm c1) c2)
        exact ⟨_, by rw [bind_ok]; exact ⟨_, hr, rfl⟩⟩
      · exact ⟨_, rfl⟩) (l.recs.map .sidewall)
    exact ⟨recs, by rw [bind_ok]; exact ⟨l, hl, hr⟩⟩

/-- **C86.** The extraction of sidewall and fringe capacitances runs to the end if in front of every interval longer than
one database unit every neighbouring layer has its specifications, and every distance to another net on the same layer
differs from minus the offset of the layer. -/
theorem extract_succeeds (names : List String) (dbu : ℚ) (scale : Bool) (par : Parasitics) (k : Kernel) (hk : KernelOK k)
    (hload : Loads par) (hz : scale = true → NoZero par) (edges : Nat → List (String × Neighborhood))
    (h : ∀ i < names.length, ∀ e ∈ edges i, ∀ v ∈ e.2, 1 < v.1.2 - v.1.1 →
      Evaluable ⟨names, i, dbu, scale, par⟩ e.1 v.2) :
    ∃ recs, extract names dbu scale par k edges = .ok recs := by
  unfold extract
  refine foldlM_succeeds _ _ ?_ _
  intro b i hi
  obtain ⟨rs, hrs⟩ := foldlM_succeeds (fun rs (e : String × Neighborhood) => do
      return rs ++ (← onEdge ⟨names, i, dbu, scale, par⟩ k e.1 e.2)) (edges i) (by
    intro b e he
    obtain ⟨r, hr⟩ := foldlM_succeeds (fun recs (v : (ℚ × ℚ) × Dict Nat (List Poly)) => do
        return recs ++ (← onInterval ⟨names, i, dbu, scale, par⟩ k e.1 v.1 v.2)) e.2 (by
      intro b v hv
      obtain ⟨r, hr⟩ := onInterval_succeeds ⟨names, i, dbu, scale, par⟩ k hk hload hz e.1 v.1 v.2
        (h i (List.mem_range.1 hi) e he v hv)
      exact ⟨_, by rw [bind_ok]; exact ⟨_, hr, rfl⟩⟩) []
    exact ⟨_, by rw [bind_ok]; exact ⟨_, hr, rfl⟩⟩) []
  exact ⟨_, by rw [bind_ok]; exact ⟨_, hrs, rfl⟩⟩

/-- **C86, a missing specification ends the run.** If a shape on another layer, for which the technology does not say how it
couples, lies in front of an interval longer than one database unit, there is no result at all. -/
theorem extract_fails (names : List String) (dbu : ℚ) (scale : Bool) (par : Parasitics) (k : Kernel)
    (edges : Nat → List (String × Neighborhood)) (i j : Nat) (hi : i < names.length) (hj : j < names.length) (hij : j ≠ i)
    (e : String × Neighborhood) (he : e ∈ edges i) (v : (ℚ × ℚ) × Dict Nat (List Poly)) (hv : v ∈ e.2)
    (hlen : 1 < v.1.2 - v.1.1) (ps : List Poly) (hps : (j, ps) ∈ v.2)
    (hc : ¬ CanCouple par (names.getD i "") (names.getD j "")) (recs : List Rec) :
    extract names dbu scale par k edges ≠ .ok recs := by
  unfold extract
  refine foldlM_fails _ _ i (List.mem_range.2 hi) ?_ _ _
  intro b b'
  rw [Ne, bind_ok]
  rintro ⟨rs, hrs, _⟩
  refine foldlM_fails (fun rs (e : String × Neighborhood) => do
      return rs ++ (← onEdge ⟨names, i, dbu, scale, par⟩ k e.1 e.2)) (edges i) e he ?_ _ _ hrs
  intro b b'
  simp only [Ne, bind_ok]
  rintro ⟨r, hr, _⟩
  refine foldlM_fails (fun recs (v : (ℚ × ℚ) × Dict Nat (List Poly)) => do
        return recs ++ (← onInterval ⟨names, i, dbu, scale, par⟩ k e.1 v.1 v.2)) e.2 v hv ?_ _ _ hr
  intro b b'
  simp only [Ne, bind_ok]
  rintro ⟨r, hr, _⟩
  unfold onInterval at hr
  split_ifs at hr with h1 h2
  · have : v.2 = [] := List.isEmpty_iff.1 h1
    rw [this] at hps
    simp at hps
  · exact absurd hlen (not_lt.2 h2)
  · rw [bind_ok] at hr
    obtain ⟨l, _, hf⟩ := hr
    refine foldlM_fails _ _ (j, ps) hps ?_ _ _ hf
    intro b b'
    unfold fringeStep
    simp only [Ne, if_neg (Ne.symm hij), if_pos hj, bind_ok]
    rintro ⟨r, hr, _⟩
    exact emitFringe_fails _ _ _ _ _ _ _ hc _ hr

theorem emitSidewall_fails (x : Ctx) (edgeNet : String) (iv : ℚ × ℚ) (p : Poly) (hp : p.cells.Nonempty) (hn : p.net ≠ edgeNet)
    (h : ¬ CanFace x.par x.dbu (x.names.getD x.inside "") p) (rs : List SidewallCap) :
    emitSidewall x edgeNet iv p ≠ .ok rs := by
  intro he
  unfold emitSidewall at he
  simp only [Ne.symm hn, if_false, min_low_high] at he
  cases hs : (TechInfo.sidewallTable x.par).get? (x.names.getD x.inside "") with
  | none => rw [hs] at he; cases he
  | some s =>
    rw [hs] at he
    refine h ⟨s, _, (sidewallTable_get _ _ _).1 hs, bottom_yLow hp, fun h0 => ?_⟩
    simp only [if_pos h0] at he
    cases he

/-- **C86, a sidewall that cannot be evaluated ends the run.** If all polygons of the same layer in front of an interval
belong to other nets, and for none of them the sidewall can be evaluated, there is no result at all. -/
theorem extract_fails_sidewall (names : List String) (dbu : ℚ) (scale : Bool) (par : Parasitics) (k : Kernel)
    (edges : Nat → List (String × Neighborhood)) (i : Nat) (hi : i < names.length)
    (e : String × Neighborhood) (he : e ∈ edges i) (v : (ℚ × ℚ) × Dict Nat (List Poly)) (hv : v ∈ e.2)
    (hlen : 1 < v.1.2 - v.1.1) (ps : List Poly) (hps : (i, ps) ∈ v.2)
    (hc : ∀ p ∈ ps, p.cells.Nonempty ∧ p.net ≠ e.1 ∧ ¬ CanFace par dbu (names.getD i "") p) (recs : List Rec) :
    extract names dbu scale par k edges ≠ .ok recs := by
  unfold extract
  refine foldlM_fails _ _ i (List.mem_range.2 hi) ?_ _ _
  intro b b'
  rw [Ne, bind_ok]
  rintro ⟨rs, hrs, _⟩
  refine foldlM_fails (fun rs (e : String × Neighborhood) => do
      return rs ++ (← onEdge ⟨names, i, dbu, scale, par⟩ k e.1 e.2)) (edges i) e he ?_ _ _ hrs
  intro b b'
  simp only [Ne, bind_ok]
  rintro ⟨r, hr, _⟩
  refine foldlM_fails (fun recs (v : (ℚ × ℚ) × Dict Nat (List Poly)) => do
        return recs ++ (← onInterval ⟨names, i, dbu, scale, par⟩ k e.1 v.1 v.2)) e.2 v hv ?_ _ _ hr
  intro b b'
  simp only [Ne, bind_ok]
  rintro ⟨r, hr, _⟩
  unfold onInterval at hr
  split_ifs at hr with h1 h2
  · have : v.2 = [] := List.isEmpty_iff.1 h1
    rw [this] at hps
    simp at hps
  · exact absurd hlen (not_lt.2 h2)
  · rw [bind_ok] at hr
    obtain ⟨l, hl, _⟩ := hr
    refine foldlM_fails _ _ (i, ps) hps ?_ _ _ hl
    intro b b'
    unfold lateralStep
    rw [if_neg (show ¬ i = names.length from hi.ne), if_pos rfl, Ne, bind_ok]
    rintro ⟨n, hn, h3⟩
    have hn' : findNearest ps = .ok n := hn
    rw [bind_ok] at h3
    obtain ⟨r2, hr2, _⟩ := h3
    by_cases hne : ps = []
    · subst hne
      cases hn'
    · obtain ⟨dd, p, h, hnear⟩ := nearest_selected ps hne fun p hp => (hc p hp).1
      have hp := hc p hnear.mem
      rw [h] at hn'
      cases hn'
      exact emitSidewall_fails _ _ _ _ hp.1 hp.2.1 hp.2.2 _ hr2

/-! ### Sign -/

/-- A recorded fringe capacitance is above the threshold. -/
theorem interval_fringe_pos (x : Ctx) (k : Kernel) (hk : KernelOK k) (edgeNet : String) (iv : ℚ × ℚ)
    (nb : Dict Nat (List Poly)) (hnb : Reported nb) (recs : List Rec) (h : onInterval x k edgeNet iv nb = .ok recs)
    (key : Summary.SideOverlapKey) (c : ℝ) (hr : .fringe key c ∈ recs) : 1 / 10000 < c := by
  unfold onInterval at h
  split_ifs at h
  · cases Except.ok.inj h; simp at hr
  · cases Except.ok.inj h; simp at hr
  · rw [bind_ok] at h
    obtain ⟨l, hl, hf⟩ := h
    obtain ⟨out, hrecs, hkeys, hout⟩ := fringe_fold x k edgeNet iv nb _ nb _ recs hf
    rw [hrecs, List.mem_append] at hr
    rcases hr with hr | hr
    · obtain ⟨_, _, he⟩ := List.mem_map.1 hr; cases he
    · obtain ⟨o, ho, hro⟩ := List.mem_flatMap.1 hr
      obtain ⟨ps, hps, hemit⟩ := hout o ho
      obtain ⟨_, _, A, B, _, _, _, _, he⟩ := emitFringe_shape x k hk _ edgeNet iv ps (hnb.nonempty _ hps).2 _ _ hemit
      rw [he] at hro
      obtain ⟨e, _, hrec⟩ := List.mem_filterMap.1 hro
      unfold recOf at hrec
      simp only at hrec
      split_ifs at hrec with hc
      cases Option.some.inj hrec
      exact hc

/-- **C87.** If the sidewall capacitances of the technology are positive and different nets on a layer keep such a distance
that its sum with the offset of the layer is positive, all recorded sidewall and fringe capacitances are positive. -/
theorem extract_positive (names : List String) (hnames : names.Nodup) (dbu : ℚ) (hdbu : 0 < dbu) (scale : Bool)
    (par : Parasitics) (hcap : ∀ s ∈ par.sidewalls, 0 < s.cap) (k : Kernel) (hk : KernelOK k)
    (edges : Nat → List (String × Neighborhood)) (hrep : ∀ i < names.length, ∀ e ∈ edges i, ∀ v ∈ e.2, Reported v.2)
    (hgap : ∀ i < names.length, ∀ e ∈ edges i, ∀ v ∈ e.2, ∀ ps, (i, ps) ∈ v.2 → ∀ p ∈ ps, p.net ≠ e.1 → ∀ y, Bottom p.cells y →
      ∀ s, IsLast (fun s => s.layer = names.getD i "") par.sidewalls s → 0 < y * dbu + s.offset)
    (recs : List Rec) (h : extract names dbu scale par k edges = .ok recs) :
    (∀ c, .sidewall c ∈ recs → 0 < c.capValue) ∧ ∀ key c, .fringe key c ∈ recs → 1 / 10000 < c := by
  obtain ⟨out, ho1, ho2⟩ := extract_concat _ _ _ _ _ _ _ h
  have hmem : ∀ r ∈ recs, ∃ i < names.length, ∃ e ∈ edges i, ∃ v ∈ e.2, r ∈ out i e.1 v := by
    intro r hr
    rw [ho2] at hr
    obtain ⟨i, hi, hr⟩ := List.mem_flatMap.1 hr
    obtain ⟨e, he, hr⟩ := List.mem_flatMap.1 hr
    obtain ⟨v, hv, hr⟩ := List.mem_flatMap.1 hr
    exact ⟨i, List.mem_range.1 hi, e, he, v, hv, hr⟩
  refine ⟨fun c hc => ?_, fun key c hc => ?_⟩
  · obtain ⟨i, hi, e, he, v, hv, hr⟩ := hmem _ hc
    have ho := ho1 i hi e he v hv
    have hcs : c ∈ sidewalls (out i e.1 v) := List.mem_filterMap.2 ⟨_, hr, rfl⟩
    by_cases hlen : 1 < v.1.2 - v.1.1
    · obtain ⟨h1, h2, _⟩ := interval_emit ⟨names, i, dbu, scale, par⟩ hi hnames k hk e.1 v.1 hlen v.2 (hrep i hi e he v hv) _ ho
      by_cases hps : ∃ ps, (i, ps) ∈ v.2
      · obtain ⟨ps, hps⟩ := hps
        obtain ⟨d, p, hnear, h3, h4⟩ := h2 ps hps
        by_cases hn : p.net = e.1
        · rw [h3 hn] at hcs; simp at hcs
        · obtain ⟨c', hc', hlaw⟩ := h4 hn
          rw [hc', List.mem_singleton] at hcs
          subst hcs
          obtain ⟨s, y, hl, hy, _, hval⟩ := hlaw
          have hden := hgap i hi e he v hv ps hps p hnear.mem hn y hy s hl
          have hcp := hcap s hl.mem
          have hlen' : 0 < v.1.2 - v.1.1 := by linarith
          rw [hval]
          show 0 < (v.1.2 - v.1.1) * dbu * s.cap / (y * dbu + s.offset) / 2 / 1000
          positivity
      · rw [h1 (fun ps hp => hps ⟨ps, hp⟩)] at hcs
        simp at hcs
    · unfold onInterval at ho
      rw [if_pos (not_lt.1 hlen)] at ho
      split_ifs at ho <;> (rw [← Except.ok.inj ho] at hr; simp at hr)
  · obtain ⟨i, hi, e, he, v, hv, hr⟩ := hmem _ hc
    exact interval_fringe_pos ⟨names, i, dbu, scale, par⟩ k hk e.1 v.1 v.2 (hrep i hi e he v hv) _ (ho1 i hi e he v hv) key c hr

end Verif.Fringe
