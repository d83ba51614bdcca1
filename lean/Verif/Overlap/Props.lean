import Verif.Overlap.Lemmas
import Mathlib.Tactic.FieldSimp

/-!
# Properties of the overlap extraction (C30, C31)
-/

namespace Verif.Overlap

open TechInfo (Parasitics OverlapSpec OverlapIs SubstrateCap)
open Summary (OverlapKey OverlapCap CellResults)

/-! ### Specification -/

/-- Layer `k` of the neighbourhood covers the cell with a net other than `net`. -/
def Covers (nb : Neighborhood) (net : String) (c : Cell) (k : Nat) : Prop :=
  ∃ l, nb.get? k = some l ∧ ∃ q ∈ l, c ∈ q.cells ∧ q.net ≠ net

/-- The cell couples to net `n` on layer `j`: `j` is the first layer above layer `i` that covers the cell with another
net, and `n` is the net of the first polygon there that does so. -/
def Owned (x : Ctx) (nb : Neighborhood) (i : Nat) (net : String) (c : Cell) (j : Nat) (n : String) : Prop :=
  i < j ∧ j < x.names.length ∧ (∀ k, i < k → k < j → ¬ Covers nb net c k) ∧
  ∃ l₁ q l₂, nb.get? j = some (l₁ ++ q :: l₂) ∧ c ∈ q.cells ∧ q.net = n ∧ n ≠ net ∧
    ∀ q' ∈ l₁, c ∈ q'.cells → q'.net = net

/-- The technology has an overlap specification for every layer with a foreign polygon in the neighbourhood. -/
def Specified (x : Ctx) (i : Nat) (net : String) (nb : Neighborhood) : Prop :=
  ∀ j, i < j → j < x.names.length → ∀ l, nb.get? j = some l → ∀ q ∈ l, q.net ≠ net →
    ∃ s, OverlapIs x.par (x.name j) (x.name i) s

/-- No negative capacitances in the technology file. -/
def NonNeg (p : Parasitics) : Prop := (∀ o ∈ p.overlaps, 0 ≤ o.cap) ∧ ∀ s ∈ p.substrates, 0 ≤ s.area

/-! ### Auxiliary -/

theorem specOf_iff (p : Parasitics) (a b : String) (v : OverlapSpec) : specOf p a b = some v ↔ OverlapIs p a b v := by
  rw [← TechInfo.overlap_lookup, specOf, TechInfo.lookup2, Option.bind_eq_some_iff]

theorem spec_nonneg {p : Parasitics} (h : NonNeg p) {a b : String} {v : OverlapSpec} (hv : OverlapIs p a b v) :
    0 ≤ v.cap := by
  rcases hv with hv | ⟨_, _, s, hs, rfl⟩
  · exact h.1 v hv.mem
  · exact h.2 s hs.mem

theorem getD_mem {nb : Neighborhood} {k : Nat} {q : Poly} : q ∈ nb.getD k [] ↔ ∃ l, nb.get? k = some l ∧ q ∈ l := by
  unfold Dict.getD
  cases nb.get? k <;> simp

theorem not_covers {nb : Neighborhood} {net : String} {c : Cell} {k : Nat} :
    ¬ Covers nb net c k ↔ ((nb.getD k []).map fun q => (k, q)).find? (hits net c) = none := by
  rw [List.find?_eq_none, Covers]
  constructor
  · intro h v hv
    obtain ⟨q, hq, rfl⟩ := List.mem_map.1 hv
    obtain ⟨l, hl, hq⟩ := getD_mem.1 hq
    simp only [hits, decide_eq_true_eq]
    exact fun hh => h ⟨l, hl, q, hq, hh⟩
  · rintro h ⟨l, hl, q, hq, hh⟩
    have := h (k, q) (List.mem_map_of_mem (getD_mem.2 ⟨l, hl, hq⟩))
    simp only [hits, decide_eq_true_eq] at this
    exact this hh

theorem range'_split {s m : Nat} {l₁ l₂ : List Nat} {a : Nat} (h : List.range' s m = l₁ ++ a :: l₂) (k : Nat) :
    k ∈ l₁ ↔ s ≤ k ∧ k < a := by
  have hs : (l₁ ++ a :: l₂).Pairwise (· < ·) := h ▸ List.pairwise_lt_range'
  have hm : ∀ k, k ∈ l₁ ++ a :: l₂ ↔ s ≤ k ∧ k < s + m := by
    intro k; rw [← h, List.mem_range'_1]
  rw [List.pairwise_append, List.pairwise_cons] at hs
  constructor
  · intro hk
    exact ⟨((hm k).1 (by simp [hk])).1, hs.2.2 k hk a (by simp)⟩
  · rintro ⟨h1, h2⟩
    have ha := (hm a).1 (by simp)
    have hk := (hm k).2 ⟨h1, by omega⟩
    rw [List.mem_append, List.mem_cons] at hk
    rcases hk with hk | rfl | hk
    · exact hk
    · omega
    · have := hs.2.1.1 k hk; omega

theorem taker_iff (nb : Neighborhood) (net : String) (c : Cell) (i m : Nat) (v : Nat × Poly) :
    taker net (visits nb (List.range' (i + 1) m)) c = some v ↔
      i < v.1 ∧ v.1 < i + 1 + m ∧ (∀ k, i < k → k < v.1 → ¬ Covers nb net c k) ∧
      ∃ l₁ l₂, nb.get? v.1 = some (l₁ ++ v.2 :: l₂) ∧ c ∈ v.2.cells ∧ v.2.net ≠ net ∧
        ∀ q' ∈ l₁, c ∈ q'.cells → q'.net = net := by
  unfold taker visits
  rw [List.find?_flatMap, List.findSome?_eq_some_iff]
  have hin : ∀ (j : Nat) (v : Nat × Poly), ((nb.getD j []).map fun q => (j, q)).find? (hits net c) = some v ↔
      v.1 = j ∧ ∃ l₁ l₂, nb.get? j = some (l₁ ++ v.2 :: l₂) ∧ c ∈ v.2.cells ∧ v.2.net ≠ net ∧
        ∀ q' ∈ l₁, c ∈ q'.cells → q'.net = net := by
    rintro j ⟨j', q⟩
    rw [List.find?_map, Option.map_eq_some_iff]
    simp only [List.find?_eq_some_iff_append, Prod.mk.injEq, hits, Function.comp]
    constructor
    · rintro ⟨q0, ⟨hq, l₁, l₂, hl, hno⟩, rfl, rfl⟩
      refine ⟨rfl, l₁, l₂, ?_, ?_⟩
      · unfold Dict.getD at hl
        cases hg : nb.get? j with
        | none => rw [hg] at hl; simp at hl
        | some l => rw [hg] at hl; simpa using hl
      · simp only [decide_eq_true_eq] at hq
        refine ⟨hq.1, hq.2, fun q' hq' hc => ?_⟩
        have := hno q' hq'
        by_contra hne
        simp [hc, hne] at this
    · rintro ⟨rfl, l₁, l₂, hl, hc, hne, hno⟩
      refine ⟨q, ⟨by simp [hc, hne], l₁, l₂, by simp [Dict.getD, hl], ?_⟩, rfl, rfl⟩
      intro q' hq'
      by_cases hc' : c ∈ q'.cells
      · simp [hno q' hq' hc']
      · simp [hc']
  constructor
  · rintro ⟨l₁, a, l₂, h, hf, hnone⟩
    have hf := (hin a v).1 hf
    have ha : a ∈ List.range' (i + 1) m := by rw [h]; simp
    rw [List.mem_range'_1] at ha
    have h1 := hf.1
    refine ⟨by omega, by omega, ?_, by rw [h1]; exact hf.2⟩
    intro k hk1 hk2
    exact not_covers.2 (hnone k ((range'_split h k).2 ⟨by omega, by omega⟩))
  · rintro ⟨h1, h2, h3, h4⟩
    have hm : v.1 ∈ List.range' (i + 1) m := by rw [List.mem_range'_1]; omega
    obtain ⟨l₁, l₂, h⟩ := List.append_of_mem hm
    refine ⟨l₁, v.1, l₂, h, (hin v.1 v).2 ⟨rfl, h4⟩, ?_⟩
    intro k hk
    have := (range'_split h k).1 hk
    exact not_covers.1 (h3 k (by omega) (by omega))

theorem owned_iff (x : Ctx) (nb : Neighborhood) (i m : Nat) (net : String) (c : Cell) (j : Nat)
    (n : String) (hm : i + 1 + m ≤ x.names.length) (hj : j < i + 1 + m) : Owned x nb i net c j n ↔
      ∃ v, taker net (visits nb (List.range' (i + 1) m)) c = some v ∧ v.1 = j ∧ v.2.net = n := by
  constructor
  · rintro ⟨h1, h2, h3, l₁, q, l₂, h4, h5, h6, h7, h8⟩
    exact ⟨(j, q), (taker_iff _ _ _ _ _ _).2 ⟨h1, hj, h3, l₁, l₂, h4, h5, h6 ▸ h7, h8⟩, rfl, h6⟩
  · rintro ⟨⟨j', q⟩, hv, rfl, rfl⟩
    obtain ⟨h1, h2, h3, l₁, l₂, h4, h5, h6, h7⟩ := (taker_iff _ _ _ _ _ _).1 hv
    exact ⟨h1, by simp only at h2; omega, h3, l₁, q, l₂, h4, h5, rfl, h6, h7⟩

theorem owned_iff' (x : Ctx) (nb : Neighborhood) (i : Nat) (hi : i < x.names.length) (net : String) (c : Cell) (j : Nat)
    (n : String) : Owned x nb i net c j n ↔
      ∃ v, taker net (visits nb (List.range' (i + 1) (x.names.length - (i + 1)))) c = some v ∧ v.1 = j ∧ v.2.net = n := by
  by_cases hj : j < i + 1 + (x.names.length - (i + 1))
  · exact owned_iff x nb i _ net c j n (by omega) hj
  · constructor
    · rintro ⟨_, h2, _⟩; omega
    · rintro ⟨v, hv, rfl, _⟩
      have := ((taker_iff _ _ _ _ _ _).1 hv).2.1
      omega

theorem allSpec_of {x : Ctx} {i : Nat} {net : String} {nb : Neighborhood} (h : Specified x i net nb) {js : List Nat}
    (hjs : ∀ j ∈ js, i < j ∧ j < x.names.length) : AllSpec x (x.name i) net (visits nb js) := by
  intro v hv hne
  obtain ⟨h1, h2⟩ := (mem_visits _ _ _).1 hv
  obtain ⟨l, hl, hq⟩ := getD_mem.1 h2
  obtain ⟨s, hs⟩ := h v.1 (hjs _ h1).1 (hjs _ h1).2 l hl v.2 hq hne
  exact ⟨s, (specOf_iff _ _ _ _).2 hs⟩

theorem name_inj {x : Ctx} (hn : x.names.Nodup) {j k : Nat} (hj : j < x.names.length) (hk : k < x.names.length)
    (h : x.name j = x.name k) : j = k := by
  unfold Ctx.name at h
  rw [List.getD_eq_getElem?_getD, List.getD_eq_getElem?_getD, List.getElem?_eq_getElem hj,
    List.getElem?_eq_getElem hk, Option.getD_some, Option.getD_some] at h
  exact (List.Nodup.getElem_inj_iff hn).1 h

theorem mem_range_layers {x : Ctx} {i j : Nat} (hi : i < x.names.length) :
    j ∈ List.range' (i + 1) (x.names.length - (i + 1)) ↔ i < j ∧ j < x.names.length := by
  rw [List.mem_range'_1]; omega

open Classical in
theorem core (x : Ctx) (hn : x.names.Nodup) (i m : Nat) (hm : i + 1 + m ≤ x.names.length) (net : String)
    (cells : Finset Cell) (nb : Neighborhood)
    (hA : AllSpec x (x.name i) net (visits nb (List.range' (i + 1) m))) (hnn : NonNeg x.par) (j : Nat) (n : String)
    (s : OverlapSpec) (hj : j < i + 1 + m) (hspec : OverlapIs x.par (x.name j) (x.name i) s) :
    ((((visits nb (List.range' (i + 1) m)).foldl (step x (x.name i) net cells) ⟨∅, [], false⟩).out.filter
      fun r => decide (r.key = ⟨x.name j, n, x.name i, net⟩)).map OverlapCap.capValue).sum =
      ((cells.filter fun c => Owned x nb i net c j n).card : ℚ) * x.dbu ^ 2 * s.cap / 1000 := by
  have key := total_eq x (x.name i) net cells (fun k => if k = ⟨x.name j, n, x.name i, net⟩ then 1 else 0)
    (visits nb (List.range' (i + 1) m)) hA
    (fun v _ s hs => spec_nonneg hnn ((specOf_iff _ _ _ _).1 hs))
  have hsum : ∀ l : List OverlapCap, ((l.filter fun r => decide (r.key = ⟨x.name j, n, x.name i, net⟩)).map
      OverlapCap.capValue).sum = total (fun k => if k = ⟨x.name j, n, x.name i, net⟩ then 1 else 0) l := by
    intro l
    induction l with
    | nil => rfl
    | cons r l ih =>
      rw [List.filter_cons]
      unfold total at ih ⊢
      rw [List.map_cons, List.sum_cons, ← ih]
      by_cases hr : r.key = ⟨x.name j, n, x.name i, net⟩
      · simp [hr]
      · simp [hr]
  rw [hsum, key]
  have : ∀ c ∈ cells, cellValue x (x.name i) net (fun k => if k = ⟨x.name j, n, x.name i, net⟩ then 1 else 0)
      (visits nb (List.range' (i + 1) m)) c = if Owned x nb i net c j n then x.dbu ^ 2 * s.cap / 1000 else 0 := by
    intro c _
    cases ht : taker net (visits nb (List.range' (i + 1) m)) c with
    | none =>
      rw [cellValue_none ht, if_neg]
      intro ho
      obtain ⟨v, hv, _⟩ := (owned_iff _ _ _ _ _ _ _ _ hm hj).1 ho
      rw [ht] at hv; cases hv
    | some v =>
      have hv := (taker_iff _ _ _ _ _ _).1 ht
      have hvl : v.1 < x.names.length := by omega
      have hmem : v ∈ visits nb (List.range' (i + 1) m) := List.mem_of_find?_eq_some ht
      obtain ⟨s', hs'⟩ := hA v hmem hv.2.2.2.choose_spec.choose_spec.2.2.1
      rw [cellValue_some ht hs']
      by_cases ho : Owned x nb i net c j n
      · obtain ⟨u, hu, h1, h2⟩ := (owned_iff _ _ _ _ _ _ _ _ hm hj).1 ho
        rw [ht] at hu
        obtain rfl := Option.some.inj hu
        rw [if_pos ho, h1, h2, if_pos rfl, one_mul]
        have : specOf x.par (x.name j) (x.name i) = some s := (specOf_iff _ _ _ _).2 hspec
        rw [← h1, hs'] at this
        rw [Option.some.inj this]
      · rw [if_neg ho, if_neg, zero_mul]
        intro hk
        simp only [OverlapKey.mk.injEq, and_true] at hk
        exact ho ((owned_iff _ _ _ _ _ _ _ _ hm hj).2 ⟨v, ht, name_inj hn hvl (by omega) hk.1, hk.2⟩)
  rw [Finset.sum_congr rfl this, ← Finset.sum_filter, Finset.sum_const, nsmul_eq_mul]
  ring

/-! ### Theorems -/

/-- **C30, who a point couples to.** Every point that some layer above covers with another net couples to exactly one
layer and net, and that layer is the nearest one covering it with another net. -/
theorem covered_once (x : Ctx) (nb : Neighborhood) (i : Nat) (hi : i < x.names.length) (net : String) (c : Cell)
    (hc : ∃ k, i < k ∧ k < x.names.length ∧ Covers nb net c k) :
    ∃! jn : Nat × String, Owned x nb i net c jn.1 jn.2 := by
  cases ht : taker net (visits nb (List.range' (i + 1) (x.names.length - (i + 1)))) c with
  | none =>
    exfalso
    obtain ⟨k, hk1, hk2, hk3⟩ := hc
    have := (List.find?_eq_none.1 ht)
    obtain ⟨l, hl, q, hq, hh⟩ := hk3
    have h2 := this (k, q) ((mem_visits _ _ _).2 ⟨(mem_range_layers hi).2 ⟨hk1, hk2⟩, getD_mem.2 ⟨l, hl, hq⟩⟩)
    simp only [hits, decide_eq_true_eq] at h2
    exact h2 hh
  | some v =>
    refine ⟨(v.1, v.2.net), (owned_iff' _ _ _ hi _ _ _ _).2 ⟨v, ht, rfl, rfl⟩, ?_⟩
    rintro ⟨j, n⟩ h
    obtain ⟨u, hu, h1, h2⟩ := (owned_iff' _ _ _ hi _ _ _ _).1 h
    rw [ht] at hu
    obtain rfl := Option.some.inj hu
    simp only at h1 h2
    rw [h1, h2]

open Classical in
/-- **C30, amounts.** For a visited polygon of layer `i` and every layer `j` and net `n`, the recorded capacitance is
the number of points of the polygon that couple to `n` on `j`, times the area of a point and the capacitance per area of
the layer pair. -/
theorem overlap_exact (x : Ctx) (hn : x.names.Nodup) (i : Nat) (hi : i < x.names.length) (p : Poly) (nb : Neighborhood)
    (hs : Specified x i (netOf x i p) nb) (hnn : NonNeg x.par) (j : Nat) (n : String) (s : OverlapSpec)
    (hj : j < x.names.length) (hspec : OverlapIs x.par (x.name j) (x.name i) s) :
    (((neighbors x i p nb).filter fun r => decide (r.key = ⟨x.name j, n, x.name i, netOf x i p⟩)).map
      OverlapCap.capValue).sum =
      ((p.cells.filter fun c => Owned x nb i (netOf x i p) c j n).card : ℚ) * x.dbu ^ 2 * s.cap / 1000 := by
  rw [neighbors_eq]
  exact core x hn i _ (by omega) _ _ nb (allSpec_of hs (fun j hj => (mem_range_layers hi).1 hj)) hnn j n s (by omega)
    hspec

open Classical in
/-- **C30, sum of the areas.** If the capacitances per area are positive, the areas recorded for a polygon add up to the
area that layers above cover with other nets (the area of a record is its capacitance over the capacitance per area of
its layer pair). -/
theorem areas_add_up (x : Ctx) (i : Nat) (hi : i < x.names.length) (p : Poly) (nb : Neighborhood)
    (hs : Specified x i (netOf x i p) nb)
    (hpos : (∀ o ∈ x.par.overlaps, 0 < o.cap) ∧ ∀ s ∈ x.par.substrates, 0 < s.area) (area : OverlapCap → ℚ)
    (harea : ∀ r ∈ neighbors x i p nb, ∀ s, OverlapIs x.par r.key.layerTop r.key.layerBot s →
      r.capValue = area r * s.cap / 1000) :
    ((neighbors x i p nb).map area).sum =
      ((p.cells.filter fun c => ∃ k, i < k ∧ k < x.names.length ∧ Covers nb (netOf x i p) c k).card : ℚ) *
        x.dbu ^ 2 := by
  have hpos' : ∀ a b s, specOf x.par a b = some s → 0 < s.cap := by
    intro a b s h
    rcases (specOf_iff _ _ _ _).1 h with h | ⟨_, _, t, ht, rfl⟩
    · exact hpos.1 _ h.mem
    · exact hpos.2 _ ht.mem
  rw [neighbors_eq] at harea ⊢
  have hA : AllSpec x (x.name i) (netOf x i p) (visits nb (List.range' (i + 1) (x.names.length - (i + 1)))) :=
    allSpec_of hs (fun j hj => (mem_range_layers hi).1 hj)
  have key := total_eq x (x.name i) (netOf x i p) p.cells
    (fun k => (specOf x.par k.layerTop k.layerBot).elim 0 fun s => 1 / (s.cap / 1000))
    (visits nb (List.range' (i + 1) (x.names.length - (i + 1)))) hA
    (fun v _ s hs => le_of_lt (hpos' _ _ _ hs))
  have hout := mem_out x (x.name i) (netOf x i p) p.cells
    (visits nb (List.range' (i + 1) (x.names.length - (i + 1))))
  generalize ((visits nb (List.range' (i + 1) (x.names.length - (i + 1)))).foldl
    (step x (x.name i) (netOf x i p) p.cells) ⟨∅, [], false⟩).out = out at key hout harea
  have hsum : (out.map area).sum =
      total (fun k => (specOf x.par k.layerTop k.layerBot).elim 0 fun s => 1 / (s.cap / 1000)) out := by
    unfold total
    congr 1
    refine List.map_congr_left fun r hr => ?_
    obtain ⟨v, _, hk, _, _, s, hs⟩ := hout r hr
    have h1 : specOf x.par r.key.layerTop r.key.layerBot = some s := by rw [hk]; exact hs
    have h2 := harea r hr s ((specOf_iff _ _ _ _).1 h1)
    have h3 := hpos' _ _ _ h1
    have h4 : s.cap ≠ 0 := ne_of_gt h3
    simp only [h1, Option.elim_some]
    rw [h2]
    field_simp
  rw [hsum, key]
  have : ∀ c ∈ p.cells, cellValue x (x.name i) (netOf x i p)
      (fun k => (specOf x.par k.layerTop k.layerBot).elim 0 fun s => 1 / (s.cap / 1000))
      (visits nb (List.range' (i + 1) (x.names.length - (i + 1)))) c =
      if ∃ k, i < k ∧ k < x.names.length ∧ Covers nb (netOf x i p) c k then x.dbu ^ 2 else 0 := by
    intro c _
    cases ht : taker (netOf x i p) (visits nb (List.range' (i + 1) (x.names.length - (i + 1)))) c with
    | none =>
      rw [cellValue_none ht, if_neg]
      intro ho
      obtain ⟨⟨j, n⟩, ho, _⟩ := covered_once x nb i hi _ c ho
      obtain ⟨v, hv, _⟩ := (owned_iff' _ _ _ hi _ _ _ _).1 ho
      rw [ht] at hv; cases hv
    | some v =>
      have hv := (taker_iff _ _ _ _ _ _).1 ht
      have hmem : v ∈ visits nb (List.range' (i + 1) (x.names.length - (i + 1))) := List.mem_of_find?_eq_some ht
      obtain ⟨h1, h2, _, l₁, l₂, h3, h4, h5, _⟩ := hv
      obtain ⟨s', hs'⟩ := hA v hmem h5
      rw [cellValue_some ht hs', if_pos ⟨v.1, h1, by omega, _, h3, v.2, by simp, h4, h5⟩]
      simp only [hs', Option.elim_some]
      have := hpos' _ _ _ hs'
      have hne : s'.cap ≠ 0 := ne_of_gt this
      field_simp
  rw [Finset.sum_congr rfl this, ← Finset.sum_filter, Finset.sum_const, nsmul_eq_mul]

/-- Every record is positive and names the visited polygon's layer and net, a layer above and another net found there. -/
theorem records_sound (x : Ctx) (i : Nat) (hi : i < x.names.length) (p : Poly) (nb : Neighborhood) (r : OverlapCap)
    (hr : r ∈ neighbors x i p nb) :
    0 < r.capValue ∧ r.key.layerBot = x.name i ∧ r.key.netBot = netOf x i p ∧ r.key.netTop ≠ r.key.netBot ∧
    ∃ j, i < j ∧ j < x.names.length ∧ r.key.layerTop = x.name j ∧
      ∃ l, nb.get? j = some l ∧ ∃ q ∈ l, q.net = r.key.netTop := by
  rw [neighbors_eq] at hr
  obtain ⟨v, hv, hk, hne, hpos, _⟩ := mem_out _ _ _ _ _ _ hr
  obtain ⟨h1, h2⟩ := (mem_visits _ _ _).1 hv
  obtain ⟨l, hl, hq⟩ := getD_mem.1 h2
  have h3 := (mem_range_layers hi).1 h1
  rw [hk]
  exact ⟨hpos, rfl, rfl, hne, v.1, h3.1, h3.2, rfl, l, hl, v.2, hq, rfl⟩

/-- **C31, what a missing specification does.** If layer `k` above holds a foreign polygon and the technology has no
specification for the pair, then nothing is recorded for layer `k` after this polygon nor for any layer above it: no
record names a layer above `k`. -/
theorem missing_spec_stops (x : Ctx) (hn : x.names.Nodup) (i : Nat) (hi : i < x.names.length) (p : Poly)
    (nb : Neighborhood) (k : Nat) (hk : i < k) (hk2 : k < x.names.length)
    (hmiss : ∀ s, ¬ OverlapIs x.par (x.name k) (x.name i) s)
    (hq : ∃ l, nb.get? k = some l ∧ ∃ q ∈ l, q.net ≠ netOf x i p) :
    ∀ r ∈ neighbors x i p nb, ∀ j, k ≤ j → j < x.names.length → r.key.layerTop ≠ x.name j := by
  intro r hr j hj hj2 he
  rw [neighbors_eq] at hr
  obtain ⟨l, hl, q, hq, hne⟩ := hq
  have hnone : specOf x.par (x.name k) (x.name i) = none := by
    cases h : specOf x.par (x.name k) (x.name i) with
    | none => rfl
    | some s => exact absurd ((specOf_iff _ _ _ _).1 h) (hmiss s)
  have hsplit : List.range' (i + 1) (x.names.length - (i + 1)) =
      List.range' (i + 1) (k - i) ++ List.range' (k + 1) (x.names.length - (k + 1)) := by
    have e1 : k + 1 = i + 1 + (k - i) := by omega
    have e2 : x.names.length - (i + 1) = (k - i) + (x.names.length - (k + 1)) := by omega
    rw [e1, e2, List.range'_append_1]
    congr 1
    omega
  have hmem : (k, q) ∈ visits nb (List.range' (i + 1) (k - i)) :=
    (mem_visits _ _ _).2 ⟨by rw [List.mem_range'_1]; omega, getD_mem.2 ⟨l, hl, hq⟩⟩
  obtain ⟨A, B, hAB⟩ := List.append_of_mem hmem
  rw [hsplit, visits_append, hAB, List.append_assoc, List.cons_append, stop_at x _ _ _ A _ (k, q) hne hnone] at hr
  obtain ⟨v, hv, hkey, hvne, _, s, hs⟩ := mem_out _ _ _ _ _ _ hr
  have hv' : v ∈ visits nb (List.range' (i + 1) (k - i)) := by rw [hAB]; exact List.mem_append_left _ hv
  have hv1 := ((mem_visits _ _ _).1 hv').1
  rw [List.mem_range'_1] at hv1
  rw [hkey] at he
  have hvj : v.1 = j := name_inj hn (by omega) hj2 he
  have : v.1 = k := by omega
  rw [this, hnone] at hs
  cases hs

open Classical in
/-- **C31 (partial).** The records for a layer `j` are exact as long as the layers up to `j` are specified: layers above
`j` without specification do not change them.  What is missing: layers above the unspecified one lose their records
(`missing_spec_stops`, `missing_spec_fails`). -/
theorem overlap_exact_below_partial (x : Ctx) (hn : x.names.Nodup) (i : Nat) (hi : i < x.names.length) (p : Poly)
    (nb : Neighborhood) (hnn : NonNeg x.par) (j : Nat) (n : String) (s : OverlapSpec) (hij : i < j)
    (hj : j < x.names.length)
    (hs : ∀ k, i < k → k ≤ j → ∀ l, nb.get? k = some l → ∀ q ∈ l, q.net ≠ netOf x i p →
      ∃ s, OverlapIs x.par (x.name k) (x.name i) s)
    (hspec : OverlapIs x.par (x.name j) (x.name i) s) :
    (((neighbors x i p nb).filter fun r => decide (r.key = ⟨x.name j, n, x.name i, netOf x i p⟩)).map
      OverlapCap.capValue).sum =
      ((p.cells.filter fun c => Owned x nb i (netOf x i p) c j n).card : ℚ) * x.dbu ^ 2 * s.cap / 1000 := by
  rw [neighbors_eq]
  have hsplit : List.range' (i + 1) (x.names.length - (i + 1)) =
      List.range' (i + 1) (j - i) ++ List.range' (j + 1) (x.names.length - (j + 1)) := by
    have e1 : j + 1 = i + 1 + (j - i) := by omega
    have e2 : x.names.length - (i + 1) = (j - i) + (x.names.length - (j + 1)) := by omega
    rw [e1, e2, List.range'_append_1]
    congr 1
    omega
  rw [hsplit, visits_append, List.foldl_append]
  obtain ⟨rs, h1, h2⟩ := out_extend x (x.name i) (netOf x i p) p.cells
    (visits nb (List.range' (j + 1) (x.names.length - (j + 1))))
    ((visits nb (List.range' (i + 1) (j - i))).foldl (step x (x.name i) (netOf x i p) p.cells) ⟨∅, [], false⟩)
  have h3 : rs.filter (fun r => decide (r.key = ⟨x.name j, n, x.name i, netOf x i p⟩)) = [] := by
    rw [List.filter_eq_nil_iff]
    intro r hr
    obtain ⟨v, hv, hk⟩ := h2 r hr
    have hv1 := ((mem_visits _ _ _).1 hv).1
    rw [List.mem_range'_1] at hv1
    simp only [decide_eq_true_eq]
    intro he
    rw [he] at hk
    have := name_inj hn hj (by omega) hk
    omega
  rw [h1, List.filter_append, h3, List.append_nil]
  refine core x hn i (j - i) (by omega) _ _ nb ?_ hnn j n s (by omega) hspec
  intro v hv hne
  obtain ⟨h1, h2⟩ := (mem_visits _ _ _).1 hv
  obtain ⟨l, hl, hq⟩ := getD_mem.1 h2
  rw [List.mem_range'_1] at h1
  obtain ⟨s, hs⟩ := hs v.1 (by omega) (by omega) l hl v.2 hq hne
  exact ⟨s, (specOf_iff _ _ _ _).2 hs⟩

/-! ### The whole cell -/

theorem foldl_add (rs : List OverlapCap) (r : CellResults) (k : OverlapKey) :
    (((rs.foldl CellResults.addOverlapCap r).overlapTable.getD k []).map OverlapCap.capValue).sum =
      ((r.overlapTable.getD k []).map OverlapCap.capValue).sum +
        ((rs.filter fun c => decide (c.key = k)).map OverlapCap.capValue).sum := by
  induction rs generalizing r with
  | nil => simp
  | cons c rs ih =>
    rw [List.foldl_cons, ih, CellResults.addOverlapCap, Dict.getD_upd, List.filter_cons]
    by_cases h : c.key = k
    · subst h; simp [add_assoc]
    · simp [h]

open Classical in
/-- **C30 for the whole extraction.** The overlap table holds, for the bottom net `b` on layer `i` and the net `n` on
layer `j`, the sum over all polygons of net `b` on layer `i` of the points that couple to `n` on `j`, times the area of
a point and the capacitance per area. -/
theorem extract_exact (x : Ctx) (hn : x.names.Nodup) (regions : List (List Poly))
    (hlen : regions.length = x.names.length) (nbh : Nat → Poly → Neighborhood) (hnn : NonNeg x.par) (r : CellResults)
    (hs : ∀ i l, regions[i]? = some l → ∀ p ∈ l, Specified x i (netOf x i p) (nbh i p))
    (i j : Nat) (hi : i < x.names.length) (hj : j < x.names.length) (n b : String) (s : OverlapSpec)
    (hspec : OverlapIs x.par (x.name j) (x.name i) s) :
    (((extract x regions nbh r).overlapTable.getD ⟨x.name j, n, x.name i, b⟩ []).map OverlapCap.capValue).sum =
      ((r.overlapTable.getD ⟨x.name j, n, x.name i, b⟩ []).map OverlapCap.capValue).sum +
      (((regions.getD i []).filter fun p => decide (netOf x i p = b)).map fun p =>
        ((p.cells.filter fun c => Owned x (nbh i p) i b c j n).card : ℚ) * x.dbu ^ 2 * s.cap / 1000).sum := by
  have inner : ∀ (k : Nat) (hk : k < x.names.length) (l : List Poly) (r : CellResults),
      (∀ p ∈ l, Specified x k (netOf x k p) (nbh k p)) →
      (((l.foldl (fun r p => (neighbors x k p (nbh k p)).foldl CellResults.addOverlapCap r) r).overlapTable.getD
        ⟨x.name j, n, x.name i, b⟩ []).map OverlapCap.capValue).sum =
      ((r.overlapTable.getD ⟨x.name j, n, x.name i, b⟩ []).map OverlapCap.capValue).sum +
      if k = i then ((l.filter fun p => decide (netOf x i p = b)).map fun p =>
        ((p.cells.filter fun c => Owned x (nbh i p) i b c j n).card : ℚ) * x.dbu ^ 2 * s.cap / 1000).sum else 0 := by
    intro k hk l
    induction l with
    | nil => intro r _; simp
    | cons p l ih =>
      intro r hl
      rw [List.foldl_cons, ih _ (fun q hq => hl q (List.mem_cons_of_mem _ hq)), foldl_add, add_assoc]
      congr 1
      have hpS := hl p List.mem_cons_self
      by_cases hki : k = i
      · subst hki
        rw [if_pos rfl, if_pos rfl, List.filter_cons]
        by_cases hb : netOf x k p = b
        · subst hb
          rw [if_pos (by simp), List.map_cons, List.sum_cons,
            overlap_exact x hn k hk p (nbh k p) hpS hnn j n s hj hspec]
        · rw [if_neg (by simp [hb])]
          have : (neighbors x k p (nbh k p)).filter (fun c => decide (c.key = ⟨x.name j, n, x.name k, b⟩)) = [] := by
            rw [List.filter_eq_nil_iff]
            intro c hc
            have := (records_sound x k hk p _ c hc).2.2.1
            simp only [decide_eq_true_eq]
            intro he; rw [he] at this; exact hb this.symm
          rw [this]; simp
      · rw [if_neg hki, if_neg hki]
        have : (neighbors x k p (nbh k p)).filter (fun c => decide (c.key = ⟨x.name j, n, x.name i, b⟩)) = [] := by
          rw [List.filter_eq_nil_iff]
          intro c hc
          have := (records_sound x k hk p _ c hc).2.1
          simp only [decide_eq_true_eq]
          intro he; rw [he] at this
          exact hki (name_inj hn hi hk this).symm
        rw [this]; simp
  have outer : ∀ (ls : List (List Poly)) (k : Nat) (r : CellResults), k + ls.length = x.names.length →
      (∀ m l, ls[m]? = some l → ∀ p ∈ l, Specified x (k + m) (netOf x (k + m) p) (nbh (k + m) p)) →
      ((((ls.zipIdx k).foldl (fun r lr => lr.1.foldl (fun r p =>
        (neighbors x lr.2 p (nbh lr.2 p)).foldl CellResults.addOverlapCap r) r) r).overlapTable.getD
        ⟨x.name j, n, x.name i, b⟩ []).map OverlapCap.capValue).sum =
      ((r.overlapTable.getD ⟨x.name j, n, x.name i, b⟩ []).map OverlapCap.capValue).sum +
      if k ≤ i then (((ls.getD (i - k) []).filter fun p => decide (netOf x i p = b)).map fun p =>
        ((p.cells.filter fun c => Owned x (nbh i p) i b c j n).card : ℚ) * x.dbu ^ 2 * s.cap / 1000).sum else 0 := by
    intro ls
    induction ls with
    | nil => intro k r h _; simp
    | cons l ls ih =>
      intro k r hk hS
      rw [List.zipIdx_cons, List.foldl_cons, ih (k + 1) _ (by simp at hk; omega), inner k (by simp at hk; omega)]
      · rw [add_assoc]
        congr 1
        by_cases h1 : k = i
        · subst h1
          rw [if_pos rfl, if_neg (by omega), if_pos (le_refl _)]; simp
        · rw [if_neg h1]
          by_cases h2 : k ≤ i
          · rw [if_pos (by omega), if_pos h2]
            have : i - k = (i - (k + 1)) + 1 := by omega
            rw [this, zero_add]
            rfl
          · rw [if_neg (by omega), if_neg h2]; simp
      · intro p hp
        have := hS 0 l rfl p hp
        simpa using this
      · intro m l' hm p hp
        have := hS (m + 1) l' (by simpa using hm) p hp
        have e : k + (m + 1) = k + 1 + m := by omega
        rwa [e] at this
  have := outer regions 0 r (by omega) (by simpa using hs)
  rw [extract]
  simpa using this

/-! ### Counterexample to C31 and examples -/

/-- Three layers above the substrate, no specification for the pair (`met2`, `met1`). -/
def exCtx (full : Bool) : Ctx :=
  { names := ["VSUBS", "met1", "met2", "met3"], dbu := 1/1000
    par := { overlaps := [⟨"met3", "met1", 10⟩, ⟨"met2", "VSUBS", 1⟩] ++ if full then [⟨"met2", "met1", 100⟩] else [] } }

/-- `met2` covers one cell of a polygon of two cells, `met3` covers both. -/
def exNb : Neighborhood := [(2, [⟨"B", {(0, 0)}⟩]), (3, [⟨"C", {(0, 0), (1, 0)}⟩])]

/-- The same without the shape on `met2`. -/
def exNb' : Neighborhood := [(3, [⟨"C", {(0, 0), (1, 0)}⟩])]

def exPoly : Poly := ⟨"A", {(0, 0), (1, 0)}⟩

/-- **C31 is false**: a foreign shape on a layer without specification suppresses the record for the layer above it,
which is made when that shape is absent, although half of the polygon is only covered by the upper layer. -/
theorem missing_spec_fails :
    neighbors (exCtx false) 1 exPoly exNb = [] ∧
    (∃ r ∈ neighbors (exCtx false) 1 exPoly exNb', r.key = ⟨"met3", "C", "met1", "A"⟩) ∧
    Owned (exCtx false) exNb 1 "A" (1, 0) 3 "C" := by
  refine ⟨by decide +kernel, by decide +kernel, by decide, by decide, ?_, [], ⟨"C", {(0, 0), (1, 0)}⟩, [], rfl, by decide,
    rfl, by decide, by simp⟩
  intro k h1 h2
  have : k = 2 := by omega
  subst this
  rintro ⟨l, hl, q, hq, hc, _⟩
  have : l = [⟨"B", {(0, 0)}⟩] := by
    have h : exNb.get? 2 = some [⟨"B", {(0, 0)}⟩] := rfl
    rw [h] at hl; exact (Option.some.inj hl).symm
  subst this
  simp only [List.mem_singleton] at hq
  subst hq
  simp at hc

/-- The hypotheses of `overlap_exact` hold for the complete technology: both records are made. -/
example : Specified (exCtx true) 1 "A" exNb := by
  intro j h1 h2 l hl q hq hne
  have h3 : j = 2 ∨ j = 3 := by
    have : j < 4 := h2
    omega
  rcases h3 with rfl | rfl
  · exact ⟨⟨"met2", "met1", 100⟩, (specOf_iff _ _ _ _).1 (by decide +kernel)⟩
  · exact ⟨⟨"met3", "met1", 10⟩, (specOf_iff _ _ _ _).1 (by decide +kernel)⟩

example : (neighbors (exCtx true) 1 exPoly exNb).map (fun r => (r.key.netTop, r.capValue)) =
    [("B", 1 / 10000000), ("C", 1 / 100000000)] := by decide +kernel

example : NonNeg (exCtx true).par := by
  refine ⟨?_, ?_⟩ <;> simp [exCtx]

end Verif.Overlap
