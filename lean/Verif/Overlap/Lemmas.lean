import Verif.Overlap.Model
import Verif.TechInfo.Props
import Mathlib.Tactic.Positivity
import Mathlib.Tactic.Linarith
import Mathlib.Tactic.Ring
import Mathlib.Algebra.BigOperators.Group.List.Lemmas
import Mathlib.Algebra.BigOperators.Group.Finset.Basic

namespace Verif.Overlap

open TechInfo (Parasitics OverlapSpec substrateName overlapTable lookup2)
open Summary (OverlapKey OverlapCap CellResults)

/-- Name of the layer with index `i`. -/
def Ctx.name (x : Ctx) (i : Nat) : String := x.names.getD i ""

/-- The net that a polygon of layer `i` counts for: the substrate is a net of its own. -/
def netOf (x : Ctx) (i : Nat) (p : Poly) : String := if x.name i = "VSUBS" then "VSUBS" else p.net

/-- The polygons above in the order of the visit, with their layer. -/
def visits (nb : Neighborhood) (js : List Nat) : List (Nat × Poly) :=
  js.flatMap fun j => (nb.getD j []).map fun q => (j, q)

/-- Loop body over the flat list. -/
def step (x : Ctx) (botName netBot : String) (bottom : Finset Cell) (st : St) (v : Nat × Poly) : St :=
  visitPoly x botName netBot bottom (x.name v.1) st v.2

theorem visitPoly_stopped (x : Ctx) (bn net : String) (bottom : Finset Cell) (t : String) (st : St) (q : Poly)
    (h : st.stopped = true) : visitPoly x bn net bottom t st q = st := by
  unfold visitPoly; rw [if_pos h]

theorem foldl_stopped (x : Ctx) (bn net : String) (bottom : Finset Cell) (L : List (Nat × Poly)) (st : St)
    (h : st.stopped = true) : L.foldl (step x bn net bottom) st = st := by
  induction L with
  | nil => rfl
  | cons v L ih => rw [List.foldl_cons, step, visitPoly_stopped _ _ _ _ _ _ _ h, ih]

theorem foldl_layers (x : Ctx) (bn net : String) (bottom : Finset Cell) (nb : Neighborhood) (js : List Nat) (st : St) :
    js.foldl (visitLayer x bn net bottom nb) st = (visits nb js).foldl (step x bn net bottom) st := by
  induction js generalizing st with
  | nil => rfl
  | cons j js ih =>
    have hv : visits nb (j :: js) = (nb.getD j []).map (fun q => (j, q)) ++ visits nb js := by
      simp only [visits, List.flatMap_cons]
    rw [List.foldl_cons, ih, hv, List.foldl_append]
    congr 1
    unfold visitLayer
    by_cases h : st.stopped = true
    · rw [if_pos h, foldl_stopped _ _ _ _ _ _ h]
    · rw [if_neg h, List.foldl_map]
      unfold Dict.getD
      cases nb.get? j with
      | none => rfl
      | some l => rfl

theorem neighbors_eq (x : Ctx) (i : Nat) (p : Poly) (nb : Neighborhood) :
    neighbors x i p nb = ((visits nb (List.range' (i + 1) (x.names.length - (i + 1)))).foldl
      (step x (x.name i) (netOf x i p) p.cells) ⟨∅, [], false⟩).out := by
  rw [neighbors, foldl_layers]
  rfl

/-- The specification for a pair of layer names, if any. -/
def specOf (p : Parasitics) (t b : String) : Option OverlapSpec := lookup2 (overlapTable p) t b

theorem step_same (x : Ctx) (bn net : String) (bottom : Finset Cell) (st : St) (v : Nat × Poly) (h : v.2.net = net) :
    step x bn net bottom st v = st := by
  unfold step visitPoly
  by_cases hb : st.stopped = true
  · rw [if_pos hb]
  · rw [if_neg hb, if_pos h]

theorem step_none (x : Ctx) (bn net : String) (bottom : Finset Cell) (st : St) (v : Nat × Poly) (h : v.2.net ≠ net)
    (hs : specOf x.par (x.name v.1) bn = none) : (step x bn net bottom st v).stopped = true ∧
      (step x bn net bottom st v).out = st.out := by
  unfold step visitPoly
  by_cases hb : st.stopped = true
  · rw [if_pos hb]; exact ⟨hb, rfl⟩
  · rw [if_neg hb, if_neg h]
    unfold specOf lookup2 at hs
    generalize (overlapTable x.par).get? (x.name v.1) = o at hs ⊢
    cases o with
    | none => exact ⟨rfl, rfl⟩
    | some specs =>
      rw [Option.bind_some] at hs
      cases specs with
      | nil => exact ⟨rfl, rfl⟩
      | cons e es => simp [hs]

/-- The value recorded for an area. -/
def capOf (x : Ctx) (n : Nat) (c : ℚ) : ℚ := (n : ℚ) * x.dbu ^ 2 * c / 1000

theorem step_some (x : Ctx) (bn net : String) (bottom : Finset Cell) (st : St) (v : Nat × Poly) (h : v.2.net ≠ net)
    (hst : st.stopped = false) {spec : OverlapSpec} (hs : specOf x.par (x.name v.1) bn = some spec) :
    step x bn net bottom st v =
      { shielded := st.shielded ∪ v.2.cells
        out := if 0 < capOf x ((v.2.cells ∩ bottom) \ st.shielded).card spec.cap then
            st.out ++ [{ key := ⟨x.name v.1, v.2.net, bn, net⟩,
                         capValue := capOf x ((v.2.cells ∩ bottom) \ st.shielded).card spec.cap, shieldedArea := 0,
                         unshieldedArea := 0 }]
          else st.out
        stopped := false } := by
  unfold step visitPoly
  rw [if_neg (by simp [hst]), if_neg h]
  unfold specOf lookup2 at hs
  generalize (overlapTable x.par).get? (x.name v.1) = o at hs ⊢
  cases o with
  | none => simp at hs
  | some specs =>
    rw [Option.bind_some] at hs
    cases specs with
    | nil => simp at hs
    | cons e es => simp only [hs]; rfl

/-- Does the visit cover the cell with another net? -/
def hits (net : String) (c : Cell) (v : Nat × Poly) : Bool := decide (c ∈ v.2.cells ∧ v.2.net ≠ net)

/-- The visit that takes the cell. -/
def taker (net : String) (L : List (Nat × Poly)) (c : Cell) : Option (Nat × Poly) := L.find? (hits net c)

theorem taker_snoc (net : String) (L : List (Nat × Poly)) (v : Nat × Poly) (c : Cell) :
    taker net (L ++ [v]) c = (taker net L c).or (if c ∈ v.2.cells ∧ v.2.net ≠ net then some v else none) := by
  unfold taker
  rw [List.find?_append]
  congr 1
  rw [List.find?_cons, List.find?_nil]
  unfold hits
  by_cases h : c ∈ v.2.cells ∧ v.2.net ≠ net
  · rw [if_pos h]; simp [h]
  · rw [if_neg h]; simp only [h, decide_false]

/-- Every visit of a foreign polygon has a specification. -/
def AllSpec (x : Ctx) (bn net : String) (L : List (Nat × Poly)) : Prop :=
  ∀ v ∈ L, v.2.net ≠ net → ∃ s, specOf x.par (x.name v.1) bn = some s

theorem state_shield (x : Ctx) (bn net : String) (bottom : Finset Cell) (L : List (Nat × Poly))
    (hL : AllSpec x bn net L) :
    (L.foldl (step x bn net bottom) ⟨∅, [], false⟩).stopped = false ∧
    ∀ c, c ∈ (L.foldl (step x bn net bottom) ⟨∅, [], false⟩).shielded ↔ (taker net L c).isSome := by
  induction L using List.reverseRecOn with
  | nil => simp [taker]
  | append_singleton L v ih =>
    obtain ⟨h1, h2⟩ := ih (fun w hw => hL w (List.mem_append_left _ hw))
    rw [List.foldl_append, List.foldl_cons, List.foldl_nil]
    generalize hst : L.foldl (step x bn net bottom) ⟨∅, [], false⟩ = st at h1 h2
    by_cases hn : v.2.net = net
    · rw [step_same _ _ _ _ _ _ hn]
      refine ⟨h1, fun c => ?_⟩
      rw [h2, taker_snoc, if_neg (by simp [hn])]; simp
    · obtain ⟨s, hs⟩ := hL v (by simp) hn
      rw [step_some _ _ _ _ _ _ hn h1 hs]
      refine ⟨rfl, fun c => ?_⟩
      simp only [Finset.mem_union, h2, taker_snoc]
      by_cases hc : c ∈ v.2.cells
      · rw [if_pos ⟨hc, hn⟩]; simp [hc]
      · rw [if_neg (by simp [hc])]; simp [hc]

/-- Sum of the records selected by a predicate on keys, weighted. -/
def total (w : OverlapKey → ℚ) (out : List OverlapCap) : ℚ := (out.map fun r => w r.key * r.capValue).sum

/-- Weighted contribution of one cell. -/
def cellValue (x : Ctx) (bn net : String) (w : OverlapKey → ℚ) (L : List (Nat × Poly)) (c : Cell) : ℚ :=
  match taker net L c with
  | none => 0
  | some v => match specOf x.par (x.name v.1) bn with
    | none => 0
    | some s => w ⟨x.name v.1, v.2.net, bn, net⟩ * (x.dbu ^ 2 * s.cap / 1000)

theorem cellValue_none {x : Ctx} {bn net : String} {w : OverlapKey → ℚ} {L : List (Nat × Poly)} {c : Cell}
    (h : taker net L c = none) : cellValue x bn net w L c = 0 := by unfold cellValue; rw [h]

theorem cellValue_some {x : Ctx} {bn net : String} {w : OverlapKey → ℚ} {L : List (Nat × Poly)} {c : Cell}
    {v : Nat × Poly} {s : OverlapSpec} (h : taker net L c = some v) (hs : specOf x.par (x.name v.1) bn = some s) :
    cellValue x bn net w L c = w ⟨x.name v.1, v.2.net, bn, net⟩ * (x.dbu ^ 2 * s.cap / 1000) := by
  unfold cellValue; rw [h]; simp only [hs]

theorem cellValue_congr {x : Ctx} {bn net : String} {w : OverlapKey → ℚ} {L M : List (Nat × Poly)} {c : Cell}
    (h : taker net L c = taker net M c) : cellValue x bn net w L c = cellValue x bn net w M c := by
  unfold cellValue; rw [h]

open Classical in
/-- The records as a sum over the cells. -/
theorem total_eq (x : Ctx) (bn net : String) (bottom : Finset Cell) (w : OverlapKey → ℚ) (L : List (Nat × Poly))
    (hL : AllSpec x bn net L)
    (hpos : ∀ v ∈ L, ∀ s, specOf x.par (x.name v.1) bn = some s → 0 ≤ s.cap) :
    total w (L.foldl (step x bn net bottom) ⟨∅, [], false⟩).out = ∑ c ∈ bottom, cellValue x bn net w L c := by
  induction L using List.reverseRecOn with
  | nil => simp [total, cellValue_none (show taker net [] _ = none from rfl)]
  | append_singleton L v ih =>
    have hL' : AllSpec x bn net L := fun w hw => hL w (List.mem_append_left _ hw)
    have ih := ih hL' (fun w hw => hpos w (List.mem_append_left _ hw))
    obtain ⟨h1, h2⟩ := state_shield x bn net bottom L hL'
    rw [List.foldl_append, List.foldl_cons, List.foldl_nil]
    generalize hst : L.foldl (step x bn net bottom) ⟨∅, [], false⟩ = st at h1 h2 ih
    by_cases hn : v.2.net = net
    · rw [step_same _ _ _ _ _ _ hn, ih]
      refine Finset.sum_congr rfl fun c _ => cellValue_congr ?_
      rw [taker_snoc, if_neg (by simp [hn])]; simp
    · obtain ⟨s, hs⟩ := hL v (by simp) hn
      have hs0 : 0 ≤ s.cap := hpos v (by simp) s hs
      have e : total w (step x bn net bottom st v).out =
          total w st.out + w ⟨x.name v.1, v.2.net, bn, net⟩ *
            capOf x ((v.2.cells ∩ bottom) \ st.shielded).card s.cap := by
        rw [step_some _ _ _ _ _ _ hn h1 hs]
        have hnn : 0 ≤ capOf x ((v.2.cells ∩ bottom) \ st.shielded).card s.cap := by
          unfold capOf; positivity
        by_cases hc : 0 < capOf x ((v.2.cells ∩ bottom) \ st.shielded).card s.cap
        · simp only [if_pos hc, total, List.map_append, List.sum_append, List.map_cons, List.map_nil, List.sum_cons,
            List.sum_nil, add_zero]
        · have : capOf x ((v.2.cells ∩ bottom) \ st.shielded).card s.cap = 0 := le_antisymm (not_lt.1 hc) hnn
          simp [this]
      rw [e, ih]
      have e2 : w ⟨x.name v.1, v.2.net, bn, net⟩ * capOf x ((v.2.cells ∩ bottom) \ st.shielded).card s.cap =
          ∑ c ∈ bottom, if (taker net L c) = none ∧ c ∈ v.2.cells then
            w ⟨x.name v.1, v.2.net, bn, net⟩ * (x.dbu ^ 2 * s.cap / 1000) else 0 := by
        rw [← Finset.sum_filter, Finset.sum_const, nsmul_eq_mul]
        have : bottom.filter (fun c => (taker net L c) = none ∧ c ∈ v.2.cells) = (v.2.cells ∩ bottom) \ st.shielded := by
          ext c
          simp only [Finset.mem_filter, Finset.mem_sdiff, Finset.mem_inter, h2]
          cases taker net L c <;> simp
          tauto
        rw [this, capOf]; ring
      rw [e2, ← Finset.sum_add_distrib]
      refine Finset.sum_congr rfl fun c _ => ?_
      cases ht : taker net L c with
      | some u =>
        have : taker net (L ++ [v]) c = taker net L c := by rw [taker_snoc, ht]; rfl
        rw [cellValue_congr this]; simp
      | none =>
        rw [cellValue_none ht]
        by_cases hc : c ∈ v.2.cells
        · have : taker net (L ++ [v]) c = some v := by rw [taker_snoc, ht, if_pos ⟨hc, hn⟩]; rfl
          rw [cellValue_some this hs]; simp [hc]
        · have : taker net (L ++ [v]) c = none := by rw [taker_snoc, ht, if_neg (by simp [hc])]; rfl
          rw [cellValue_none this]; simp [hc]

/-- After a visit without specification nothing is recorded any more. -/
theorem stop_at (x : Ctx) (bn net : String) (bottom : Finset Cell) (L M : List (Nat × Poly)) (v : Nat × Poly)
    (hn : v.2.net ≠ net) (hs : specOf x.par (x.name v.1) bn = none) (st : St) :
    ((L ++ v :: M).foldl (step x bn net bottom) st).out = (L.foldl (step x bn net bottom) st).out := by
  rw [List.foldl_append, List.foldl_cons]
  have := step_none x bn net bottom (L.foldl (step x bn net bottom) st) v hn hs
  rw [foldl_stopped _ _ _ _ _ _ this.1, this.2]

/-- Later visits only append records of their own layers. -/
theorem out_extend (x : Ctx) (bn net : String) (bottom : Finset Cell) (M : List (Nat × Poly)) (st : St) :
    ∃ rs, (M.foldl (step x bn net bottom) st).out = st.out ++ rs ∧ ∀ r ∈ rs, ∃ v ∈ M, r.key.layerTop = x.name v.1 := by
  induction M generalizing st with
  | nil => exact ⟨[], by simp, by simp⟩
  | cons v M ih =>
    rw [List.foldl_cons]
    obtain ⟨rs, h1, h2⟩ := ih (step x bn net bottom st v)
    have h0 : ∃ r0, (step x bn net bottom st v).out = st.out ++ r0 ∧ ∀ r ∈ r0, r.key.layerTop = x.name v.1 := by
      by_cases hn : v.2.net = net
      · rw [step_same _ _ _ _ _ _ hn]; exact ⟨[], by simp, by simp⟩
      · cases hs : specOf x.par (x.name v.1) bn with
        | none => rw [(step_none x bn net bottom st v hn hs).2]; exact ⟨[], by simp, by simp⟩
        | some s =>
          by_cases hb : st.stopped = true
          · rw [step, visitPoly_stopped _ _ _ _ _ _ _ hb]; exact ⟨[], by simp, by simp⟩
          · rw [step_some _ _ _ _ _ _ hn (by simpa using hb) hs]
            simp only
            by_cases hc : 0 < capOf x ((v.2.cells ∩ bottom) \ st.shielded).card s.cap
            · rw [if_pos hc]; exact ⟨_, rfl, by simp⟩
            · rw [if_neg hc]; exact ⟨[], by simp, by simp⟩
    obtain ⟨r0, h3, h4⟩ := h0
    refine ⟨r0 ++ rs, by rw [h1, h3, List.append_assoc], ?_⟩
    intro r hr
    rcases List.mem_append.1 hr with hr | hr
    · exact ⟨v, List.mem_cons_self, h4 r hr⟩
    · obtain ⟨u, hu, h⟩ := h2 r hr
      exact ⟨u, List.mem_cons_of_mem _ hu, h⟩

/-- Every record comes from a visit. -/
theorem mem_out (x : Ctx) (bn net : String) (bottom : Finset Cell) (L : List (Nat × Poly)) (r : OverlapCap)
    (h : r ∈ (L.foldl (step x bn net bottom) ⟨∅, [], false⟩).out) :
    ∃ v ∈ L, r.key = ⟨x.name v.1, v.2.net, bn, net⟩ ∧ v.2.net ≠ net ∧ 0 < r.capValue ∧
      ∃ s, specOf x.par (x.name v.1) bn = some s := by
  induction L using List.reverseRecOn with
  | nil => simp at h
  | append_singleton L v ih =>
    rw [List.foldl_append, List.foldl_cons, List.foldl_nil] at h
    have lift : r ∈ (L.foldl (step x bn net bottom) ⟨∅, [], false⟩).out →
        ∃ v' ∈ L ++ [v], r.key = ⟨x.name v'.1, v'.2.net, bn, net⟩ ∧
        v'.2.net ≠ net ∧ 0 < r.capValue ∧ ∃ s, specOf x.par (x.name v'.1) bn = some s := fun h => by
      obtain ⟨u, hu, h⟩ := ih h
      exact ⟨u, List.mem_append_left _ hu, h⟩
    generalize hst : L.foldl (step x bn net bottom) ⟨∅, [], false⟩ = st at h lift
    by_cases hn : v.2.net = net
    · rw [step_same _ _ _ _ _ _ hn] at h; exact lift h
    · cases hs : specOf x.par (x.name v.1) bn with
      | none => rw [(step_none x bn net bottom st v hn hs).2] at h; exact lift h
      | some s =>
        by_cases hb : st.stopped = true
        · rw [step, visitPoly_stopped _ _ _ _ _ _ _ hb] at h; exact lift h
        · rw [step_some _ _ _ _ _ _ hn (by simpa using hb) hs] at h
          simp only at h
          by_cases hc : 0 < capOf x ((v.2.cells ∩ bottom) \ st.shielded).card s.cap
          · rw [if_pos hc, List.mem_append, List.mem_singleton] at h
            rcases h with h | rfl
            · exact lift h
            · exact ⟨v, by simp, rfl, hn, hc, s, hs⟩
          · rw [if_neg hc] at h; exact lift h

theorem mem_visits (nb : Neighborhood) (js : List Nat) (v : Nat × Poly) :
    v ∈ visits nb js ↔ v.1 ∈ js ∧ v.2 ∈ nb.getD v.1 [] := by
  unfold visits
  simp only [List.mem_flatMap, List.mem_map]
  constructor
  · rintro ⟨j, hj, q, hq, rfl⟩; exact ⟨hj, hq⟩
  · rintro ⟨h1, h2⟩; exact ⟨v.1, h1, v.2, h2, rfl⟩

theorem visits_append (nb : Neighborhood) (a b : List Nat) : visits nb (a ++ b) = visits nb a ++ visits nb b := by
  unfold visits; rw [List.flatMap_append]

end Verif.Overlap
