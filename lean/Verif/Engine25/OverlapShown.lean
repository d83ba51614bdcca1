import Verif.Engine25.Places
import Verif.Engine25.Overlaps

/-!
# The report shows overlaps at their place in the layout (C112)
-/

namespace Verif.Engine25

open TechInfo (Parasitics OverlapSpec OverlapIs substrateName overlapTable)
open Overlap (Cell Poly)
open Summary (OverlapCap SidewallCap SideOverlapCap)
open PexMode (CapOp)
open Reporter (Act)

/-! ### The extraction with its report -/

/-- Local state of `neighbors`: the shielded region, what was recorded and reported so far and whether `return` was
executed. -/
structure StShown where
  shielded : Finset Cell
  acts : List (Act Figure)
  stopped : Bool

/-- Body of the inner loop with the report, overlap_extractor.py 111–155.  `parts` are the polygons that KLayout hands out
for a region (the reporter gets the region and iterates over it). -/
def visitPolyShown (x : Overlap.Ctx) (parts : Finset Cell → List (Finset Cell)) (botName netBot : String)
    (bottom : Finset Cell) (topName : String) (st : StShown) (q : Poly) : StShown :=
  if st.stopped then st
  else if q.net = netBot then st
  else
    match (overlapTable x.par).get? topName with
    | none => { st with stopped := true }
    | some [] => { st with stopped := true }
    | some specs =>
      match Dict.get? specs botName with
      | none => { st with stopped := true }
      | some spec =>
        let area := (q.cells ∩ bottom) \ st.shielded
        let cap := (area.card : ℚ) * x.dbu ^ 2 * spec.cap / 1000
        { shielded := st.shielded ∪ q.cells
          acts := if 0 < cap then
              st.acts ++ [.overlap { key := ⟨topName, q.net, botName, netBot⟩, capValue := cap, shieldedArea := 0,
                                     unshieldedArea := 0 } (.cells bottom) (.cells q.cells) ((parts area).map .cells)]
            else st.acts
          stopped := false }

/-- One pass of the outer loop, overlap_extractor.py 105–108. -/
def visitLayerShown (x : Overlap.Ctx) (parts : Finset Cell → List (Finset Cell)) (botName netBot : String)
    (bottom : Finset Cell) (nb : Overlap.Neighborhood) (st : StShown) (j : Nat) : StShown :=
  if st.stopped then st
  else
    match nb.get? j with
    | none => st
    | some above => above.foldl (visitPolyShown x parts botName netBot bottom (x.names.getD j "")) st

/-- `neighbors` with the report, overlap_extractor.py 91–155. -/
def neighborsShown (x : Overlap.Ctx) (parts : Finset Cell → List (Finset Cell)) (i : Nat) (p : Poly)
    (nb : Overlap.Neighborhood) : List (Act Figure) :=
  ((List.range' (i + 1) (x.names.length - (i + 1))).foldl
    (visitLayerShown x parts (x.names.getD i "") (Overlap.bottomNet x i p) p.cells nb) ⟨∅, [], false⟩).acts

/-- `extract` with the report, overlap_extractor.py 54–73. -/
def overlapsShown (x : Overlap.Ctx) (parts : Finset Cell → List (Finset Cell)) (regions : List (List Poly))
    (nbh : Nat → Poly → Overlap.Neighborhood) : List (Act Figure) :=
  regions.zipIdx.flatMap fun lr => lr.1.flatMap fun p => neighborsShown x parts lr.2 p (nbh lr.2 p)

/-! ### Specification -/

/-- The net that a polygon of a layer counts for: the substrate is a net of its own. -/
def countedNet (name : String) (p : Poly) : String := if name = "VSUBS" then "VSUBS" else p.net

/-- An overlap capacitance between layers `i` and `j` is shown by the two polygons and an area.  The area is the part that
the polygons share and where no polygon of a layer in between lies, except those of the bottom net; the value is the size of
the area times the capacitance per area of the two layers. -/
def OverlapPlaced (R : List (List Poly)) (names : List String) (dbu : ℚ) (par : Parasitics) (i : Nat) (c : OverlapCap)
    (bottom top : Figure) (area : List Figure) : Prop :=
  ∃ p ∈ R.getD i [], ∃ (j : Nat), i < j ∧ j < names.length ∧ ∃ q ∈ R.getD j [], ∃ (A : Finset Cell) (P : List (Finset Cell))
      (s : OverlapSpec),
    bottom = .cells p.cells ∧ top = .cells q.cells ∧ area = P.map .cells ∧ (∀ z, z ∈ A ↔ ∃ B ∈ P, z ∈ B) ∧
    c.key = ⟨names.getD j "", q.net, names.getD i "", countedNet (names.getD i "") p⟩ ∧
    q.net ≠ countedNet (names.getD i "") p ∧
    (∀ z, z ∈ A ↔ z ∈ p.cells ∧ z ∈ q.cells ∧ ∀ k, i < k → k < j → ∀ r ∈ R.getD k [], z ∈ r.cells →
      r.net = countedNet (names.getD i "") p) ∧
    OverlapIs par (names.getD j "") (names.getD i "") s ∧
    c.capValue = (A.card : ℚ) * dbu ^ 2 * s.cap / 1000 ∧ 0 < c.capValue

/-- What is assumed of the neighbourhoods: they list polygons of the given layer and all of them that share area with the
visited polygon. -/
structure Looks (R : List (List Poly)) (nbh : Nat → Poly → Overlap.Neighborhood) : Prop where
  sound : ∀ i, ∀ p ∈ R.getD i [], ∀ j l, (nbh i p).get? j = some l → ∀ q ∈ l, q ∈ R.getD j []
  complete : ∀ i, ∀ p ∈ R.getD i [], ∀ j, ∀ q ∈ R.getD j [], ¬ Disjoint p.cells q.cells →
    ∃ l, (nbh i p).get? j = some l ∧ q ∈ l

/-! ### The records are those of the extraction -/

/-- The two states belong together. -/
def Same (a : StShown) (b : Overlap.St) : Prop :=
  a.shielded = b.shielded ∧ a.stopped = b.stopped ∧ a.acts.filterMap recordOf = b.out.map .overlap

theorem visitPoly_same (x : Overlap.Ctx) (parts : Finset Cell → List (Finset Cell)) (bn net : String) (bottom : Finset Cell)
    (t : String) {a : StShown} {b : Overlap.St} (h : Same a b) (q : Poly) :
    Same (visitPolyShown x parts bn net bottom t a q) (Overlap.visitPoly x bn net bottom t b q) := by
  obtain ⟨h1, h2, h3⟩ := h
  unfold visitPolyShown Overlap.visitPoly
  rw [h2]
  by_cases hs : b.stopped = true
  · rw [if_pos hs, if_pos hs]; exact ⟨h1, h2, h3⟩
  rw [if_neg hs, if_neg hs]
  by_cases hn : q.net = net
  · rw [if_pos hn, if_pos hn]; exact ⟨h1, h2, h3⟩
  rw [if_neg hn, if_neg hn]
  generalize (overlapTable x.par).get? t = o
  cases o with
  | none => exact ⟨h1, rfl, h3⟩
  | some specs =>
    cases specs with
    | nil => exact ⟨h1, rfl, h3⟩
    | cons e es =>
      simp only
      generalize Dict.get? (e :: es) bn = o
      cases o with
      | none => exact ⟨h1, rfl, h3⟩
      | some s =>
        simp only [h1]
        refine ⟨rfl, rfl, ?_⟩
        simp only
        split_ifs with hc
        · rw [List.filterMap_append, List.map_append, h3]; rfl
        · exact h3

theorem foldl_same {α : Type} (f : StShown → α → StShown) (g : Overlap.St → α → Overlap.St)
    (hfg : ∀ a b v, Same a b → Same (f a v) (g b v)) (l : List α) (a : StShown) (b : Overlap.St) (h : Same a b) :
    Same (l.foldl f a) (l.foldl g b) := by
  induction l generalizing a b with
  | nil => exact h
  | cons v l ih => exact ih _ _ (hfg _ _ _ h)

theorem visitLayer_same (x : Overlap.Ctx) (parts : Finset Cell → List (Finset Cell)) (bn net : String) (bottom : Finset Cell)
    (nb : Overlap.Neighborhood) (a : StShown) (b : Overlap.St) (j : Nat) (h : Same a b) :
    Same (visitLayerShown x parts bn net bottom nb a j) (Overlap.visitLayer x bn net bottom nb b j) := by
  unfold visitLayerShown Overlap.visitLayer
  rw [h.2.1]
  by_cases hs : b.stopped = true
  · rw [if_pos hs, if_pos hs]; exact h
  rw [if_neg hs, if_neg hs]
  cases nb.get? j with
  | none => exact h
  | some l => exact foldl_same _ _ (fun a b v hab => visitPoly_same x parts bn net bottom _ hab v) l a b h

/-- The visit with its report records the same capacitances as `Overlap.neighbors`. -/
theorem neighbors_refines (x : Overlap.Ctx) (parts : Finset Cell → List (Finset Cell)) (i : Nat) (p : Poly)
    (nb : Overlap.Neighborhood) :
    (neighborsShown x parts i p nb).filterMap recordOf = (Overlap.neighbors x i p nb).map .overlap :=
  (foldl_same _ _ (fun a b v hab => visitLayer_same x parts _ _ _ nb a b v hab) _ ⟨∅, [], false⟩ ⟨∅, [], false⟩
    ⟨rfl, rfl, rfl⟩).2.2

/-- The extraction with its report records the same capacitances, in the same order, as the extraction. -/
theorem overlaps_refine (x : Overlap.Ctx) (parts : Finset Cell → List (Finset Cell)) (regions : List (List Poly))
    (nbh : Nat → Poly → Overlap.Neighborhood) :
    (overlapsShown x parts regions nbh).filterMap recordOf = overlapOps x regions nbh := by
  unfold overlapsShown overlapOps
  rw [List.filterMap_flatMap]
  congr 1
  funext lr
  rw [List.filterMap_flatMap]
  congr 1
  funext p
  exact neighbors_refines x parts _ _ _

/-! ### What is shown -/

/-- Loop body over the flat list of visits. -/
def stepShown (x : Overlap.Ctx) (parts : Finset Cell → List (Finset Cell)) (bn net : String) (bottom : Finset Cell)
    (st : StShown) (v : Nat × Poly) : StShown :=
  visitPolyShown x parts bn net bottom (x.name v.1) st v.2

theorem visitPolyShown_stopped (x : Overlap.Ctx) (parts : Finset Cell → List (Finset Cell)) (bn net : String)
    (bottom : Finset Cell) (t : String) (st : StShown) (q : Poly) (h : st.stopped = true) :
    visitPolyShown x parts bn net bottom t st q = st := by
  unfold visitPolyShown; rw [if_pos h]

theorem foldlShown_stopped (x : Overlap.Ctx) (parts : Finset Cell → List (Finset Cell)) (bn net : String)
    (bottom : Finset Cell) (L : List (Nat × Poly)) (st : StShown) (h : st.stopped = true) :
    L.foldl (stepShown x parts bn net bottom) st = st := by
  induction L with
  | nil => rfl
  | cons v L ih => rw [List.foldl_cons, stepShown, visitPolyShown_stopped _ _ _ _ _ _ _ _ h, ih]

theorem foldlShown_layers (x : Overlap.Ctx) (parts : Finset Cell → List (Finset Cell)) (bn net : String)
    (bottom : Finset Cell) (nb : Overlap.Neighborhood) (js : List Nat) (st : StShown) :
    js.foldl (visitLayerShown x parts bn net bottom nb) st =
      (Overlap.visits nb js).foldl (stepShown x parts bn net bottom) st := by
  induction js generalizing st with
  | nil => rfl
  | cons j js ih =>
    have hv : Overlap.visits nb (j :: js) = (nb.getD j []).map (fun q => (j, q)) ++ Overlap.visits nb js := by
      simp only [Overlap.visits, List.flatMap_cons]
    rw [List.foldl_cons, ih, hv, List.foldl_append]
    congr 1
    unfold visitLayerShown
    by_cases h : st.stopped = true
    · rw [if_pos h, foldlShown_stopped _ _ _ _ _ _ _ h]
    · rw [if_neg h, List.foldl_map]
      unfold Dict.getD
      cases nb.get? j with
      | none => rfl
      | some l => rfl

/-- What a visit of the flat list does. -/
theorem stepShown_cases (x : Overlap.Ctx) (parts : Finset Cell → List (Finset Cell)) (bn net : String)
    (bottom : Finset Cell) (st : StShown) (v : Nat × Poly) :
    (stepShown x parts bn net bottom st v).stopped = true ∧ (stepShown x parts bn net bottom st v).acts = st.acts ∨
    v.2.net = net ∧ stepShown x parts bn net bottom st v = st ∨
    st.stopped = false ∧ v.2.net ≠ net ∧ ∃ s, OverlapIs x.par (x.name v.1) bn s ∧
      ∃ A : Finset Cell, A = (v.2.cells ∩ bottom) \ st.shielded ∧
      stepShown x parts bn net bottom st v =
      ⟨st.shielded ∪ v.2.cells,
        if 0 < (A.card : ℚ) * x.dbu ^ 2 * s.cap / 1000 then
          st.acts ++ [.overlap ⟨⟨x.name v.1, v.2.net, bn, net⟩, (A.card : ℚ) * x.dbu ^ 2 * s.cap / 1000, 0, 0⟩
            (.cells bottom) (.cells v.2.cells) ((parts A).map .cells)]
        else st.acts, false⟩ := by
  by_cases hb : st.stopped = true
  · left
    rw [stepShown, visitPolyShown_stopped _ _ _ _ _ _ _ _ hb]
    exact ⟨hb, rfl⟩
  by_cases hn : v.2.net = net
  · right; left
    refine ⟨hn, ?_⟩
    unfold stepShown visitPolyShown
    rw [if_neg hb, if_pos hn]
  have hl : stepShown x parts bn net bottom st v = visitPolyShown x parts bn net bottom (x.name v.1) st v.2 := rfl
  rw [hl]
  cases hs : Overlap.specOf x.par (x.name v.1) bn with
  | none =>
    left
    unfold visitPolyShown
    rw [if_neg hb, if_neg hn]
    unfold Overlap.specOf TechInfo.lookup2 at hs
    generalize (overlapTable x.par).get? (x.name v.1) = o at hs ⊢
    cases o with
    | none => exact ⟨rfl, rfl⟩
    | some specs =>
      rw [Option.bind_some] at hs
      cases specs with
      | nil => exact ⟨rfl, rfl⟩
      | cons e es => simp [hs]
  | some s =>
    right; right
    refine ⟨by simpa using hb, hn, s, (Overlap.specOf_iff _ _ _ _).1 hs, _, rfl, ?_⟩
    unfold visitPolyShown
    rw [if_neg hb, if_neg hn]
    unfold Overlap.specOf TechInfo.lookup2 at hs
    generalize (overlapTable x.par).get? (x.name v.1) = o at hs ⊢
    cases o with
    | none => simp at hs
    | some specs =>
      rw [Option.bind_some] at hs
      cases specs with
      | nil => simp at hs
      | cons e es => simp only [hs]

/-- Every overlap that is shown comes from a visit; its area is what the earlier visits with another net leave free. -/
theorem shown_visit (x : Overlap.Ctx) (parts : Finset Cell → List (Finset Cell)) (bn net : String)
    (bottom : Finset Cell) (L : List (Nat × Poly)) :
    ((L.foldl (stepShown x parts bn net bottom) ⟨∅, [], false⟩).stopped = false →
      ∀ z, z ∈ (L.foldl (stepShown x parts bn net bottom) ⟨∅, [], false⟩).shielded ↔
        ∃ v ∈ L, v.2.net ≠ net ∧ z ∈ v.2.cells) ∧
    ∀ act ∈ (L.foldl (stepShown x parts bn net bottom) ⟨∅, [], false⟩).acts,
      ∃ (M : List (Nat × Poly)) (v : Nat × Poly) (N : List (Nat × Poly)) (A : Finset Cell) (s : OverlapSpec),
        L = M ++ v :: N ∧ v.2.net ≠ net ∧ OverlapIs x.par (x.name v.1) bn s ∧
        (∀ z, z ∈ A ↔ z ∈ v.2.cells ∧ z ∈ bottom ∧ ¬ ∃ u ∈ M, u.2.net ≠ net ∧ z ∈ u.2.cells) ∧
        0 < (A.card : ℚ) * x.dbu ^ 2 * s.cap / 1000 ∧
        act = .overlap ⟨⟨x.name v.1, v.2.net, bn, net⟩, (A.card : ℚ) * x.dbu ^ 2 * s.cap / 1000, 0, 0⟩
            (.cells bottom) (.cells v.2.cells) ((parts A).map .cells) := by
  induction L using List.reverseRecOn with
  | nil => exact ⟨by simp, by simp⟩
  | append_singleton L v ih =>
    rw [List.foldl_append, List.foldl_cons, List.foldl_nil]
    generalize L.foldl (stepShown x parts bn net bottom) ⟨∅, [], false⟩ = st at ih ⊢
    obtain ⟨ih1, ih2⟩ := ih
    have lift : ∀ act ∈ st.acts, ∃ (M : List (Nat × Poly)) (u : Nat × Poly) (N : List (Nat × Poly)) (A : Finset Cell)
        (s : OverlapSpec), L ++ [v] = M ++ u :: N ∧ u.2.net ≠ net ∧ OverlapIs x.par (x.name u.1) bn s ∧
        (∀ z, z ∈ A ↔ z ∈ u.2.cells ∧ z ∈ bottom ∧ ¬ ∃ u ∈ M, u.2.net ≠ net ∧ z ∈ u.2.cells) ∧
        0 < (A.card : ℚ) * x.dbu ^ 2 * s.cap / 1000 ∧
        act = .overlap ⟨⟨x.name u.1, u.2.net, bn, net⟩, (A.card : ℚ) * x.dbu ^ 2 * s.cap / 1000, 0, 0⟩
            (.cells bottom) (.cells u.2.cells) ((parts A).map .cells) := by
      intro act ha
      obtain ⟨M, u, N, A, s, rfl, h⟩ := ih2 act ha
      exact ⟨M, u, N ++ [v], A, s, by simp, h⟩
    rcases stepShown_cases x parts bn net bottom st v with ⟨h1, h2⟩ | ⟨h1, h2⟩ | ⟨h0, hn, s, hs, A, hA, h⟩
    · rw [h1, h2]
      exact ⟨fun h => (by cases h), lift⟩
    · rw [h2]
      refine ⟨fun h z => ?_, lift⟩
      rw [ih1 h z]
      constructor
      · rintro ⟨u, hu, h⟩; exact ⟨u, List.mem_append_left _ hu, h⟩
      · rintro ⟨u, hu, h⟩
        rcases List.mem_append.1 hu with hu | hu
        · exact ⟨u, hu, h⟩
        · rw [List.mem_singleton] at hu; subst hu; exact absurd h1 h.1
    · rw [h]
      refine ⟨fun _ z => ?_, ?_⟩
      · rw [Finset.mem_union, ih1 h0 z]
        constructor
        · rintro (⟨u, hu, h⟩ | hz)
          · exact ⟨u, List.mem_append_left _ hu, h⟩
          · exact ⟨v, by simp, hn, hz⟩
        · rintro ⟨u, hu, h'⟩
          rcases List.mem_append.1 hu with hu | hu
          · exact Or.inl ⟨u, hu, h'⟩
          · rw [List.mem_singleton] at hu; subst hu; exact Or.inr h'.2
      · intro act ha
        simp only at ha
        split_ifs at ha with hc
        · rcases List.mem_append.1 ha with ha | ha
          · exact lift act ha
          · rw [List.mem_singleton] at ha
            refine ⟨L, v, [], A, s, rfl, hn, hs, fun z => ?_, hc, ha⟩
            rw [hA, Finset.mem_sdiff, Finset.mem_inter, ih1 h0 z, and_assoc]
        · exact lift act ha

theorem visits_sorted (nb : Overlap.Neighborhood) (js : List Nat) (h : js.Pairwise (· < ·)) :
    (Overlap.visits nb js).Pairwise fun a b => a.1 ≤ b.1 := by
  induction js with
  | nil => exact List.Pairwise.nil
  | cons j js ih =>
    rw [List.pairwise_cons] at h
    have hv : Overlap.visits nb (j :: js) = (nb.getD j []).map (fun q => (j, q)) ++ Overlap.visits nb js := by
      simp only [Overlap.visits, List.flatMap_cons]
    rw [hv, List.pairwise_append]
    refine ⟨?_, ih h.2, ?_⟩
    · rw [List.pairwise_map]
      exact List.pairwise_of_forall fun _ _ => le_rfl
    · intro a ha b hb
      obtain ⟨q, _, rfl⟩ := List.mem_map.1 ha
      exact (h.1 _ ((Overlap.mem_visits _ _ _).1 hb).1).le

/-- What is shown for one polygon. -/
theorem neighbors_placed {R : List (List Poly)} {x : Overlap.Ctx} {parts : Finset Cell → List (Finset Cell)}
    (hparts : ∀ A z, z ∈ A ↔ ∃ B ∈ parts A, z ∈ B) {nbh : Nat → Poly → Overlap.Neighborhood} (hl : Looks R nbh)
    (hd : ∀ L ∈ R, ∀ p ∈ L, ∀ q ∈ L, p ≠ q → Disjoint p.cells q.cells) {i : Nat} (hi : i < x.names.length) {p : Poly}
    (hp : p ∈ R.getD i []) {act : Act Figure} (ha : act ∈ neighborsShown x parts i p (nbh i p)) :
    ∃ c b t a, act = .overlap c b t a ∧ OverlapPlaced R x.names x.dbu x.par i c b t a := by
  unfold neighborsShown at ha
  rw [foldlShown_layers] at ha
  obtain ⟨M, v, N, A, s, hL, hn, hs, hA, hpos, rfl⟩ := (shown_visit x parts _ _ _ _).2 act ha
  have hvis : ∀ u, u ∈ M ++ v :: N ↔ (i < u.1 ∧ u.1 < x.names.length) ∧ u.2 ∈ (nbh i p).getD u.1 [] := by
    intro u
    rw [← hL, Overlap.mem_visits, Overlap.mem_range_layers hi]
  have hsort : (M ++ v :: N).Pairwise fun a b => a.1 ≤ b.1 := hL ▸ visits_sorted _ _ List.pairwise_lt_range'
  rw [List.pairwise_append] at hsort
  obtain ⟨_, hsort2, hsort3⟩ := hsort
  rw [List.pairwise_cons] at hsort2
  have hmem : ∀ u, u ∈ M ++ v :: N → u.2 ∈ R.getD u.1 [] := by
    intro u hu
    obtain ⟨l, hl', hq⟩ := Overlap.getD_mem.1 ((hvis u).1 hu).2
    exact hl.sound i p hp u.1 l hl' u.2 hq
  have hv := (hvis v).1 (by simp)
  have hnet : Overlap.bottomNet x i p = countedNet (x.names.getD i "") p := rfl
  rw [hnet] at hn hA
  refine ⟨_, _, _, _, rfl, p, hp, v.1, hv.1.1, hv.1.2, v.2, hmem v (by simp), A, parts A, s, rfl, rfl, rfl, hparts A, rfl,
    hn, fun z => ?_, hs, rfl, hpos⟩
  have hdis : ∀ u ∈ M, u.1 = v.1 → ∀ z ∈ u.2.cells, z ∈ v.2.cells → False := by
    intro u hu he z hz hz'
    have hne : u.2 = v.2 := by
      by_contra hne
      have h1 := hmem u (by simp [hu])
      have h2 := hmem v (by simp)
      rw [he] at h1
      have hR : R.getD v.1 [] ∈ R := by
        rw [List.getD_eq_getElem?_getD] at h2 ⊢
        cases hg : R[v.1]? with
        | none => rw [hg] at h2; simp at h2
        | some l => exact List.mem_of_getElem? hg
      exact Finset.disjoint_left.1 (hd _ hR _ h1 _ h2 hne) hz hz'
    have hemp : A = ∅ := by
      rw [Finset.eq_empty_iff_forall_notMem]
      intro w hw
      obtain ⟨w1, _, w3⟩ := (hA w).1 hw
      exact w3 ⟨u, hu, hne ▸ hn, hne ▸ w1⟩
    rw [hemp] at hpos
    simp at hpos
  rw [hA z]
  constructor
  · rintro ⟨h1, h2, h3⟩
    refine ⟨h2, h1, fun k hk1 hk2 r hr hz => ?_⟩
    by_contra hne
    obtain ⟨l, hg, hq⟩ := hl.complete i p hp k r hr (Finset.not_disjoint_iff.2 ⟨z, h2, hz⟩)
    have hu := (hvis (k, r)).2 ⟨⟨hk1, by omega⟩, Overlap.getD_mem.2 ⟨l, hg, hq⟩⟩
    rcases List.mem_append.1 hu with hu | hu
    · exact h3 ⟨_, hu, hne, hz⟩
    · rcases List.mem_cons.1 hu with hu | hu
      · rw [← hu] at hk2; exact absurd hk2 (lt_irrefl _)
      · exact absurd (hsort2.1 _ hu) (by simp only; omega)
  · rintro ⟨h1, h2, h3⟩
    refine ⟨h2, h1, ?_⟩
    rintro ⟨u, hu, hun, huz⟩
    have hle := hsort3 u hu v (by simp)
    rcases Nat.lt_or_ge u.1 v.1 with hlt | hge
    · exact hun (h3 u.1 ((hvis u).1 (by simp [hu])).1.1 hlt u.2 (hmem u (by simp [hu])) huz)
    · exact hdis u hu (by omega) z huz h2

/-- **C112.** Everything that the overlap extraction reports is at its place in the layout. -/
theorem overlaps_placed {R : List (List Poly)} {names : List String} {dbu : ℚ} {par : Parasitics}
    (hR : R.length = names.length) {parts : Finset Cell → List (Finset Cell)}
    (hparts : ∀ A z, z ∈ A ↔ ∃ B ∈ parts A, z ∈ B) {nbh : Nat → Poly → Overlap.Neighborhood} (hl : Looks R nbh)
    (hd : ∀ L ∈ R, ∀ p ∈ L, ∀ q ∈ L, p ≠ q → Disjoint p.cells q.cells) :
    ∀ act ∈ overlapsShown ⟨names, dbu, par⟩ parts R nbh,
      ∃ i < names.length, ∃ c b t a, act = .overlap c b t a ∧ OverlapPlaced R names dbu par i c b t a := by
  intro act ha
  obtain ⟨lr, hlr, ha⟩ := List.mem_flatMap.1 ha
  obtain ⟨p, hp, ha⟩ := List.mem_flatMap.1 ha
  obtain ⟨_, hi, he⟩ := List.mem_zipIdx hlr
  simp only [Nat.zero_add, Nat.sub_zero] at hi he
  refine ⟨lr.2, hR ▸ hi, ?_⟩
  refine neighbors_placed (x := ⟨names, dbu, par⟩) hparts hl hd (hR ▸ hi) ?_ ha
  rw [List.getD_eq_getElem?_getD, List.getElem?_eq_getElem hi, Option.getD_some, ← he]
  exact hp

/-- The extraction of the lateral couplings reports no overlaps. -/
theorem lateral_no_overlap {names : List String} {dbu : ℚ} {scale : Bool} {par : Parasitics} {rnd : ℝ → ℚ}
    {k : Fringe.Kernel} {debug : Bool} {text : ℚ × ℚ → String} {edges : Nat → List (Side × String × Fringe.Neighborhood)}
    {acts : List (Act Figure)} (h : extractShown names dbu scale par rnd k debug text edges = .ok acts) (c : OverlapCap)
    (b t : Figure) (a : List Figure) : Act.overlap c b t a ∉ acts := by
  intro ha
  have hr := extract_refines names dbu scale par rnd k debug text edges
  rw [h] at hr
  have hm : CapOp.overlap c ∈ acts.filterMap recordOf := List.mem_filterMap.2 ⟨_, ha, rfl⟩
  cases hx : Fringe.extract names dbu scale par k (fun i => (edges i).map Prod.snd) with
  | error e => rw [hx] at hr; cases hr
  | ok rs =>
    rw [hx] at hr
    have hr : acts.filterMap recordOf = rs.map (recOp rnd) := by injection hr
    rw [hr] at hm
    obtain ⟨r, _, he⟩ := List.mem_map.1 hm
    cases r <;> cases he

/-- **C112, the report.** Below the category of two layers and two nets the report has, numbered from 1 on, one entry for
each overlap capacitance that the results hold for them, with shapes at their place in the layout. The lateral couplings
are reported afterwards. -/
theorem report_overlaps {R : List (List Poly)} {names : List String} {dbu : ℚ} {scale : Bool} {par : Parasitics}
    {rnd : ℝ → ℚ} (hR : R.length = names.length) {parts : Finset Cell → List (Finset Cell)}
    (hparts : ∀ A z, z ∈ A ↔ ∃ B ∈ parts A, z ∈ B) {nbh : Nat → Poly → Overlap.Neighborhood} (hl : Looks R nbh)
    (hd : ∀ L ∈ R, ∀ p ∈ L, ∀ q ∈ L, p ≠ q → Disjoint p.cells q.cells)
    (hnames : ∀ L ∈ R, ∀ p ∈ L, Reporter.NoDash p.net)
    {k : Fringe.Kernel} (debug : Bool) (text : ℚ × ℚ → String)
    {edges : Nat → List (Side × String × Fringe.Neighborhood)} {acts : List (Act Figure)}
    (h : extractShown names dbu scale par rnd k debug text edges = .ok acts)
    (t : Reporter.Text) (ht : Reporter.PathsDiffer t) (cell top netTop bot netBot : String)
    (hnt : Reporter.NoDash netTop) :
    ∃ L : List (OverlapCap × Figure × Figure × List Figure),
      Reporter.below ["[C] Overlap", "top_layer=" ++ top, "bot_layer=" ++ bot, netTop ++ " – " ++ netBot]
        (Reporter.acts t cell (overlapsShown ⟨names, dbu, par⟩ parts R nbh ++ acts)).2 =
        (L.zipIdx 1).flatMap (fun e => Reporter.overlapEntry t
          ["[C] Overlap", "top_layer=" ++ top, "bot_layer=" ++ bot, netTop ++ " – " ++ netBot]
          e.2 e.1.1 e.1.2.1 e.1.2.2.1 e.1.2.2.2) ∧
      L.map Prod.fst = (Reporter.acts t cell (overlapsShown ⟨names, dbu, par⟩ parts R nbh ++ acts)).1.overlapTable.getD
        ⟨top, netTop, bot, netBot⟩ [] ∧
      ∀ e ∈ L, e.1.key = ⟨top, netTop, bot, netBot⟩ ∧
        ∃ i < names.length, OverlapPlaced R names dbu par i e.1 e.2.1 e.2.2.1 e.2.2.2 := by
  have hpl := overlaps_placed (dbu := dbu) (par := par) hR hparts hl hd
  have hdash : ∀ c b p a, Act.overlap c b p a ∈ overlapsShown ⟨names, dbu, par⟩ parts R nbh ++ acts →
      Reporter.NoDash c.key.netTop := by
    intro c b p a ha
    rcases List.mem_append.1 ha with ha | ha
    · obtain ⟨i, _, c', b', t', a', he, _, _, j, _, _, q, hq, A, P, s, _, _, _, _, hkey, _⟩ := hpl _ ha
      cases he
      rw [hkey]
      refine hnames (R.getD j []) ?_ q hq
      rw [List.getD_eq_getElem?_getD] at hq ⊢
      cases hg : R[j]? with
      | none => rw [hg] at hq; simp at hq
      | some l => exact List.mem_of_getElem? hg
    · exact absurd ha (lateral_no_overlap h c b p a)
  have hne : netTop ++ " – " ++ netBot ≠ "" := by
    intro e
    have e := congrArg String.toList e
    simp at e
  refine ⟨_, Reporter.overlap_shown t ht cell _ top bot (netTop ++ " – " ++ netBot) hne,
    ((Reporter.results_shown_partial t cell _).2.2 hdash top netTop bot netBot hnt).symm, ?_⟩
  intro e he
  obtain ⟨a, ha, hae⟩ := List.mem_filterMap.1 he
  cases a with
  | overlap c b p s =>
    simp only [Reporter.overlapIn] at hae
    split_ifs at hae with hkey
    cases hae
    have hin : Act.overlap c b p s ∈ overlapsShown ⟨names, dbu, par⟩ parts R nbh := by
      rcases List.mem_append.1 ha with h' | h'
      · exact h'
      · exact absurd h' (lateral_no_overlap h c b p s)
    obtain ⟨i, hi, c', b', t', a', he, hp⟩ := hpl _ hin
    cases he
    refine ⟨?_, i, hi, hp⟩
    have hj := (Reporter.dash_inj (hdash c b p s ha) hnt).1 hkey.2.2
    rw [← hkey.1, ← hkey.2.1, ← hj.1, ← hj.2]
  | sidewall => cases hae
  | sideoverlap => cases hae
  | neighborhood => cases hae

/-! ### An example -/

/-- A wire below, a narrow wire of another net above it and a plate of a third net over both. -/
def coverRegions : List (List Poly) :=
  [[⟨"A", {(0, 0), (1, 0), (2, 0)}⟩], [⟨"B", {(1, 0), (1, 1)}⟩], [⟨"C", {(0, 0), (1, 0), (2, 0)}⟩]]

/-- The neighbourhoods list all polygons of all layers. -/
def coverNbh (_ : Nat) (_ : Poly) : Overlap.Neighborhood :=
  [(0, coverRegions.getD 0 []), (1, coverRegions.getD 1 []), (2, coverRegions.getD 2 [])]

/-- Capacitances per area. -/
def coverPar : Parasitics where
  sideHalo := 8
  substrates := []
  overlaps := [⟨"m2", "m1", 100⟩, ⟨"m3", "m1", 50⟩, ⟨"m3", "m2", 80⟩]
  sidewalls := []
  sideoverlaps := []

/-- The hypotheses are met; the plate faces the lower wire in two separate squares. -/
theorem cover_shown : Looks coverRegions coverNbh ∧
    (∀ L ∈ coverRegions, ∀ p ∈ L, ∀ q ∈ L, p ≠ q → Disjoint p.cells q.cells) ∧
    (∀ L ∈ coverRegions, ∀ p ∈ L, Reporter.NoDash p.net) ∧
    ∃ c1 c2 c3, overlapsShown ⟨["m1", "m2", "m3"], 1, coverPar⟩ (fun A => [A]) coverRegions coverNbh =
      [.overlap c1 (.cells {(0, 0), (1, 0), (2, 0)}) (.cells {(1, 0), (1, 1)}) [.cells {(1, 0)}],
       .overlap c2 (.cells {(0, 0), (1, 0), (2, 0)}) (.cells {(0, 0), (1, 0), (2, 0)}) [.cells {(0, 0), (2, 0)}],
       .overlap c3 (.cells {(1, 0), (1, 1)}) (.cells {(0, 0), (1, 0), (2, 0)}) [.cells {(1, 0)}]] := by
  refine ⟨⟨?_, ?_⟩, by decide +kernel, by unfold Reporter.NoDash; decide +kernel, ?_⟩
  · intro i p _ j l hl q hq
    rcases j with _ | _ | _ | j
    all_goals simp [coverNbh, Dict.get?] at hl
    all_goals subst hl; exact hq
  · intro i p _ j q hq _
    rcases j with _ | _ | _ | j
    · exact ⟨_, rfl, hq⟩
    · exact ⟨_, rfl, hq⟩
    · exact ⟨_, rfl, hq⟩
    · simp [coverRegions] at hq
  · have key : (match overlapsShown ⟨["m1", "m2", "m3"], 1, coverPar⟩ (fun A => [A]) coverRegions coverNbh with
      | [.overlap _ (.cells b1) (.cells t1) [.cells a1], .overlap _ (.cells b2) (.cells t2) [.cells a2],
          .overlap _ (.cells b3) (.cells t3) [.cells a3]] =>
        decide (b1 = {(0, 0), (1, 0), (2, 0)} ∧ t1 = {(1, 0), (1, 1)} ∧ a1 = {(1, 0)} ∧
          b2 = {(0, 0), (1, 0), (2, 0)} ∧ t2 = {(0, 0), (1, 0), (2, 0)} ∧ a2 = {(0, 0), (2, 0)} ∧
          b3 = {(1, 0), (1, 1)} ∧ t3 = {(0, 0), (1, 0), (2, 0)} ∧ a3 = {(1, 0)})
      | _ => false) = true := by decide +kernel
    split at key
    · rename_i c1 b1 t1 a1 c2 b2 t2 a2 c3 b3 t3 a3 h
      obtain ⟨rfl, rfl, rfl, rfl, rfl, rfl, rfl, rfl, rfl⟩ := of_decide_eq_true key
      exact ⟨c1, c2, c3, h⟩
    · cases key

end Verif.Engine25
