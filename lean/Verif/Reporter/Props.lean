import Verif.Reporter.Model
import Verif.Common.Text
import Verif.Rdb.Path

/-!
# The report of the 2.5D engine: capacitances (C79)
-/

namespace Verif.Reporter

open Summary (OverlapCap SidewallCap SideOverlapCap CellResults)

variable {σ : Type}

/-! ### Specification -/

/-- KLayout writes different category paths differently (names are not empty; C40 is about the way paths are written). -/
def PathsDiffer (t : Text) : Prop :=
  ∀ p q : List String, p ≠ [] → q ≠ [] → (∀ s ∈ p, s ≠ "") → (∀ s ∈ q, s ≠ "") → t.path p = t.path q → p = q

/-- The category that an event is about. -/
def Event.path : Event σ → List String
  | .category p => p
  | .items p _ => p

/-- What happened strictly below a category, in order. -/
def below (cat : List String) (r : Report σ) : List (Event σ) :=
  r.events.filter fun e => cat.isPrefixOf e.path && decide (cat.length < e.path.length)

/-- The entry of an overlap capacitance: its number and its capacitance, and below the two polygons and the area. -/
def overlapEntry (t : Text) (cat : List String) (n : Nat) (c : OverlapCap) (bottom top : σ) (area : List σ) :
    List (Event σ) :=
  let e := cat ++ ["#" ++ toString n ++ " " ++ t.round3 c.capValue ++ " fF"]
  [.category e,
   .category (e ++ ["Top Polygon"]), .items (e ++ ["Top Polygon"]) [.given top],
   .category (e ++ ["Bottom Polygon"]), .items (e ++ ["Bottom Polygon"]) [.given bottom],
   .category (e ++ ["Overlap Area"]), .items (e ++ ["Overlap Area"]) (area.map .given)]

/-- The entry of a sidewall capacitance, with the two edges. -/
def sidewallEntry (t : Text) (cat : List String) (n : Nat) (c : SidewallCap) (inside outside : σ) : List (Event σ) :=
  let e := cat ++ ["#" ++ toString n ++ ": len " ++ t.num c.length ++ " µm, distance " ++ t.num c.distance ++ " µm, " ++
    t.round3 c.capValue ++ " fF"]
  [.category e, .items e [.given inside, .given outside]]

/-- The entry of a fringe capacitance, with the edge, the polygon and the lateral shield, if there is one. -/
def fringeEntry (t : Text) (cat : List String) (n : Nat) (c : SideOverlapCap) (inside outside : σ) (shield : Option σ) :
    List (Event σ) :=
  let e := cat ++ ["#" ++ toString n ++ ": " ++ t.round3 c.capValue ++ " fF"]
  [.category e,
   .category (e ++ ["Inside Edge"]), .items (e ++ ["Inside Edge"]) [.given inside],
   .category (e ++ ["Outside Polygon"]), .items (e ++ ["Outside Polygon"]) [.given outside]] ++
  match shield with
  | none => []
  | some s => [.category (e ++ ["Lateral Shield"]), .items (e ++ ["Lateral Shield"]) [.given s]]

/-- An overlap capacitance between two layers whose nets are written `nets`, with its shapes. -/
def overlapIn (top bot nets : String) : Act σ → Option (OverlapCap × σ × σ × List σ)
  | .overlap c b p a =>
    if c.key.layerTop = top ∧ c.key.layerBot = bot ∧ c.key.netTop ++ " – " ++ c.key.netBot = nets then some (c, b, p, a)
    else none
  | _ => none

/-- A sidewall capacitance of a layer and two nets, with its shapes. -/
def sidewallIn (layer net1 net2 : String) : Act σ → Option (SidewallCap × σ × σ)
  | .sidewall c i o => if c.key.layer = layer ∧ c.key.net1 = net1 ∧ c.key.net2 = net2 then some (c, i, o) else none
  | _ => none

/-- A fringe capacitance of two layers and two nets, with its shapes. -/
def fringeIn (li ni lo no : String) : Act σ → Option (SideOverlapCap × σ × σ × Option σ)
  | .sideoverlap c i o s =>
    if c.key.layerInside = li ∧ c.key.netInside = ni ∧ c.key.layerOutside = lo ∧ c.key.netOutside = no then
      some (c, i, o, s)
    else none
  | _ => none

/-! ### Steps of the report -/

theorem app_ne {a : String} (h : a ≠ "") (b : String) : a ++ b ≠ "" := by
  intro e
  have := congrArg String.toList e
  rw [String.toList_append] at this
  exact h (String.toList_inj.1 (List.append_eq_nil_iff.1 this).1)

theorem number_count (t : Text) (r : Report σ) (p q : List String) :
    number t (count t r p) q = if t.path p = t.path q then number t r p + 1 else number t r q := by
  unfold number count
  rw [Dict.getD_upd]

theorem number_create (t : Text) (r : Report σ) (p q : List String) : number t (create r p) q = number t r q := rfl

theorem number_cached (t : Text) (r : Report σ) (p q : List String) : number t (cachedCat r p) q = number t r q := by
  unfold cachedCat; split <;> rfl

theorem number_shapes (t : Text) (r : Report σ) (p q : List String) (s : List (Shape σ)) :
    number t (outputShapes r p s) q = number t r q := rfl

theorem below_create (cat : List String) (r : Report σ) (p : List String) :
    below cat (create r p) = below cat r ++
      if (cat.isPrefixOf p && decide (cat.length < p.length)) = true then [.category p] else [] := by
  unfold below create
  rw [List.filter_append, List.filter_cons]
  rfl

theorem below_shapes (cat : List String) (r : Report σ) (p : List String) (s : List (Shape σ)) :
    below cat (outputShapes r p s) = below cat r ++
      if (cat.isPrefixOf p && decide (cat.length < p.length)) = true then [.category p, .items p s] else [] := by
  unfold below outputShapes create
  simp only [List.append_assoc]
  rw [List.filter_append]
  congr 1
  have h : ∀ (f : Event σ → Bool) (b : Bool) (x y : Event σ), f x = b → f y = b →
      List.filter f ([x] ++ [y]) = if b = true then [x, y] else [] := by
    rintro f b x y h1 h2
    cases b <;> simp [h1, h2]
  exact h _ _ _ _ rfl rfl

theorem below_count (t : Text) (cat : List String) (r : Report σ) (p : List String) :
    below cat (count t r p) = below cat r := rfl

theorem below_cached (cat : List String) (r : Report σ) (p : List String) (h : p.length ≤ cat.length) :
    below cat (cachedCat r p) = below cat r := by
  unfold cachedCat
  split
  · rfl
  · show below cat (create r p) = below cat r
    rw [below_create, if_neg, List.append_nil]
    simp only [Bool.and_eq_true, decide_eq_true_eq, not_and, not_lt]
    exact fun _ => h

/-- A step of the report under another top category. -/
def Elsewhere (t : Text) (top : String) (r r' : Report σ) : Prop :=
  ∀ cat : List String, cat ≠ [] → cat.head? ≠ some top → below cat r' = below cat r ∧
    (PathsDiffer t → (∀ s ∈ cat, s ≠ "") → number t r' cat = number t r cat)

theorem Elsewhere.trans {t : Text} {top : String} {a b c : Report σ} (h : Elsewhere t top a b) (h' : Elsewhere t top b c) :
    Elsewhere t top a c := fun cat hc ht =>
  ⟨(h' cat hc ht).1.trans (h cat hc ht).1, fun h1 h2 => ((h' cat hc ht).2 h1 h2).trans ((h cat hc ht).2 h1 h2)⟩

theorem prefix_head {cat p : List String} {top : String} (hc : cat ≠ []) (ht : cat.head? ≠ some top)
    (hp : p.head? = some top) : ¬ (cat.isPrefixOf p && decide (cat.length < p.length)) = true := by
  intro h
  rw [Bool.and_eq_true, List.isPrefixOf_iff_prefix] at h
  obtain ⟨q, rfl⟩ := h.1
  cases cat with
  | nil => exact hc rfl
  | cons a cat => exact ht hp

theorem else_create {t : Text} {top : String} (r : Report σ) (p : List String) (hp : p.head? = some top) :
    Elsewhere t top r (create r p) := fun cat hc ht =>
  ⟨by rw [below_create, if_neg (prefix_head hc ht hp), List.append_nil], fun _ _ => rfl⟩

theorem else_cached {t : Text} {top : String} (r : Report σ) (p : List String) (hp : p.head? = some top) :
    Elsewhere t top r (cachedCat r p) := by
  unfold cachedCat
  split
  · exact fun _ _ _ => ⟨rfl, fun _ _ => rfl⟩
  · exact fun cat hc ht => else_create r p hp cat hc ht

theorem else_shapes {t : Text} {top : String} (r : Report σ) (p : List String) (s : List (Shape σ))
    (hp : p.head? = some top) : Elsewhere t top r (outputShapes r p s) := fun cat hc ht =>
  ⟨by rw [below_shapes, if_neg (prefix_head hc ht hp), List.append_nil], fun _ _ => rfl⟩

theorem else_count {t : Text} {top : String} (r : Report σ) (p : List String) (hp : p.head? = some top)
    (hne : ∀ s ∈ p, s ≠ "") : Elsewhere t top r (count t r p) := fun cat hc ht =>
  ⟨rfl, fun h1 h2 => by
    rw [number_count, if_neg]
    intro e
    have := h1 p cat (by rintro rfl; cases hp) hc hne h2 e
    exact ht (this ▸ hp)⟩

theorem app_inj (a : String) {b c : String} : a ++ b = a ++ c ↔ b = c := by
  constructor
  · intro e
    have := congrArg String.toList e
    rw [String.toList_append, String.toList_append] at this
    exact String.toList_inj.1 (List.append_cancel_left this)
  · rintro rfl; rfl

theorem overlap_step (t : Text) (ht : PathsDiffer t) (r : Report σ) (c : OverlapCap) (b p : σ) (a : List σ)
    (lt lb nets : String) (hnets : nets ≠ "") :
    let cat := ["[C] Overlap", "top_layer=" ++ lt, "bot_layer=" ++ lb, nets]
    let hit := c.key.layerTop = lt ∧ c.key.layerBot = lb ∧ c.key.netTop ++ " – " ++ c.key.netBot = nets
    (hit → below cat (outputOverlap t r c b p a) = below cat r ++ overlapEntry t cat (number t r cat + 1) c b p a ∧
      number t (outputOverlap t r c b p a) cat = number t r cat + 1) ∧
    (¬ hit → below cat (outputOverlap t r c b p a) = below cat r ∧
      number t (outputOverlap t r c b p a) cat = number t r cat) := by
  intro cat hit
  constructor
  · rintro ⟨rfl, rfl, rfl⟩
    constructor
    · simp only [outputOverlap, below_shapes, below_create, below_count, number_create, number_count, number_cached, cat]
      rw [below_cached _ _ _ (by simp)]
      simp [List.isPrefixOf, overlapEntry]
    · simp only [outputOverlap, number_shapes, number_create, number_count, number_cached, cat]
      simp
  · intro hn
    have hne : cat ≠ ["[C] Overlap", "top_layer=" ++ c.key.layerTop, "bot_layer=" ++ c.key.layerBot,
        c.key.netTop ++ " – " ++ c.key.netBot] := by
      intro e
      simp only [cat, List.cons.injEq, app_inj, and_true, true_and] at e
      exact hn ⟨e.1.symm, e.2.1.symm, e.2.2.symm⟩
    constructor
    · have hpre : ∀ q : List String, ¬ (cat.isPrefixOf (["[C] Overlap", "top_layer=" ++ c.key.layerTop,
          "bot_layer=" ++ c.key.layerBot, c.key.netTop ++ " – " ++ c.key.netBot] ++ q) && decide (cat.length <
          (["[C] Overlap", "top_layer=" ++ c.key.layerTop, "bot_layer=" ++ c.key.layerBot,
            c.key.netTop ++ " – " ++ c.key.netBot] ++ q).length)) = true := by
        intro q h
        rw [Bool.and_eq_true, List.isPrefixOf_iff_prefix] at h
        obtain ⟨u, hu⟩ := h.1
        exact hne (List.append_inj hu rfl).1
      simp only [outputOverlap, below_shapes, below_create, below_count, List.cons_append, List.nil_append]
      have h1 := fun q => hpre q
      simp only [List.cons_append, List.nil_append] at h1
      simp only [h1]
      rw [below_cached _ _ _ (by simp [cat])]
      simp [cat]
    · simp only [outputOverlap, number_shapes, number_create, number_count, number_cached, List.cons_append, List.nil_append]
      rw [if_neg]
      intro e
      refine hne (ht _ _ (by simp) (by simp [cat]) ?_ ?_ e).symm
      · intro s hs
        simp only [List.mem_cons, List.not_mem_nil, or_false] at hs
        rcases hs with rfl | rfl | rfl | rfl
        · decide
        · exact app_ne (by decide) _
        · exact app_ne (by decide) _
        · intro e
          have := congrArg String.toList e
          simp at this
      · intro s hs
        simp only [cat, List.mem_cons, List.not_mem_nil, or_false] at hs
        rcases hs with rfl | rfl | rfl | rfl
        · decide
        · exact app_ne (by decide) _
        · exact app_ne (by decide) _
        · exact hnets

theorem sidewall_step (t : Text) (ht : PathsDiffer t) (r : Report σ) (c : SidewallCap) (i o : σ)
    (ly n1 n2 : String) :
    let cat := ["[C] Sidewall", "layer=" ++ ly, "inside=" ++ n1, "outside=" ++ n2]
    let hit := c.key.layer = ly ∧ c.key.net1 = n1 ∧ c.key.net2 = n2
    (hit → below cat (outputSidewall t r c i o) = below cat r ++ sidewallEntry t cat (number t r cat + 1) c i o ∧
      number t (outputSidewall t r c i o) cat = number t r cat + 1) ∧
    (¬ hit → below cat (outputSidewall t r c i o) = below cat r ∧
      number t (outputSidewall t r c i o) cat = number t r cat) := by
  intro cat hit
  constructor
  · rintro ⟨rfl, rfl, rfl⟩
    constructor
    · simp only [outputSidewall, below_shapes, below_create, below_count, number_create, number_count, number_cached, cat]
      rw [below_cached _ _ _ (by simp)]
      simp [List.isPrefixOf, sidewallEntry]
    · simp only [outputSidewall, number_shapes, number_create, number_count, number_cached, cat]
      simp
  · intro hn
    have hne : cat ≠ ["[C] Sidewall", "layer=" ++ c.key.layer, "inside=" ++ c.key.net1,
        "outside=" ++ c.key.net2] := by
      intro e
      simp only [cat, List.cons.injEq, app_inj, and_true, true_and] at e
      exact hn ⟨e.1.symm, e.2.1.symm, e.2.2.symm⟩
    constructor
    · have hpre : ∀ q : List String, ¬ (cat.isPrefixOf (["[C] Sidewall", "layer=" ++ c.key.layer,
          "inside=" ++ c.key.net1, "outside=" ++ c.key.net2] ++ q) && decide (cat.length <
          (["[C] Sidewall", "layer=" ++ c.key.layer, "inside=" ++ c.key.net1,
            "outside=" ++ c.key.net2] ++ q).length)) = true := by
        intro q h
        rw [Bool.and_eq_true, List.isPrefixOf_iff_prefix] at h
        obtain ⟨u, hu⟩ := h.1
        exact hne (List.append_inj hu rfl).1
      simp only [outputSidewall, below_shapes, below_create, below_count, List.cons_append, List.nil_append]
      have h1 := fun q => hpre q
      simp only [List.cons_append, List.nil_append] at h1
      simp only [h1]
      rw [below_cached _ _ _ (by simp [cat])]
      simp [cat]
    · simp only [outputSidewall, number_shapes, number_create, number_count, number_cached, List.cons_append, List.nil_append]
      rw [if_neg]
      intro e
      refine hne (ht _ _ (by simp) (by simp [cat]) ?_ ?_ e).symm
      · intro s hs
        simp only [List.mem_cons, List.not_mem_nil, or_false] at hs
        rcases hs with rfl | rfl | rfl | rfl
        · decide
        · exact app_ne (by decide) _
        · exact app_ne (by decide) _
        · exact app_ne (by decide) _
      · intro s hs
        simp only [cat, List.mem_cons, List.not_mem_nil, or_false] at hs
        rcases hs with rfl | rfl | rfl | rfl
        · decide
        · exact app_ne (by decide) _
        · exact app_ne (by decide) _
        · exact app_ne (by decide) _

theorem fringe_step (t : Text) (ht : PathsDiffer t) (r : Report σ) (c : SideOverlapCap) (i o : σ) (sh : Option σ)
    (li ni lo no : String) :
    let cat := ["[C] Fringe / Side Overlap", "inside_layer=" ++ li, "inside_net=" ++ ni, "outside_layer=" ++ lo,
      "outside_net=" ++ no]
    let hit := c.key.layerInside = li ∧ c.key.netInside = ni ∧ c.key.layerOutside = lo ∧ c.key.netOutside = no
    (hit → below cat (outputSideoverlap t r c i o sh) = below cat r ++ fringeEntry t cat (number t r cat + 1) c i o sh ∧
      number t (outputSideoverlap t r c i o sh) cat = number t r cat + 1) ∧
    (¬ hit → below cat (outputSideoverlap t r c i o sh) = below cat r ∧
      number t (outputSideoverlap t r c i o sh) cat = number t r cat) := by
  intro cat hit
  rcases sh with _ | s
  · constructor
    · rintro ⟨rfl, rfl, rfl, rfl⟩
      constructor
      · simp only [outputSideoverlap, below_shapes, below_create, below_count, number_create, number_count, number_cached, cat]
        rw [below_cached _ _ _ (by simp)]
        simp [List.isPrefixOf, fringeEntry]
      · simp only [outputSideoverlap, number_shapes, number_create, number_count, number_cached, cat]
        simp
    · intro hn
      have hne : cat ≠ ["[C] Fringe / Side Overlap", "inside_layer=" ++ c.key.layerInside, "inside_net=" ++ c.key.netInside,
          "outside_layer=" ++ c.key.layerOutside, "outside_net=" ++ c.key.netOutside] := by
        intro e
        simp only [cat, List.cons.injEq, app_inj, and_true, true_and] at e
        exact hn ⟨e.1.symm, e.2.1.symm, e.2.2.1.symm, e.2.2.2.symm⟩
      constructor
      · have hpre : ∀ q : List String, ¬ (cat.isPrefixOf (["[C] Fringe / Side Overlap", "inside_layer=" ++ c.key.layerInside,
            "inside_net=" ++ c.key.netInside, "outside_layer=" ++ c.key.layerOutside, "outside_net=" ++ c.key.netOutside] ++ q) && decide (cat.length <
            (["[C] Fringe / Side Overlap", "inside_layer=" ++ c.key.layerInside, "inside_net=" ++ c.key.netInside,
              "outside_layer=" ++ c.key.layerOutside, "outside_net=" ++ c.key.netOutside] ++ q).length)) = true := by
          intro q h
          rw [Bool.and_eq_true, List.isPrefixOf_iff_prefix] at h
          obtain ⟨u, hu⟩ := h.1
          exact hne (List.append_inj hu rfl).1
        simp only [outputSideoverlap, below_shapes, below_create, below_count, List.cons_append, List.nil_append]
        have h1 := fun q => hpre q
        simp only [List.cons_append, List.nil_append] at h1
        simp only [h1]
        rw [below_cached _ _ _ (by simp [cat])]
        simp [cat]
      · simp only [outputSideoverlap, number_shapes, number_create, number_count, number_cached, List.cons_append, List.nil_append]
        rw [if_neg]
        intro e
        refine hne (ht _ _ (by simp) (by simp [cat]) ?_ ?_ e).symm
        · intro s hs
          simp only [List.mem_cons, List.not_mem_nil, or_false] at hs
          rcases hs with rfl | rfl | rfl | rfl | rfl
          · decide
          · exact app_ne (by decide) _
          · exact app_ne (by decide) _
          · exact app_ne (by decide) _
          · exact app_ne (by decide) _
        · intro s hs
          simp only [cat, List.mem_cons, List.not_mem_nil, or_false] at hs
          rcases hs with rfl | rfl | rfl | rfl | rfl
          · decide
          · exact app_ne (by decide) _
          · exact app_ne (by decide) _
          · exact app_ne (by decide) _
          · exact app_ne (by decide) _
  · constructor
    · rintro ⟨rfl, rfl, rfl, rfl⟩
      constructor
      · simp only [outputSideoverlap, below_shapes, below_create, below_count, number_create, number_count, number_cached, cat]
        rw [below_cached _ _ _ (by simp)]
        simp [List.isPrefixOf, fringeEntry]
      · simp only [outputSideoverlap, number_shapes, number_create, number_count, number_cached, cat]
        simp
    · intro hn
      have hne : cat ≠ ["[C] Fringe / Side Overlap", "inside_layer=" ++ c.key.layerInside, "inside_net=" ++ c.key.netInside,
          "outside_layer=" ++ c.key.layerOutside, "outside_net=" ++ c.key.netOutside] := by
        intro e
        simp only [cat, List.cons.injEq, app_inj, and_true, true_and] at e
        exact hn ⟨e.1.symm, e.2.1.symm, e.2.2.1.symm, e.2.2.2.symm⟩
      constructor
      · have hpre : ∀ q : List String, ¬ (cat.isPrefixOf (["[C] Fringe / Side Overlap", "inside_layer=" ++ c.key.layerInside,
            "inside_net=" ++ c.key.netInside, "outside_layer=" ++ c.key.layerOutside, "outside_net=" ++ c.key.netOutside] ++ q) && decide (cat.length <
            (["[C] Fringe / Side Overlap", "inside_layer=" ++ c.key.layerInside, "inside_net=" ++ c.key.netInside,
              "outside_layer=" ++ c.key.layerOutside, "outside_net=" ++ c.key.netOutside] ++ q).length)) = true := by
          intro q h
          rw [Bool.and_eq_true, List.isPrefixOf_iff_prefix] at h
          obtain ⟨u, hu⟩ := h.1
          exact hne (List.append_inj hu rfl).1
        simp only [outputSideoverlap, below_shapes, below_create, below_count, List.cons_append, List.nil_append]
        have h1 := fun q => hpre q
        simp only [List.cons_append, List.nil_append] at h1
        simp only [h1]
        rw [below_cached _ _ _ (by simp [cat])]
        simp [cat]
      · simp only [outputSideoverlap, number_shapes, number_create, number_count, number_cached, List.cons_append, List.nil_append]
        rw [if_neg]
        intro e
        refine hne (ht _ _ (by simp) (by simp [cat]) ?_ ?_ e).symm
        · intro s hs
          simp only [List.mem_cons, List.not_mem_nil, or_false] at hs
          rcases hs with rfl | rfl | rfl | rfl | rfl
          · decide
          · exact app_ne (by decide) _
          · exact app_ne (by decide) _
          · exact app_ne (by decide) _
          · exact app_ne (by decide) _
        · intro s hs
          simp only [cat, List.mem_cons, List.not_mem_nil, or_false] at hs
          rcases hs with rfl | rfl | rfl | rfl | rfl
          · decide
          · exact app_ne (by decide) _
          · exact app_ne (by decide) _
          · exact app_ne (by decide) _
          · exact app_ne (by decide) _

/-! ### Steps under other top categories -/

theorem else_overlap (t : Text) (r : Report σ) (c : OverlapCap) (b p : σ) (a : List σ) :
    Elsewhere t "[C] Overlap" r (outputOverlap t r c b p a) := by
  unfold outputOverlap
  refine .trans (.trans (.trans (.trans (.trans (.trans (.trans (.trans (else_cached r _ rfl) (else_create _ _ rfl))
    (else_create _ _ rfl)) (else_create _ _ rfl)) (else_count _ _ rfl ?_)) (else_create _ _ rfl))
    (else_shapes _ _ _ rfl)) (else_shapes _ _ _ rfl)) (else_shapes _ _ _ rfl)
  intro s hs
  simp only [List.cons_append, List.nil_append, List.mem_cons, List.not_mem_nil, or_false] at hs
  rcases hs with rfl | rfl | rfl | rfl
  · decide
  · exact app_ne (by decide) _
  · exact app_ne (by decide) _
  · intro e
    have := congrArg String.toList e
    simp at this

theorem else_sidewall (t : Text) (r : Report σ) (c : SidewallCap) (i o : σ) :
    Elsewhere t "[C] Sidewall" r (outputSidewall t r c i o) := by
  unfold outputSidewall
  refine .trans (.trans (.trans (.trans (.trans (else_cached r _ rfl) (else_create _ _ rfl))
    (else_create _ _ rfl)) (else_create _ _ rfl)) (else_count _ _ rfl ?_)) (else_shapes _ _ _ rfl)
  intro s hs
  simp only [List.cons_append, List.nil_append, List.mem_cons, List.not_mem_nil, or_false] at hs
  rcases hs with rfl | rfl | rfl | rfl
  · decide
  all_goals exact app_ne (by decide) _

theorem else_fringe (t : Text) (r : Report σ) (c : SideOverlapCap) (i o : σ) (sh : Option σ) :
    Elsewhere t "[C] Fringe / Side Overlap" r (outputSideoverlap t r c i o sh) := by
  have key : ∀ s ∈ ["[C] Fringe / Side Overlap"] ++ ["inside_layer=" ++ c.key.layerInside] ++
      ["inside_net=" ++ c.key.netInside] ++ ["outside_layer=" ++ c.key.layerOutside] ++
      ["outside_net=" ++ c.key.netOutside], s ≠ "" := by
    intro s hs
    simp only [List.cons_append, List.nil_append, List.mem_cons, List.not_mem_nil, or_false] at hs
    rcases hs with rfl | rfl | rfl | rfl | rfl
    · decide
    all_goals exact app_ne (by decide) _
  cases sh with
  | none =>
    exact .trans (.trans (.trans (.trans (.trans (.trans (.trans (.trans (else_cached r _ rfl) (else_create _ _ rfl))
      (else_create _ _ rfl)) (else_create _ _ rfl)) (else_create _ _ rfl)) (else_count _ _ rfl key))
      (else_create _ _ rfl)) (else_shapes _ _ _ rfl)) (else_shapes _ _ _ rfl)
  | some s =>
    exact .trans (.trans (.trans (.trans (.trans (.trans (.trans (.trans (.trans (else_cached r _ rfl) (else_create _ _ rfl))
      (else_create _ _ rfl)) (else_create _ _ rfl)) (else_create _ _ rfl)) (else_count _ _ rfl key))
      (else_create _ _ rfl)) (else_shapes _ _ _ rfl)) (else_shapes _ _ _ rfl)) (else_shapes _ _ _ rfl)

theorem else_foldl {t : Text} {top : String} {α : Type} (f : Report σ → α → Report σ)
    (hf : ∀ r a, Elsewhere t top r (f r a)) (l : List α) (r : Report σ) : Elsewhere t top r (l.foldl f r) := by
  induction l generalizing r with
  | nil => exact fun _ _ _ => ⟨rfl, fun _ _ => rfl⟩
  | cons a l ih => exact .trans (hf r a) (ih _)

theorem else_neighborhood (t : Text) (r : Report σ) (layer net : String) (names : List String) (edge : σ)
    (n : List (String × List (Nat × List σ))) :
    Elsewhere t "[C] Edge Neighborhood Visitor" r (outputNeighborhood t r layer net names edge n) := by
  unfold outputNeighborhood
  refine .trans (.trans (.trans (else_cached r _ rfl) (else_create _ _ rfl)) (else_create _ _ rfl)) (else_foldl _ ?_ _ _)
  intro r e
  refine .trans (.trans (.trans (.trans (else_create _ _ rfl) (else_count _ _ rfl ?_)) (else_create _ _ rfl))
    (else_shapes _ _ _ rfl)) (else_foldl _ (fun r ch => else_shapes _ _ _ rfl) _ _)
  intro s hs
  simp only [List.cons_append, List.nil_append, List.mem_cons, List.not_mem_nil, or_false] at hs
  rcases hs with rfl | rfl | rfl | rfl
  · decide
  all_goals exact app_ne (by decide) _

/-! ### Histories -/

/-- Entries numbered from 1. -/
theorem shown_acts {α : Type} (t : Text) (cell : String) (cat : List String) (pick : Act σ → Option α)
    (entry : Nat → α → List (Event σ))
    (hstep : ∀ (s : CellResults × Report σ) a,
      (∀ v, pick a = some v → below cat (act t s a).2 = below cat s.2 ++ entry (number t s.2 cat + 1) v ∧
        number t (act t s a).2 cat = number t s.2 cat + 1) ∧
      (pick a = none → below cat (act t s a).2 = below cat s.2 ∧ number t (act t s a).2 cat = number t s.2 cat))
    (h : List (Act σ)) :
    below cat (acts t cell h).2 = ((h.filterMap pick).zipIdx 1).flatMap (fun e => entry e.2 e.1) ∧
      number t (acts t cell h).2 cat = (h.filterMap pick).length := by
  induction h using List.reverseRecOn with
  | nil => exact ⟨rfl, rfl⟩
  | append_singleton h a ih =>
    have he : acts t cell (h ++ [a]) = act t (acts t cell h) a := by
      unfold acts; rw [List.foldl_append]; rfl
    rw [he, List.filterMap_append, List.filterMap_cons, List.filterMap_nil]
    cases hp : pick a with
    | none =>
      obtain ⟨h1, h2⟩ := (hstep (acts t cell h) a).2 hp
      rw [h1, h2, List.append_nil]
      exact ih
    | some v =>
      obtain ⟨h1, h2⟩ := (hstep (acts t cell h) a).1 v hp
      rw [h1, h2, ih.1, ih.2, List.zipIdx_append, List.flatMap_append, List.length_append]
      refine ⟨?_, rfl⟩
      congr 1
      simp [Nat.add_comm]

/-! ### Theorems -/

/-- **C79, overlap.** Below the category of two layers and two nets the report has one entry for every overlap capacitance
recorded for them, numbered from 1 in the order of recording, with its capacitance and its shapes, and nothing else. -/
theorem overlap_shown (t : Text) (ht : PathsDiffer t) (cell : String) (h : List (Act σ)) (top bot nets : String)
    (hne : nets ≠ "") :
    let cat := ["[C] Overlap", "top_layer=" ++ top, "bot_layer=" ++ bot, nets]
    below cat (acts t cell h).2 =
      ((h.filterMap (overlapIn top bot nets)).zipIdx 1).flatMap fun e =>
        overlapEntry t cat e.2 e.1.1 e.1.2.1 e.1.2.2.1 e.1.2.2.2 := by
  intro cat
  refine (shown_acts t cell cat (overlapIn top bot nets) (fun n v => overlapEntry t cat n v.1 v.2.1 v.2.2.1 v.2.2.2) ?_ h).1
  intro s a
  have hn : ∀ x ∈ cat, x ≠ "" := by
    intro x hx
    simp only [cat, List.mem_cons, List.not_mem_nil, or_false] at hx
    rcases hx with rfl | rfl | rfl | rfl
    · decide
    · exact app_ne (by decide) _
    · exact app_ne (by decide) _
    · exact hne
  cases a with
  | overlap c b p a =>
    have hs := overlap_step t ht s.2 c b p a top bot nets hne
    simp only [overlapIn]
    by_cases hit : c.key.layerTop = top ∧ c.key.layerBot = bot ∧ c.key.netTop ++ " – " ++ c.key.netBot = nets
    · rw [if_pos hit]
      exact ⟨fun v hv => by cases hv; exact hs.1 hit, fun hv => by cases hv⟩
    · rw [if_neg hit]
      exact ⟨fun v hv => (by cases hv), fun _ => hs.2 hit⟩
  | sidewall c i o =>
    have hs := else_sidewall t s.2 c i o cat (by simp [cat]) (by simp only [cat, List.head?_cons]; decide)
    exact ⟨fun v hv => (by cases hv), fun _ => ⟨hs.1, hs.2 ht hn⟩⟩
  | sideoverlap c i o sh =>
    have hs := else_fringe t s.2 c i o sh cat (by simp [cat]) (by simp only [cat, List.head?_cons]; decide)
    exact ⟨fun v hv => (by cases hv), fun _ => ⟨hs.1, hs.2 ht hn⟩⟩
  | neighborhood l n ns e nb =>
    have hs := else_neighborhood t s.2 l n ns e nb cat (by simp [cat]) (by simp only [cat, List.head?_cons]; decide)
    exact ⟨fun v hv => (by cases hv), fun _ => ⟨hs.1, hs.2 ht hn⟩⟩

/-- **C79, sidewall.** The same for the sidewall capacitances of a layer and two nets. -/
theorem sidewall_shown (t : Text) (ht : PathsDiffer t) (cell : String) (h : List (Act σ)) (layer net1 net2 : String) :
    let cat := ["[C] Sidewall", "layer=" ++ layer, "inside=" ++ net1, "outside=" ++ net2]
    below cat (acts t cell h).2 =
      ((h.filterMap (sidewallIn layer net1 net2)).zipIdx 1).flatMap fun e => sidewallEntry t cat e.2 e.1.1 e.1.2.1 e.1.2.2 := by
  intro cat
  refine (shown_acts t cell cat (sidewallIn layer net1 net2) (fun n v => sidewallEntry t cat n v.1 v.2.1 v.2.2) ?_ h).1
  intro s a
  have hn : ∀ x ∈ cat, x ≠ "" := by
    intro x hx
    simp only [cat, List.mem_cons, List.not_mem_nil, or_false] at hx
    rcases hx with rfl | rfl | rfl | rfl
    · decide
    all_goals exact app_ne (by decide) _
  cases a with
  | overlap c b p a =>
    have hs := else_overlap t s.2 c b p a cat (by simp [cat]) (by simp only [cat, List.head?_cons]; decide)
    exact ⟨fun v hv => (by cases hv), fun _ => ⟨hs.1, hs.2 ht hn⟩⟩
  | sidewall c i o =>
    have hs := sidewall_step t ht s.2 c i o layer net1 net2
    simp only [sidewallIn]
    by_cases hit : c.key.layer = layer ∧ c.key.net1 = net1 ∧ c.key.net2 = net2
    · rw [if_pos hit]
      exact ⟨fun v hv => by cases hv; exact hs.1 hit, fun hv => by cases hv⟩
    · rw [if_neg hit]
      exact ⟨fun v hv => (by cases hv), fun _ => hs.2 hit⟩
  | sideoverlap c i o sh =>
    have hs := else_fringe t s.2 c i o sh cat (by simp [cat]) (by simp only [cat, List.head?_cons]; decide)
    exact ⟨fun v hv => (by cases hv), fun _ => ⟨hs.1, hs.2 ht hn⟩⟩
  | neighborhood l n ns e nb =>
    have hs := else_neighborhood t s.2 l n ns e nb cat (by simp [cat]) (by simp only [cat, List.head?_cons]; decide)
    exact ⟨fun v hv => (by cases hv), fun _ => ⟨hs.1, hs.2 ht hn⟩⟩

/-- **C79, fringe.** The same for the fringe capacitances of two layers and two nets. -/
theorem fringe_shown (t : Text) (ht : PathsDiffer t) (cell : String) (h : List (Act σ)) (li ni lo no : String) :
    let cat := ["[C] Fringe / Side Overlap", "inside_layer=" ++ li, "inside_net=" ++ ni, "outside_layer=" ++ lo,
      "outside_net=" ++ no]
    below cat (acts t cell h).2 =
      ((h.filterMap (fringeIn li ni lo no)).zipIdx 1).flatMap fun e =>
        fringeEntry t cat e.2 e.1.1 e.1.2.1 e.1.2.2.1 e.1.2.2.2 := by
  intro cat
  refine (shown_acts t cell cat (fringeIn li ni lo no) (fun n v => fringeEntry t cat n v.1 v.2.1 v.2.2.1 v.2.2.2) ?_ h).1
  intro s a
  have hn : ∀ x ∈ cat, x ≠ "" := by
    intro x hx
    simp only [cat, List.mem_cons, List.not_mem_nil, or_false] at hx
    rcases hx with rfl | rfl | rfl | rfl | rfl
    · decide
    all_goals exact app_ne (by decide) _
  cases a with
  | overlap c b p a =>
    have hs := else_overlap t s.2 c b p a cat (by simp [cat]) (by simp only [cat, List.head?_cons]; decide)
    exact ⟨fun v hv => (by cases hv), fun _ => ⟨hs.1, hs.2 ht hn⟩⟩
  | sidewall c i o =>
    have hs := else_sidewall t s.2 c i o cat (by simp [cat]) (by simp only [cat, List.head?_cons]; decide)
    exact ⟨fun v hv => (by cases hv), fun _ => ⟨hs.1, hs.2 ht hn⟩⟩
  | sideoverlap c i o sh =>
    have hs := fringe_step t ht s.2 c i o sh li ni lo no
    simp only [fringeIn]
    by_cases hit : c.key.layerInside = li ∧ c.key.netInside = ni ∧ c.key.layerOutside = lo ∧ c.key.netOutside = no
    · rw [if_pos hit]
      exact ⟨fun v hv => by cases hv; exact hs.1 hit, fun hv => by cases hv⟩
    · rw [if_neg hit]
      exact ⟨fun v hv => (by cases hv), fun _ => hs.2 hit⟩
  | neighborhood l n ns e nb =>
    have hs := else_neighborhood t s.2 l n ns e nb cat (by simp [cat]) (by simp only [cat, List.head?_cons]; decide)
    exact ⟨fun v hv => (by cases hv), fun _ => ⟨hs.1, hs.2 ht hn⟩⟩

/-- **C79, distinct entries.** Entries with different numbers have different names, whatever their capacitances are. -/
theorem entries_differ (m n : Nat) (x y : String) :
    ("#" ++ toString m ++ " " ++ x = "#" ++ toString n ++ " " ++ y → m = n) ∧
    ("#" ++ toString m ++ ": " ++ x = "#" ++ toString n ++ ": " ++ y → m = n) := by
  constructor
  · intro e
    have := congrArg String.toList e
    simp only [String.toList_append] at this
    have h : (toString m).toList ++ ' ' :: x.toList = (toString n).toList ++ ' ' :: y.toList := by
      have h2 : ("#".toList) ++ ((toString m).toList ++ ' ' :: x.toList) = "#".toList ++ ((toString n).toList ++ ' ' :: y.toList) := by
        simpa using this
      exact List.append_cancel_left h2
    exact (dec_sep_inj (by decide) h).1
  · intro e
    have := congrArg String.toList e
    simp only [String.toList_append] at this
    have h : (toString m).toList ++ ':' :: ' ' :: x.toList = (toString n).toList ++ ':' :: ' ' :: y.toList := by
      have h2 : ("#".toList) ++ ((toString m).toList ++ ':' :: ' ' :: x.toList) =
          "#".toList ++ ((toString n).toList ++ ':' :: ' ' :: y.toList) := by
        simpa using this
      exact List.append_cancel_left h2
    exact (dec_sep_inj (by decide) h).1

theorem table_acts {κ ε : Type} [DecidableEq κ] (t : Text) (cell : String) (table : CellResults → Dict κ (List ε))
    (h0 : table { cellName := cell } = []) (k : κ) (pick : Act σ → Option ε)
    (hstep : ∀ (s : CellResults × Report σ) a, (table (act t s a).1).getD k [] = (table s.1).getD k [] ++ (pick a).toList)
    (h : List (Act σ)) : (table (acts t cell h).1).getD k [] = h.filterMap pick := by
  induction h using List.reverseRecOn with
  | nil => unfold acts; rw [List.foldl_nil, h0]; rfl
  | append_singleton h a ih =>
    have he : acts t cell (h ++ [a]) = act t (acts t cell h) a := by
      unfold acts; rw [List.foldl_append]; rfl
    rw [he, hstep, ih, List.filterMap_append, List.filterMap_cons, List.filterMap_nil]
    cases pick a <;> rfl

/-- A name without the dash that separates the nets of an overlap category. -/
def NoDash (s : String) : Prop := '–' ∉ s.toList

theorem dash_inj {a b c d : String} (ha : NoDash a) (hc : NoDash c) :
    a ++ " – " ++ b = c ++ " – " ++ d ↔ a = c ∧ b = d := by
  constructor
  · intro e
    have e := congrArg String.toList e
    simp only [String.toList_append, List.append_assoc] at e
    have e' : (a.toList ++ [' ']) ++ '–' :: (' ' :: b.toList) = (c.toList ++ [' ']) ++ '–' :: (' ' :: d.toList) := by
      simpa using e
    have key : ∀ (u v x y : List Char), '–' ∉ u → '–' ∉ v → u ++ '–' :: x = v ++ '–' :: y → u = v ∧ x = y := by
      intro u
      induction u with
      | nil =>
        intro v x y _ hv e
        cases v with
        | nil => simpa using e
        | cons w v =>
          simp only [List.nil_append, List.cons_append, List.cons.injEq] at e
          exact absurd (e.1 ▸ List.mem_cons_self) hv
      | cons w u ih =>
        intro v x y hu hv e
        cases v with
        | nil =>
          simp only [List.nil_append, List.cons_append, List.cons.injEq] at e
          exact absurd (e.1 ▸ List.mem_cons_self) hu
        | cons w' v =>
          simp only [List.cons_append, List.cons.injEq] at e
          obtain ⟨h1, h2⟩ := ih v x y (fun h => hu (List.mem_cons_of_mem _ h)) (fun h => hv (List.mem_cons_of_mem _ h)) e.2
          exact ⟨by rw [e.1, h1], h2⟩
    obtain ⟨h1, h2⟩ := key _ _ _ _ (by simpa [NoDash] using ha) (by simpa [NoDash] using hc) e'
    exact ⟨String.toList_inj.1 (List.append_cancel_right h1), String.toList_inj.1 (List.cons.inj h2).2⟩
  · rintro ⟨rfl, rfl⟩; rfl

/-- **C79, results.** The capacitances that have an entry in the report are those in the tables of the results, which the
netlist is made from: for sidewall and fringe always, for overlap if no net has the dash in its name. -/
theorem results_shown_partial (t : Text) (cell : String) (h : List (Act σ)) :
    (∀ layer net1 net2, (acts t cell h).1.sidewallTable.getD ⟨layer, net1, net2⟩ [] =
      (h.filterMap (sidewallIn layer net1 net2)).map Prod.fst) ∧
    (∀ li ni lo no, (acts t cell h).1.sideoverlapTable.getD ⟨li, ni, lo, no⟩ [] =
      (h.filterMap (fringeIn li ni lo no)).map Prod.fst) ∧
    ((∀ c b p a, Act.overlap c b p a ∈ h → NoDash c.key.netTop) → ∀ lt nt lb nb, NoDash nt →
      (acts t cell h).1.overlapTable.getD ⟨lt, nt, lb, nb⟩ [] =
        (h.filterMap (overlapIn lt lb (nt ++ " – " ++ nb))).map Prod.fst) := by
  refine ⟨fun layer net1 net2 => ?_, fun li ni lo no => ?_, fun hd lt nt lb nb hnt => ?_⟩
  · rw [List.map_filterMap]
    refine table_acts t cell (fun r => r.sidewallTable) rfl _ _ ?_ h
    rintro s (_ | ⟨c, i, o⟩ | _ | _)
    · exact (List.append_nil _).symm
    · simp only [act, CellResults.addSidewallCap, Dict.getD_upd, sidewallIn]
      by_cases hk : c.key = ⟨layer, net1, net2⟩
      · rw [if_pos hk, if_pos (by rw [hk]; exact ⟨rfl, rfl, rfl⟩), hk]; rfl
      · rw [if_neg hk, if_neg (fun hh => hk (by cases hc : c.key; rw [hc] at hh; simp_all))]
        exact (List.append_nil _).symm
    · exact (List.append_nil _).symm
    · exact (List.append_nil _).symm
  · rw [List.map_filterMap]
    refine table_acts t cell (fun r => r.sideoverlapTable) rfl _ _ ?_ h
    rintro s (_ | _ | ⟨c, i, o, sh⟩ | _)
    · exact (List.append_nil _).symm
    · exact (List.append_nil _).symm
    · simp only [act, CellResults.addSideoverlapCap, Dict.getD_upd, fringeIn]
      by_cases hk : c.key = ⟨li, ni, lo, no⟩
      · rw [if_pos hk, if_pos (by rw [hk]; exact ⟨rfl, rfl, rfl, rfl⟩), hk]; rfl
      · rw [if_neg hk, if_neg (fun hh => hk (by cases hc : c.key; rw [hc] at hh; simp_all))]
        exact (List.append_nil _).symm
    · exact (List.append_nil _).symm
  · have hpick : h.filterMap (overlapIn lt lb (nt ++ " – " ++ nb)) = h.filterMap (fun
        | .overlap c b p a => if c.key = ⟨lt, nt, lb, nb⟩ then some (c, b, p, a) else none
        | _ => none) := by
      refine List.filterMap_congr fun a ha => ?_
      cases a with
      | overlap c b p a =>
        simp only [overlapIn]
        by_cases hk : c.key = ⟨lt, nt, lb, nb⟩
        · rw [if_pos hk, if_pos (by rw [hk]; exact ⟨rfl, rfl, rfl⟩)]
        · rw [if_neg hk, if_neg]
          rintro ⟨h1, h2, h3⟩
          obtain ⟨h4, h5⟩ := (dash_inj (hd c b p a ha) hnt).1 h3
          exact hk (by cases hc : c.key; rw [hc] at h1 h2 h4 h5; simp_all)
      | _ => rfl
    rw [hpick, List.map_filterMap]
    refine table_acts t cell (fun r => r.overlapTable) rfl _ _ ?_ h
    rintro s (⟨c, b, p, a⟩ | _ | _ | _)
    · simp only [act, CellResults.addOverlapCap, Dict.getD_upd]
      by_cases hk : c.key = ⟨lt, nt, lb, nb⟩
      · rw [if_pos hk, if_pos hk, hk]; rfl
      · rw [if_neg hk, if_neg hk]
        exact (List.append_nil _).symm
    · exact (List.append_nil _).symm
    · exact (List.append_nil _).symm
    · exact (List.append_nil _).symm

/-! ### An example that meets the assumptions -/

/-- All names in quotes, joined by dots, as in C40. -/
def exText : Text where
  round3 x := toString x.num ++ "/" ++ toString x.den
  round6 x := toString x.num ++ "/" ++ toString x.den
  num x := toString x.num ++ "/" ++ toString x.den
  path p := String.ofList (joinWith '.' (p.map fun s => Rdb.quoted s.toList))

theorem exText_paths : PathsDiffer exText := by
  intro p q hp hq hps hqs e
  have e' := String.ofList_inj.1 e
  have key : ∀ l : List String, (∀ s ∈ l, s ≠ "") → l ≠ [] →
      Rdb.parseCategoryPath (joinWith '.' (l.map fun s => Rdb.quoted s.toList)) = l.map String.toList := by
    intro l hl _
    have := Rdb.quoted_round_trip_partial (l.map String.toList) (by
      intro n hn
      obtain ⟨s, hs, rfl⟩ := List.mem_map.1 (List.mem_of_getLast? hn)
      intro e
      exact hl s hs (String.toList_inj.1 e))
    rw [List.map_map] at this
    exact this
  have := congrArg Rdb.parseCategoryPath e'
  rw [key p hps hp, key q hqs hq] at this
  exact List.map_injective_iff.2 (fun _ _ h => String.toList_inj.1 h) this

/-- Two capacitances between the same nets, one on another layer, and a sidewall capacitance. -/
def exHistory : List (Act Nat) :=
  [.overlap ⟨⟨"m2", "A", "m1", "B"⟩, 3, 0, 0⟩ 10 11 [12], .sidewall ⟨⟨"m1", "A", "B"⟩, 2, 1, 5⟩ 13 14,
   .overlap ⟨⟨"m3", "A", "m1", "B"⟩, 4, 0, 0⟩ 15 16 [17], .overlap ⟨⟨"m2", "A", "m1", "B"⟩, 5, 0, 0⟩ 18 19 []]

/-- The two entries have the numbers 1 and 2. -/
theorem exShown : (exHistory.filterMap (overlapIn "m2" "m1" "A – B")).zipIdx 1 =
    [((⟨⟨"m2", "A", "m1", "B"⟩, 3, 0, 0⟩, 10, 11, [12]), 1), ((⟨⟨"m2", "A", "m1", "B"⟩, 5, 0, 0⟩, 18, 19, []), 2)] := by
  rfl

/-- **C79, a shared category.** An overlap between the nets `A – B` and `C` and one between `A` and `B – C` are reported in
the same way. -/
theorem dash_shared (t : Text) (cell : String) (x : ℚ) (b p : σ) (a : List σ) :
    (acts t cell [.overlap ⟨⟨"m2", "A – B", "m1", "C"⟩, x, 0, 0⟩ b p a]).2.events =
      (acts t cell [.overlap ⟨⟨"m2", "A", "m1", "B – C"⟩, x, 0, 0⟩ b p a]).2.events := by
  rfl

end Verif.Reporter
