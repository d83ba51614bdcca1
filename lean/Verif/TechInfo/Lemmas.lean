import Verif.TechInfo.Model

/-!
# Lemmas about nested dictionaries
-/

namespace Verif.TechInfo

/-- `x` is the last entry of the list with the property. -/
def IsLast {α : Type} (p : α → Prop) (l : List α) (x : α) : Prop :=
  ∃ l₁ l₂, l = l₁ ++ x :: l₂ ∧ p x ∧ ∀ y ∈ l₂, ¬ p y

theorem find_last {α : Type} (p : α → Bool) (l : List α) (x : α) :
    l.reverse.find? p = some x ↔ IsLast (fun y => p y = true) l x := by
  rw [List.find?_eq_some_iff_append]
  constructor
  · rintro ⟨hp, as, bs, h, hn⟩
    refine ⟨bs.reverse, as.reverse, ?_, hp, ?_⟩
    · have := congrArg List.reverse h
      simpa using this
    · intro y hy; have := hn y (by simpa using hy); simpa using this
  · rintro ⟨l₁, l₂, h, hp, hn⟩
    refine ⟨hp, l₂.reverse, l₁.reverse, by simp [h], ?_⟩
    intro y hy
    have := hn y (by simpa using hy)
    simpa using this

theorem find_last_none {α : Type} (p : α → Bool) (l : List α) :
    l.reverse.find? p = none ↔ ∀ y ∈ l, ¬ p y = true := by
  rw [List.find?_eq_none]; simp

theorem IsLast.congr {α : Type} {p q : α → Prop} (h : ∀ y, p y ↔ q y) {l : List α} {x : α} :
    IsLast p l x ↔ IsLast q l x := by
  have : p = q := funext fun y => propext (h y)
  rw [this]

theorem IsLast.mem {α : Type} {p : α → Prop} {l : List α} {x : α} (h : IsLast p l x) : x ∈ l := by
  obtain ⟨l₁, l₂, h, _, _⟩ := h; simp [h]

theorem IsLast.prop {α : Type} {p : α → Prop} {l : List α} {x : α} (h : IsLast p l x) : p x := by
  obtain ⟨_, _, _, h, _⟩ := h; exact h

/-- The dictionary `{key(x): val(x) for x in l}`. -/
theorem ofList_map {α κ ν : Type} [DecidableEq κ] (key : α → κ) (val : α → ν) (l : List α) (k : κ) :
    (Dict.ofList (l.map fun x => (key x, val x))).get? k =
      (l.reverse.find? fun x => decide (key x = k)).map val := by
  rw [Dict.get?_ofList, ← List.map_reverse, List.find?_map, Option.map_map]
  rfl

theorem ofList_map_some {α κ ν : Type} [DecidableEq κ] (key : α → κ) (val : α → ν) (l : List α) (k : κ) (v : ν) :
    (Dict.ofList (l.map fun x => (key x, val x))).get? k = some v ↔
      ∃ x, IsLast (fun y => key y = k) l x ∧ val x = v := by
  rw [ofList_map, Option.map_eq_some_iff]
  refine exists_congr fun x => and_congr_left fun _ => (find_last _ _ _).trans (IsLast.congr ?_)
  intro y; simp

theorem ofList_map_none {α κ ν : Type} [DecidableEq κ] (key : α → κ) (val : α → ν) (l : List α) (k : κ) :
    (Dict.ofList (l.map fun x => (key x, val x))).get? k = none ↔ ∀ x ∈ l, key x ≠ k := by
  rw [ofList_map, Option.map_eq_none_iff, find_last_none]; simp

section Nested
variable {V : Type}

/-- Lookup in a dictionary of dictionaries. -/
def lookup2 (d : Dict String (Dict String V)) (a b : String) : Option V := (d.get? a).bind fun e => e.get? b

def mergeG (d : Dict String (Dict String V)) (k1 k2 : String) (v : V) : Dict String (Dict String V) :=
  match d.get? k1 with
  | none => d.set k1 [(k2, v)]
  | some e => d.set k1 (e.set k2 v)

theorem lookup2_mergeG (d : Dict String (Dict String V)) (k1 k2 : String) (v : V) (a b : String) :
    lookup2 (mergeG d k1 k2 v) a b = if k1 = a ∧ k2 = b then some v else lookup2 d a b := by
  unfold mergeG lookup2
  by_cases h1 : k1 = a
  · subst h1
    cases h : d.get? k1 with
    | none =>
      simp only [Dict.get?_set, if_true, Option.bind_some, Dict.get?_cons, Dict.get?_nil, true_and, Option.bind_none]
    | some e =>
      simp only [Dict.get?_set, if_true, Option.bind_some, true_and]
  · cases h : d.get? k1 <;> simp [Dict.get?_set, h1]

theorem keys_mergeG (d : Dict String (Dict String V)) (k1 k2 : String) (v : V) (a : String) :
    a ∈ (mergeG d k1 k2 v).keys ↔ a = k1 ∨ a ∈ d.keys := by
  unfold mergeG
  cases h : d.get? k1 <;> simp [Dict.mem_keys_set]

def mergeAll (d : Dict String (Dict String V)) (ps : Dict String (Dict String V)) : Dict String (Dict String V) :=
  ps.foldl (fun d e => e.2.foldl (fun d f => mergeG d e.1 f.1 f.2) d) d

theorem lookup2_inner (k1 : String) (e : Dict String V) (he : e.keys.Nodup) (d : Dict String (Dict String V))
    (a b : String) :
    lookup2 (e.foldl (fun d f => mergeG d k1 f.1 f.2) d) a b =
      if k1 = a then (e.get? b).or (lookup2 d a b) else lookup2 d a b := by
  induction e generalizing d with
  | nil => simp
  | cons f e ih =>
    rw [Dict.keys_cons, List.nodup_cons] at he
    rw [List.foldl_cons, ih he.2, lookup2_mergeG, Dict.get?_cons]
    by_cases h1 : k1 = a
    · subst h1
      simp only [if_true, true_and]
      by_cases h2 : f.1 = b
      · subst h2
        have : Dict.get? e f.1 = none := Dict.get?_eq_none.2 he.1
        simp [this]
      · simp [h2]
    · simp [h1]

theorem lookup2_mergeAll (ps d : Dict String (Dict String V)) (hp : ps.keys.Nodup) (he : ∀ e ∈ ps, e.2.keys.Nodup)
    (a b : String) : lookup2 (mergeAll d ps) a b = (lookup2 ps a b).or (lookup2 d a b) := by
  induction ps generalizing d with
  | nil => rfl
  | cons e ps ih =>
    rw [Dict.keys_cons, List.nodup_cons] at hp
    have : mergeAll d (e :: ps) = mergeAll (e.2.foldl (fun d f => mergeG d e.1 f.1 f.2) d) ps := rfl
    rw [this, ih _ hp.2 (fun x hx => he x (List.mem_cons_of_mem _ hx)),
      lookup2_inner _ _ (he e List.mem_cons_self)]
    have hl : lookup2 (e :: ps) a b = if e.1 = a then e.2.get? b else lookup2 ps a b := by
      unfold lookup2
      rw [Dict.get?_cons]
      split <;> rfl
    rw [hl]
    by_cases h : e.1 = a
    · subst h
      have : lookup2 ps e.1 b = none := by
        unfold lookup2; rw [Dict.get?_eq_none.2 hp.1]; rfl
      simp [this]
    · simp [h]

/-- The table of the explicitly listed pairs. -/
def pairsG (k1 k2 : V → String) (l : List V) : Dict String (Dict String V) :=
  Dict.ofList (l.map fun o => (k1 o, Dict.ofList ((l.filter fun b => k1 b == k1 o).map fun b => (k2 b, b))))

theorem lookup2_pairsG (k1 k2 : V → String) (l : List V) (a b : String) :
    lookup2 (pairsG k1 k2 l) a b = l.reverse.find? (fun o => decide (k1 o = a ∧ k2 o = b)) := by
  unfold lookup2 pairsG
  rw [ofList_map]
  cases h : l.reverse.find? (fun x => decide (k1 x = a)) with
  | none =>
    rw [Option.map_none, Option.bind_none]
    symm
    rw [List.find?_eq_none] at h ⊢
    intro x hx; have := h x hx; simp only [decide_eq_true_eq] at this ⊢
    exact fun hh => this hh.1
  | some o =>
    have ho : k1 o = a := by simpa using List.find?_some h
    rw [Option.map_some, Option.bind_some, ofList_map]
    rw [← List.filter_reverse, List.find?_filter]
    rw [Option.map_id']
    congr 1
    funext x
    simp [ho]

theorem nodup_pairsG (k1 k2 : V → String) (l : List V) :
    (pairsG k1 k2 l).keys.Nodup ∧ ∀ e ∈ pairsG k1 k2 l, e.2.keys.Nodup := by
  refine ⟨Dict.nodup_ofList _, ?_⟩
  rintro ⟨k, v⟩ he
  have := (Dict.mem_iff_get? (Dict.nodup_ofList _) k v).1 he
  rw [ofList_map_some] at this
  obtain ⟨x, _, rfl⟩ := this
  exact Dict.nodup_ofList _

theorem keys_pairsG (k1 k2 : V → String) (l : List V) (a : String) :
    a ∈ (pairsG k1 k2 l).keys ↔ ∃ o ∈ l, k1 o = a := by
  rw [← not_iff_not, ← Dict.get?_eq_none, pairsG, ofList_map_none]; simp

theorem ne_nil_pairsG (k1 k2 : V → String) (l : List V) : ∀ e ∈ pairsG k1 k2 l, e.2 ≠ [] := by
  rintro ⟨k, v⟩ he hv
  have := (Dict.mem_iff_get? (Dict.nodup_ofList _) k v).1 he
  rw [ofList_map_some] at this
  obtain ⟨x, hx, rfl⟩ := this
  have hn : (Dict.ofList ((l.filter fun b => k1 b == k1 x).map fun b => (k2 b, b))).get? (k2 x) = none := by
    simp only at hv; rw [hv]; rfl
  rw [ofList_map_none] at hn
  exact hn x (by simp [hx.mem]) rfl

/-- The table of the substrate entries. -/
theorem base_lookup {S : Type} (layer : S → String) (conv : S → V) (l : List S) (a b : String) :
    lookup2 (Dict.ofList ((Dict.ofList (l.map fun s => (layer s, s))).map
      fun e => (e.1, [(substrateName, conv e.2)]))) a b =
    if b = substrateName then (l.reverse.find? fun s => decide (layer s = a)).map conv else none := by
  unfold lookup2
  rw [ofList_map (fun e : String × S => e.1) (fun e => [(substrateName, conv e.2)])]
  have hn := Dict.nodup_ofList (l.map fun s => (layer s, s))
  have hg := ofList_map layer (fun s => s) l a
  have : ((Dict.ofList (l.map fun s => (layer s, s))).reverse.find? fun x => decide (x.1 = a)) =
      ((Dict.ofList (l.map fun s => (layer s, s))).get? a).map fun s => (a, s) := by
    cases h : (Dict.ofList (l.map fun s => (layer s, s))).get? a with
    | none =>
      rw [Option.map_none, List.find?_eq_none]
      intro x hx
      have h2 := Dict.get?_eq_none.1 h
      simp only [decide_eq_true_eq]
      rintro rfl
      exact h2 (List.mem_map_of_mem (by simpa using hx))
    | some s =>
      have hm := Dict.mem_of_get? h
      cases h3 : ((Dict.ofList (l.map fun s => (layer s, s))).reverse.find? fun x => decide (x.1 = a)) with
      | none =>
        rw [List.find?_eq_none] at h3
        have := h3 (a, s) (by simpa using hm)
        simp at this
      | some e =>
        have h4 : e.1 = a := by simpa using List.find?_some h3
        have h5 : e ∈ (Dict.ofList (l.map fun s => (layer s, s))) := by simpa using List.mem_of_find?_eq_some h3
        have h6 : (Dict.ofList (l.map fun s => (layer s, s))).get? e.1 = some e.2 := Dict.get?_of_mem hn h5
        rw [h4, h] at h6
        obtain ⟨e1, e2⟩ := e
        simp only at h4 h6
        subst h4
        simp only [Option.some.injEq] at h6
        subst h6
        rfl
  rw [this, hg]
  cases l.reverse.find? fun s => decide (layer s = a) with
  | none => simp
  | some s =>
    simp only [Option.map_some, Option.bind_some, Dict.get?_cons, Dict.get?_nil, eq_comm]

theorem keys_base {S : Type} (layer : S → String) (conv : S → V) (l : List S) (a : String) :
    a ∈ (Dict.ofList ((Dict.ofList (l.map fun s => (layer s, s))).map
      fun e => (e.1, ([(substrateName, conv e.2)] : Dict String V)))).keys ↔ ∃ s ∈ l, layer s = a := by
  rw [← not_iff_not, ← Dict.get?_eq_none,
    ofList_map_none (fun e : String × S => e.1) (fun e => ([(substrateName, conv e.2)] : Dict String V))]
  have : (∀ x ∈ Dict.ofList (l.map fun s => (layer s, s)), x.1 ≠ a) ↔
      a ∉ (Dict.ofList (l.map fun s => (layer s, s))).keys := by
    rw [Dict.mem_keys]
    constructor
    · rintro h ⟨v, hv⟩; exact h _ hv rfl
    · rintro h ⟨k, v⟩ hx rfl; exact h ⟨v, hx⟩
  rw [this, ← Dict.get?_eq_none, ofList_map_none]; simp

/-- The merge that requires an entry of the first key. -/
def mergeE (d : Dict String (Dict String V)) (k1 k2 : String) (v : V) : Except String (Dict String (Dict String V)) :=
  match d.get? k1 with
  | none => .error "KeyError"
  | some e => .ok (d.set k1 (e.set k2 v))

theorem mergeE_ok {d : Dict String (Dict String V)} {k1 : String} (h : k1 ∈ d.keys) (k2 : String) (v : V) :
    mergeE d k1 k2 v = .ok (mergeG d k1 k2 v) := by
  unfold mergeE mergeG
  cases h' : d.get? k1 with
  | none => exact absurd h (Dict.get?_eq_none.1 h')
  | some e => rfl

theorem mergeE_err {d : Dict String (Dict String V)} {k1 : String} (h : k1 ∉ d.keys) (k2 : String) (v : V) :
    mergeE d k1 k2 v = .error "KeyError" := by
  unfold mergeE; rw [Dict.get?_eq_none.2 h]

theorem inner_ok (k1 : String) (e : Dict String V) (d : Dict String (Dict String V)) (h : k1 ∈ d.keys) :
    e.foldlM (fun d f => mergeE d k1 f.1 f.2) d = .ok (e.foldl (fun d f => mergeG d k1 f.1 f.2) d) := by
  induction e generalizing d with
  | nil => rfl
  | cons f e ih =>
    rw [List.foldlM_cons, mergeE_ok h, List.foldl_cons, ← ih _ ((keys_mergeG _ _ _ _ _).2 (Or.inr h))]
    rfl

theorem keys_inner (k1 : String) (e : Dict String V) (d : Dict String (Dict String V)) (a : String) (h : a ∈ d.keys) :
    a ∈ (e.foldl (fun d f => mergeG d k1 f.1 f.2) d).keys := by
  induction e generalizing d with
  | nil => exact h
  | cons f e ih => exact ih _ ((keys_mergeG _ _ _ _ _).2 (Or.inr h))

theorem keys_inner' (k1 : String) (e : Dict String V) (d : Dict String (Dict String V)) (a : String)
    (h : a ∈ (e.foldl (fun d f => mergeG d k1 f.1 f.2) d).keys) : a = k1 ∨ a ∈ d.keys := by
  induction e generalizing d with
  | nil => exact Or.inr h
  | cons f e ih =>
    rcases ih _ h with h | h
    · exact Or.inl h
    · exact (keys_mergeG _ _ _ _ _).1 h

theorem outer_ok (ps d : Dict String (Dict String V)) (h : ∀ e ∈ ps, e.1 ∈ d.keys) :
    ps.foldlM (fun d e => e.2.foldlM (fun d f => mergeE d e.1 f.1 f.2) d) d = .ok (mergeAll d ps) := by
  induction ps generalizing d with
  | nil => rfl
  | cons e ps ih =>
    rw [List.foldlM_cons, inner_ok _ _ _ (h e List.mem_cons_self)]
    exact ih _ (fun x hx => keys_inner _ _ _ _ (h x (List.mem_cons_of_mem _ hx)))

theorem outer_err (ps d : Dict String (Dict String V)) (hne : ∀ e ∈ ps, e.2 ≠ []) (hx : ∃ e ∈ ps, e.1 ∉ d.keys) :
    ps.foldlM (fun d e => e.2.foldlM (fun d f => mergeE d e.1 f.1 f.2) d) d = .error "KeyError" := by
  induction ps generalizing d with
  | nil => obtain ⟨e, he, _⟩ := hx; simp at he
  | cons e ps ih =>
    rw [List.foldlM_cons]
    by_cases h : e.1 ∈ d.keys
    · rw [inner_ok _ _ _ h]
      refine ih _ (fun x hx => hne x (List.mem_cons_of_mem _ hx)) ?_
      obtain ⟨x, hx, hk⟩ := hx
      have hxe : x ∈ ps := by
        rcases List.mem_cons.1 hx with rfl | hx
        · exact absurd h hk
        · exact hx
      refine ⟨x, hxe, fun hin => ?_⟩
      rcases keys_inner' _ _ _ _ hin with h' | h'
      · exact hk (h' ▸ h)
      · exact hk h'
    · have : e.2.foldlM (fun d f => mergeE d e.1 f.1 f.2) d = .error "KeyError" := by
        have hn := hne e List.mem_cons_self
        cases h2 : e.2 with
        | nil => exact absurd h2 hn
        | cons f fs => rw [List.foldlM_cons, mergeE_err h]; rfl
      rw [this]; rfl

end Nested

theorem overlapMerge_eq : overlapMerge = mergeG := by
  funext d k1 k2 v
  unfold overlapMerge mergeG
  cases d.get? k1 <;> rfl

theorem sideMerge_eq : sideMerge = mergeE := by
  funext d k1 k2 v
  unfold sideMerge mergeE
  cases d.get? k1 <;> rfl

theorem overlapTable_eq (p : Parasitics) :
    overlapTable p = mergeAll (overlapBase p) (pairsG (·.top) (·.bot) p.overlaps) := by
  unfold overlapTable; rw [overlapMerge_eq]; rfl

theorem sideTable_eq (p : Parasitics) :
    sideTable p = (pairsG (·.inLayer) (·.outLayer) p.sideoverlaps).foldlM
      (fun d e => e.2.foldlM (fun d f => mergeE d e.1 f.1 f.2) d) (sideBase p) := by
  unfold sideTable; rw [sideMerge_eq]; rfl

end Verif.TechInfo
