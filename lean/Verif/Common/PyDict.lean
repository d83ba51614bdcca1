/-!
# Python dictionaries

A Python `dict` is an insertion-ordered finite map.  It is modelled by an association list: `set` overwrites the
value in place when the key exists and appends a new entry otherwise (Python language reference, `dict`: insertion
order is kept, overwriting keeps the position).  `defaultdict` accesses are `getD`/`upd`.
-/

namespace Verif

/-- A Python dictionary, in insertion order. -/
abbrev Dict (κ ν : Type) := List (κ × ν)

namespace Dict

variable {κ ν : Type} [DecidableEq κ]

/-- `d.get(k, None)` -/
def get? : Dict κ ν → κ → Option ν
  | [], _ => none
  | (k', v) :: d, k => if k' = k then some v else get? d k

/-- `d.get(k, dflt)` -/
def getD (d : Dict κ ν) (k : κ) (dflt : ν) : ν := (d.get? k).getD dflt

/-- `k in d` -/
def has (d : Dict κ ν) (k : κ) : Bool := (d.get? k).isSome

/-- `d[k] = v` -/
def set : Dict κ ν → κ → ν → Dict κ ν
  | [], k, v => [(k, v)]
  | (k', v') :: d, k, v => if k' = k then (k', v) :: d else (k', v') :: set d k v

/-- `del d[k]` (also: no-op when missing; callers that would raise `KeyError` test `has` first) -/
def del : Dict κ ν → κ → Dict κ ν
  | [], _ => []
  | (k', v') :: d, k => if k' = k then d else (k', v') :: del d k

/-- `d[k] = f(d[k])` on a `defaultdict` with default value `dflt` -/
def upd (d : Dict κ ν) (k : κ) (dflt : ν) (f : ν → ν) : Dict κ ν := d.set k (f (d.getD k dflt))

/-- `list(d.keys())` -/
def keys (d : Dict κ ν) : List κ := d.map Prod.fst

/-- `list(d.values())` -/
def values (d : Dict κ ν) : List ν := d.map Prod.snd

/-- A dictionary built by the comprehension `{k: v for (k, v) in l}` (the last entry of a key wins). -/
def ofList (l : List (κ × ν)) : Dict κ ν := l.foldl (fun d kv => d.set kv.1 kv.2) []

/-! ### Lemmas -/

@[simp] theorem get?_nil (k : κ) : get? ([] : Dict κ ν) k = none := rfl

theorem get?_cons (k' : κ) (v : ν) (d : Dict κ ν) (k : κ) :
    get? ((k', v) :: d) k = if k' = k then some v else get? d k := rfl

theorem get?_set (d : Dict κ ν) (k k' : κ) (v : ν) :
    (d.set k v).get? k' = if k = k' then some v else d.get? k' := by
  induction d with
  | nil => simp [set, get?]
  | cons p d ih =>
    obtain ⟨k₀, v₀⟩ := p
    by_cases h0 : k₀ = k
    · subst h0
      by_cases h : k₀ = k' <;> simp [set, get?, h]
    · by_cases h : k₀ = k'
      · subst h
        have : ¬ k = k₀ := fun h => h0 h.symm
        simp [set, get?, h0, this]
      · simp [set, get?, h0, h, ih]

@[simp] theorem get?_set_self (d : Dict κ ν) (k : κ) (v : ν) : (d.set k v).get? k = some v := by
  simp [get?_set]

theorem get?_set_ne (d : Dict κ ν) {k k' : κ} (v : ν) (h : k ≠ k') : (d.set k v).get? k' = d.get? k' := by
  simp [get?_set, h]

theorem getD_set (d : Dict κ ν) (k k' : κ) (v dflt : ν) :
    (d.set k v).getD k' dflt = if k = k' then v else d.getD k' dflt := by
  unfold getD
  rw [get?_set]
  split <;> rfl

theorem getD_upd (d : Dict κ ν) (k k' : κ) (dflt dflt' : ν) (f : ν → ν) :
    (d.upd k dflt f).getD k' dflt' = if k = k' then f (d.getD k dflt) else d.getD k' dflt' := by
  unfold upd; rw [getD_set]

theorem get?_upd (d : Dict κ ν) (k k' : κ) (dflt : ν) (f : ν → ν) :
    (d.upd k dflt f).get? k' = if k = k' then some (f (d.getD k dflt)) else d.get? k' := by
  unfold upd; rw [get?_set]

omit [DecidableEq κ] in
@[simp] theorem keys_nil : keys ([] : Dict κ ν) = [] := rfl
omit [DecidableEq κ] in
@[simp] theorem keys_cons (p : κ × ν) (d : Dict κ ν) : keys (p :: d) = p.1 :: keys d := rfl

theorem keys_set (d : Dict κ ν) (k : κ) (v : ν) :
    (d.set k v).keys = if k ∈ d.keys then d.keys else d.keys ++ [k] := by
  induction d with
  | nil => simp [set]
  | cons p d ih =>
    obtain ⟨k₀, v₀⟩ := p
    by_cases h0 : k₀ = k
    · subst h0; simp [set]
    · have h0' : ¬ k = k₀ := fun h => h0 h.symm
      by_cases hm : k ∈ keys d
      · simp [set, h0, ih, hm]
      · simp [set, h0, ih, hm, h0']

theorem mem_keys_set (d : Dict κ ν) (k k' : κ) (v : ν) :
    k' ∈ (d.set k v).keys ↔ k' = k ∨ k' ∈ d.keys := by
  rw [keys_set]
  split
  · constructor
    · exact Or.inr
    · rintro (rfl | h) <;> assumption
  · simp [or_comm]

theorem mem_keys_upd (d : Dict κ ν) (k k' : κ) (dflt : ν) (f : ν → ν) :
    k' ∈ (d.upd k dflt f).keys ↔ k' = k ∨ k' ∈ d.keys := mem_keys_set _ _ _ _

omit [DecidableEq κ] in
theorem mem_keys (d : Dict κ ν) (k : κ) : k ∈ d.keys ↔ ∃ v, (k, v) ∈ d := by
  simp [keys]

theorem nodup_keys_set (d : Dict κ ν) (k : κ) (v : ν) (h : d.keys.Nodup) : (d.set k v).keys.Nodup := by
  rw [keys_set]
  split
  · exact h
  · rename_i hk
    rw [List.nodup_append]
    refine ⟨h, by simp, ?_⟩
    intro a ha b hb
    simp at hb
    subst hb
    rintro rfl
    exact hk ha

theorem nodup_keys_upd (d : Dict κ ν) (k : κ) (dflt : ν) (f : ν → ν) (h : d.keys.Nodup) :
    (d.upd k dflt f).keys.Nodup := nodup_keys_set _ _ _ h

theorem mem_keys_iff (d : Dict κ ν) (k : κ) : k ∈ d.keys ↔ (d.get? k).isSome := by
  induction d with
  | nil => simp [keys]
  | cons p d ih =>
    obtain ⟨k₀, v₀⟩ := p
    simp only [keys, List.map_cons, List.mem_cons, get?] at ih ⊢
    by_cases h0 : k₀ = k
    · simp [h0]
    · have h0' : ¬ k = k₀ := fun h => h0 h.symm
      simp [h0, h0', ih]

theorem has_iff (d : Dict κ ν) (k : κ) : d.has k = true ↔ k ∈ d.keys := by
  rw [mem_keys_iff]; rfl

theorem mem_of_get? {d : Dict κ ν} {k : κ} {v : ν} (h : d.get? k = some v) : (k, v) ∈ d := by
  induction d with
  | nil => simp at h
  | cons p d ih =>
    obtain ⟨k₀, v₀⟩ := p
    rw [get?_cons] at h
    by_cases h0 : k₀ = k
    · simp [h0] at h; simp [h0, h]
    · simp [h0] at h; exact List.mem_cons_of_mem _ (ih h)

theorem get?_of_mem {d : Dict κ ν} {k : κ} {v : ν} (hn : d.keys.Nodup) (h : (k, v) ∈ d) :
    d.get? k = some v := by
  induction d with
  | nil => simp at h
  | cons p d ih =>
    obtain ⟨k₀, v₀⟩ := p
    simp only [keys, List.map_cons, List.nodup_cons] at hn
    rw [get?_cons]
    rcases List.mem_cons.1 h with h | h
    · cases h; simp
    · have : k₀ ≠ k := by
        rintro rfl
        exact hn.1 (List.mem_map.mpr ⟨_, h, rfl⟩)
      simp [this, ih hn.2 h]

theorem mem_iff_get? {d : Dict κ ν} (hn : d.keys.Nodup) (k : κ) (v : ν) :
    (k, v) ∈ d ↔ d.get? k = some v := ⟨get?_of_mem hn, mem_of_get?⟩

theorem get?_eq_none {d : Dict κ ν} {k : κ} : d.get? k = none ↔ k ∉ d.keys := by
  rw [mem_keys_iff]; cases d.get? k <;> simp

theorem nodup_ofList (l : List (κ × ν)) : (ofList l).keys.Nodup := by
  suffices ∀ (d : Dict κ ν), d.keys.Nodup → (l.foldl (fun d kv => d.set kv.1 kv.2) d).keys.Nodup from
    this [] (by simp [keys])
  induction l with
  | nil => intro d h; exact h
  | cons p l ih => intro d h; exact ih _ (nodup_keys_set _ _ _ h)

theorem ofList_snoc (l : List (κ × ν)) (k : κ) (v : ν) : ofList (l ++ [(k, v)]) = (ofList l).set k v := by
  simp [ofList]

/-- The value of a key in a dictionary comprehension is the one of its last entry. -/
theorem get?_ofList (l : List (κ × ν)) (k : κ) :
    (ofList l).get? k = (l.reverse.find? (fun p => decide (p.1 = k))).map Prod.snd := by
  suffices ∀ (l : List (κ × ν)), (ofList l.reverse).get? k = (l.find? (fun p => decide (p.1 = k))).map Prod.snd by
    simpa using this l.reverse
  intro l
  induction l with
  | nil => rfl
  | cons p l ih =>
    obtain ⟨k₀, v₀⟩ := p
    rw [List.reverse_cons, ofList_snoc, get?_set, List.find?_cons]
    by_cases h : k₀ = k <;> simp [h, ih]

/-! ### Deletion -/

theorem keys_del (d : Dict κ ν) (k : κ) (hn : d.keys.Nodup) (k' : κ) :
    k' ∈ (d.del k).keys ↔ k' ∈ d.keys ∧ k' ≠ k := by
  induction d with
  | nil => simp [del, keys]
  | cons p d ih =>
    obtain ⟨k₀, v₀⟩ := p
    simp only [keys, List.map_cons, List.nodup_cons] at hn ih ⊢
    by_cases h0 : k₀ = k
    · subst h0
      simp only [del, if_true, List.mem_cons]
      constructor
      · intro h
        refine ⟨Or.inr h, ?_⟩
        rintro rfl
        exact hn.1 h
      · rintro ⟨rfl | h, h'⟩
        · exact absurd rfl h'
        · exact h
    · simp only [del, h0, if_false, List.map_cons, List.mem_cons, ih hn.2]
      constructor
      · rintro (rfl | ⟨h, h'⟩)
        · exact ⟨Or.inl rfl, h0⟩
        · exact ⟨Or.inr h, h'⟩
      · rintro ⟨rfl | h, h'⟩
        · exact Or.inl rfl
        · exact Or.inr ⟨h, h'⟩

theorem del_sublist (d : Dict κ ν) (k : κ) : (d.del k).Sublist d := by
  induction d with
  | nil => simp [del]
  | cons p d ih =>
    obtain ⟨k₀, v₀⟩ := p
    simp only [del]
    split
    · exact List.sublist_cons_self _ _
    · exact ih.cons_cons _

theorem nodup_keys_del (d : Dict κ ν) (k : κ) (hn : d.keys.Nodup) : (d.del k).keys.Nodup :=
  ((del_sublist d k).map _).nodup hn

theorem get?_del (d : Dict κ ν) (k : κ) (hn : d.keys.Nodup) (k' : κ) :
    (d.del k).get? k' = if k = k' then none else d.get? k' := by
  induction d with
  | nil => simp [del]
  | cons p d ih =>
    obtain ⟨k₀, v₀⟩ := p
    simp only [keys, List.map_cons, List.nodup_cons] at hn ih
    by_cases h0 : k₀ = k
    · subst h0
      simp only [del, if_true]
      by_cases h : k₀ = k'
      · subst h
        simp only [if_true]
        exact get?_eq_none.2 hn.1
      · simp [h, get?]
    · simp only [del, h0, if_false, get?_cons, ih hn.2]
      by_cases h : k₀ = k'
      · subst h
        have : ¬ k = k₀ := fun h => h0 h.symm
        simp [this]
      · simp [h]

end Dict
end Verif
