import Verif.Summary.Model
import Mathlib.Tactic.Ring
import Mathlib.Tactic.Abel
import Mathlib.Tactic.Linarith

/-! # Helper lemmas about summaries -/

namespace Verif.Dict

variable {κ ν M : Type} [DecidableEq κ] [AddCommGroup M]

/-- Updating one key adds `δ` to a sum over the entries, if it adds `δ` to the summand of that key. -/
theorem sum_upd (g : κ → ν → M) (d : Dict κ ν) (k : κ) (dflt : ν) (f : ν → ν) (δ : M)
    (h0 : g k dflt = 0) (hf : ∀ x, g k (f x) = g k x + δ) :
    ((d.upd k dflt f).map fun kv => g kv.1 kv.2).sum = (d.map fun kv => g kv.1 kv.2).sum + δ := by
  unfold upd getD
  induction d with
  | nil => simp [set, hf, h0]
  | cons p d ih =>
    obtain ⟨k₀, v₀⟩ := p
    by_cases hk : k₀ = k
    · subst hk
      simp [set, get?, hf]
      abel
    · simp only [set, get?, hk, if_false, List.map_cons, List.sum_cons, ih]
      abel

end Verif.Dict

namespace Verif.Summary

theorem normed_swap (a b : String) : NetCoupleKey.normed ⟨a, b⟩ = NetCoupleKey.normed ⟨b, a⟩ := by
  unfold NetCoupleKey.normed
  rcases lt_trichotomy a b with h | h | h
  · simp [h, not_lt_of_gt h]
  · subst h; simp
  · simp [h, not_lt_of_gt h]

theorem normed_cases (k : NetCoupleKey) : k.normed = k ∨ k.normed = ⟨k.net2, k.net1⟩ := by
  unfold NetCoupleKey.normed; split
  · exact Or.inl rfl
  · exact Or.inr rfl

theorem normed_le (k : NetCoupleKey) : k.normed.net1 ≤ k.normed.net2 := by
  unfold NetCoupleKey.normed; split
  · exact le_of_lt ‹_›
  · exact not_lt.1 ‹_›

theorem normed_of_le {k : NetCoupleKey} (h : k.net1 ≤ k.net2) : k.normed = k := by
  unfold NetCoupleKey.normed
  split
  · rfl
  · have : k.net1 = k.net2 := le_antisymm h (not_lt.1 ‹_›)
    cases k; simp_all

/-- Weighted total of a table of net pairs. -/
def wsum (P : NetCoupleKey → Bool) (d : Dict NetCoupleKey ℚ) : ℚ :=
  (d.map fun kv => if P kv.1 then kv.2 else 0).sum

theorem wsum_upd (P : NetCoupleKey → Bool) (d : Dict NetCoupleKey ℚ) (k : NetCoupleKey) (v : ℚ) :
    wsum P (d.upd k 0 (· + v)) = wsum P d + if P k then v else 0 := by
  unfold wsum
  refine Dict.sum_upd (fun k v => if P k = true then v else 0) d k 0 _ _ (by simp) ?_
  intro x; split <;> simp

theorem wsum_foldl {α : Type} (P : NetCoupleKey → Bool) (key : α → NetCoupleKey) (val : α → ℚ) (l : List α)
    (d : Dict NetCoupleKey ℚ) :
    wsum P (l.foldl (fun d x => d.upd (key x) 0 (· + val x)) d)
      = wsum P d + (l.map fun x => if P (key x) then val x else 0).sum := by
  induction l generalizing d with
  | nil => simp
  | cons x l ih => simp only [List.foldl_cons, ih, wsum_upd, List.map_cons, List.sum_cons]; ring

/-- A predicate on net pairs that does not look at the orientation. -/
def Sym (P : NetCoupleKey → Bool) : Prop := ∀ a b, P ⟨a, b⟩ = P ⟨b, a⟩

theorem Sym.normed {P : NetCoupleKey → Bool} (h : Sym P) (k : NetCoupleKey) : P k.normed = P k := by
  rcases normed_cases k with h' | h' <;> rw [h']
  exact h _ _

theorem wsum_addNormed {P : NetCoupleKey → Bool} (hP : Sym P) (d e : Dict NetCoupleKey ℚ) :
    wsum P (addNormed d e) = wsum P d + wsum P e := by
  unfold addNormed
  rw [wsum_foldl P (fun kv : NetCoupleKey × ℚ => kv.1.normed) (fun kv => kv.2)]
  simp only [hP.normed]; rfl

theorem wsum_foldl_addNormed {P : NetCoupleKey → Bool} (hP : Sym P) {α : Type} (f : α → Dict NetCoupleKey ℚ)
    (l : List α) (d : Dict NetCoupleKey ℚ) :
    wsum P (l.foldl (fun d s => addNormed d (f s)) d) = wsum P d + (l.map fun s => wsum P (f s)).sum := by
  induction l generalizing d with
  | nil => simp
  | cons x l ih => simp only [List.foldl_cons, ih, wsum_addNormed hP, List.map_cons, List.sum_cons]; ring

/-- Weighted total of a table of records. -/
def tsum {κ ε : Type} (P : NetCoupleKey → Bool) (couple : κ → NetCoupleKey) (value : ε → ℚ)
    (table : Dict κ (List ε)) : ℚ :=
  (table.map fun kv => if P (couple kv.1) then (kv.2.map value).sum else 0).sum

theorem wsum_summarizeTable {κ ε : Type} {P : NetCoupleKey → Bool} (hP : Sym P) (couple : κ → NetCoupleKey)
    (value : ε → ℚ) (table : Dict κ (List ε)) :
    wsum P (summarizeTable couple value table) = tsum P couple value table := by
  unfold summarizeTable tsum
  rw [wsum_foldl P (fun kv : κ × List ε => (couple kv.1).normed) (fun kv => (kv.2.map value).sum)]
  simp [hP.normed, wsum]

theorem tsum_upd {κ ε : Type} [DecidableEq κ] (P : NetCoupleKey → Bool) (couple : κ → NetCoupleKey)
    (value : ε → ℚ) (table : Dict κ (List ε)) (k : κ) (c : ε) :
    tsum P couple value (table.upd k [] (· ++ [c])) =
      tsum P couple value table + if P (couple k) then value c else 0 := by
  unfold tsum
  refine Dict.sum_upd (fun k l => if P (couple k) = true then (l.map value).sum else 0) table k [] _ _ (by simp) ?_
  intro x; split <;> simp

/-! ### Key sets -/

theorem keys_foldl {α : Type} (key : α → NetCoupleKey) (val : α → ℚ) (l : List α)
    (d : Dict NetCoupleKey ℚ) (k : NetCoupleKey) :
    k ∈ (l.foldl (fun d x => d.upd (key x) 0 (· + val x)) d).keys ↔ k ∈ d.keys ∨ ∃ x ∈ l, key x = k := by
  induction l generalizing d with
  | nil => simp
  | cons x l ih =>
    simp only [List.foldl_cons, ih, Dict.mem_keys_upd, List.mem_cons, exists_eq_or_imp]
    constructor
    · rintro ((h | h) | h)
      · exact Or.inr (Or.inl h.symm)
      · exact Or.inl h
      · exact Or.inr (Or.inr h)
    · rintro (h | h | h)
      · exact Or.inl (Or.inr h)
      · exact Or.inl (Or.inl h.symm)
      · exact Or.inr h

theorem nodup_foldl {α : Type} (key : α → NetCoupleKey) (val : α → ℚ) (l : List α)
    (d : Dict NetCoupleKey ℚ) (h : d.keys.Nodup) :
    (l.foldl (fun d x => d.upd (key x) 0 (· + val x)) d).keys.Nodup := by
  induction l generalizing d with
  | nil => exact h
  | cons x l ih => exact ih _ (Dict.nodup_keys_upd _ _ _ _ h)

theorem keys_addNormed (d e : Dict NetCoupleKey ℚ) (k : NetCoupleKey) :
    k ∈ (addNormed d e).keys ↔ k ∈ d.keys ∨ ∃ k' ∈ e.keys, k'.normed = k := by
  unfold addNormed
  rw [keys_foldl (fun kv : NetCoupleKey × ℚ => kv.1.normed) (fun kv => kv.2)]
  simp only [Dict.mem_keys e]
  constructor
  · rintro (h | ⟨x, hx, h⟩)
    · exact Or.inl h
    · exact Or.inr ⟨x.1, ⟨x.2, hx⟩, h⟩
  · rintro (h | ⟨k', ⟨v, hx⟩, h⟩)
    · exact Or.inl h
    · exact Or.inr ⟨(k', v), hx, h⟩

theorem nodup_addNormed (d e : Dict NetCoupleKey ℚ) (h : d.keys.Nodup) : (addNormed d e).keys.Nodup :=
  nodup_foldl (fun kv : NetCoupleKey × ℚ => kv.1.normed) (fun kv => kv.2) e d h

theorem keys_foldl_addNormed {α : Type} (f : α → Dict NetCoupleKey ℚ) (l : List α) (d : Dict NetCoupleKey ℚ)
    (k : NetCoupleKey) :
    k ∈ (l.foldl (fun d s => addNormed d (f s)) d).keys ↔
      k ∈ d.keys ∨ ∃ s ∈ l, ∃ k' ∈ (f s).keys, k'.normed = k := by
  induction l generalizing d with
  | nil => simp
  | cons x l ih =>
    simp only [List.foldl_cons, ih, keys_addNormed, List.mem_cons, exists_eq_or_imp, or_assoc]

theorem nodup_foldl_addNormed {α : Type} (f : α → Dict NetCoupleKey ℚ) (l : List α) (d : Dict NetCoupleKey ℚ)
    (h : d.keys.Nodup) : (l.foldl (fun d s => addNormed d (f s)) d).keys.Nodup := by
  induction l generalizing d with
  | nil => exact h
  | cons x l ih => exact ih _ (nodup_addNormed _ _ h)

theorem keys_summarizeTable {κ ε : Type} (couple : κ → NetCoupleKey)
    (value : ε → ℚ) (table : Dict κ (List ε)) (k : NetCoupleKey) :
    k ∈ (summarizeTable couple value table).keys ↔ ∃ k' ∈ table.keys, (couple k').normed = k := by
  unfold summarizeTable
  rw [keys_foldl (fun kv : κ × List ε => (couple kv.1).normed) (fun kv => (kv.2.map value).sum)]
  simp only [Dict.keys_nil, List.not_mem_nil, false_or, Dict.mem_keys table]
  constructor
  · rintro ⟨x, hx, h⟩; exact ⟨x.1, ⟨x.2, hx⟩, h⟩
  · rintro ⟨k', ⟨v, hx⟩, h⟩; exact ⟨(k', v), hx, h⟩

theorem normed_normed (k : NetCoupleKey) : k.normed.normed = k.normed := normed_of_le (normed_le k)

/-- In a table with distinct keys the weighted total for one key is its value. -/
theorem wsum_single {d : Dict NetCoupleKey ℚ} (hn : d.keys.Nodup) (k : NetCoupleKey) :
    wsum (fun k' => decide (k' = k)) d = d.getD k 0 := by
  unfold wsum Dict.getD
  induction d with
  | nil => simp
  | cons p d ih =>
    obtain ⟨k₀, v₀⟩ := p
    simp only [Dict.keys_cons, List.nodup_cons] at hn
    simp only [List.map_cons, List.sum_cons, Dict.get?_cons, ih hn.2]
    by_cases h : k₀ = k
    · subst h
      have : Dict.get? d k₀ = none := Dict.get?_eq_none.2 hn.1
      simp [this]
    · simp [h]

end Verif.Summary
