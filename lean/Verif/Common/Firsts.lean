import Verif.Common.PyDict

/-!
# First occurrences and dictionaries of lists
-/

namespace Verif

/-- The elements of a list in the order of their first occurrence (the keys of a dictionary filled from the list). -/
def firsts {α : Type} [DecidableEq α] (l : List α) : List α := l.foldl (fun ks n => if n ∈ ks then ks else ks ++ [n]) []

section
variable {α : Type} [DecidableEq α]

theorem firsts_snoc (l : List α) (n : α) :
    firsts (l ++ [n]) = if n ∈ firsts l then firsts l else firsts l ++ [n] := by
  rw [firsts, List.foldl_append]; rfl

theorem mem_firsts (l : List α) (n : α) : n ∈ firsts l ↔ n ∈ l := by
  have key : ∀ r : List α, n ∈ firsts r.reverse ↔ n ∈ r := by
    intro r
    induction r with
    | nil => simp [firsts]
    | cons m l ih =>
      rw [List.reverse_cons, firsts_snoc]
      by_cases h : m ∈ firsts l.reverse
      · rw [if_pos h, ih]
        simp only [List.mem_cons]
        constructor
        · exact Or.inr
        · rintro (rfl | h')
          · exact ih.1 h
          · exact h'
      · rw [if_neg h]; simp [ih, or_comm]
  have := key l.reverse
  simpa using this

theorem nodup_firsts (l : List α) : (firsts l).Nodup := by
  have key : ∀ r : List α, (firsts r.reverse).Nodup := by
    intro r
    induction r with
    | nil => simp [firsts]
    | cons m l ih =>
      rw [List.reverse_cons, firsts_snoc]
      by_cases h : m ∈ firsts l.reverse
      · rw [if_pos h]; exact ih
      · rw [if_neg h, List.nodup_append]
        refine ⟨ih, by simp, ?_⟩
        intro a ha b hb e
        simp only [List.mem_singleton] at hb
        subst hb
        subst e
        exact h ha
  have := key l.reverse
  simpa using this

end

/-- A dictionary is the list of its keys with their values. -/
theorem Dict.eq_map_keys {κ ν : Type} [DecidableEq κ] (d : Dict κ ν) (hd : d.keys.Nodup) (dflt : ν) :
    d = d.keys.map (fun k => (k, d.getD k dflt)) := by
  have key : ∀ e ∈ d, (e.1, d.getD e.1 dflt) = e := by
    rintro ⟨k, v⟩ he
    simp only [Dict.getD, Dict.get?_of_mem hd he, Option.getD_some]
  have h1 : d = d.map id := (List.map_id d).symm
  have h2 : d.keys.map (fun k => (k, d.getD k dflt)) = d.map (fun e => (e.1, d.getD e.1 dflt)) := by
    simp only [Dict.keys, List.map_map]; rfl
  rw [h2]
  exact h1.trans (List.map_congr_left (fun e he => (key e he).symm))

/-- `d[k].append(v)` on a `defaultdict(list)` -/
def Dict.push {κ ν : Type} [DecidableEq κ] (d : Dict κ (List ν)) (k : κ) (v : ν) : Dict κ (List ν) :=
  d.upd k [] (· ++ [v])

/-- A `defaultdict(list)` filled entry by entry. -/
def groupBy {ε κ ν : Type} [DecidableEq κ] (key : ε → κ) (val : ε → ν) (l : List ε) : Dict κ (List ν) :=
  l.foldl (fun d e => Dict.push d (key e) (val e)) []

/-- Keys in order of first occurrence, values the entries of the key in order. -/
theorem groupBy_eq {ε κ ν : Type} [DecidableEq κ] (key : ε → κ) (val : ε → ν) (l : List ε) :
    groupBy key val l =
      (firsts (l.map key)).map (fun k => (k, (l.filter (fun e => decide (key e = k))).map val)) := by
  have inv : ∀ r : List ε,
      (groupBy key val r.reverse).keys = firsts (r.reverse.map key) ∧ (groupBy key val r.reverse).keys.Nodup ∧
      ∀ k : κ, Dict.getD (groupBy key val r.reverse) k [] = (r.reverse.filter (fun e => decide (key e = k))).map val := by
    intro r
    induction r with
    | nil => exact ⟨rfl, by simp [groupBy], fun k => rfl⟩
    | cons e r ih =>
      obtain ⟨h1, h2, h3⟩ := ih
      have hd : groupBy key val (e :: r).reverse = Dict.push (groupBy key val r.reverse) (key e) (val e) := by
        rw [groupBy, List.reverse_cons, List.foldl_append]; rfl
      rw [hd]
      generalize groupBy key val r.reverse = d0 at *
      refine ⟨?_, ?_, ?_⟩
      · rw [Dict.push, Dict.upd, Dict.keys_set, List.reverse_cons, List.map_append, List.map_cons, List.map_nil,
          firsts_snoc, h1]
      · exact Dict.nodup_keys_upd _ _ _ _ h2
      · intro k
        rw [Dict.push, Dict.getD_upd, h3, h3, List.reverse_cons, List.filter_append, List.map_append]
        by_cases hk : key e = k
        · subst hk; simp
        · simp [hk]
  have := inv l.reverse
  simp only [List.reverse_reverse] at this
  obtain ⟨h1, h2, h3⟩ := this
  have h4 := Dict.eq_map_keys _ h2 []
  rw [h4, h1]
  exact List.map_congr_left (fun k _ => by rw [h3])

end Verif
