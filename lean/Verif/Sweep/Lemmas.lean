import Verif.Sweep.Spec
import Mathlib.Tactic.Ring
import Mathlib.Tactic.Linarith
import Mathlib.Tactic.FieldSimp
import Mathlib.Tactic.Tauto

/-!
# Lemmas about the sweep
-/

namespace Verif.Sweep

variable {P : Type} [DecidableEq P]

/-! ### `_merge_events` -/

/-- Shape of `current[mk]` between two heights: at most two entries, the second one empty. -/
inductive Settled : List (Finset P) → Finset P → Prop
  | zero : Settled [] ∅
  | one (a : Finset P) : Settled [a] a
  | two (a : Finset P) : Settled [a, ∅] a

theorem Settled.headD {l : List (Finset P)} {a : Finset P} (h : Settled l a) : l.headD ∅ = a := by
  cases h <;> rfl

omit [DecidableEq P] in
theorem range_one : List.range 1 = [0] := rfl
omit [DecidableEq P] in
theorem range_two : List.range 2 = [0, 1] := rfl

theorem remove_one (x o : Finset P) : removeStep ([x], o) 0 = ([x \ (o ∩ x)], o \ (o ∩ x)) := by
  by_cases h : o ∩ x = ∅ <;> simp [removeStep, h]

theorem remove_two_top (x y o : Finset P) : removeStep ([x, y], o) 0 = ([x, y \ (o ∩ y)], o \ (o ∩ y)) := by
  by_cases h : o ∩ y = ∅ <;> simp [removeStep, h]

theorem remove_two_bottom (x y o : Finset P) : removeStep ([x, y], o) 1 = ([x \ (o ∩ x), y], o \ (o ∩ x)) := by
  by_cases h : o ∩ x = ∅ <;> simp [removeStep, h]

theorem add_one (x c : Finset P) (h : c ∩ x ≠ ∅) : addStep ([x], c) 0 = ([x, c ∩ x], c \ (c ∩ x)) := by
  simp [addStep, h]

theorem add_one_none (x c : Finset P) (h : c ∩ x = ∅) : addStep ([x], c) 0 = ([x], c) := by
  simp [addStep, h]

theorem add_two_top (x c : Finset P) : addStep ([x, ∅], c) 0 = ([x, ∅], c) := by
  simp [addStep]

theorem add_two_bottom (x c : Finset P) : addStep ([x, ∅], c) 1 = ([x, c ∩ x], c \ (c ∩ x)) := by
  by_cases h : c ∩ x = ∅ <;> simp [addStep, h]

/-- `_merge_events` once the result of the first loop is known. -/
theorem mergeEvents_pyra (pyra : List (Finset P)) (c o x r : Finset P) (q : List (Finset P))
    (hs : (List.range pyra.length).foldl addStep (pyra, c) = (x :: q, r)) :
    (mergeEvents pyra c o).2.2 = ((List.range (q.length + 1)).foldl removeStep ((x ∪ r) :: q, o)).1 := by
  simp [mergeEvents, hs]

/-- If exactly the present region goes out and `c` comes in, the new region is `c`. -/
theorem mergeEvents_settled {pyra : List (Finset P)} {a : Finset P} (h : Settled pyra a) (c : Finset P) :
    (mergeEvents pyra c a).1 = c \ a ∧ (mergeEvents pyra c a).2.1 = a \ c ∧ Settled (mergeEvents pyra c a).2.2 c := by
  suffices Settled (mergeEvents pyra c a).2.2 c by
    have h1 : (mergeEvents pyra c a).1 = (mergeEvents pyra c a).2.2.headD ∅ \ pyra.headD ∅ := rfl
    have h2 : (mergeEvents pyra c a).2.1 = pyra.headD ∅ \ (mergeEvents pyra c a).2.2.headD ∅ := rfl
    rw [h1, h2, this.headD, h.headD]
    exact ⟨rfl, rfl, this⟩
  have key : ∀ x y : Finset P, x = a ∪ (c \ (c ∩ a)) → y = c ∩ a →
      (removeStep (removeStep ([x, y], a) 0) 1).1 = [c, ∅] := by
    rintro x y rfl rfl
    rw [remove_two_top, remove_two_bottom]
    simp only [List.cons.injEq, and_true]
    constructor
    · ext p; simp only [Finset.mem_inter, Finset.mem_sdiff, Finset.mem_union]; tauto
    · ext p; simp only [Finset.mem_inter, Finset.mem_sdiff, Finset.notMem_empty]; tauto
  cases h with
  | zero =>
    have h5 : (mergeEvents [] c ∅).2.2 = [c] := by
      simp [mergeEvents, range_one, remove_one]
    rw [h5]; exact Settled.one c
  | one a =>
    by_cases hca : c ∩ a = ∅
    · have hd : (a ∪ c) \ (a ∩ (a ∪ c)) = c := by
        ext p
        have : p ∉ c ∩ a := by rw [hca]; simp
        simp only [Finset.mem_inter, Finset.mem_sdiff, Finset.mem_union] at this ⊢
        tauto
      have h5 : (mergeEvents [a] c a).2.2 = [c] := by
        rw [mergeEvents_pyra [a] c a a c [] (add_one_none _ _ hca)]
        simp only [List.length_nil, zero_add, range_one, List.foldl_cons, List.foldl_nil, remove_one, hd]
      rw [h5]; exact Settled.one c
    · have h5 : (mergeEvents [a] c a).2.2 = [c, ∅] := by
        rw [mergeEvents_pyra [a] c a a _ [c ∩ a] (add_one _ _ hca)]
        exact key _ _ rfl rfl
      rw [h5]; exact Settled.two c
  | two a =>
    have h5 : (mergeEvents [a, ∅] c a).2.2 = [c, ∅] := by
      rw [mergeEvents_pyra [a, ∅] c a a (c \ (c ∩ a)) [c ∩ a]
        (show addStep (addStep ([a, ∅], c) 0) 1 = _ by rw [add_two_top, add_two_bottom])]
      exact key _ _ rfl rfl
    rw [h5]; exact Settled.two c

/-! ### The first loop of `finish_z` -/

/-- First key of the list whose region contains the point. -/
def firstOf (cov : Mk → Finset P) (L : List Mk) (p : P) : Option Mk := L.find? (fun k => decide (p ∈ cov k))

theorem firstOf_some_mem {cov : Mk → Finset P} {L : List Mk} {p : P} {k : Mk} (h : firstOf cov L p = some k) :
    k ∈ L ∧ p ∈ cov k := by
  refine ⟨List.mem_of_find?_eq_some h, ?_⟩
  have := List.find?_some h
  simpa using this

theorem firstOf_none {cov : Mk → Finset P} {L : List Mk} {p : P} :
    firstOf cov L p = none ↔ ∀ k ∈ L, p ∉ cov k := by
  simp [firstOf]

theorem firstOf_append (cov : Mk → Finset P) (L R : List Mk) (p : P) :
    firstOf cov (L ++ R) p = (firstOf cov L p).or (firstOf cov R p) := by
  simp [firstOf, List.find?_append]

theorem firstOf_snoc_some {cov : Mk → Finset P} {L : List Mk} {p : P} {j : Mk} (k : Mk)
    (h : firstOf cov L p = some j) : firstOf cov (L ++ [k]) p = some j := by
  rw [firstOf_append, h]; rfl

theorem firstOf_snoc_none {cov : Mk → Finset P} {L : List Mk} {p : P} (k : Mk)
    (h : firstOf cov L p = none) : firstOf cov (L ++ [k]) p = if p ∈ cov k then some k else none := by
  rw [firstOf_append, h]
  by_cases hp : p ∈ cov k <;> simp [firstOf, hp]

/-- Invariant of the first loop of `finish_z`: `past`/`cur` are the regions below and above the height, `L` the keys
visited so far. -/
structure LInv (past cur : Mk → Finset P) (a0 a : Acc P) (L : List Mk) : Prop where
  settled : ∀ k ∈ L, Settled (a.current k) (cur k)
  rest_cur : ∀ k, k ∉ L → a.current k = a0.current k
  rest_state : ∀ k, k ∉ L → a.state k = a0.state k
  all : ∀ p, p ∈ a.all ↔ ∃ k ∈ L, p ∈ cur k
  state : ∀ k ∈ L, ∀ p, p ∈ a.state k ↔ firstOf cur L p = some k
  allIn : ∀ p, p ∈ a.allIn ↔ ∃ k ∈ L, p ∈ a.din k
  allOut : ∀ p, p ∈ a.allOut ↔ ∃ k ∈ L, p ∈ a.dout k
  in_cur : ∀ k ∈ L, ∀ p, p ∈ a.din k → p ∈ cur k
  out_past : ∀ k ∈ L, ∀ p, p ∈ a.dout k → p ∈ past k
  first_in : ∀ k p, firstOf cur L p = some k → firstOf past L p ≠ some k → p ∈ a.din k
  first_out : ∀ k p, firstOf past L p = some k → firstOf cur L p ≠ some k → p ∈ a.dout k
  same : ∀ p, firstOf past L p = firstOf cur L p → ∀ k ∈ L, p ∉ a.din k ∧ p ∉ a.dout k
  in_why : ∀ k ∈ L, ∀ p, p ∈ a.din k →
    firstOf cur L p = some k ∨ (p ∈ past k ∧ ∃ j ∈ L, j ≠ k ∧ p ∈ a.dout j)
  out_why : ∀ k ∈ L, ∀ p, p ∈ a.dout k →
    firstOf past L p = some k ∨ (p ∈ cur k ∧ ∃ j ∈ L, j ≠ k ∧ p ∈ a.din j)
  out_in : ∀ p, p ∈ a.allOut → p ∈ a.all → p ∈ a.allIn

theorem LInv.nil (past cur : Mk → Finset P) (a0 : Acc P) (h1 : a0.all = ∅) (h2 : a0.allIn = ∅) (h3 : a0.allOut = ∅) :
    LInv past cur a0 a0 [] := by
  constructor <;> simp [h1, h2, h3, firstOf]

theorem stk_prop {c pa A I O N : Prop} (i1 : I → A) (i2 : N → A → I) (i3 : ¬ N → ¬ A → O) (i4 : O → A → I) :
    ((pa ∧ N) ∨ ((c ∧ ¬ pa ∧ ¬ A) ∨ (c ∧ pa ∧ O))) ∧ ¬ ((pa ∧ ¬ c ∧ pa ∧ N) ∨ (c ∧ pa ∧ I)) ↔ c ∧ ¬ A := by
  by_cases c <;> by_cases pa <;> by_cases A <;> by_cases I <;> by_cases O <;> by_cases N <;> simp_all

theorem out_in_prop {c pa A I O N : Prop} (i2 : N → A → I) (i3 : ¬ N → ¬ A → O) (i4 : O → A → I)
    (h1 : O ∨ ((pa ∧ ¬ c ∧ pa ∧ N) ∨ (c ∧ pa ∧ I))) (h2 : A ∨ (c ∧ ¬ A)) :
    I ∨ ((c ∧ ¬ pa ∧ ¬ A) ∨ (c ∧ pa ∧ O)) := by
  by_cases c <;> by_cases pa <;> by_cases A <;> by_cases I <;> by_cases O <;> by_cases N <;> simp_all

theorem LInv.snoc {past cur : Mk → Finset P} {a0 a : Acc P} {L : List Mk} (h : LInv past cur a0 a L)
    {layersIn layersOut : Mk → Finset P} {k : Mk} (hk : k ∉ L)
    (hset : Settled (a0.current k) (past k)) (hin : layersIn k = cur k) (hout : layersOut k = past k)
    (hst : ∀ p, p ∈ a0.state k ↔ p ∈ past k ∧ ∀ j ∈ L, p ∉ past j) :
    LInv past cur a0 (legalize layersIn layersOut a k) (L ++ [k]) := by
  -- the regions after the step
  have hset' := hset
  rw [← h.rest_cur k hk] at hset'
  obtain ⟨m1, m2, m3⟩ := mergeEvents_settled hset' (cur k)
  rw [← hin, ← hout] at m1 m2 m3
  rw [← h.rest_state k hk] at hst
  set a' := legalize layersIn layersOut a k with ha'
  have hcur_ne : ∀ j, j ≠ k → a'.current j = a.current j := by
    intro j hj; simp [ha', legalize, Function.update_of_ne hj]
  have hstate_ne : ∀ j, j ≠ k → a'.state j = a.state j := by
    intro j hj; simp [ha', legalize, Function.update_of_ne hj]
  have hdin_ne : ∀ j, j ≠ k → a'.din j = a.din j := by
    intro j hj; simp [ha', legalize, Function.update_of_ne hj]
  have hdout_ne : ∀ j, j ≠ k → a'.dout j = a.dout j := by
    intro j hj; simp [ha', legalize, Function.update_of_ne hj]
  have hcur_k : Settled (a'.current k) (cur k) := by
    rw [← hin]; simpa [ha', legalize] using m3
  have hbefore : (a.current k).headD ∅ = past k := hset'.headD
  have hafter : (mergeEvents (a.current k) (layersIn k) (layersOut k)).2.2.headD ∅ = cur k := by
    rw [← hin]; exact m3.headD
  have hdin_k : ∀ p, p ∈ a'.din k ↔ (p ∈ cur k ∧ p ∉ past k ∧ p ∉ a.all) ∨ (p ∈ cur k ∧ p ∈ past k ∧ p ∈ a.allOut) := by
    intro p
    have : a'.din k = (((mergeEvents (a.current k) (layersIn k) (layersOut k)).1 \ a.all) ∪
      ((a.current k).headD ∅ ∩ a.allOut)) \ (mergeEvents (a.current k) (layersIn k) (layersOut k)).2.1 := by
      simp [ha', legalize]
    rw [this, hbefore, m1, m2, hin, hout]
    simp only [Finset.mem_sdiff, Finset.mem_union, Finset.mem_inter]
    tauto
  have hdout_k : ∀ p, p ∈ a'.dout k ↔ (p ∈ past k ∧ p ∉ cur k ∧ p ∈ a.state k) ∨
      (p ∈ cur k ∧ p ∈ past k ∧ p ∈ a.allIn) := by
    intro p
    have : a'.dout k = (((mergeEvents (a.current k) (layersIn k) (layersOut k)).2.1 ∩ a.state k) ∪
      ((mergeEvents (a.current k) (layersIn k) (layersOut k)).2.2.headD ∅ ∩ a.allIn)) \
        (mergeEvents (a.current k) (layersIn k) (layersOut k)).1 := by
      simp [ha', legalize]
    rw [this, hafter, m1, m2, hin, hout]
    simp only [Finset.mem_sdiff, Finset.mem_union, Finset.mem_inter]
    tauto
  have hstate_k : ∀ p, p ∈ a'.state k ↔ (p ∈ a.state k ∨ p ∈ a'.din k) ∧ p ∉ a'.dout k := by
    intro p; simp [ha', legalize]
  have hall' : ∀ p, p ∈ a'.all ↔ p ∈ a.all ∨ p ∈ a'.state k := by
    intro p; simp [ha', legalize]
  have hallIn' : ∀ p, p ∈ a'.allIn ↔ p ∈ a.allIn ∨ p ∈ a'.din k := by
    intro p; simp [ha', legalize]
  have hallOut' : ∀ p, p ∈ a'.allOut ↔ p ∈ a.allOut ∨ p ∈ a'.dout k := by
    intro p; simp [ha', legalize]
  clear_value a'
  clear ha' hset hset' m1 m2 m3 hbefore hafter
  -- facts about the prefix at a point
  have hne : ∀ j ∈ L, j ≠ k := fun j hj e => hk (e ▸ hj)
  have fA : ∀ p, p ∈ a.all ↔ firstOf cur L p ≠ none := by
    intro p; rw [h.all, Ne, firstOf_none]; push Not; rfl
  have hst' : ∀ p, p ∈ a.state k ↔ p ∈ past k ∧ firstOf past L p = none := by
    intro p; rw [hst, firstOf_none]
  have inA : ∀ p, p ∈ a.allIn → p ∈ a.all := by
    intro p hp
    obtain ⟨j, hj, hp⟩ := (h.allIn p).1 hp
    exact (h.all p).2 ⟨j, hj, h.in_cur j hj p hp⟩
  have newIn : ∀ p, firstOf past L p = none → p ∈ a.all → p ∈ a.allIn := by
    intro p h1 h2
    rw [fA] at h2
    obtain ⟨j, hj⟩ := Option.ne_none_iff_exists'.1 h2
    exact (h.allIn p).2 ⟨j, (firstOf_some_mem hj).1, h.first_in j p hj (by rw [h1]; simp)⟩
  have newOut : ∀ p, firstOf past L p ≠ none → p ∉ a.all → p ∈ a.allOut := by
    intro p h1 h2
    rw [fA, not_not] at h2
    obtain ⟨j, hj⟩ := Option.ne_none_iff_exists'.1 h1
    exact (h.allOut p).2 ⟨j, (firstOf_some_mem hj).1, h.first_out j p hj (by rw [h2]; simp)⟩
  have stk : ∀ p, p ∈ a'.state k ↔ p ∈ cur k ∧ p ∉ a.all := by
    intro p
    rw [hstate_k, hdin_k, hdout_k, hst']
    have i1 := inA p
    have i2 := newIn p
    have i3 := newOut p
    have i4 := h.out_in p
    exact stk_prop i1 i2 i3 i4
  have first_cur : ∀ p, firstOf cur (L ++ [k]) p =
      if p ∈ a.all then firstOf cur L p else if p ∈ cur k then some k else none := by
    intro p
    by_cases hp : p ∈ a.all
    · obtain ⟨j, hj⟩ := Option.ne_none_iff_exists'.1 ((fA p).1 hp)
      rw [firstOf_snoc_some k hj, if_pos hp, hj]
    · rw [if_neg hp, firstOf_snoc_none k (by rw [fA, not_not] at hp; exact hp)]
  have first_past_none : ∀ p, firstOf past L p = none →
      firstOf past (L ++ [k]) p = if p ∈ past k then some k else none := fun p hp => firstOf_snoc_none k hp
  have first_past_some : ∀ p j, firstOf past L p = some j → firstOf past (L ++ [k]) p = some j :=
    fun p j hp => firstOf_snoc_some k hp
  refine ⟨?_, ?_, ?_, ?_, ?_, ?_, ?_, ?_, ?_, ?_, ?_, ?_, ?_, ?_, ?_⟩
  · -- settled
    intro j hj
    rcases List.mem_append.1 hj with hj | hj
    · rw [hcur_ne j (hne j hj)]; exact h.settled j hj
    · rw [List.mem_singleton.1 hj]; exact hcur_k
  · -- rest_cur
    intro j hj
    simp only [List.mem_append, List.mem_singleton, not_or] at hj
    rw [hcur_ne j hj.2, h.rest_cur j hj.1]
  · -- rest_state
    intro j hj
    simp only [List.mem_append, List.mem_singleton, not_or] at hj
    rw [hstate_ne j hj.2, h.rest_state j hj.1]
  · -- all
    intro p
    rw [hall', stk]
    simp only [List.mem_append, List.mem_singleton]
    constructor
    · rintro (hp | ⟨hp, _⟩)
      · obtain ⟨j, hj, hp⟩ := (h.all p).1 hp; exact ⟨j, Or.inl hj, hp⟩
      · exact ⟨k, Or.inr rfl, hp⟩
    · rintro ⟨j, hj | rfl, hp⟩
      · exact Or.inl ((h.all p).2 ⟨j, hj, hp⟩)
      · by_cases c : p ∈ a.all
        · exact Or.inl c
        · exact Or.inr ⟨hp, c⟩
  · -- state
    intro j hj p
    rw [first_cur]
    rcases List.mem_append.1 hj with hj | hj
    · rw [hstate_ne j (hne j hj), h.state j hj]
      by_cases hp : p ∈ a.all
      · rw [if_pos hp]
      · rw [if_neg hp]
        have hn := hp
        rw [fA, not_not] at hn
        rw [hn]
        have := hne j hj
        split <;> simp [this.symm]
    · rw [List.mem_singleton.1 hj, stk]
      by_cases hp : p ∈ a.all
      · rw [if_pos hp]
        constructor
        · rintro ⟨_, hp'⟩; exact absurd hp hp'
        · intro e; exact absurd (firstOf_some_mem e).1 hk
      · rw [if_neg hp]
        by_cases hc : p ∈ cur k <;> simp [hc, hp]
  · -- allIn
    intro p
    rw [hallIn', h.allIn]
    simp only [List.mem_append, List.mem_singleton]
    constructor
    · rintro (⟨j, hj, hp⟩ | hp)
      · exact ⟨j, Or.inl hj, by rw [hdin_ne j (hne j hj)]; exact hp⟩
      · exact ⟨k, Or.inr rfl, hp⟩
    · rintro ⟨j, hj | rfl, hp⟩
      · exact Or.inl ⟨j, hj, by rw [hdin_ne j (hne j hj)] at hp; exact hp⟩
      · exact Or.inr hp
  · -- allOut
    intro p
    rw [hallOut', h.allOut]
    simp only [List.mem_append, List.mem_singleton]
    constructor
    · rintro (⟨j, hj, hp⟩ | hp)
      · exact ⟨j, Or.inl hj, by rw [hdout_ne j (hne j hj)]; exact hp⟩
      · exact ⟨k, Or.inr rfl, hp⟩
    · rintro ⟨j, hj | rfl, hp⟩
      · exact Or.inl ⟨j, hj, by rw [hdout_ne j (hne j hj)] at hp; exact hp⟩
      · exact Or.inr hp
  · -- in_cur
    intro j hj p hp
    rcases List.mem_append.1 hj with hj | hj
    · rw [hdin_ne j (hne j hj)] at hp; exact h.in_cur j hj p hp
    · rw [List.mem_singleton.1 hj] at hp ⊢
      rw [hdin_k] at hp
      rcases hp with hp | hp <;> exact hp.1
  · -- out_past
    intro j hj p hp
    rcases List.mem_append.1 hj with hj | hj
    · rw [hdout_ne j (hne j hj)] at hp; exact h.out_past j hj p hp
    · rw [List.mem_singleton.1 hj] at hp ⊢
      rw [hdout_k] at hp
      rcases hp with hp | hp
      · exact hp.1
      · exact hp.2.1
  · -- first_in
    intro j p h1 h2
    rw [first_cur] at h1
    by_cases hp : p ∈ a.all
    · rw [if_pos hp] at h1
      have hj := (firstOf_some_mem h1).1
      rw [hdin_ne j (hne j hj)]
      refine h.first_in j p h1 (fun e => h2 (first_past_some p j e))
    · rw [if_neg hp] at h1
      by_cases hc : p ∈ cur k
      · simp only [hc, if_true, Option.some.injEq] at h1
        subst h1
        rw [hdin_k]
        by_cases hpk : p ∈ past k
        · right
          refine ⟨hc, hpk, newOut p ?_ hp⟩
          intro e
          apply h2
          rw [first_past_none p e, if_pos hpk]
        · exact Or.inl ⟨hc, hpk, hp⟩
      · simp [hc] at h1
  · -- first_out
    intro j p h1 h2
    rcases hf : firstOf past L p with _ | i
    · rw [first_past_none p hf] at h1
      by_cases hpk : p ∈ past k
      · simp only [hpk, if_true, Option.some.injEq] at h1
        subst h1
        rw [hdout_k, hst']
        by_cases hc : p ∈ cur k
        · right
          refine ⟨hc, hpk, newIn p hf ?_⟩
          by_contra hp
          apply h2
          rw [first_cur, if_neg hp, if_pos hc]
        · exact Or.inl ⟨hpk, hc, hpk, hf⟩
      · simp [hpk] at h1
    · rw [first_past_some p i hf] at h1
      cases h1
      have hj := (firstOf_some_mem hf).1
      rw [hdout_ne _ (hne _ hj)]
      refine h.first_out _ p hf (fun e => h2 (firstOf_snoc_some k e))
  · -- same
    intro p hpc j hj
    have hL : firstOf past L p = firstOf cur L p := by
      rcases hf : firstOf past L p with _ | i
      · rcases hc : firstOf cur L p with _ | i'
        · rfl
        · rw [first_past_none p hf, firstOf_snoc_some k hc] at hpc
          split at hpc
          · cases hpc; exact absurd (firstOf_some_mem hc).1 hk
          · cases hpc
      · rcases hc : firstOf cur L p with _ | i'
        · rw [first_past_some p i hf, firstOf_snoc_none k hc] at hpc
          split at hpc
          · cases hpc; exact absurd (firstOf_some_mem hf).1 hk
          · cases hpc
        · rw [first_past_some p i hf, firstOf_snoc_some k hc] at hpc
          exact hpc
    have hs := h.same p hL
    have nIn : p ∉ a.allIn := by
      rw [h.allIn]; rintro ⟨i, hi, hp⟩; exact (hs i hi).1 hp
    have nOut : p ∉ a.allOut := by
      rw [h.allOut]; rintro ⟨i, hi, hp⟩; exact (hs i hi).2 hp
    rcases List.mem_append.1 hj with hj | hj
    · rw [hdin_ne j (hne j hj), hdout_ne j (hne j hj)]; exact hs j hj
    · rw [List.mem_singleton.1 hj, hdin_k, hdout_k, hst']
      rcases hf : firstOf past L p with _ | i
      · rw [hf] at hL
        have hp : p ∉ a.all := by rw [fA, ← hL]; simp
        rw [first_past_none p hf, first_cur, if_neg hp] at hpc
        by_cases c1 : p ∈ past k <;> by_cases c2 : p ∈ cur k
        · simp [c1, c2, nIn, nOut]
        · simp [c1, c2] at hpc
        · simp [c1, c2] at hpc
        · simp [c1, c2]
      · rw [hf] at hL
        have hp : p ∈ a.all := by rw [fA, ← hL]; simp
        simp [hp, nIn, nOut]
  · -- in_why
    intro j hj p hp
    rcases List.mem_append.1 hj with hj | hj
    · rw [hdin_ne j (hne j hj)] at hp
      rcases h.in_why j hj p hp with e | ⟨e1, i, hi, hij, e2⟩
      · exact Or.inl (firstOf_snoc_some k e)
      · exact Or.inr ⟨e1, i, List.mem_append_left _ hi, hij, by rw [hdout_ne i (hne i hi)]; exact e2⟩
    · rw [List.mem_singleton.1 hj] at hp ⊢
      rw [hdin_k] at hp
      rcases hp with ⟨c1, c2, c3⟩ | ⟨c1, c2, c3⟩
      · left; rw [first_cur, if_neg c3, if_pos c1]
      · right
        obtain ⟨i, hi, hp⟩ := (h.allOut p).1 c3
        exact ⟨c2, i, List.mem_append_left _ hi, hne i hi, by rw [hdout_ne i (hne i hi)]; exact hp⟩
  · -- out_why
    intro j hj p hp
    rcases List.mem_append.1 hj with hj | hj
    · rw [hdout_ne j (hne j hj)] at hp
      rcases h.out_why j hj p hp with e | ⟨e1, i, hi, hij, e2⟩
      · exact Or.inl (firstOf_snoc_some k e)
      · exact Or.inr ⟨e1, i, List.mem_append_left _ hi, hij, by rw [hdin_ne i (hne i hi)]; exact e2⟩
    · rw [List.mem_singleton.1 hj] at hp ⊢
      rw [hdout_k, hst'] at hp
      rcases hp with ⟨c1, c2, c3, c4⟩ | ⟨c1, c2, c3⟩
      · left; rw [first_past_none p c4, if_pos c1]
      · right
        obtain ⟨i, hi, hp⟩ := (h.allIn p).1 c3
        exact ⟨c1, i, List.mem_append_left _ hi, hne i hi, by rw [hdin_ne i (hne i hi)]; exact hp⟩
  · -- out_in
    intro p h1 h2
    rw [hallIn', hdin_k]
    rw [hallOut', hdout_k, hst'] at h1
    rw [hall', stk] at h2
    have i1 := inA p
    have i2 := newIn p
    have i3 := newOut p
    have i4 := h.out_in p
    exact out_in_prop i2 i3 i4 h1 h2

/-- The whole first loop. -/
theorem legalize_fold {past cur : Mk → Finset P} {a0 : Acc P} {layersIn layersOut : Mk → Finset P}
    (R : List Mk) : ∀ (L : List Mk) (a : Acc P), LInv past cur a0 a L → (L ++ R).Nodup →
    (∀ k ∈ R, Settled (a0.current k) (past k)) → (∀ k ∈ R, layersIn k = cur k) → (∀ k ∈ R, layersOut k = past k) →
    (∀ k ∈ L ++ R, ∀ p, p ∈ a0.state k ↔ firstOf past (L ++ R) p = some k) →
    LInv past cur a0 (R.foldl (legalize layersIn layersOut) a) (L ++ R) := by
  induction R with
  | nil => intro L a h _ _ _ _ _; simpa using h
  | cons k R ih =>
    intro L a h hnd hs hi ho hst
    have e : L ++ k :: R = (L ++ [k]) ++ R := by simp
    have hkL : k ∉ L := by
      intro hk
      have := List.nodup_append.1 hnd
      exact this.2.2 k hk k (by simp) rfl
    rw [List.foldl_cons, e]
    apply ih (L ++ [k])
    · apply h.snoc hkL (hs k (by simp)) (hi k (by simp)) (ho k (by simp))
      intro p
      rw [hst k (by simp), firstOf_append]
      rcases hf : firstOf past L p with _ | j
      · rw [firstOf_none] at hf
        have hR : firstOf past (k :: R) p = some k ↔ p ∈ past k := by
          constructor
          · intro h; exact (firstOf_some_mem h).2
          · intro h; simp [firstOf, h]
        simp only [Option.none_or, hR]
        exact ⟨fun h => ⟨h, hf⟩, fun h => h.1⟩
      · obtain ⟨hj, hp⟩ := firstOf_some_mem hf
        simp only [Option.some_or, Option.some.injEq]
        constructor
        · rintro rfl; exact absurd hj hkL
        · rintro ⟨_, h⟩; exact absurd hp (h j hj)
    · rw [← e]; exact hnd
    · intro j hj; exact hs j (List.mem_cons_of_mem _ hj)
    · intro j hj; exact hi j (List.mem_cons_of_mem _ hj)
    · intro j hj; exact ho j (List.mem_cons_of_mem _ hj)
    · rw [← e]; exact hst

end Verif.Sweep
