import Verif.RNet.Lemmas
import Mathlib.Algebra.BigOperators.Group.Finset.Basic
import Mathlib.Algebra.BigOperators.Ring.Finset
import Mathlib.Algebra.BigOperators.Group.Finset.Piecewise
import Mathlib.Algebra.Order.BigOperators.Group.List
import Mathlib.Tactic.FieldSimp

/-! # Helper lemmas about resistor networks: conductance values -/

namespace Verif.RNet

/-- The conductance between two nodes, 0 if there is no resistor. -/
def g (n : Net) (x y : Nat) : ℚ :=
  match S n x y with
  | some r => n.heap r
  | none => 0

theorem g_sym {n : Net} (h : Inv n) (x y : Nat) : g n x y = g n y x := by
  unfold g; rw [h.g.sym]

theorem g_self {n : Net} (h : Inv n) (x : Nat) : g n x x = 0 := by
  unfold g; rw [h.g.noloop]

theorem g_of_S {n : Net} {x y : Nat} {r : Ref} (h : S n x y = some r) : g n x y = n.heap r := by
  unfold g; rw [h]

theorem addCond_g {n : Net} (h : Inv n) {a b : Nat} (hab : a ≠ b) (ha : a ∈ n.locations.keys)
    (hb : b ∈ n.locations.keys) (c : ℚ) (x y : Nat) :
    g (n.addCond a b c) x y = g n x y + if (x = a ∧ y = b) ∨ (x = b ∧ y = a) then c else 0 := by
  obtain ⟨-, hS, hH, -⟩ := addCond_spec h hab ha hb c
  have hfresh : ∀ x y, S n x y ≠ some n.nextRef := fun x y hs => Nat.lt_irrefl _ (h.base.refs x y _ hs)
  unfold g
  rw [hS, hH]
  cases hs : S n a b with
  | none =>
    simp only [and_true]
    by_cases hxy : (x = a ∧ y = b) ∨ (x = b ∧ y = a)
    · rw [if_pos hxy, if_pos hxy]
      have : S n x y = none := by
        rcases hxy with ⟨rfl, rfl⟩ | ⟨rfl, rfl⟩
        · exact hs
        · rw [h.g.sym]; exact hs
      rw [this]; simp
    · rw [if_neg hxy, if_neg hxy]
      cases hq : S n x y with
      | none => simp
      | some q =>
        have : q ≠ n.nextRef := fun e => hfresh x y (e ▸ hq)
        simp [Function.update_of_ne this]
  | some r₀ =>
    simp only [reduceCtorEq, and_false, if_false]
    by_cases hxy : (x = a ∧ y = b) ∨ (x = b ∧ y = a)
    · rw [if_pos hxy]
      have : S n x y = some r₀ := by
        rcases hxy with ⟨rfl, rfl⟩ | ⟨rfl, rfl⟩
        · exact hs
        · rw [h.g.sym]; exact hs
      rw [this]; simp
    · rw [if_neg hxy]
      cases hq : S n x y with
      | none => simp
      | some q =>
        have h1 : q ≠ n.nextRef := fun e => hfresh x y (e ▸ hq)
        have h2 : q ≠ r₀ := by
          rintro rfl
          rcases h.inj _ _ _ _ _ hq hs with h3 | h3
          · exact hxy (Or.inl h3)
          · exact hxy (Or.inr h3)
        simp [Function.update_of_ne h1, Function.update_of_ne h2]

theorem addCond_heap_nonneg {n : Net} (h : Inv n) {a b : Nat} (hab : a ≠ b) (ha : a ∈ n.locations.keys)
    (hb : b ∈ n.locations.keys) {c : ℚ} (hc : 0 ≤ c) (hn : ∀ q, 0 ≤ n.heap q) (q : Ref) :
    0 ≤ (n.addCond a b c).heap q := by
  obtain ⟨-, -, hH, -⟩ := addCond_spec h hab ha hb c
  rw [hH]
  have h1 : ∀ q, 0 ≤ Function.update n.heap n.nextRef c q := by
    intro q
    by_cases hq : q = n.nextRef
    · subst hq; rw [Function.update_self]; exact hc
    · rw [Function.update_of_ne hq]; exact hn q
  cases S n a b with
  | none => exact h1 q
  | some r₀ =>
    simp only
    by_cases hq : q = r₀
    · subst hq; rw [Function.update_self]; exact add_nonneg (hn q) hc
    · rw [Function.update_of_ne hq]; exact h1 q

/-- Contribution of one mesh resistor. -/
def meshTerm (val : Ref → ℚ) (sSum : ℚ) (x y : Nat) (p : Entry × Entry) : ℚ :=
  if (x = p.1.2 ∧ y = p.2.2) ∨ (x = p.2.2 ∧ y = p.1.2) then val p.1.1 * val p.2.1 / sSum else 0

theorem mesh_spec {i : Nat} {star : List Entry} {val : Ref → ℚ} {sSum : ℚ} :
    ∀ (ps : List (Entry × Entry)) (n : Net), Inv n →
      (∀ e ∈ star, S n i e.2 = some e.1) → (∀ e ∈ star, n.heap e.1 = val e.1) →
      (∀ p ∈ ps, p.1 ∈ star ∧ p.2 ∈ star ∧ p.1.2 ≠ p.2.2) →
      let n' := ps.foldl (Net.meshStep sSum) n
      Inv n' ∧ (∀ x y, g n' x y = g n x y + (ps.map (meshTerm val sSum x y)).sum) ∧
      (∀ x, x ∈ n'.nodeToS.keys ↔ x ∈ n.nodeToS.keys) ∧ n'.precious = n.precious ∧ n'.locations = n.locations ∧
      ((∀ q, 0 ≤ n.heap q) → 0 ≤ sSum → ∀ q, 0 ≤ n'.heap q) := by
  intro ps
  induction ps with
  | nil => intro n h _ _ _; exact ⟨h, by simp, fun _ => Iff.rfl, rfl, rfl, fun h _ => h⟩
  | cons p ps ih =>
    intro n h hst hval hps
    obtain ⟨h1, h2, hne⟩ := hps p (by simp)
    have hk : ∀ e ∈ star, e.2 ∈ n.nodeToS.keys := by
      intro e he
      have := hst e he
      rw [h.g.sym] at this
      obtain ⟨l, hl, -⟩ := (h.g.star _ _ _).2 this
      exact mem_tKeys.2 ⟨l, hl⟩
    have hi : ∀ e ∈ star, e.2 ≠ i := by
      intro e he heq
      have := hst e he
      rw [heq, h.g.noloop] at this; cases this
    have ha := h.base.tloc _ (hk _ h1)
    have hb := h.base.tloc _ (hk _ h2)
    obtain ⟨hV, hS, hH, hK, hP, hL, -⟩ := addCond_spec h hne ha hb (n.heap p.1.1 * n.heap p.2.1 / sSum)
    have hgg := addCond_g h hne ha hb (n.heap p.1.1 * n.heap p.2.1 / sSum)
    have hSi : ∀ y, S (n.meshStep sSum p) i y = S n i y := by
      intro y
      unfold Net.meshStep
      rw [hS, if_neg]
      rintro ⟨⟨h3, -⟩ | ⟨h3, -⟩, -⟩
      · exact hi _ h1 h3.symm
      · exact hi _ h2 h3.symm
    have hst' : ∀ e ∈ star, S (n.meshStep sSum p) i e.2 = some e.1 := fun e he => by rw [hSi]; exact hst e he
    have hval' : ∀ e ∈ star, (n.meshStep sSum p).heap e.1 = val e.1 := by
      intro e he
      rw [← hval e he, ← g_of_S (hst' e he), ← g_of_S (hst e he)]
      unfold Net.meshStep
      rw [hgg, if_neg, add_zero]
      rintro (⟨h3, -⟩ | ⟨h3, -⟩)
      · exact hi _ h1 h3.symm
      · exact hi _ h2 h3.symm
    obtain ⟨r1, r2, r3, r4, r5, r6⟩ := ih (n.meshStep sSum p) hV hst' hval' (fun q hq => hps q (by simp [hq]))
    refine ⟨r1, ?_, ?_, r4.trans hP, r5.trans hL, ?_⟩
    · intro x y
      rw [List.foldl_cons, r2]
      unfold Net.meshStep
      rw [hgg, List.map_cons, List.sum_cons]
      unfold meshTerm
      rw [hval _ h1, hval _ h2]
      ring
    · intro x
      rw [List.foldl_cons, r3]
      unfold Net.meshStep
      rw [hK]
      constructor
      · rintro (rfl | rfl | hx)
        exacts [hk _ h1, hk _ h2, hx]
      · exact fun hx => Or.inr (Or.inr hx)
    · intro h0 hs0 q
      refine r6 ?_ hs0 q
      exact addCond_heap_nonneg h hne ha hb (div_nonneg (mul_nonneg (h0 _) (h0 _)) hs0) h0

/-- Total conductance of the star entries leading to a node. -/
def starTo (val : Ref → ℚ) (star : List Entry) (x : Nat) : ℚ :=
  (star.map fun e => if e.2 = x then val e.1 else 0).sum

theorem sum_mesh (val : Ref → ℚ) (sSum : ℚ) {x y : Nat} (hxy : x ≠ y) (star : List Entry) :
    ((pairs star).map (meshTerm val sSum x y)).sum = starTo val star x * starTo val star y / sSum := by
  induction star with
  | nil => simp [pairs, starTo]
  | cons e l ih =>
    have hone : ∀ l : List Entry, ((l.map fun f => (e, f)).map (meshTerm val sSum x y)).sum =
        ((if e.2 = x then val e.1 * starTo val l y else 0) + (if e.2 = y then val e.1 * starTo val l x else 0)) / sSum := by
      intro l
      induction l with
      | nil => simp [starTo]
      | cons f l ih2 =>
        simp only [List.map_cons, List.sum_cons, ih2]
        unfold meshTerm starTo
        simp only [List.map_cons, List.sum_cons]
        by_cases h1 : e.2 = x
        · have h2 : ¬ e.2 = y := fun h => hxy (h1.symm.trans h)
          by_cases h3 : f.2 = y
          · subst h1; subst h3; simp [hxy]; ring
          · have h3' : ¬ y = f.2 := fun h => h3 h.symm
            have h2' : ¬ y = e.2 := fun h => h2 h.symm
            simp [h1, h3, h3', hxy, Ne.symm hxy]
        · have h1' : ¬ x = e.2 := fun h => h1 h.symm
          by_cases h2 : e.2 = y
          · by_cases h3 : f.2 = x
            · subst h2; subst h3; simp [hxy]; ring
            · have h3' : ¬ x = f.2 := fun h => h3 h.symm
              simp [h2, h3, h3', hxy, Ne.symm hxy]
          · have h2' : ¬ y = e.2 := fun h => h2 h.symm
            simp [h1, h1', h2, h2']
    simp only [pairs, List.map_append, List.sum_append, ih, hone]
    unfold starTo
    simp only [List.map_cons, List.sum_cons]
    by_cases h1 : e.2 = x
    · have h2 : ¬ e.2 = y := fun h => hxy (h1.symm.trans h)
      simp only [h1, if_true, hxy, if_false]; ring
    · by_cases h2 : e.2 = y
      · simp only [h2, if_true, Ne.symm hxy, if_false]; ring
      · simp only [h1, h2, if_false]; ring

theorem mem_pairs {α : Type} {p : α × α} : ∀ {l : List α}, p ∈ pairs l → p.1 ∈ l ∧ p.2 ∈ l
  | [], h => by simp [pairs] at h
  | x :: l, h => by
    simp only [pairs, List.mem_append, List.mem_map] at h
    rcases h with ⟨y, hy, rfl⟩ | h
    · simp [hy]
    · have := mem_pairs h; simp [this]

theorem pairs_ne {l : List Entry} (h : (l.map Prod.snd).Nodup) : ∀ p ∈ pairs l, p.1.2 ≠ p.2.2 := by
  induction l with
  | nil => intro p hp; simp [pairs] at hp
  | cons x l ih =>
    simp only [List.map_cons, List.nodup_cons] at h
    intro p hp
    simp only [pairs, List.mem_append, List.mem_map] at hp
    rcases hp with ⟨y, hy, rfl⟩ | hp
    · intro he; exact h.1 (List.mem_map.2 ⟨y, hy, he.symm⟩)
    · exact ih h.2 p hp

theorem starTo_eq_g {n : Net} (h : Inv n) {i : Nat} {star : List Entry} (hT : T n i = some star) (x : Nat) :
    starTo n.heap star x = g n i x := by
  have hn := h.g.nodup i star hT
  cases hs : S n i x with
  | none =>
    unfold g; rw [hs]
    unfold starTo
    apply List.sum_eq_zero
    intro z hz
    obtain ⟨e, he, rfl⟩ := List.mem_map.1 hz
    rw [if_neg]
    intro hex
    have := (h.g.star i e.1 e.2).1 ⟨star, hT, he⟩
    rw [hex, hs] at this; cases this
  | some r =>
    rw [g_of_S hs]
    obtain ⟨l, hl, hm⟩ := (h.g.star i r x).2 hs
    rw [hT] at hl; cases hl
    clear hT hs
    unfold starTo
    induction star with
    | nil => simp at hm
    | cons e l ih =>
      simp only [List.map_cons, List.nodup_cons] at hn
      simp only [List.map_cons, List.sum_cons]
      rcases List.mem_cons.1 hm with rfl | hm
      · have : (l.map fun e => if e.2 = x then n.heap e.1 else 0).sum = 0 := by
          apply List.sum_eq_zero
          intro z hz
          obtain ⟨f, hf, rfl⟩ := List.mem_map.1 hz
          rw [if_neg]
          intro hex
          exact hn.1 (List.mem_map.2 ⟨f, hf, hex⟩)
        rw [this]; simp
      · rw [ih hn.2 hm, if_neg, zero_add]
        intro hex
        exact hn.1 (List.mem_map.2 ⟨(r, x), hm, hex.symm⟩)

/-- Total conductance at a node. -/
def gsum (n : Net) (i : Nat) : ℚ := n.starSum ((T n i).getD [])

/-- Specification of `eliminate_node`. -/
theorem eliminateNode_spec {n : Net} (h : Inv n) (i : Nat) :
    ∃ n', n.eliminateNode i = .ok n' ∧ Inv n' ∧
      (∀ x y, g n' x y = if x = i ∨ y = i ∨ x = y then 0 else
        if |gsum n i| > tiny then g n x y + g n i x * g n i y / gsum n i else g n x y) ∧
      (∀ x, x ∈ n'.nodeToS.keys ↔ x ∈ n.nodeToS.keys ∧ x ≠ i) ∧
      n'.precious = n.precious ∧
      (∀ x, n'.locations.get? x = if i = x ∧ i ∈ n.nodeToS.keys then none else n.locations.get? x) ∧
      ((∀ q, 0 ≤ n.heap q) → ∀ q, 0 ≤ n'.heap q) := by
  have hg : ∀ {m m' : Net}, Inv m → (∀ x y, S m' x y = if x = i ∨ y = i then none else S m x y) →
      m'.heap = m.heap → ∀ x y, g m' x y = if x = i ∨ y = i ∨ x = y then 0 else g m x y := by
    intro m m' hm hS hh x y
    by_cases hxy : x = y
    · subst hxy
      rw [if_pos (by simp)]
      unfold g; rw [hS]; split
      · rename_i hq; split at hq
        · cases hq
        · rw [hm.g.noloop] at hq; cases hq
      · rfl
    · unfold g
      rw [hS, hh]
      by_cases hxi : x = i ∨ y = i
      · rw [if_pos hxi, if_pos (by tauto)]
      · rw [if_neg hxi, if_neg (by tauto)]
  cases hT : T n i with
  | none =>
    obtain ⟨n', h1, h2, h3, h4, h5, h6, h7, h8⟩ := removeNode_spec h i
    have hT' : n.nodeToS.get? i = none := hT
    have e1 : n' = n := by
      unfold Net.removeNode at h1; rw [hT'] at h1; cases h1; rfl
    subst e1
    refine ⟨n', ?_, h2, ?_, h4, h7, h8, fun hq => hq⟩
    · unfold Net.eliminateNode; rw [hT']
    · intro x y
      have : gsum n' i = 0 := by unfold gsum; rw [hT]; simp [Net.starSum]
      rw [this]
      simp only [abs_zero, gt_iff_lt]
      rw [if_neg (not_lt.2 (by unfold tiny; norm_num) : ¬ tiny < 0)]
      exact hg h h3 h5 x y
  | some star =>
    have hT' : n.nodeToS.get? i = some star := hT
    have hgs : gsum n i = n.starSum star := by unfold gsum; rw [hT]; rfl
    unfold Net.eliminateNode
    rw [hT']
    simp only
    rw [← hgs]
    by_cases hc : |gsum n i| > tiny
    · rw [if_pos hc]
      simp only [if_pos hc]
      obtain ⟨r1, r2, r3, r4, r5, r6⟩ := mesh_spec (i := i) (star := star) (val := n.heap) (sSum := gsum n i)
        (pairs star) n h (fun e he => (h.g.star i e.1 e.2).1 ⟨star, hT, he⟩) (fun _ _ => rfl)
        (fun p hp => ⟨(mem_pairs hp).1, (mem_pairs hp).2, pairs_ne (h.g.nodup i star hT) p hp⟩)
      obtain ⟨n', h1, h2, h3, h4, h5, h6, h7, h8⟩ := removeNode_spec r1 i
      refine ⟨n', h1, h2, ?_, ?_, h7.trans r4, ?_, ?_⟩
      · intro x y
        rw [hg r1 h3 h5]
        split
        · rfl
        · rename_i hne
          push Not at hne
          rw [r2, sum_mesh _ _ hne.2.2, starTo_eq_g h hT, starTo_eq_g h hT]
      · intro x; rw [h4, r3]
      · intro x; rw [h8, r5]; simp only [r3]
      · intro h0 q
        rw [h5]
        refine r6 h0 ?_ q
        rw [hgs]
        apply List.sum_nonneg
        intro z hz
        obtain ⟨e, -, rfl⟩ := List.mem_map.1 hz
        exact h0 _
    · rw [if_neg hc]
      obtain ⟨n', h1, h2, h3, h4, h5, h6, h7, h8⟩ := removeNode_spec h i
      refine ⟨n', h1, h2, ?_, h4, h7, h8, ?_⟩
      · intro x y
        rw [hg h h3 h5]
        simp only [if_neg hc]
      · intro h0 q; rw [h5]; exact h0 q

/-! ### Currents -/

/-- A sum over the entries of a pair-keyed table with a fixed first component. -/
theorem sum_row (hp : Heap) (x : Nat) (w : Nat → ℚ) (F : Finset Nat) : ∀ (d : Dict (Nat × Nat) Ref), d.keys.Nodup →
    (∀ y, (x, y) ∈ d.keys → y ∈ F) →
    ((d.filter fun kv => kv.1.1 = x).map fun kv => hp kv.2 * w kv.1.2).sum =
      ∑ y ∈ F, (match Dict.get? d (x, y) with | some r => hp r | none => 0) * w y := by
  intro d
  induction d with
  | nil => intro _ _; simp
  | cons kv d ih =>
    intro hn hF
    obtain ⟨⟨a, b⟩, r⟩ := kv
    simp only [Dict.keys_cons, List.nodup_cons] at hn
    have ih' := ih hn.2 (fun y hy => hF y (by simp [Dict.keys_cons, hy]))
    by_cases hax : a = x
    · subst hax
      have hbF : b ∈ F := hF b (by simp [Dict.keys_cons])
      simp only [List.filter_cons, decide_true, if_true, List.map_cons, List.sum_cons, ih']
      have hnone : Dict.get? d (a, b) = none := Dict.get?_eq_none.2 hn.1
      rw [← Finset.sum_erase_add _ _ hbF, ← Finset.sum_erase_add _ _ hbF, hnone]
      simp only [Dict.get?_cons, if_true, zero_mul, add_zero]
      rw [add_comm]
      congr 1
      apply Finset.sum_congr rfl
      intro y hy
      have : ¬ (a, b) = (a, y) := by
        simp only [Prod.mk.injEq, true_and]; exact fun h => (Finset.mem_erase.1 hy).1 h.symm
      rw [if_neg this]
    · have h1 : ∀ y, ¬ (a, b) = (x, y) := fun y h => hax (Prod.mk.inj h).1
      simp only [List.filter_cons, hax, decide_false, Dict.get?_cons, h1, if_false]
      exact ih'

theorem gsum_eq {n : Net} (h : Inv n) (i : Nat) (F : Finset Nat) (hF : ∀ y, (i, y) ∈ n.s.keys → y ∈ F) :
    gsum n i = ∑ y ∈ F, g n i y := by
  have hx : ∀ y ∈ F, g n i y = starTo n.heap ((T n i).getD []) y := by
    intro y _
    cases hT : T n i with
    | none =>
      cases hs : S n i y with
      | none => unfold g; rw [hs]; simp [starTo]
      | some r => obtain ⟨l, hl, -⟩ := (h.g.star _ _ _).2 hs; rw [hT] at hl; cases hl
    | some l => rw [← starTo_eq_g h hT]; rfl
  rw [Finset.sum_congr rfl hx]
  unfold gsum
  have hall : ∀ e ∈ (T n i).getD [], e.2 ∈ F := by
    intro e he
    cases hT : T n i with
    | none => rw [hT] at he; simp at he
    | some l =>
      rw [hT] at he
      have := (h.g.star i e.1 e.2).1 ⟨l, hT, he⟩
      apply hF
      rw [Dict.mem_keys_iff]
      unfold S at this; rw [this]; rfl
  generalize (T n i).getD [] = l at hall
  unfold Net.starSum starTo
  induction l with
  | nil => simp
  | cons e l ih =>
    simp only [List.map_cons, List.sum_cons, Finset.sum_add_distrib]
    rw [ih (fun f hf => hall f (by simp [hf]))]
    congr 1
    rw [Finset.sum_ite_eq, if_pos (hall e (by simp))]

end Verif.RNet
