import Verif.Common.Rounding
import Verif.RNet.Bound
import Mathlib.Algebra.Order.Ring.Pow

/-!
# The network reduction with rounding (C113)

The other files compute with exact numbers.  Here every addition, multiplication and division that the code makes with
conductances is followed by a rounding `fl`.  Nothing is assumed about it but a bound for its relative error; overflow and
underflow are left out.
-/

namespace Verif.RNet

/-! ## The code with rounding -/

/-- `add_cond(a, b, Conductance(c))`, resistor_network.py 226–241: `add_parallel` (conductance.py 46–48) rounds the sum,
a new resistor keeps its value. -/
def Net.addCondR (fl : ℚ → ℚ) (n : Net) (a b : Nat) (c : ℚ) : Net :=
  match n.s.get? (a, b) with
  | some r₀ => { n.addCond a b c with heap := Function.update (n.addCond a b c).heap r₀ (fl (n.heap r₀ + c)) }
  | none => n.addCond a b c

/-- `s_sum`, resistor_network.py 254–256, every addition rounded. -/
def Net.starSumR (fl : ℚ → ℚ) (n : Net) (star : List Entry) : ℚ := star.foldl (fun s e => fl (s + n.heap e.1)) 0

/-- Loop body of `eliminate_node`, resistor_network.py 260–263: the product and the quotient are rounded. -/
def Net.meshStepR (fl : ℚ → ℚ) (sSum : ℚ) (n : Net) (p : Entry × Entry) : Net :=
  n.addCondR fl p.1.2 p.2.2 (fl (fl (n.heap p.1.1 * n.heap p.2.1) / sSum))

/-- `ResistorNetwork.eliminate_node`, resistor_network.py 243–264. -/
def Net.eliminateNodeR (fl : ℚ → ℚ) (n : Net) (i : Nat) : Except String Net :=
  match n.nodeToS.get? i with
  | none => .ok n
  | some star =>
    let sSum := n.starSumR fl star
    let n' := if |sSum| > tiny then (pairs star).foldl (Net.meshStepR fl sSum) n else n
    n'.removeNode i

/-- The loops of `eliminate_all`, resistor_network.py 310–335, as `Net.elimLoop`. -/
def Net.elimLoopR (fl : ℚ → ℚ) : (fuel nmax : Nat) → Net → Except String (Option Net)
  | 0, _, _ => .ok none
  | fuel + 1, nmax, n =>
    match n.toEliminate nmax with
    | [] =>
      match n.nmaxNext nmax with
      | none => .ok (some n)
      | some m => elimLoopR fl fuel m n
    | i :: is => do
      let n' ← (i :: is).foldlM (fun n i => n.eliminateNodeR fl i) n
      elimLoopR fl fuel nmax n'

/-- `ResistorNetwork.eliminate_all`, resistor_network.py 301–335, with fuel that is shown to be sufficient. -/
def Net.eliminateAllR (fl : ℚ → ℚ) (n : Net) : Except String Net := do
  match ← Net.elimLoopR fl (2 * n.nodeToS.length + 1) 3 n with
  | some n' => .ok n'
  | none => .error "does not terminate"

/-! ## Single steps -/

variable {fl : ℚ → ℚ} {u : ℚ}

theorem inv_heap {n : Net} (h : Inv n) (hp : Heap) : Inv { n with heap := hp } := ⟨base_heap h.base hp, h.g, h.inj⟩

theorem addCondR_spec {n : Net} (h : Inv n) {a b : Nat} (hab : a ≠ b) (ha : a ∈ n.locations.keys)
    (hb : b ∈ n.locations.keys) (c : ℚ) :
    Inv (n.addCondR fl a b c) ∧
    (∀ x y, S (n.addCondR fl a b c) x y =
      if ((x = a ∧ y = b) ∨ (x = b ∧ y = a)) ∧ S n a b = none then some n.nextRef else S n x y) ∧
    (∀ x, x ∈ (n.addCondR fl a b c).nodeToS.keys ↔ x = a ∨ x = b ∨ x ∈ n.nodeToS.keys) ∧
    (n.addCondR fl a b c).precious = n.precious ∧ (n.addCondR fl a b c).locations = n.locations := by
  obtain ⟨h1, h2, -, h4, h5, h6, -⟩ := addCond_spec h hab ha hb c
  unfold Net.addCondR
  split
  · exact ⟨inv_heap h1 _, h2, h4, h5, h6⟩
  · exact ⟨h1, h2, h4, h5, h6⟩

theorem addCondR_g {n : Net} (h : Inv n) {a b : Nat} (hab : a ≠ b) (ha : a ∈ n.locations.keys)
    (hb : b ∈ n.locations.keys) (c : ℚ) (x y : Nat) :
    g (n.addCondR fl a b c) x y = if (x = a ∧ y = b) ∨ (x = b ∧ y = a) then
      (if (S n a b).isSome then fl (g n x y + c) else g n x y + c) else g n x y := by
  obtain ⟨h1, h2, -⟩ := addCond_spec h hab ha hb c
  have hg := addCond_g h hab ha hb c x y
  cases hs : S n a b with
  | none =>
    have hs' : n.s.get? (a, b) = none := hs
    unfold Net.addCondR
    rw [hs']
    simp only [Option.isSome_none, Bool.false_eq_true, if_false]
    rw [hg]
    split_ifs <;> simp
  | some r₀ =>
    have hs' : n.s.get? (a, b) = some r₀ := hs
    unfold Net.addCondR
    rw [hs']
    simp only [Option.isSome_some, if_true]
    by_cases hxy : (x = a ∧ y = b) ∨ (x = b ∧ y = a)
    · rw [if_pos hxy]
      have hS : S n x y = some r₀ := by
        rcases hxy with ⟨rfl, rfl⟩ | ⟨rfl, rfl⟩
        · exact hs
        · rw [h.g.sym]; exact hs
      rw [g_of_S hS]
      have hS' : S { n.addCond a b c with heap := Function.update (n.addCond a b c).heap r₀ (fl (n.heap r₀ + c)) } x y =
          some r₀ := by
        show S (n.addCond a b c) x y = some r₀
        rw [h2, hs, if_neg (by simp), hS]
      rw [g_of_S hS']
      exact Function.update_self ..
    · rw [if_neg hxy]
      rw [if_neg hxy, add_zero] at hg
      rw [← hg]
      unfold g
      show (match S (n.addCond a b c) x y with
        | some r => Function.update (n.addCond a b c).heap r₀ (fl (n.heap r₀ + c)) r
        | none => 0) = _
      cases hq : S (n.addCond a b c) x y with
      | none => rfl
      | some q =>
        have hne : q ≠ r₀ := by
          rintro rfl
          have h3 := h2 a b
          rw [hs, if_neg (by simp)] at h3
          rcases h1.inj _ _ _ _ _ hq h3 with h4 | h4
          · exact hxy (Or.inl h4)
          · exact hxy (Or.inr h4)
        simp only [Function.update_of_ne hne]

/-- The rounded sum of a star. -/
theorem starSumR_bound (hf : Rounds fl u) {n : Net} : ∀ (star : List Entry) (s t : ℚ) (k : Nat),
    (∀ e ∈ star, 0 ≤ n.heap e.1) → 0 ≤ t → (1 - u) ^ k * t ≤ s → s ≤ (1 + u) ^ k * t →
    (1 - u) ^ (k + star.length) * (t + n.starSum star) ≤ star.foldl (fun s e => fl (s + n.heap e.1)) s ∧
    star.foldl (fun s e => fl (s + n.heap e.1)) s ≤ (1 + u) ^ (k + star.length) * (t + n.starSum star)
  | [], s, t, k, _, _, h1, h2 => by simpa [Net.starSum] using ⟨h1, h2⟩
  | e :: star, s, t, k, h0, ht, h1, h2 => by
    have hu0 := hf.1
    have hu1 : 0 ≤ 1 - u := by have := hf.2.1; linarith
    have he := h0 e (by simp)
    have hs : 0 ≤ s := (mul_nonneg (pow_nonneg hu1 k) ht).trans h1
    have hp1 : (1 - u) ^ k ≤ 1 := pow_le_one₀ hu1 (by linarith)
    have hp2 : 1 ≤ (1 + u) ^ k := one_le_pow₀ (by linarith)
    have l1 : (1 - u) ^ k * (t + n.heap e.1) ≤ s + n.heap e.1 := by nlinarith
    have l2 : s + n.heap e.1 ≤ (1 + u) ^ k * (t + n.heap e.1) := by nlinarith
    have ih := starSumR_bound hf star (fl (s + n.heap e.1)) (t + n.heap e.1) (k + 1) (fun f hf => h0 f (by simp [hf]))
      (by linarith) (by
        refine le_trans ?_ (hf.ge (by linarith : 0 ≤ s + n.heap e.1))
        rw [pow_succ, mul_comm ((1 - u) ^ k), mul_assoc]
        exact mul_le_mul_of_nonneg_left l1 hu1) (by
        refine (hf.le (by linarith : 0 ≤ s + n.heap e.1)).trans ?_
        rw [pow_succ, mul_comm ((1 + u) ^ k), mul_assoc]
        exact mul_le_mul_of_nonneg_left l2 (by linarith))
    have e1 : t + n.starSum (e :: star) = t + n.heap e.1 + n.starSum star := by simp [Net.starSum]; ring
    have e2 : k + (e :: star).length = k + 1 + star.length := by simp; ring
    rw [e1, e2]
    exact ih

theorem meshR_spec (hf : Rounds fl u) {i : Nat} {star : List Entry} {val : Ref → ℚ} {sSum lo hi D : ℚ}
    (hlo : 0 ≤ lo) (hlo1 : lo ≤ 1) (hhi : 1 ≤ hi)
    (hq : ∀ e ∈ star, ∀ f ∈ star, lo * (val e.1 * val f.1 / D) ≤ fl (fl (val e.1 * val f.1) / sSum) ∧
      fl (fl (val e.1 * val f.1) / sSum) ≤ hi * (val e.1 * val f.1 / D)) (hD : 0 < D) (hval0 : ∀ e ∈ star, 0 ≤ val e.1) :
    ∀ (ps : List (Entry × Entry)) (n : Net), Inv n → (∀ x y, 0 ≤ g n x y) →
      (∀ e ∈ star, S n i e.2 = some e.1) → (∀ e ∈ star, n.heap e.1 = val e.1) →
      (∀ p ∈ ps, p.1 ∈ star ∧ p.2 ∈ star ∧ p.1.2 ≠ p.2.2) →
      ps.Pairwise (fun p q => ¬ ((p.1.2 = q.1.2 ∧ p.2.2 = q.2.2) ∨ (p.1.2 = q.2.2 ∧ p.2.2 = q.1.2))) →
      let n' := ps.foldl (Net.meshStepR fl sSum) n
      Inv n' ∧
      (∀ x y, (1 - u) * lo * (g n x y + (ps.map (meshTerm val D x y)).sum) ≤ g n' x y ∧
        g n' x y ≤ (1 + u) * hi * (g n x y + (ps.map (meshTerm val D x y)).sum)) ∧
      (∀ x y, (∀ p ∈ ps, ¬ ((x = p.1.2 ∧ y = p.2.2) ∨ (x = p.2.2 ∧ y = p.1.2))) → g n' x y = g n x y) ∧
      (∀ x, x ∈ n'.nodeToS.keys ↔ x ∈ n.nodeToS.keys) ∧ n'.precious = n.precious ∧ n'.locations = n.locations := by
  have hu0 := hf.1
  have hu1 : 0 ≤ 1 - u := by have := hf.2.1; linarith
  intro ps
  induction ps with
  | nil =>
    intro n h h0 _ _ _ _
    refine ⟨h, fun x y => ?_, fun _ _ _ => rfl, fun _ => Iff.rfl, rfl, rfl⟩
    have := h0 x y
    simp only [List.map_nil, List.sum_nil, add_zero, List.foldl_nil]
    constructor
    · refine mul_le_of_le_one_left this ?_
      nlinarith
    · refine le_mul_of_one_le_left this ?_
      nlinarith
  | cons p ps ih =>
    intro n h h0 hst hval hps hpw
    rw [List.pairwise_cons] at hpw
    obtain ⟨h1, h2, hne⟩ := hps p (by simp)
    have hk : ∀ e ∈ star, e.2 ∈ n.nodeToS.keys := by
      intro e he
      have := hst e he
      rw [h.g.sym] at this
      obtain ⟨l, hl, -⟩ := (h.g.star _ _ _).2 this
      exact mem_tKeys.2 ⟨l, hl⟩
    have hi' : ∀ e ∈ star, e.2 ≠ i := by
      intro e he heq
      have := hst e he
      rw [heq, h.g.noloop] at this; cases this
    have ha := h.base.tloc _ (hk _ h1)
    have hb := h.base.tloc _ (hk _ h2)
    obtain ⟨c, hc⟩ : ∃ c, c = fl (fl (n.heap p.1.1 * n.heap p.2.1) / sSum) := ⟨_, rfl⟩
    have hcb := hq _ h1 _ h2
    rw [← hval _ h1, ← hval _ h2, ← hc] at hcb
    have ht0 : 0 ≤ n.heap p.1.1 * n.heap p.2.1 / D := by
      rw [hval _ h1, hval _ h2]
      exact div_nonneg (mul_nonneg (hval0 _ h1) (hval0 _ h2)) hD.le
    have hc0 : 0 ≤ c := (mul_nonneg hlo ht0).trans hcb.1
    obtain ⟨hV, hS, hK, hP, hL⟩ := addCondR_spec (fl := fl) h hne ha hb c
    have hgg := addCondR_g (fl := fl) h hne ha hb c
    have hstep : n.meshStepR fl sSum p = n.addCondR fl p.1.2 p.2.2 c := by unfold Net.meshStepR; rw [hc]
    have h0' : ∀ x y, 0 ≤ g (n.addCondR fl p.1.2 p.2.2 c) x y := by
      intro x y
      have := h0 x y
      rw [hgg]
      split_ifs
      · exact hf.nonneg (by linarith)
      · linarith
      · exact this
    have hSi : ∀ y, S (n.addCondR fl p.1.2 p.2.2 c) i y = S n i y := by
      intro y
      rw [hS, if_neg]
      rintro ⟨⟨h3, -⟩ | ⟨h3, -⟩, -⟩
      · exact hi' _ h1 h3.symm
      · exact hi' _ h2 h3.symm
    have hst' : ∀ e ∈ star, S (n.addCondR fl p.1.2 p.2.2 c) i e.2 = some e.1 := fun e he => by rw [hSi]; exact hst e he
    have hval' : ∀ e ∈ star, (n.addCondR fl p.1.2 p.2.2 c).heap e.1 = val e.1 := by
      intro e he
      rw [← hval e he, ← g_of_S (hst' e he), ← g_of_S (hst e he), hgg, if_neg]
      rintro (⟨h3, -⟩ | ⟨h3, -⟩)
      · exact hi' _ h1 h3.symm
      · exact hi' _ h2 h3.symm
    obtain ⟨r1, r2, r3, r4, r5, r6⟩ := ih (n.addCondR fl p.1.2 p.2.2 c) hV h0' hst' hval'
      (fun q hq => hps q (by simp [hq])) hpw.2
    rw [List.foldl_cons, hstep]
    refine ⟨r1, fun x y => ?_, fun x y hxy => ?_, fun x => ?_, r5.trans hP, r6.trans hL⟩
    · rw [List.map_cons, List.sum_cons]
      by_cases hxy : (x = p.1.2 ∧ y = p.2.2) ∨ (x = p.2.2 ∧ y = p.1.2)
      · have hrest : ∀ q ∈ ps, ¬ ((x = q.1.2 ∧ y = q.2.2) ∨ (x = q.2.2 ∧ y = q.1.2)) := by
          intro q hq hc
          have := hpw.1 q hq
          rcases hxy with ⟨rfl, rfl⟩ | ⟨rfl, rfl⟩ <;> rcases hc with ⟨hc1, hc2⟩ | ⟨hc1, hc2⟩ <;>
            simp [hc1, hc2] at this
        have hz : (ps.map (meshTerm val D x y)).sum = 0 := by
          apply List.sum_eq_zero
          intro z hz
          obtain ⟨q, hq, rfl⟩ := List.mem_map.1 hz
          unfold meshTerm
          rw [if_neg (hrest q hq)]
        rw [r3 x y hrest, hgg, if_pos hxy, hz, add_zero]
        have ht : meshTerm val D x y p = n.heap p.1.1 * n.heap p.2.1 / D := by
          unfold meshTerm
          rw [if_pos hxy, hval _ h1, hval _ h2]
        rw [ht]
        have hg0 := h0 x y
        have lo1 : lo * (g n x y + n.heap p.1.1 * n.heap p.2.1 / D) ≤ g n x y + c := by nlinarith [hcb.1]
        have hi1 : g n x y + c ≤ hi * (g n x y + n.heap p.1.1 * n.heap p.2.1 / D) := by nlinarith [hcb.2]
        have hnn : 0 ≤ lo * (g n x y + n.heap p.1.1 * n.heap p.2.1 / D) := mul_nonneg hlo (by linarith)
        split_ifs
        · constructor
          · rw [mul_assoc]
            exact (mul_le_mul_of_nonneg_left lo1 hu1).trans (hf.ge (by linarith))
          · rw [mul_assoc]
            exact (hf.le (by linarith)).trans (mul_le_mul_of_nonneg_left hi1 (by linarith))
        · constructor
          · rw [mul_assoc]
            exact (mul_le_of_le_one_left hnn (by linarith)).trans lo1
          · rw [mul_assoc]
            exact hi1.trans (le_mul_of_one_le_left (hnn.trans (lo1.trans hi1)) (by linarith))
      · have ht : meshTerm val D x y p = 0 := by unfold meshTerm; rw [if_neg hxy]
        rw [ht, zero_add]
        have := r2 x y
        rw [hgg, if_neg hxy] at this
        exact this
    · rw [r3 x y fun q hq => hxy q (by simp [hq]), hgg, if_neg (hxy p (by simp))]
    · rw [r4, hK]
      constructor
      · rintro (rfl | rfl | hx)
        exacts [hk _ h1, hk _ h2, hx]
      · exact fun hx => Or.inr (Or.inr hx)

theorem pairs_pairwise : ∀ {l : List Entry}, (l.map Prod.snd).Nodup →
    (pairs l).Pairwise (fun p q => ¬ ((p.1.2 = q.1.2 ∧ p.2.2 = q.2.2) ∨ (p.1.2 = q.2.2 ∧ p.2.2 = q.1.2)))
  | [], _ => List.Pairwise.nil
  | x :: l, h => by
    rw [List.map_cons, List.nodup_cons] at h
    have hx : ∀ e ∈ l, e.2 ≠ x.2 := fun e he hc => h.1 (List.mem_map.2 ⟨e, he, hc⟩)
    unfold pairs
    rw [List.pairwise_append]
    refine ⟨?_, pairs_pairwise h.2, ?_⟩
    · rw [List.pairwise_map]
      have hn := h.2
      unfold List.Nodup at hn
      rw [List.pairwise_map] at hn
      refine hn.imp_of_mem fun {a b} ha hb hne => ?_
      rintro (⟨-, hc⟩ | ⟨hc, -⟩)
      · exact hne hc
      · exact hx b hb hc.symm
    · intro p hp q hq
      obtain ⟨y, hy, rfl⟩ := List.mem_map.1 hp
      have := mem_pairs hq
      rintro (⟨hc, -⟩ | ⟨hc, -⟩)
      · exact hx _ this.1 hc.symm
      · exact hx _ this.2 hc.symm

/-- Smallest factor between a rounded mesh resistor and the exact one, if the star has at most `N` entries. -/
def lower (u : ℚ) (N : Nat) : ℚ := (1 - u) ^ 3 / (1 + u) ^ N

/-- Largest factor. -/
def upper (u : ℚ) (N : Nat) : ℚ := (1 + u) ^ 3 / (1 - u) ^ N

/-- A star that is dropped has at most this sum. -/
def cutoff (u : ℚ) (N : Nat) : ℚ := tiny / (1 - u) ^ N

theorem lower_pos (hf : Rounds fl u) (N : Nat) : 0 < lower u N := by
  have := hf.1; have := hf.2.1
  exact div_pos (pow_pos (by linarith) _) (pow_pos (by linarith) _)

theorem lower_le_one (hf : Rounds fl u) (N : Nat) : lower u N ≤ 1 := by
  have := hf.1; have := hf.2.1
  unfold lower
  rw [div_le_one (pow_pos (by linarith) _)]
  exact (pow_le_one₀ (by linarith) (by linarith)).trans (one_le_pow₀ (by linarith))

theorem one_le_upper (hf : Rounds fl u) (N : Nat) : 1 ≤ upper u N := by
  have := hf.1; have := hf.2.1
  unfold upper
  rw [one_le_div (pow_pos (by linarith) _)]
  exact (pow_le_one₀ (by linarith) (by linarith)).trans (one_le_pow₀ (by linarith))

theorem cutoff_nonneg (hf : Rounds fl u) (N : Nat) : 0 ≤ cutoff u N := by
  have := hf.2.1
  exact div_nonneg (by unfold tiny; norm_num) (pow_nonneg (by linarith) _)

theorem star_length {n : Net} (h : Inv n) {i : Nat} {star : List Entry} (hT : T n i = some star) :
    star.length ≤ n.nodeToS.length := by
  have h1 : (star.map Prod.snd).length ≤ n.nodeToS.keys.length := by
    refine ((h.g.nodup i star hT).subperm fun x hx => ?_).length_le
    obtain ⟨e, he, rfl⟩ := List.mem_map.1 hx
    have := (h.g.star i e.1 e.2).1 ⟨star, hT, he⟩
    rw [h.g.sym] at this
    obtain ⟨l, hl, -⟩ := (h.g.star _ _ _).2 this
    exact mem_tKeys.2 ⟨l, hl⟩
  unfold Dict.keys at h1
  simpa using h1

theorem removeNode_g {m m' : Net} {i : Nat} (hm : Inv m) (hS : ∀ x y, S m' x y = if x = i ∨ y = i then none else S m x y)
    (hh : m'.heap = m.heap) (x y : Nat) : g m' x y = if x = i ∨ y = i ∨ x = y then 0 else g m x y := by
  by_cases hxy : x = y
  · subst hxy
    rw [if_pos (by simp)]
    unfold g; rw [hS]; split
    · rename_i hq; split at hq
      · cases hq
      · rw [hm.g.noloop] at hq; cases hq
    · rfl
  · unfold g
    rw [hS, hh]
    by_cases hxi : x = i ∨ y = i
    · rw [if_pos hxi, if_pos (by tauto)]
    · rw [if_neg hxi, if_neg (by tauto)]

theorem eliminateNodeR_spec (hf : Rounds fl u) {n : Net} (h : Inv n) {F : Finset Nat} (hG : IsGraph F (g n)) {N : Nat}
    (hN : n.nodeToS.length ≤ N) (i : Nat) :
    ∃ n', n.eliminateNodeR fl i = .ok n' ∧ Inv n' ∧ IsGraph F (g n') ∧
      ((degree F (g n) i ≠ 0 ∧ ∀ x y, lower u N * starMesh F (g n) i x y ≤ g n' x y ∧
          g n' x y ≤ upper u N * starMesh F (g n) i x y) ∨
        degree F (g n) i ≤ cutoff u N ∧ g n' = dropNode (g n) i) ∧
      (∀ x, x ∈ n'.nodeToS.keys ↔ x ∈ n.nodeToS.keys ∧ x ≠ i) ∧ n'.precious = n.precious := by
  have hu0 := hf.1
  have hu1 : 0 < 1 - u := by have := hf.2.1; linarith
  have hgs := gsum_degree h hG i
  have hdrop : ∀ {m'}, (∀ x y, g m' x y = if x = i ∨ y = i ∨ x = y then 0 else g n x y) → g m' = dropNode (g n) i := by
    intro m' hm
    funext x y
    rw [hm, dropNode]
    by_cases hxy : x = y
    · subst hxy; simp [g_self h]
    · by_cases hxi : x = i ∨ y = i
      · rw [if_pos hxi, if_pos (by tauto)]
      · rw [if_neg hxi, if_neg (by tauto)]
  cases hT : T n i with
  | none =>
    obtain ⟨n', h1, h2, h3, h4, h5, h6, h7, h8⟩ := removeNode_spec h i
    have hT' : n.nodeToS.get? i = none := hT
    have e1 : n' = n := by
      unfold Net.removeNode at h1; rw [hT'] at h1; cases h1; rfl
    subst e1
    have hd := hdrop (removeNode_g h h3 h5)
    refine ⟨n', ?_, h2, hG, Or.inr ⟨?_, hd⟩, h4, h7⟩
    · unfold Net.eliminateNodeR; rw [hT']
    · rw [← hgs]
      unfold gsum
      rw [hT]
      simpa [Net.starSum] using cutoff_nonneg hf N
  | some star =>
    have hT' : n.nodeToS.get? i = some star := hT
    have hgs' : degree F (g n) i = n.starSum star := by rw [← hgs]; unfold gsum; rw [hT]; rfl
    have hstar : ∀ e ∈ star, S n i e.2 = some e.1 := fun e he => (h.g.star i e.1 e.2).1 ⟨star, hT, he⟩
    have hpos : ∀ e ∈ star, 0 ≤ n.heap e.1 := fun e he => by rw [← g_of_S (hstar e he)]; exact hG.nonneg _ _
    have hS0 : 0 ≤ n.starSum star := by rw [← hgs']; exact degree_nonneg hG i
    have hlen : star.length ≤ N := (star_length h hT).trans hN
    obtain ⟨b1, b2⟩ := starSumR_bound hf star 0 0 0 hpos le_rfl (by simp) (by simp)
    rw [zero_add, zero_add] at b1 b2
    obtain ⟨s, hs⟩ : ∃ s, s = n.starSumR fl star := ⟨_, rfl⟩
    have lo : (1 - u) ^ N * n.starSum star ≤ s := by
      rw [hs]
      refine le_trans ?_ b1
      exact mul_le_mul_of_nonneg_right (pow_le_pow_of_le_one hu1.le (by linarith) hlen) hS0
    have hi : s ≤ (1 + u) ^ N * n.starSum star := by
      rw [hs]
      refine b2.trans ?_
      exact mul_le_mul_of_nonneg_right (pow_le_pow_right₀ (by linarith) hlen) hS0
    have hs0 : 0 ≤ s := (mul_nonneg (pow_nonneg hu1.le N) hS0).trans lo
    have pN : 0 < (1 - u) ^ N := pow_pos hu1 N
    have qN : 0 < (1 + u) ^ N := pow_pos (by linarith) N
    unfold Net.eliminateNodeR
    rw [hT']
    simp only
    rw [← hs, abs_of_nonneg hs0]
    by_cases hc : s > tiny
    · have hspos : 0 < s := lt_trans (by unfold tiny; norm_num) hc
      have hSpos : 0 < n.starSum star := by
        rcases hS0.eq_or_lt with h0 | h0
        · rw [← h0, mul_zero] at hi; exact absurd hi (not_le.2 hspos)
        · exact h0
      simp only [if_pos hc]
      have hq : ∀ e ∈ star, ∀ f ∈ star,
          (1 - u) ^ 2 / (1 + u) ^ N * (n.heap e.1 * n.heap f.1 / n.starSum star) ≤ fl (fl (n.heap e.1 * n.heap f.1) / s) ∧
          fl (fl (n.heap e.1 * n.heap f.1) / s) ≤ (1 + u) ^ 2 / (1 - u) ^ N * (n.heap e.1 * n.heap f.1 / n.starSum star) := by
        intro e he f hf'
        obtain ⟨t, ht⟩ : ∃ t, t = n.heap e.1 * n.heap f.1 := ⟨_, rfl⟩
        have ht0 : 0 ≤ t := ht ▸ mul_nonneg (hpos e he) (hpos f hf')
        rw [← ht]
        have f0 : 0 ≤ fl t / s := div_nonneg (hf.nonneg ht0) hs0
        constructor
        · refine le_trans ?_ (hf.ge f0)
          have e1 : (1 - u) ^ 2 / (1 + u) ^ N * (t / n.starSum star) = (1 - u) * ((1 - u) * t / ((1 + u) ^ N * n.starSum star)) := by
            field_simp
          rw [e1]
          refine mul_le_mul_of_nonneg_left ?_ hu1.le
          exact div_le_div₀ (hf.nonneg ht0) (hf.ge ht0) hspos hi
        · refine (hf.le f0).trans ?_
          have e1 : (1 + u) ^ 2 / (1 - u) ^ N * (t / n.starSum star) = (1 + u) * ((1 + u) * t / ((1 - u) ^ N * n.starSum star)) := by
            field_simp
          rw [e1]
          refine mul_le_mul_of_nonneg_left ?_ (by linarith)
          exact div_le_div₀ (mul_nonneg (by linarith) ht0) (hf.le ht0) (mul_pos pN hSpos) lo
      obtain ⟨r1, r2, -, r4, r5, r6⟩ := meshR_spec hf (i := i) (star := star) (val := n.heap) (sSum := s)
        (lo := (1 - u) ^ 2 / (1 + u) ^ N) (hi := (1 + u) ^ 2 / (1 - u) ^ N) (D := n.starSum star)
        (div_nonneg (pow_nonneg hu1.le _) qN.le)
        (by rw [div_le_one qN]; exact (pow_le_one₀ hu1.le (by linarith)).trans (one_le_pow₀ (by linarith)))
        (by rw [one_le_div pN]; exact (pow_le_one₀ hu1.le (by linarith)).trans (one_le_pow₀ (by linarith)))
        hq hSpos hpos (pairs star) n h hG.nonneg hstar (fun _ _ => rfl)
        (fun p hp => ⟨(mem_pairs hp).1, (mem_pairs hp).2, pairs_ne (h.g.nodup i star hT) p hp⟩)
        (pairs_pairwise (h.g.nodup i star hT))
      obtain ⟨n', h1, h2, h3, h4, h5, h6, h7, h8⟩ := removeNode_spec r1 i
      have hbound : ∀ x y, lower u N * starMesh F (g n) i x y ≤ g n' x y ∧ g n' x y ≤ upper u N * starMesh F (g n) i x y := by
        intro x y
        rw [removeNode_g r1 h3 h5]
        unfold starMesh
        split_ifs with hne
        · simp
        · push Not at hne
          have := r2 x y
          rw [sum_mesh _ _ hne.2.2, starTo_eq_g h hT, starTo_eq_g h hT, ← hgs'] at this
          have e1 : lower u N = (1 - u) * ((1 - u) ^ 2 / (1 + u) ^ N) := by unfold lower; ring
          have e2 : upper u N = (1 + u) * ((1 + u) ^ 2 / (1 - u) ^ N) := by unfold upper; ring
          rw [e1, e2]
          exact this
      have hmesh := starMesh_graph hG i
      have hG' : IsGraph F (g n') := ⟨g_sym h2,
        fun x y => (mul_nonneg (lower_pos hf N).le (hmesh.nonneg x y)).trans (hbound x y).1, g_self h2,
        fun x y hx => by
          have := hbound x y
          rw [hmesh.supp x y hx, mul_zero, mul_zero] at this
          exact le_antisymm this.2 this.1⟩
      exact ⟨n', h1, h2, hG', Or.inl ⟨by rw [hgs']; exact hSpos.ne', hbound⟩, fun x => by rw [h4, r4], h7.trans r5⟩
    · simp only [if_neg hc]
      obtain ⟨n', h1, h2, h3, h4, h5, h6, h7, h8⟩ := removeNode_spec h i
      have hd := hdrop (removeNode_g h h3 h5)
      refine ⟨n', h1, h2, hd ▸ dropNode_graph hG i, Or.inr ⟨?_, hd⟩, h4, h7⟩
      rw [hgs']
      unfold cutoff
      rw [le_div_iff₀ pN, mul_comm]
      exact lo.trans (not_lt.1 hc)

/-! ## The loop -/

theorem keys_length_le {n n' : Net} (h' : Inv n') (hk : ∀ x, x ∈ n'.nodeToS.keys → x ∈ n.nodeToS.keys) :
    n'.nodeToS.length ≤ n.nodeToS.length := by
  have := (h'.base.tKeys.subperm fun x hx => hk x hx).length_le
  unfold Dict.keys at this
  simpa using this

theorem elimListR_spec (hf : Rounds fl u) {F : Finset Nat} {N : Nat} : ∀ (is : List Nat) (n : Net), Inv n →
    IsGraph F (g n) → n.nodeToS.length ≤ N →
    ∃ n', is.foldlM (fun n i => n.eliminateNodeR fl i) n = .ok n' ∧ Inv n' ∧ IsGraph F (g n') ∧ n'.nodeToS.length ≤ N ∧
      (∀ x, x ∈ n'.nodeToS.keys ↔ x ∈ n.nodeToS.keys ∧ x ∉ is) ∧ n'.precious = n.precious ∧
      Eliminated F (lower u N) (upper u N) (cutoff u N) (g n) is (g n') := by
  intro is
  induction is with
  | nil => intro n h hG hN; exact ⟨n, rfl, h, hG, hN, by simp, rfl, rfl⟩
  | cons i is ih =>
    intro n h hG hN
    obtain ⟨n1, h1, hV1, hG1, he1, hk1, hp1⟩ := eliminateNodeR_spec hf h hG hN i
    obtain ⟨n2, h2, hV2, hG2, hN2, hk2, hp2, he2⟩ := ih n1 hV1 hG1
      ((keys_length_le hV1 fun x hx => ((hk1 x).1 hx).1).trans hN)
    refine ⟨n2, ?_, hV2, hG2, hN2, ?_, hp2.trans hp1, ⟨g n1, hG1, he1, he2⟩⟩
    · rw [List.foldlM_cons, h1]; exact h2
    · intro x; rw [hk2, hk1]; simp only [List.mem_cons, not_or, and_assoc]

theorem elimLoopR_spec (hf : Rounds fl u) {F : Finset Nat} {N : Nat} : ∀ (k : Nat) (n : Net) (nmax fuel : Nat), Inv n →
    IsGraph F (g n) → n.nodeToS.length ≤ N → (todo n).card ≤ k → 2 * k + 1 ≤ fuel →
    ∃ (is : List Nat) (n' : Net), Net.elimLoopR fl fuel nmax n = .ok (some n') ∧
      is.foldlM (fun n i => n.eliminateNodeR fl i) n = .ok n' ∧ is.Nodup ∧ (∀ i, i ∈ is ↔ i ∈ todo n) := by
  intro k
  induction k using Nat.strong_induction_on with
  | _ k ih =>
    have main : ∀ (n : Net) (nmax fuel : Nat), Inv n → IsGraph F (g n) → n.nodeToS.length ≤ N → (todo n).card ≤ k →
        2 * k ≤ fuel → n.toEliminate nmax ≠ [] →
        ∃ (is : List Nat) (n' : Net), Net.elimLoopR fl fuel nmax n = .ok (some n') ∧
          is.foldlM (fun n i => n.eliminateNodeR fl i) n = .ok n' ∧ is.Nodup ∧ (∀ i, i ∈ is ↔ i ∈ todo n) := by
      intro n nmax fuel h hG hN hc hf' hne
      obtain ⟨j, hj⟩ := List.exists_mem_of_ne_nil _ hne
      have hjt := mem_todo.2 ⟨(mem_toEliminate.1 hj).1, (mem_toEliminate.1 hj).2.1⟩
      have hcpos : 0 < (todo n).card := Finset.card_pos.2 ⟨j, hjt⟩
      obtain ⟨n1, h1, hV1, hG1, hN1, hk1, hp1, -⟩ := elimListR_spec hf (n.toEliminate nmax) n h hG hN
      have hsub : ∀ i, i ∈ todo n1 ↔ i ∈ todo n ∧ i ∉ n.toEliminate nmax := by
        intro i; rw [mem_todo, mem_todo, hk1, hp1]; tauto
      have hlt : (todo n1).card < (todo n).card := by
        apply Finset.card_lt_card
        rw [Finset.ssubset_iff_of_subset (fun i hi => ((hsub i).1 hi).1)]
        exact ⟨j, hjt, fun hjn => ((hsub j).1 hjn).2 hj⟩
      obtain ⟨fuel', rfl⟩ : ∃ f, fuel = f + 1 := ⟨fuel - 1, by omega⟩
      obtain ⟨is, n2, e1, e2, e3, e4⟩ := ih (k - 1) (by omega) n1 nmax fuel' hV1 hG1 hN1 (by omega) (by omega)
      refine ⟨n.toEliminate nmax ++ is, n2, ?_, ?_, ?_, ?_⟩
      · unfold Net.elimLoopR
        cases hte : n.toEliminate nmax with
        | nil => exact absurd hte hne
        | cons a as =>
          simp only
          rw [← hte, h1]
          exact e1
      · rw [List.foldlM_append, h1]; exact e2
      · rw [List.nodup_append]
        refine ⟨nodup_toEliminate h nmax, e3, ?_⟩
        rintro a ha b hb rfl
        exact ((hsub a).1 ((e4 a).1 hb)).2 ha
      · intro i
        rw [List.mem_append, e4, hsub]
        by_cases hi : i ∈ n.toEliminate nmax
        · have := mem_toEliminate.1 hi
          simp [hi, mem_todo, this.1, this.2.1]
        · simp [hi]
    intro n nmax fuel h hG hN hc hf'
    by_cases hne : n.toEliminate nmax = []
    · have hnx := nmaxNext_spec n nmax
      obtain ⟨fuel', rfl⟩ : ∃ f, fuel = f + 1 := ⟨fuel - 1, by omega⟩
      cases hx : n.nmaxNext nmax with
      | none =>
        have hnx := hnx.1 hx
        refine ⟨[], n, ?_, rfl, List.nodup_nil, ?_⟩
        · unfold Net.elimLoopR; rw [hne]; simp only; rw [hx]
        · intro i
          simp only [List.not_mem_nil, false_iff]
          intro hi
          obtain ⟨h1, h2⟩ := mem_todo.1 hi
          have : i ∈ n.toEliminate nmax := mem_toEliminate.2 ⟨h1, h2, hnx i h1 h2⟩
          rw [hne] at this; simp at this
      | some m =>
        obtain ⟨j, hj1, hj2, hj3⟩ := hnx.2 m hx
        have hne' : n.toEliminate m ≠ [] := by
          intro he
          have : j ∈ n.toEliminate m := mem_toEliminate.2 ⟨hj1, hj2, hj3.le⟩
          rw [he] at this; simp at this
        obtain ⟨is, n2, e1, e2, e3, e4⟩ := main n m fuel' h hG hN hc (by omega) hne'
        refine ⟨is, n2, ?_, e2, e3, e4⟩
        unfold Net.elimLoopR; rw [hne]; simp only; rw [hx]; exact e1
    · exact main n nmax fuel h hG hN hc (by omega) hne

/-! ## The theorem -/

/-- Networks a program can build where `add_cond` rounds. -/
inductive Built (fl : ℚ → ℚ) : Net → Prop
  | start : Built fl {}
  | step {n n' : Net} (op : Op) : Built fl n → Legal n op → n.step op = .ok n' → Built fl n'
  | addCond {n : Net} (a b : Nat) (c : ℚ) : Built fl n → Legal n (.addCond a b c) → Built fl (n.addCondR fl a b c)

theorem built_inv {n : Net} (h : Built fl n) : Inv n := by
  induction h with
  | start => exact inv_init
  | step op _ hl hs ih =>
    obtain ⟨n2, h1, h2, -⟩ := run_inv [op] _ ih ⟨hl, fun _ _ => trivial⟩
    simp only [List.foldlM_cons, List.foldlM_nil, hs] at h1
    cases h1
    exact h2
  | addCond a b c _ hl ih =>
    obtain ⟨hab, ha, hb⟩ := hl
    rw [← Dict.mem_keys_iff] at ha hb
    exact (addCondR_spec ih hab ha hb c).1

theorem lower_bound (hf : Rounds fl u) (N k : Nat) : 1 - (N + 3) * k * u ≤ lower u N ^ k := by
  have hu0 := hf.1
  have hu1 : 0 < 1 - u := by have := hf.2.1; linarith
  have h1 : (1 - u) ^ (N + 3) ≤ lower u N := by
    unfold lower
    rw [le_div_iff₀ (pow_pos (by linarith) _), pow_add, mul_assoc, mul_comm ((1 - u) ^ 3), ← mul_assoc, ← mul_pow]
    refine mul_le_of_le_one_left (pow_nonneg hu1.le _) (pow_le_one₀ ?_ ?_) <;> nlinarith
  refine le_trans ?_ (pow_le_pow_left₀ (pow_nonneg hu1.le _) h1 k)
  rw [← pow_mul]
  have := one_add_mul_le_pow (a := -u) (by linarith) ((N + 3) * k)
  push_cast at this
  rw [← sub_eq_add_neg] at this
  linarith

theorem upper_bound (hf : Rounds fl u) (N k : Nat) : (1 - (N + 3) * k * u) * upper u N ^ k ≤ 1 := by
  have hu0 := hf.1
  have hu1 : 0 < 1 - u := by have := hf.2.1; linarith
  have h1 : (1 - u) ^ (N + 3) * upper u N ≤ 1 := by
    unfold upper
    rw [mul_div_assoc', div_le_one (pow_pos hu1 _), pow_add, mul_assoc, ← mul_pow]
    refine mul_le_of_le_one_right (pow_nonneg hu1.le _) (pow_le_one₀ ?_ ?_) <;> nlinarith
  have hup : 0 ≤ upper u N := zero_le_one.trans (one_le_upper hf N)
  have h2 : ((1 - u) ^ (N + 3)) ^ k * upper u N ^ k ≤ 1 := by
    rw [← mul_pow]
    exact pow_le_one₀ (mul_nonneg (pow_nonneg hu1.le _) hup) h1
  refine le_trans (mul_le_mul_of_nonneg_right ?_ (pow_nonneg hup k)) h2
  rw [← pow_mul]
  have := one_add_mul_le_pow (a := -u) (by linarith) ((N + 3) * k)
  push_cast at this
  rw [← sub_eq_add_neg] at this
  linarith

theorem cutoff_bound (hf : Rounds fl u) {N : Nat} (hN : (N : ℚ) * u ≤ 1 / 2) : cutoff u N ≤ 2 / 10000000000 := by
  have hu0 := hf.1
  have hu1 : 0 < 1 - u := by have := hf.2.1; linarith
  have := one_add_mul_le_pow (a := -u) (by linarith) N
  rw [← sub_eq_add_neg] at this
  unfold cutoff tiny
  rw [div_le_iff₀ (pow_pos hu1 _)]
  linarith

/-- **C113.** `eliminate_all` with rounded arithmetic, for every network with non-negative conductances and every rounding
with relative error at most `u`.  It terminates without an exception and only connections between precious nodes are left.
For all voltages of the precious nodes, the power that the network takes up — and with it every conductance seen from
the precious nodes — deviates by a relative error of at most `(N + 3) * k * u`, where `N` is the number of connected nodes
and `k` the number of those that are eliminated, and besides by the dropped stars as in C25. -/
theorem eliminate_all_rounded (fl : ℚ → ℚ) (u : ℚ) (hf : Rounds fl u) (n : Net) (hn : Built fl n)
    (h0 : ∀ a b r, n.s.get? (a, b) = some r → 0 ≤ n.heap r)
    (inner outer : Finset Nat) (hin : ∀ i, i ∈ inner ↔ (n.nodeToS.get? i).isSome ∧ i ∉ n.precious)
    (hout : ∀ i, i ∈ outer ↔ i ∈ n.precious) (hN : (n.nodeToS.length : ℚ) * u ≤ 1 / 2) :
    ∃ n', n.eliminateAllR fl = .ok n' ∧ (∀ a b r, n'.s.get? (a, b) = some r → a ∈ n.precious ∧ b ∈ n.precious) ∧
      ∀ (v : Nat → ℚ) (m M : ℚ), m ≤ M → (∀ x ∈ n.precious, m ≤ v x ∧ v x ≤ M) →
        ∀ w, (∀ x ∈ n.precious, w x = v x) → (∀ i ∈ inner, current n w i = 0) →
          let P := ∑ x ∈ outer, v x * current n w x
          let P' := ∑ x ∈ outer, v x * current n' v x
          let δ := ((n.nodeToS.length : ℚ) + 3) * inner.card * u
          (1 - δ) * P' ≤ P ∧ (1 - δ) * P ≤ P' + inner.card * (2 / 10000000000 * (M - m) ^ 2) := by
  have h := built_inv hn
  have hpos : ∀ x y, 0 ≤ g n x y := by
    intro x y
    unfold g
    cases hs : S n x y with
    | none => exact le_rfl
    | some r => exact h0 x y r hs
  have hG := net_graph h hpos
  obtain ⟨is, n', h1, h2, h3, h4⟩ := elimLoopR_spec hf (N := n.nodeToS.length) n.nodeToS.length n 3
    (2 * n.nodeToS.length + 1) h hG le_rfl (todo_card_le n) le_rfl
  obtain ⟨n1, e1, hV', hG', -, hk, -, he⟩ := elimListR_spec hf is n h hG (le_refl n.nodeToS.length)
  rw [h2] at e1; cases e1
  have hmem : ∀ i, i ∈ is ↔ i ∈ inner := fun i => by rw [h4, hin, mem_todo, Dict.mem_keys_iff]
  have hlen : is.length = inner.card := by
    rw [← List.toFinset_card_of_nodup h3]
    congr 1
    ext i
    rw [List.mem_toFinset, hmem]
  have hprec : ∀ a l, T n' a = some l → a ∈ n.precious := by
    intro a l hl
    obtain ⟨k1, k2⟩ := (hk a).1 (mem_tKeys.2 ⟨l, hl⟩)
    by_contra hc
    exact k2 ((h4 a).2 (mem_todo.2 ⟨k1, hc⟩))
  have hother : ∀ x, x ∉ n.precious → x ∉ inner → ∀ y, g n x y = 0 := by
    intro x hx hxi y
    cases hs : S n x y with
    | none => unfold g; rw [hs]
    | some r =>
      obtain ⟨l, hl, -⟩ := (h.g.star _ _ _).2 hs
      exact absurd ((hin x).2 ⟨by rw [show n.nodeToS.get? x = some l from hl]; rfl, hx⟩) hxi
  have hother' : ∀ x, x ∉ n.precious → ∀ y, g n' x y = 0 := by
    intro x hx y
    refine Eliminated.isolated hG he x ?_ y
    by_cases hxi : x ∈ inner
    · exact Or.inl ((hmem x).2 hxi)
    · exact Or.inr (hother x hx hxi)
  refine ⟨n', ?_, ?_, ?_⟩
  · unfold Net.eliminateAllR
    simp only [h1, bind, Except.bind]
  · intro a b r hr
    have hr' : S n' a b = some r := hr
    obtain ⟨l, hl, -⟩ := (hV'.g.star a r b).2 hr'
    rw [hV'.g.sym] at hr'
    obtain ⟨l', hl', -⟩ := (hV'.g.star b r a).2 hr'
    exact ⟨hprec _ _ hl, hprec _ _ hl'⟩
  intro v m M hmM hv w hw hcur P P' δ
  obtain ⟨w2, hw2⟩ : ∃ w2 : Nat → ℚ, w2 = fun y => if y ∈ n.precious ∨ y ∈ inner then w y else m := ⟨_, rfl⟩
  have hw2' : ∀ y, w2 y = w y ∨ ∀ z, g n y z = 0 := by
    intro y
    by_cases hy : y ∈ n.precious ∨ y ∈ inner
    · left; rw [hw2]; exact if_pos hy
    · rw [not_or] at hy; exact Or.inr (hother y hy.1 hy.2)
  have hv2 : ∀ y, w2 y = v y ∨ ∀ z, g n' y z = 0 := by
    intro y
    by_cases hy : y ∈ n.precious
    · left; rw [hw2]; simp only [hy, true_or, if_true]; exact hw y hy
    · exact Or.inr (hother' y hy)
  have hflow : ∀ x, flow (nodesOf n) (g n) w2 x = current n w x := fun x => by
    rw [flow_congr hG hw2', ← current_flow h hG]
  have hflow' : ∀ x, flow (nodesOf n) (g n') w2 x = current n' v x := fun x => by
    rw [flow_congr hG' hv2, ← current_flow hV' hG']
  -- the power is taken up at the precious nodes
  have hsum : ∀ {G : Nat → Nat → ℚ} (f : Nat → ℚ), IsGraph (nodesOf n) G → (∀ x, flow (nodesOf n) G w2 x = f x) →
      (∀ x, x ∉ n.precious → f x = 0) → power (nodesOf n) G w2 w2 = ∑ x ∈ outer, v x * f x := by
    intro G f hGG hf1 hf2
    have hv' : ∑ x ∈ outer, v x * f x = ∑ x ∈ outer, w2 x * f x := by
      refine Finset.sum_congr rfl fun x hx => ?_
      have hx' := (hout x).1 hx
      rw [hw2]
      simp only [hx', true_or, if_true]
      rw [hw x hx']
    rw [hv']
    unfold power
    rw [Finset.sum_congr rfl fun x _ => by rw [hf1 x],
      Finset.sum_subset (Finset.subset_union_left : nodesOf n ⊆ nodesOf n ∪ outer),
      Finset.sum_subset (Finset.subset_union_right : outer ⊆ nodesOf n ∪ outer)]
    · intro x _ hx
      rw [hf2 x fun hc => hx ((hout x).2 hc), mul_zero]
    · intro x _ hx
      rw [← hf1]
      unfold flow
      rw [Finset.sum_eq_zero fun y _ => by rw [hGG.supp x y hx, zero_mul], mul_zero]
  have hP : power (nodesOf n) (g n) w2 w2 = P := hsum _ hG hflow fun x hx => by
    by_cases hxi : x ∈ inner
    · exact hcur x hxi
    · rw [← hflow]
      unfold flow
      exact Finset.sum_eq_zero fun y _ => by rw [hother x hx hxi, zero_mul]
  have hP' : power (nodesOf n) (g n') w2 w2 = P' := hsum _ hG' hflow' fun x hx => by
    rw [← hflow']
    unfold flow
    exact Finset.sum_eq_zero fun y _ => by rw [hother' x hx, zero_mul]
  obtain ⟨k1, k2⟩ := eliminated_power (lower_pos hf _) (lower_le_one hf _) (one_le_upper hf _) (cutoff_nonneg hf _) is _ _ hG
    h3 he w2 m M hmM (fun y hy => by
        rw [hw2]
        simp only
        have hyi : y ∉ inner := fun hc => hy ((hmem y).2 hc)
        by_cases hyp : y ∈ n.precious
        · simp only [hyp, true_or, if_true]; rw [hw y hyp]; exact hv y hyp
        · simp only [hyp, hyi, or_self, if_false]; exact ⟨le_rfl, hmM⟩)
      (fun i hi => by rw [hflow]; exact hcur i ((hmem i).1 hi))
  rw [hP, hP', hlen] at k1 k2
  have p0 : 0 ≤ P := hP ▸ power_nonneg hG w2
  have p0' : 0 ≤ P' := hP' ▸ power_nonneg hG' w2
  have hlow := lower_bound hf n.nodeToS.length inner.card
  have hupp := upper_bound hf n.nodeToS.length inner.card
  constructor
  · show (1 - ((n.nodeToS.length : ℚ) + 3) * inner.card * u) * P' ≤ P
    by_cases hneg : 0 ≤ 1 - ((n.nodeToS.length : ℚ) + 3) * inner.card * u
    · refine (mul_le_mul_of_nonneg_left k1 hneg).trans ?_
      rw [← mul_assoc]
      exact mul_le_of_le_one_left p0 hupp
    · exact (mul_nonpos_of_nonpos_of_nonneg (not_le.1 hneg).le p0').trans p0
  · show (1 - ((n.nodeToS.length : ℚ) + 3) * inner.card * u) * P ≤ _
    refine (mul_le_mul_of_nonneg_right hlow p0).trans (k2.trans ?_)
    have hc := cutoff_bound hf hN
    have : (inner.card : ℚ) * (cutoff u n.nodeToS.length * (M - m) ^ 2) ≤ inner.card * (2 / 10000000000 * (M - m) ^ 2) :=
      mul_le_mul_of_nonneg_left (mul_le_mul_of_nonneg_right hc (sq_nonneg _)) (by positivity)
    linarith

theorem built_of_reachable (fl : ℚ → ℚ) {n : Net} (hn : Reachable n) : Built fl n := by
  have key : ∀ (h : List Op) (a b : Net), Built fl a → LegalHistory a h → h.foldlM Net.step a = .ok b → Built fl b := by
    intro h
    induction h with
    | nil => intro a b ha _ hr; cases hr; exact ha
    | cons op h ih =>
      intro a b ha hl hr
      rw [List.foldlM_cons] at hr
      cases hs : a.step op with
      | error e => rw [hs] at hr; cases hr
      | ok c => rw [hs] at hr; exact ih c b (Built.step op ha hl.1 hs) (hl.2 c hs) hr
  obtain ⟨h, hl, hr⟩ := hn
  exact key h {} n Built.start hl hr

/-- The mesh with a rounding that always goes up by 0.1 %: between the precious nodes the exact reduction leaves 53/60 S,
the rounded one a little more; the relative error is within the bound of (5 + 3) * 3 * 0.1 %. -/
example : ∃ n n', Reachable n ∧ Rounds (fun x : ℚ => x * (1001 / 1000)) (1 / 1000) ∧
    n.eliminateAllR (fun x => x * (1001 / 1000)) = .ok n' ∧
    (n'.s.get? (0, 4)).map n'.heap = some (53096302259 / 60046509000) ∧
    (∀ w : Nat → ℚ, w 0 = 1 → w 4 = 0 → (∀ i ∈ ({1, 2, 3} : Finset Nat), current n w i = 0) →
      (1 - 24 / 1000) * current n' (fun x => if x = 0 then 1 else 0) 0 ≤ current n w 0) := by
  have hl : LegalHistory {} sampleMesh := legalHistory_of_B _ _ (by decide +kernel)
  obtain ⟨n, h1, -⟩ := run_inv sampleMesh {} inv_init hl
  have h1' : run sampleMesh = .ok n := h1
  have hf : Rounds (fun x : ℚ => x * (1001 / 1000)) (1 / 1000) := by
    refine ⟨by norm_num, by norm_num, fun x => ?_⟩
    rw [show x * (1001 / 1000) - x = 1 / 1000 * x by ring, abs_mul]
    norm_num
  have e1 : (match run sampleMesh with
      | .ok n => (n.s.all fun kv => decide (0 ≤ n.heap kv.2)) && decide (n.nodeToS.keys = [0, 1, 2, 3, 4]) &&
          decide (n.precious = [4, 0]) && decide (n.nodeToS.length = 5) &&
          (match n.eliminateAllR (fun x => x * (1001 / 1000)) with
          | .ok n' => decide ((n'.s.get? (0, 4)).map n'.heap = some (53096302259 / 60046509000))
          | .error _ => false)
      | .error _ => false) = true := by decide +kernel
  rw [h1'] at e1
  simp only [Bool.and_eq_true, decide_eq_true_eq, List.all_eq_true] at e1
  obtain ⟨⟨⟨⟨e1, e2⟩, e3⟩, e4⟩, e5⟩ := e1
  obtain ⟨n', h2, -, h3⟩ := eliminate_all_rounded _ _ hf n (built_of_reachable _ ⟨_, hl, h1'⟩)
    (fun a b r hr => e1 _ (Dict.mem_of_get? hr)) {1, 2, 3} {0, 4} (fun i => by
      rw [← Dict.mem_keys_iff, e2, e3]
      simp only [Finset.mem_insert, Finset.mem_singleton, List.mem_cons, List.not_mem_nil, or_false]
      omega) (fun i => by
      rw [e3]
      simp only [Finset.mem_insert, Finset.mem_singleton, List.mem_cons, List.not_mem_nil, or_false]
      omega) (by rw [e4]; norm_num)
  rw [h2] at e5
  refine ⟨n, n', ⟨_, hl, h1'⟩, hf, h2, of_decide_eq_true e5, fun w w0 w4 hw => ?_⟩
  have := (h3 (fun x => if x = 0 then 1 else 0) 0 1 zero_le_one (fun x _ => by
    split_ifs <;> norm_num) w (fun x hx => by
    rw [e3] at hx
    simp only [List.mem_cons, List.not_mem_nil, or_false] at hx
    rcases hx with rfl | rfl <;> simp [w0, w4]) hw).1
  simp only [e4] at this
  rw [Finset.sum_pair (by norm_num), Finset.sum_pair (by norm_num)] at this
  simp at this
  norm_num at this ⊢
  exact this

end Verif.RNet
