import Verif.RNet.Graph
import Verif.RNet.Exact

/-!
# An error bound for the reduction of every network (C25)
-/

namespace Verif.RNet

/-- The nodes of a network that have connections. -/
def nodesOf (n : Net) : Finset Nat := (n.s.map fun kv => kv.1.1).toFinset

theorem mem_nodesOf {n : Net} {x y : Nat} {r : Ref} (h : S n x y = some r) : x ∈ nodesOf n := by
  unfold nodesOf
  rw [List.mem_toFinset, List.mem_map]
  exact ⟨((x, y), r), Dict.mem_of_get? h, rfl⟩

theorem net_graph {n : Net} (h : Inv n) (h0 : ∀ x y, 0 ≤ g n x y) : IsGraph (nodesOf n) (g n) where
  sym := g_sym h
  nonneg := h0
  self := g_self h
  supp x y hx := by
    unfold g
    cases hs : S n x y with
    | none => rfl
    | some r => exact absurd (mem_nodesOf hs) hx

theorem current_flow {n : Net} (h : Inv n) {F : Finset Nat} (hG : IsGraph F (g n)) (v : Nat → ℚ) (x : Nat) :
    current n v x = flow F (g n) v x := by
  rw [current_eq h v x (F ∪ nbrs n n x) fun y hy => Finset.mem_union_right _ (nbrs_left n n x x y hy)]
  unfold flow
  symm
  refine Finset.sum_subset Finset.subset_union_left fun y _ hy => ?_
  rw [hG.sym, hG.supp y x hy, zero_mul]

theorem gsum_degree {n : Net} (h : Inv n) {F : Finset Nat} (hG : IsGraph F (g n)) (i : Nat) :
    gsum n i = degree F (g n) i := by
  rw [gsum_eq h i (F ∪ nbrs n n i) fun y hy => Finset.mem_union_right _ (nbrs_left n n i i y hy)]
  unfold degree
  symm
  refine Finset.sum_subset Finset.subset_union_left fun y _ hy => ?_
  rw [hG.sym, hG.supp y i hy]

/-- A sequence of calls of `eliminate_node` eliminates the nodes without rounding. -/
theorem run_eliminated {F : Finset Nat} : ∀ (is : List Nat) (n n' : Net), Inv n → IsGraph F (g n) →
    is.foldlM (fun n i => n.eliminateNode i) n = .ok n' → Eliminated F 1 1 tiny (g n) is (g n') ∧ Inv n'
  | [], n, n', h, _, hr => by cases hr; exact ⟨rfl, h⟩
  | i :: is, n, n', h, hG, hr => by
    obtain ⟨n1, h1, hV1, hg, -⟩ := eliminateNode_spec h i
    rw [List.foldlM_cons, h1] at hr
    have hgs := gsum_degree h hG i
    have hd := degree_nonneg hG i
    by_cases hc : |gsum n i| > tiny
    · have hgr : g n1 = starMesh F (g n) i := by
        funext x y
        rw [hg, starMesh, if_pos hc, hgs]
      have hG1 : IsGraph F (g n1) := hgr ▸ starMesh_graph hG i
      obtain ⟨r1, r2⟩ := run_eliminated is n1 n' hV1 hG1 hr
      refine ⟨⟨g n1, hG1, Or.inl ⟨?_, fun x y => ?_⟩, r1⟩, r2⟩
      · rw [← hgs]
        intro hz
        rw [hz, abs_zero] at hc
        exact absurd hc (not_lt.2 (by unfold tiny; norm_num))
      · rw [hgr, one_mul]; exact ⟨le_rfl, le_rfl⟩
    · have hgr : g n1 = dropNode (g n) i := by
        funext x y
        rw [hg, if_neg hc, dropNode]
        by_cases hxy : x = y
        · subst hxy; simp [g_self h]
        · by_cases hxi : x = i ∨ y = i
          · rw [if_pos hxi, if_pos (by tauto)]
          · rw [if_neg hxi, if_neg (by tauto)]
      have hG1 : IsGraph F (g n1) := hgr ▸ dropNode_graph hG i
      obtain ⟨r1, r2⟩ := run_eliminated is n1 n' hV1 hG1 hr
      refine ⟨⟨g n1, hG1, Or.inr ⟨?_, hgr⟩, r1⟩, r2⟩
      rw [gt_iff_lt, not_lt, hgs, abs_of_nonneg hd] at hc
      exact hc

theorem form_bound {A B d : ℚ} (hB : 0 ≤ B) (hA : B = 0 → A = 0) (h : ∀ t : ℚ, 0 ≤ A + 2 * t * d + t * t * B) :
    d * d ≤ A * B := by
  rcases hB.eq_or_lt with h0 | hpos
  · have := h (-d)
    rw [hA h0.symm, ← h0] at this
    rw [hA h0.symm, zero_mul]
    nlinarith
  · have := h (-d / B)
    have e : A + 2 * (-d / B) * d + -d / B * (-d / B) * B = A - d * d / B := by field_simp; ring
    rw [e, sub_nonneg, div_le_iff₀ hpos] at this
    exact this

/-- Abstract form of the bound. -/
theorem eliminated_current {F : Finset Nat} {τ : ℚ} (hτ : 0 ≤ τ) {I : List Nat} {G G' : Nat → Nat → ℚ} (hG : IsGraph F G)
    (hnd : I.Nodup) (he : Eliminated F 1 1 τ G I G') {u : Nat → ℚ} {m M : ℚ} (hmM : m ≤ M)
    (hr : ∀ x, x ∉ I → m ≤ u x ∧ u x ≤ M) (hu : ∀ i ∈ I, flow F G u i = 0) {x : Nat} (hx : x ∉ I) :
    |flow F G u x - flow F G' u x| ≤ I.length * τ * (M - m) := by
  have hG' := Eliminated.graph hG he
  have hiso : ∀ y ∈ I, ∀ z, G' y z = 0 := fun y hy => Eliminated.isolated hG he y (Or.inl hy)
  by_cases hxF : x ∈ F
  swap
  · have h1 : flow F G u x = 0 := Finset.sum_eq_zero fun y _ => by rw [hG.supp x y hxF, zero_mul]
    have h2 : flow F G' u x = 0 := Finset.sum_eq_zero fun y _ => by rw [hG'.supp x y hxF, zero_mul]
    rw [h1, h2, sub_zero, abs_zero]
    exact mul_nonneg (mul_nonneg (by positivity) hτ) (by linarith)
  have bound : ∀ (w : Nat → ℚ) (a b : ℚ), a ≤ b → (∀ x, x ∉ I → a ≤ w x ∧ w x ≤ b) → (∀ i ∈ I, flow F G w i = 0) →
      0 ≤ power F G w w - power F G' w w ∧ power F G w w - power F G' w w ≤ I.length * τ * (b - a) ^ 2 := by
    intro w a b hab hw hfl
    obtain ⟨h1, h2⟩ := eliminated_power (by norm_num : (0 : ℚ) < 1) le_rfl le_rfl hτ I G G' hG hnd he w a b hab hw hfl
    rw [one_pow, one_mul] at h1 h2
    constructor
    · linarith
    · have : (I.length : ℚ) * τ * (b - a) ^ 2 = I.length * (τ * (b - a) ^ 2) := by ring
      linarith
  obtain ⟨e, h1, h2, h3⟩ := harmonic_exists I G hG hnd (fun y => if y = x then (1 : ℚ) else 0) 0 1 zero_le_one
    (fun y _ => by
      show (0 : ℚ) ≤ (if y = x then 1 else 0) ∧ (if y = x then (1 : ℚ) else 0) ≤ 1
      split_ifs <;> norm_num)
  have pick : ∀ f : Nat → ℚ, (∀ y ∈ I, f y = 0) → ∑ y ∈ F, e y * f y = f x := by
    intro f hf
    rw [Finset.sum_eq_single x]
    · rw [h1 x hx, if_pos rfl, one_mul]
    · intro y _ hyx
      by_cases hy : y ∈ I
      · rw [hf y hy, mul_zero]
      · rw [h1 y hy, if_neg hyx, zero_mul]
    · intro h; exact absurd hxF h
  have p1 : power F G e u = flow F G u x := pick _ hu
  have p2 : power F G' e u = flow F G' u x := pick _ fun y hy =>
    Finset.sum_eq_zero fun z _ => by rw [hiso y hy, zero_mul]
  obtain ⟨du0, du⟩ := bound u m M hmM hr hu
  obtain ⟨de0, de⟩ := bound e 0 1 zero_le_one (fun y _ => h2 y) h3
  rw [sub_zero, one_pow, mul_one] at de
  have hk : 0 ≤ (I.length : ℚ) * τ := mul_nonneg (by positivity) hτ
  have hsq := form_bound (A := I.length * τ * (M - m) ^ 2) (B := I.length * τ)
    (d := flow F G u x - flow F G' u x) hk (fun h => by rw [h, zero_mul]) (fun t => by
      -- any range will do
      have hharm : ∀ i ∈ I, flow F G (fun y => u y + t * e y) i = 0 := fun i hi => by
        rw [flow_add, hu i hi, h3 i hi]; ring
      have hrange : ∀ y, y ∉ I → m - |t| ≤ u y + t * e y ∧ u y + t * e y ≤ M + |t| := by
        intro y hy
        have := hr y hy
        have ht : |t * e y| ≤ |t| := by
          rw [abs_mul, abs_of_nonneg (h2 y).1]
          exact mul_le_of_le_one_right (abs_nonneg t) (h2 y).2
        have := abs_le.1 ht
        constructor <;> linarith
      have habs := abs_nonneg t
      have h4 := (bound (fun y => u y + t * e y) (m - |t|) (M + |t|) (by linarith) hrange hharm).1
      rw [power_add hG, power_add hG', p1, p2] at h4
      nlinarith [mul_self_nonneg t])
  refine abs_le_of_sq_le_sq ?_ (mul_nonneg hk (by linarith))
  nlinarith

/-- **C25, an error bound for every network.** For every network with non-negative conductances and all voltages of the
precious nodes: the inner nodes can take voltages at which no current is injected into them, and whatever such voltages they
take, the current at every precious node of the original network differs from that of the reduced network by at most
1e-10 S for every inner node times the range of the given voltages. -/
theorem eliminate_all_error (n : Net) (hn : Reachable n) (h0 : ∀ a b r, n.s.get? (a, b) = some r → 0 ≤ n.heap r)
    (inner : Finset Nat) (hin : ∀ i, i ∈ inner ↔ (n.nodeToS.get? i).isSome ∧ i ∉ n.precious) :
    ∃ n', n.eliminateAll = .ok n' ∧ ∀ (v : Nat → ℚ) (m M : ℚ), (∀ x ∈ n.precious, m ≤ v x ∧ v x ≤ M) →
      (∃ u, (∀ x ∈ n.precious, u x = v x) ∧ ∀ i ∈ inner, current n u i = 0) ∧
      ∀ u, (∀ x ∈ n.precious, u x = v x) → (∀ i ∈ inner, current n u i = 0) → ∀ x ∈ n.precious,
        |current n u x - current n' v x| ≤ inner.card / 10000000000 * (M - m) := by
  have h := reachable_inv hn
  have hg0 : ∀ x y, 0 ≤ g n x y := by
    intro x y
    cases hs : S n x y with
    | none => unfold g; rw [hs]
    | some r => rw [g_of_S hs]; exact h0 x y r hs
  have hG := net_graph h hg0
  obtain ⟨is, n', h1, h2, h3, h4⟩ := eliminateAll_spec h
  have hmem : ∀ i, i ∈ is ↔ i ∈ inner := fun i => by rw [h4, hin, Dict.mem_keys_iff]
  have hlen : is.length = inner.card := by
    rw [← List.toFinset_card_of_nodup h3]
    congr 1
    ext i
    rw [List.mem_toFinset, hmem]
  obtain ⟨he, hV'⟩ := run_eliminated is n n' h hG h2
  have hG' := Eliminated.graph hG he
  -- nodes that are neither precious nor eliminated have no connections
  have hother : ∀ x, x ∉ n.precious → x ∉ inner → ∀ y, g n x y = 0 := by
    intro x hx hxi y
    cases hs : S n x y with
    | none => unfold g; rw [hs]
    | some r =>
      obtain ⟨l, hl, -⟩ := (h.g.star _ _ _).2 hs
      exact absurd ((hin x).2 ⟨by rw [show n.nodeToS.get? x = some l from hl]; rfl, hx⟩) hxi
  have hother' : ∀ x, x ∉ n.precious → ∀ y, g n' x y = 0 := by
    intro x hx y
    refine Eliminated.isolated hG he x ?_ y
    by_cases hxi : x ∈ inner
    · exact Or.inl ((hmem x).2 hxi)
    · exact Or.inr (hother x hx hxi)
  refine ⟨n', h1, fun v m M hv => ⟨?_, fun u hu hcur x hx => ?_⟩⟩
  · by_cases hne : ∃ z, z ∈ n.precious
    · obtain ⟨z, hz⟩ := hne
      have hmM : m ≤ M := (hv z hz).1.trans (hv z hz).2
      obtain ⟨w, w1, _, w3⟩ := harmonic_exists is (g n) hG h3 (fun x => if x ∈ n.precious then v x else m) m M hmM
        (fun x _ => by
          show m ≤ (if x ∈ n.precious then v x else m) ∧ (if x ∈ n.precious then v x else m) ≤ M
          split_ifs with hx
          · exact hv x hx
          · exact ⟨le_rfl, hmM⟩)
      refine ⟨w, fun x hx => ?_, fun i hi => ?_⟩
      · rw [w1 x fun hc => ((h4 x).1 hc).2 hx, if_pos hx]
      · rw [current_flow h hG]; exact w3 i ((hmem i).2 hi)
    · refine ⟨fun _ => 0, fun x hx => absurd ⟨x, hx⟩ hne, fun i _ => ?_⟩
      rw [current_flow h hG]
      unfold flow
      simp
  · have hmM : m ≤ M := (hv x hx).1.trans (hv x hx).2
    have hxi : x ∉ is := fun hc => ((h4 x).1 hc).2 hx
    obtain ⟨u2, hu2⟩ : ∃ u2 : Nat → ℚ, u2 = fun y => if y ∈ n.precious ∨ y ∈ inner then u y else m := ⟨_, rfl⟩
    have hu2' : ∀ y, u2 y = u y ∨ ∀ z, g n y z = 0 := by
      intro y
      by_cases hy : y ∈ n.precious ∨ y ∈ inner
      · left; rw [hu2]; exact if_pos hy
      · rw [not_or] at hy; exact Or.inr (hother y hy.1 hy.2)
    have hv2 : ∀ y, u2 y = v y ∨ ∀ z, g n' y z = 0 := by
      intro y
      by_cases hy : y ∈ n.precious
      · left; rw [hu2]; simp only [hy, true_or, if_true]; exact hu y hy
      · exact Or.inr (hother' y hy)
    have key := eliminated_current (τ := tiny) (by unfold tiny; norm_num) hG h3 he (u := u2) hmM (fun y hy => by
        rw [hu2]
        simp only
        have hyi : y ∉ inner := fun hc => hy ((hmem y).2 hc)
        by_cases hyp : y ∈ n.precious
        · simp only [hyp, true_or, if_true]; rw [hu y hyp]; exact hv y hyp
        · simp only [hyp, hyi, or_self, if_false]; exact ⟨le_rfl, hmM⟩)
      (fun i hi => by
        rw [flow_congr hG hu2', ← current_flow h hG]
        exact hcur i ((hmem i).1 hi)) hxi
    rw [flow_congr hG hu2', flow_congr hG' hv2, ← current_flow h hG, ← current_flow hV' hG', hlen] at key
    refine key.trans (le_of_eq ?_)
    unfold tiny
    ring

/-- The chain of two tiny resistors meets the hypotheses, and its error is neither zero nor above the bound: 1 V between
its ends drives 5e-12 A before and nothing afterwards; the bound is 1e-10 A. -/
example : ∃ n n', Reachable n ∧ n.eliminateAll = .ok n' ∧ ∃ u v : Nat → ℚ, (∀ y ∈ n.precious, u y = v y) ∧
    current n u 1 = 0 ∧ current n u 0 = 1 / 200000000000 ∧ current n' v 0 = 0 ∧
    |current n u 0 - current n' v 0| ≤ (1 : ℚ) / 10000000000 * (1 - 0) := by
  have hl : LegalHistory {} (tinyChain ++ [.markPrecious 0, .markPrecious 2]) := legalHistory_of_B _ _ (by decide +kernel)
  obtain ⟨n, h1, -⟩ := run_inv (tinyChain ++ [.markPrecious 0, .markPrecious 2]) {} inv_init hl
  have h1' : run (tinyChain ++ [.markPrecious 0, .markPrecious 2]) = .ok n := h1
  have e1 : (match run (tinyChain ++ [.markPrecious 0, .markPrecious 2]) with
      | .ok n => decide (n.s = [((0, 1), 0), ((1, 0), 0), ((1, 2), 1), ((2, 1), 1)] ∧
          n.heap 0 = 1 / 100000000000 ∧ n.heap 1 = 1 / 100000000000 ∧ n.nodeToS.keys = [0, 1, 2] ∧
          n.precious = [2, 0]) &&
          (match n.eliminateAll with
          | .ok n' => decide (n'.s = [])
          | .error _ => false)
      | .error _ => false) = true := by decide +kernel
  rw [h1'] at e1
  simp only [Bool.and_eq_true, decide_eq_true_eq] at e1
  obtain ⟨⟨es, e0, e1, ek, ep⟩, es'⟩ := e1
  obtain ⟨n', h2, h3⟩ := eliminate_all_error n ⟨_, hl, h1'⟩ (fun a b r hr => by
      have hm := Dict.mem_of_get? hr
      rw [es] at hm
      simp only [List.mem_cons, Prod.mk.injEq, List.not_mem_nil, or_false] at hm
      rcases hm with ⟨-, rfl⟩ | ⟨-, rfl⟩ | ⟨-, rfl⟩ | ⟨-, rfl⟩ <;> simp [e0, e1]) {1} (fun i => by
      rw [← Dict.mem_keys_iff, ek, ep]
      simp only [Finset.mem_singleton, List.mem_cons, List.not_mem_nil, or_false]
      omega)
  rw [h2] at es'
  simp only [decide_eq_true_eq] at es'
  obtain ⟨v, hv⟩ : ∃ v : Nat → ℚ, v = fun x => if x = 0 then 1 else 0 := ⟨_, rfl⟩
  obtain ⟨u, hu⟩ : ∃ u : Nat → ℚ, u = fun x => if x = 0 then 1 else if x = 1 then 1 / 2 else 0 := ⟨_, rfl⟩
  have huv : ∀ y ∈ n.precious, u y = v y := by
    rw [ep]
    intro y hy
    simp only [List.mem_cons, List.not_mem_nil, or_false] at hy
    rcases hy with rfl | rfl <;> simp [hu, hv]
  have hc1 : current n u 1 = 0 := by
    unfold current
    rw [es]
    simp [e0, e1, hu]
    norm_num
  refine ⟨n, n', ⟨_, hl, h1'⟩, h2, u, v, huv, hc1, ?_, ?_, ?_⟩
  · unfold current
    rw [es]
    simp [e0, hu]
    norm_num
  · unfold current; rw [es']; rfl
  · have := (h3 v 0 1 fun y _ => by rw [hv]; simp only; split_ifs <;> norm_num).2 u huv (fun i hi => by
      rw [Finset.mem_singleton.1 hi]; exact hc1) 0 (by rw [ep]; simp)
    rw [Finset.card_singleton] at this
    exact_mod_cast this

end Verif.RNet
