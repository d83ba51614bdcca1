import Verif.RNet.Props

/-!
# When the reduction of a resistor network is exact (C25)

`eliminate_node` drops stars with a total conductance of at most 1e-10 S. With `m` nodes to eliminate this never happens if all
conductances of the network are larger than `m` times this value: the conductance at a node that is next to be eliminated is that
of a network in which at most `m` resistors lie one after the other.
-/

namespace Verif.RNet

/-- The currents out of a set of nodes are those through the resistors that leave it. -/
theorem cut_current {n : Net} (h : Inv n) (u : Nat → ℚ) (F A : Finset Nat) (hAF : A ⊆ F)
    (hF : ∀ x y, (x, y) ∈ n.s.keys → y ∈ F) :
    ∑ x ∈ A, current n u x = ∑ x ∈ A, ∑ y ∈ F \ A, g n x y * (u x - u y) := by
  have h1 : ∀ x ∈ A, current n u x = ∑ y ∈ F \ A, g n x y * (u x - u y) + ∑ y ∈ A, g n x y * (u x - u y) := by
    intro x _
    rw [current_eq h u x F (hF x), ← Finset.sum_sdiff hAF]
  rw [Finset.sum_congr rfl h1, Finset.sum_add_distrib]
  have h2 : ∑ x ∈ A, ∑ y ∈ A, g n x y * (u x - u y) = - ∑ x ∈ A, ∑ y ∈ A, g n x y * (u x - u y) := by
    conv_lhs => rw [Finset.sum_comm]
    rw [← Finset.sum_neg_distrib]
    refine Finset.sum_congr rfl fun x _ => ?_
    rw [← Finset.sum_neg_distrib]
    refine Finset.sum_congr rfl fun y _ => ?_
    rw [g_sym h y x]
    ring
  have h3 : ∑ x ∈ A, ∑ y ∈ A, g n x y * (u x - u y) = 0 := by linarith
  rw [h3, add_zero]

/-- If one volt at node `i`, with the nodes `E` floating and all others at zero, drives a current at all, this current is more
than `c / (|E| + 1)`, where all conductances are above `c`. -/
theorem current_bound {n : Net} (h : Inv n) (c : ℚ) (hc0 : 0 < c) (hc : ∀ x y, g n x y = 0 ∨ c < g n x y) (i : Nat) (E : List Nat)
    (u : Nat → ℚ) (hu1 : u i = 1) (hu0 : ∀ x, x ∉ E → x ≠ i → u x = 0) (hz : ∀ e ∈ E, e ≠ i → current n u e = 0)
    (ht : 0 < current n u i) : c < current n u i * (E.length + 1) := by
  classical
  by_contra hneg
  rw [not_lt] at hneg
  obtain ⟨t, htdef⟩ : ∃ t, t = current n u i := ⟨_, rfl⟩
  rw [← htdef] at ht hneg
  obtain ⟨F, hFdef⟩ : ∃ F, F = nbrs n n i ∪ E.toFinset := ⟨_, rfl⟩
  have hF : ∀ x y, (x, y) ∈ n.s.keys → y ∈ F := fun x y hxy => by
    rw [hFdef]; exact Finset.mem_union_left _ (nbrs_left n n i x y hxy)
  have hiF : i ∈ F := by rw [hFdef]; exact Finset.mem_union_left _ (by unfold nbrs; simp)
  have hg0 : ∀ x y, 0 ≤ g n x y := fun x y => by
    rcases hc x y with h | h
    · rw [h]
    · linarith
  -- a cut at a positive voltage has a resistor with a small voltage drop
  have hcut : ∀ θ : ℚ, 0 < θ → θ ≤ 1 → ∃ x y, x ∈ F ∧ y ∈ F ∧ θ ≤ u x ∧ u y < θ ∧ c * (u x - u y) < t := by
    intro θ h0 h1
    obtain ⟨A, hA⟩ : ∃ A, A = F.filter fun x => θ ≤ u x := ⟨_, rfl⟩
    have hAF : A ⊆ F := by rw [hA]; exact Finset.filter_subset _ _
    have hiA : i ∈ A := by rw [hA, Finset.mem_filter, hu1]; exact ⟨hiF, h1⟩
    have hsum : ∑ x ∈ A, current n u x = t := by
      rw [htdef]
      refine Finset.sum_eq_single_of_mem i hiA fun x hx hxi => ?_
      by_cases hE : x ∈ E
      · exact hz x hE hxi
      · rw [hA, Finset.mem_filter, hu0 x hE hxi] at hx
        exact absurd hx.2 (not_le.2 h0)
    rw [cut_current h u F A hAF hF] at hsum
    have hterm : ∀ x ∈ A, ∀ y ∈ F \ A, θ ≤ u x ∧ u y < θ := by
      intro x hx y hy
      rw [hA, Finset.mem_filter] at hx
      rw [Finset.mem_sdiff, hA, Finset.mem_filter] at hy
      exact ⟨hx.2, not_le.1 fun h => hy.2 ⟨hy.1, h⟩⟩
    have hnn : ∀ x ∈ A, ∀ y ∈ F \ A, 0 ≤ g n x y * (u x - u y) := fun x hx y hy => by
      obtain ⟨h1, h2⟩ := hterm x hx y hy
      exact mul_nonneg (hg0 x y) (by linarith)
    have hpos : ∃ x ∈ A, 0 < ∑ y ∈ F \ A, g n x y * (u x - u y) := by
      by_contra hno
      push Not at hno
      have := Finset.sum_nonpos hno
      linarith
    obtain ⟨x, hx, hpx⟩ := hpos
    obtain ⟨y, hy, hpy⟩ : ∃ y ∈ F \ A, 0 < g n x y * (u x - u y) := by
      by_contra hno
      push Not at hno
      have := Finset.sum_nonpos hno
      linarith
    obtain ⟨h2, h3⟩ := hterm x hx y hy
    refine ⟨x, y, hAF hx, (Finset.mem_sdiff.1 hy).1, h2, h3, ?_⟩
    have hgt : c < g n x y := by
      rcases hc x y with h | h
      · rw [h, zero_mul] at hpy; exact absurd hpy (lt_irrefl _)
      · exact h
    have h4 : g n x y * (u x - u y) ≤ ∑ y ∈ F \ A, g n x y * (u x - u y) :=
      Finset.single_le_sum (f := fun y => g n x y * (u x - u y)) (fun y hy => hnn x hx y hy) hy
    have h5 : ∑ y ∈ F \ A, g n x y * (u x - u y) ≤ t := by
      rw [← hsum]
      exact Finset.single_le_sum (f := fun x => ∑ y ∈ F \ A, g n x y * (u x - u y))
        (fun x hx => Finset.sum_nonneg (hnn x hx)) hx
    have h6 : c * (u x - u y) < g n x y * (u x - u y) := mul_lt_mul_of_pos_right hgt (by linarith)
    linarith
  obtain ⟨δ, hδ⟩ : ∃ δ, δ = t / c := ⟨_, rfl⟩
  have hδ0 : 0 < δ := by rw [hδ]; exact div_pos ht hc0
  have hδc : c * δ = t := by rw [hδ]; field_simp
  have hk : δ * (E.length + 1) ≤ 1 := by
    rw [hδ, div_mul_eq_mul_div, div_le_one hc0]
    exact hneg
  -- the nodes above 1 - m δ
  have hcard : ∀ m : Nat, m ≤ E.length + 1 → m + 1 ≤ (F.filter fun x => 0 < u x ∧ 1 - m * δ ≤ u x).card := by
    intro m
    induction m with
    | zero =>
      intro _
      refine Finset.card_pos.2 ⟨i, ?_⟩
      rw [Finset.mem_filter, hu1]
      exact ⟨hiF, by norm_num, by norm_num⟩
    | succ m ih =>
      intro hm
      have hmE : ((m : ℚ) + 1) ≤ E.length + 1 := by exact_mod_cast hm
      have hmδ : (m : ℚ) * δ + δ ≤ 1 := by nlinarith
      have hm0 : (0 : ℚ) ≤ m := by positivity
      obtain ⟨x, y, -, hyF, hx, hy, hd⟩ := hcut (1 - m * δ) (by linarith) (by nlinarith)
      have hdrop : u x - u y < δ := by
        rw [← hδc] at hd
        exact lt_of_mul_lt_mul_left hd hc0.le
      have hlt : (F.filter fun x => 0 < u x ∧ 1 - m * δ ≤ u x).card <
          (F.filter fun x => 0 < u x ∧ 1 - (m + 1 : ℕ) * δ ≤ u x).card := by
        refine Finset.card_lt_card (Finset.ssubset_iff_of_subset ?_ |>.2 ⟨y, ?_, ?_⟩)
        · intro z hz
          rw [Finset.mem_filter] at hz ⊢
          refine ⟨hz.1, hz.2.1, ?_⟩
          push_cast
          linarith [hz.2.2]
        · rw [Finset.mem_filter]
          push_cast
          exact ⟨hyF, by linarith, by linarith⟩
        · rw [Finset.mem_filter]
          rintro ⟨-, -, h2⟩
          linarith
      have := ih (by omega)
      omega
  have h1 := hcard (E.length + 1) le_rfl
  have h2 : (F.filter fun x => 0 < u x ∧ 1 - (E.length + 1 : ℕ) * δ ≤ u x) ⊆ insert i E.toFinset := by
    intro x hx
    rw [Finset.mem_filter] at hx
    rw [Finset.mem_insert, List.mem_toFinset]
    by_contra hno
    push Not at hno
    rw [hu0 x hno.2 hno.1] at hx
    exact absurd hx.2.1 (lt_irrefl _)
  have h3 := Finset.card_le_card h2
  have h4 := Finset.card_insert_le i E.toFinset
  have h5 := List.toFinset_card_le E
  omega

theorem exactRun_append : ∀ (is : List Nat) (n : Net) (i : Nat), ExactRun n is →
    (∀ n', is.foldlM (fun n i => n.eliminateNode i) n = .ok n' → ExactStar n' i) → ExactRun n (is ++ [i])
  | [], n, i, _, h => ⟨h n rfl, fun _ _ => trivial⟩
  | j :: is, n, i, h, h' => ⟨h.1, fun n' hn => exactRun_append is n' i (h.2 n' hn) fun n'' h2 => h' n'' (by
      rw [List.foldlM_cons, hn]; exact h2)⟩

theorem g_nonneg_run : ∀ (is : List Nat) (n n' : Net), Inv n → is.foldlM (fun n i => n.eliminateNode i) n = .ok n' →
    (∀ x y, 0 ≤ g n x y) → ∀ x y, 0 ≤ g n' x y
  | [], n, n', _, h, h0 => by cases h; exact h0
  | i :: is, n, n', hI, h, h0 => by
    obtain ⟨n1, h1, hV1, hg, -⟩ := eliminateNode_spec hI i
    rw [List.foldlM_cons, h1] at h
    refine g_nonneg_run is n1 n' hV1 h fun x y => ?_
    rw [hg]
    split_ifs
    · exact le_rfl
    · refine add_nonneg (h0 x y) (div_nonneg (mul_nonneg (h0 i x) (h0 i y)) ?_)
      rw [gsum_eq hI i _ (nbrs_left n n i i)]
      exact Finset.sum_nonneg fun y _ => h0 i y
    · exact h0 x y

/-- After the elimination of `E` the star of another node is not tiny, if the conductances are large enough. -/
theorem exactStar_of {n n' : Net} (h : Inv n) (E : List Nat) (hrun : E.foldlM (fun n i => n.eliminateNode i) n = .ok n')
    (hex : ExactRun n E) (hc : ∀ x y, g n x y = 0 ∨ ((E.length : ℚ) + 1) / 10000000000 < g n x y) (i : Nat) (hi : i ∉ E) :
    ExactStar n' i := by
  obtain ⟨n1, h1, hV, hk, -, -, -⟩ := elimList_spec E n h
  rw [hrun] at h1; cases h1
  have hcpos : (0 : ℚ) < ((E.length : ℚ) + 1) / 10000000000 := by positivity
  have hg0 : ∀ x y, 0 ≤ g n x y := fun x y => by
    rcases hc x y with h | h
    · rw [h]
    · linarith
  have hg' := g_nonneg_run E n n' h hrun hg0
  obtain ⟨v, hv⟩ : ∃ v : Nat → ℚ, v = fun x => if x = i then 1 else 0 := ⟨_, rfl⟩
  have hvi : v i = 1 := by rw [hv]; simp
  have hT : totalConductance n' i = current n' v i := by
    rw [total_eq hV, gsum_eq hV i _ (nbrs_left n' n' i i), current_eq hV v i _ (nbrs_left n' n' i i)]
    refine Finset.sum_congr rfl fun y _ => ?_
    by_cases hy : y = i
    · subst hy; rw [g_self hV]; ring
    · rw [hv]; simp [hy]
  have hT0 : 0 ≤ totalConductance n' i := by
    rw [total_eq hV, gsum_eq hV i _ (nbrs_left n' n' i i)]
    exact Finset.sum_nonneg fun y _ => hg' i y
  rcases hT0.eq_or_lt with h0 | h0
  · refine Or.inr fun y r hr => ?_
    rw [total_eq hV, gsum_eq hV i _ (nbrs_left n' n' i i)] at h0
    have hy : y ∈ nbrs n' n' i := nbrs_left n' n' i i y (by rw [Dict.mem_keys_iff, hr]; rfl)
    have := (Finset.sum_eq_zero_iff_of_nonneg fun y _ => hg' i y).1 h0.symm y hy
    rwa [g_of_S (show S n' i y = some r from hr)] at this
  · refine Or.inl ?_
    rw [abs_of_pos h0]
    have hiso : ∀ e ∈ E, current n' v e = 0 := fun e he => by
      refine current_of_isolated hV (fun y => ?_) v
      cases hs : S n' e y with
      | none => unfold g; rw [hs]
      | some r =>
        obtain ⟨l, hl, -⟩ := (hV.g.star _ _ _).2 hs
        exact absurd he ((hk e).1 (mem_tKeys.2 ⟨l, hl⟩)).2
    obtain ⟨u, hu, hcur⟩ := (sameBehaviour_run E n n' h hrun hex v (fun x => current n' v x) hiso).1 fun _ => rfl
    have hb := current_bound h _ hcpos hc i E u (by rw [hu i hi, hvi])
      (fun x hx hxi => by rw [hu x hx, hv]; simp [hxi]) (fun e he _ => by rw [hcur, hiso e he]) (by rw [hcur, ← hT]; exact h0)
    rw [hcur, ← hT, div_lt_iff₀ (by norm_num)] at hb
    have hE : (0 : ℚ) < (E.length : ℚ) + 1 := by positivity
    by_contra hle
    rw [gt_iff_lt, not_lt] at hle
    have : totalConductance n' i * 10000000000 ≤ 1 := by
      rw [le_div_iff₀ (by norm_num)] at hle; exact hle
    nlinarith

theorem exactRun_of {n : Net} (h : Inv n) (is : List Nat) (hnd : is.Nodup)
    (hc : ∀ x y, g n x y = 0 ∨ (is.length : ℚ) / 10000000000 < g n x y) : ExactRun n is := by
  induction is using List.reverseRecOn with
  | nil => trivial
  | append_singleton E i ih =>
    rw [List.nodup_append] at hnd
    have hlen : ((E ++ [i]).length : ℚ) = (E.length : ℚ) + 1 := by simp
    rw [hlen] at hc
    have hex := ih hnd.1 fun x y => (hc x y).imp_right fun h => lt_of_le_of_lt (by
      apply div_le_div_of_nonneg_right _ (by norm_num)
      linarith) h
    exact exactRun_append E n i hex fun n' hrun =>
      exactStar_of h E hrun hex hc i fun hi => hnd.2.2 i hi i (by simp) rfl

/-- **C25** for networks without tiny conductances (partial: networks with conductances that are not zero and at most 1e-10 S
times the number of nodes to eliminate are missing, see `eliminate_node_tiny_fails`). If every conductance of the network is
zero or larger than this, the reduced network behaves at the remaining nodes exactly like the original one. -/
theorem eliminate_all_exact_partial (n : Net) (hn : Reachable n) (inner : Finset Nat)
    (hin : ∀ i, i ∈ inner ↔ (n.nodeToS.get? i).isSome ∧ i ∉ n.precious)
    (hc : ∀ a b r, n.s.get? (a, b) = some r → n.heap r = 0 ∨ (inner.card : ℚ) / 10000000000 < n.heap r) :
    ∃ n', n.eliminateAll = .ok n' ∧ SameBehaviour n n' inner.toList := by
  have h := reachable_inv hn
  obtain ⟨n', is, h1, h2, h3, h4⟩ := eliminate_all_preserves_behaviour_partial n hn
  have hlen : is.length = inner.card := by
    rw [← List.toFinset_card_of_nodup h2]
    congr 1
    ext i
    rw [List.mem_toFinset, h3, hin]
  have hex : ExactRun n is := by
    refine exactRun_of h is h2 fun x y => ?_
    rw [hlen]
    cases hs : S n x y with
    | none => left; unfold g; rw [hs]
    | some r => rw [g_of_S hs]; exact hc x y r hs
  refine ⟨n', h1, fun v I hI => ?_⟩
  have hmem : ∀ i, i ∈ inner.toList ↔ i ∈ is := fun i => by rw [Finset.mem_toList, hin, h3]
  rw [h4 hex v I fun e he => hI e ((hmem e).2 he)]
  simp only [hmem]

/-- The bound is met by the mesh: three nodes to eliminate, all conductances at least 1 S. -/
example : ∃ n n', Reachable n ∧ n.eliminateAll = .ok n' ∧ SameBehaviour n n' (Finset.toList {1, 2, 3}) := by
  have hl : LegalHistory {} sampleMesh := legalHistory_of_B _ _ (by decide +kernel)
  obtain ⟨n, h1, -⟩ := run_inv sampleMesh {} inv_init hl
  have h1' : run sampleMesh = .ok n := h1
  have e1 : (match run sampleMesh with
      | .ok n => (n.s.all fun kv => decide (1 ≤ n.heap kv.2)) && decide (n.nodeToS.keys = [0, 1, 2, 3, 4]) &&
          decide (n.precious = [4, 0])
      | .error _ => false) = true := by decide +kernel
  rw [h1'] at e1
  simp only [Bool.and_eq_true, decide_eq_true_eq, List.all_eq_true] at e1
  obtain ⟨n', h2, h3⟩ := eliminate_all_exact_partial n ⟨_, hl, h1'⟩ {1, 2, 3} (fun i => by
      rw [← Dict.mem_keys_iff, e1.1.2, e1.2]
      simp only [Finset.mem_insert, Finset.mem_singleton, List.mem_cons, List.not_mem_nil, or_false]
      omega) fun a b r hr => Or.inr (lt_of_lt_of_le (by norm_num) (e1.1.1 _ (Dict.mem_of_get? hr)))
  exact ⟨n, n', ⟨_, hl, h1'⟩, h2, h3⟩

end Verif.RNet
