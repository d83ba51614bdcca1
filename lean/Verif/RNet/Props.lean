import Verif.Common.Exc
import Verif.RNet.Loop
import Mathlib.Tactic.FieldSimp
import Mathlib.Tactic.Positivity
import Mathlib.Tactic.NormNum
import Mathlib.Data.List.Permutation

/-!
# Properties of resistor networks (C23–C27, C50)
-/

namespace Verif.RNet

/-! ## Specification -/

/-- A caller may only connect two different nodes that exist, and contract into a node that exists.  All other calls are
unrestricted. -/
def Legal (n : Net) : Op → Prop
  | .addCond a b _ => a ≠ b ∧ (n.locations.get? a).isSome ∧ (n.locations.get? b).isSome
  | .connectNodes a _ => (n.locations.get? a).isSome
  | _ => True

/-- Every call of the history is legal in the state in which it is made. -/
def LegalHistory : Net → List Op → Prop
  | _, [] => True
  | n, op :: h => Legal n op ∧ ∀ n', n.step op = .ok n' → LegalHistory n' h

/-- Networks a program can build. -/
def Reachable (n : Net) : Prop := ∃ h, LegalHistory {} h ∧ run h = .ok n

/-- Consistency of the tables as a user understands it. -/
structure Consistent (n : Net) : Prop where
  /-- a resistor is the same object seen from both ends -/
  symmetric : ∀ a b r, n.s.get? (a, b) = some r → n.s.get? (b, a) = some r
  /-- no node is connected to itself -/
  noSelf : ∀ a, n.s.get? (a, a) = none
  /-- both ends are existing nodes -/
  known : ∀ a b r, n.s.get? (a, b) = some r → ∃ p, n.locations.get? a = some p
  /-- the resistor is listed exactly once at its end -/
  listedOnce : ∀ a b r, n.s.get? (a, b) = some r →
    ∃ star, n.nodeToS.get? a = some star ∧ star.filter (fun e => e.2 = b) = [(r, b)]
  /-- nothing else is listed -/
  listedOnly : ∀ a star r b, n.nodeToS.get? a = some star → (r, b) ∈ star → n.s.get? (a, b) = some r
  /-- points and node ids correspond one to one -/
  located : ∀ p i, n.nodes.get? p = some i ↔ n.locations.get? i = some p
  /-- different resistors do not share a conductance object -/
  unshared : ∀ a b c d r, n.s.get? (a, b) = some r → n.s.get? (c, d) = some r →
    (a = c ∧ b = d) ∨ (a = d ∧ b = c)

/-- Current flowing out of node `x` through its resistors for the node voltages `v` (Ohm's and Kirchhoff's laws). -/
def current (n : Net) (v : Nat → ℚ) (x : Nat) : ℚ :=
  ((n.s.filter fun kv => kv.1.1 = x).map fun kv => n.heap kv.2 * (v x - v kv.1.2)).sum

/-- Sum of the conductances at a node. -/
def totalConductance (n : Net) (x : Nat) : ℚ :=
  ((n.s.filter fun kv => kv.1.1 = x).map fun kv => n.heap kv.2).sum

/-- Behaviour preserved while the nodes `E` disappear: node voltages `v` and injected currents `I` (no current being
injected at the nodes `E`) are possible in the new network iff, for a suitable choice of the voltages at `E`, they are
possible in the old network. -/
def SameBehaviour (old new : Net) (E : List Nat) : Prop :=
  ∀ (v I : Nat → ℚ), (∀ e ∈ E, I e = 0) →
    ((∀ x, current new v x = I x) ↔ ∃ u : Nat → ℚ, (∀ x, x ∉ E → u x = v x) ∧ ∀ x, current old u x = I x)

/-- The star of a node is outside the numerical cut-off of `eliminate_node`: its total conductance exceeds `1e-10` in
magnitude, or there is nothing to preserve because all its conductances are zero. -/
def ExactStar (n : Net) (i : Nat) : Prop :=
  |totalConductance n i| > 1 / 10000000000 ∨ ∀ y r, n.s.get? (i, y) = some r → n.heap r = 0

/-- No elimination of the sequence meets a star inside the numerical cut-off. -/
def ExactRun : Net → List Nat → Prop
  | _, [] => True
  | n, i :: is => ExactStar n i ∧ ∀ n', n.eliminateNode i = .ok n' → ExactRun n' is

/-! ## Auxiliary facts -/

theorem inv_init : Inv ({} : Net) := by
  refine ⟨⟨by simp, by simp, by simp, by simp, ?_, ?_, ?_, ?_⟩, ⟨?_, ?_, ?_, ?_⟩, ?_⟩
  · intro p i; simp
  · intro i p h; simp at h
  · intro i h; simp at h
  · intro x y r h; simp [S] at h
  · intro x y; rfl
  · intro x; rfl
  · intro x r y; simp [S, T]
  · intro x l h; simp [T] at h
  · intro a b c d r h; simp [S] at h

instance (n : Net) (op : Op) : Decidable (Legal n op) := by
  cases op <;> simp only [Legal] <;> infer_instance

/-- Executable form of `LegalHistory`, used for the examples only. -/
def legalHistoryB : Net → List Op → Bool
  | _, [] => true
  | n, op :: h => decide (Legal n op) && match n.step op with
    | .ok n' => legalHistoryB n' h
    | .error _ => true

theorem legalHistory_of_B : ∀ (h : List Op) (n : Net), legalHistoryB n h = true → LegalHistory n h
  | [], _, _ => trivial
  | op :: h, n, hb => by
    simp only [legalHistoryB, Bool.and_eq_true, decide_eq_true_eq] at hb
    refine ⟨hb.1, fun n' hn => ?_⟩
    have := hb.2
    rw [hn] at this
    exact legalHistory_of_B h n' this

private theorem nodeId_inv {n : Net} (h : Inv n) (p : Point) : Inv (n.nodeId p).1 ∧ (n.nodeId p).1.heap = n.heap := by
  unfold Net.nodeId
  cases hp : n.nodes.get? p with
  | some i => exact ⟨h, rfl⟩
  | none =>
    refine ⟨⟨⟨h.base.sKeys, h.base.tKeys, Dict.nodup_keys_set _ _ _ h.base.nKeys,
      Dict.nodup_keys_set _ _ _ h.base.lKeys, ?_, ?_, ?_, h.base.refs⟩, h.g, h.inj⟩, rfl⟩
    · intro q i
      simp only [Dict.get?_set]
      have hfresh : ∀ q, n.locations.get? n.nextId ≠ some q := fun q hq => Nat.lt_irrefl _ (h.base.ids _ _ hq)
      by_cases hq : p = q
      · subst hq
        by_cases hi : n.nextId = i
        · simp [hi]
        · rw [if_pos rfl, if_neg hi, ← h.base.loc, hp]
          simp only [Option.some.injEq, reduceCtorEq, iff_false]; exact hi
      · rw [if_neg hq]
        by_cases hi : n.nextId = i
        · subst hi
          rw [if_pos rfl, h.base.loc]
          constructor
          · intro hx; exact absurd hx (hfresh q)
          · intro hx; exact absurd (Option.some.inj hx) hq
        · rw [if_neg hi]; exact h.base.loc q i
    · intro i q hi
      simp only [Dict.get?_set] at hi
      split at hi
      · rename_i he; subst he; exact Nat.lt_succ_self _
      · exact Nat.lt_succ_of_lt (h.base.ids i q hi)
    · intro i hi
      rw [Dict.mem_keys_set]; exact Or.inr (h.base.tloc i hi)

private theorem step_inv {n : Net} (h : Inv n) (op : Op) (hl : Legal n op) :
    ∃ n', n.step op = .ok n' ∧ Inv n' ∧
      ((∀ q, 0 ≤ n.heap q) → (∀ a b c, op = .addCond a b c → 0 ≤ c) → ∀ q, 0 ≤ n'.heap q) := by
  cases op with
  | nodeId p =>
    obtain ⟨h1, h2⟩ := nodeId_inv h p
    exact ⟨_, rfl, h1, fun h0 _ q => by rw [h2]; exact h0 q⟩
  | name i nm =>
    exact ⟨_, rfl, ⟨⟨h.base.sKeys, h.base.tKeys, h.base.nKeys, h.base.lKeys, h.base.loc, h.base.ids, h.base.tloc,
      h.base.refs⟩, h.g, h.inj⟩, fun h0 _ => h0⟩
  | markPrecious i =>
    exact ⟨_, rfl, ⟨⟨h.base.sKeys, h.base.tKeys, h.base.nKeys, h.base.lKeys, h.base.loc, h.base.ids, h.base.tloc,
      h.base.refs⟩, h.g, h.inj⟩, fun h0 _ => h0⟩
  | addCond a b c =>
    obtain ⟨hab, ha, hb⟩ := hl
    rw [← Dict.mem_keys_iff] at ha hb
    exact ⟨_, rfl, (addCond_spec h hab ha hb c).1,
      fun h0 hc => addCond_heap_nonneg h hab ha hb (hc a b c rfl) h0⟩
  | connectNodes a b =>
    obtain ⟨n', h1, h2, h3⟩ := connectNodes_spec h ((Dict.mem_keys_iff _ _).2 hl) b
    exact ⟨n', h1, h2, fun h0 _ => h3 h0⟩
  | removeNode i =>
    obtain ⟨n', h1, h2, -, -, h3, -⟩ := removeNode_spec h i
    exact ⟨n', h1, h2, fun h0 _ q => by rw [h3]; exact h0 q⟩
  | eliminateNode i =>
    obtain ⟨n', h1, h2, -, -, -, -, h3⟩ := eliminateNode_spec h i
    exact ⟨n', h1, h2, fun h0 _ => h3 h0⟩
  | eliminateAll =>
    obtain ⟨is, n', h1, h2, -⟩ := eliminateAll_spec h
    obtain ⟨n'', h3, h4, -, -, -, h5⟩ := elimList_spec is n h
    rw [h2] at h3; cases h3
    exact ⟨n', h1, h4, fun h0 _ => h5 h0⟩

theorem run_inv (h : List Op) : ∀ (n : Net), Inv n → LegalHistory n h →
    ∃ n', h.foldlM Net.step n = .ok n' ∧ Inv n' ∧
      ((∀ q, 0 ≤ n.heap q) → (∀ a b c, Op.addCond a b c ∈ h → 0 ≤ c) → ∀ q, 0 ≤ n'.heap q) := by
  induction h with
  | nil => intro n hi _; exact ⟨n, rfl, hi, fun h0 _ => h0⟩
  | cons op h ih =>
    intro n hi hl
    obtain ⟨n1, h1, hi1, hn1⟩ := step_inv hi op hl.1
    obtain ⟨n2, h2, hi2, hn2⟩ := ih n1 hi1 (hl.2 n1 h1)
    refine ⟨n2, ?_, hi2, ?_⟩
    · rw [List.foldlM_cons, h1]; exact h2
    · intro h0 hc
      exact hn2 (hn1 h0 (fun a b c he => hc a b c (by simp [he]))) (fun a b c he => hc a b c (by simp [he]))

theorem reachable_inv {n : Net} (h : Reachable n) : Inv n := by
  obtain ⟨h, hl, hr⟩ := h
  obtain ⟨n', h1, h2, -⟩ := run_inv h {} inv_init hl
  unfold run at hr
  rw [hr] at h1; cases h1; exact h2

private theorem consistent_of_inv {n : Net} (h : Inv n) : Consistent n where
  symmetric a b r hs := by
    have := h.g.sym a b
    unfold S at this; rw [← this]; exact hs
  noSelf a := h.g.noloop a
  known a b r hs := by
    obtain ⟨l, hl, -⟩ := (h.g.star a r b).2 hs
    have := h.base.tloc a (mem_tKeys.2 ⟨l, hl⟩)
    rw [Dict.mem_keys_iff, Option.isSome_iff_exists] at this
    exact this
  listedOnce a b r hs := by
    obtain ⟨l, hl, hm⟩ := (h.g.star a r b).2 hs
    refine ⟨l, hl, ?_⟩
    have hn := h.g.nodup a l hl
    clear hl
    induction l with
    | nil => simp at hm
    | cons e l ih =>
      simp only [List.map_cons, List.nodup_cons] at hn
      rcases List.mem_cons.1 hm with rfl | hm
      · simp only [List.filter_cons, decide_true, if_true, List.cons.injEq, true_and]
        rw [List.filter_eq_nil_iff]
        intro f hf
        simp only [decide_eq_true_eq]
        intro he; exact hn.1 (List.mem_map.2 ⟨f, hf, he⟩)
      · have : e.2 ≠ b := fun he => hn.1 (List.mem_map.2 ⟨(r, b), hm, he.symm⟩)
        simp only [List.filter_cons, this, decide_false]
        exact ih hm hn.2
  listedOnly a star r b hs hm := (h.g.star a r b).1 ⟨star, hs, hm⟩
  located := h.base.loc
  unshared := h.inj

private theorem check_of_inv {n : Net} (h : Inv n) : n.check = 0 := by
  have sum0 : ∀ {α : Type} (l : List α) (f : α → Nat), (∀ x ∈ l, f x = 0) → (l.map f).sum = 0 := by
    intro α l f hf
    induction l with
    | nil => rfl
    | cons x l ih => simp [hf x (by simp), ih (fun y hy => hf y (by simp [hy]))]
  unfold Net.check
  rw [sum0, sum0, sum0, sum0]
  · rintro ⟨i, star⟩ hi
    apply sum0
    rintro ⟨r, b⟩ hb
    have h1 : T n i = some star := Dict.get?_of_mem h.base.tKeys hi
    have h2 : S n i b = some r := (h.g.star i r b).1 ⟨star, h1, hb⟩
    unfold S at h2
    simp [Dict.has, h2]
  · rintro ⟨⟨a, b⟩, r⟩ hk
    have h1 : S n a b = some r := Dict.get?_of_mem h.base.sKeys hk
    have h2 : S n b a = some r := by rw [h.g.sym]; exact h1
    obtain ⟨la, hla, hma⟩ := (h.g.star a r b).2 h1
    obtain ⟨lb, hlb, hmb⟩ := (h.g.star b r a).2 h2
    unfold S at h2
    unfold T at hla hlb
    simp [Dict.has, h2, hla, hlb, hma, hmb]
  · rintro ⟨p, i⟩ hp
    have := (h.base.loc p i).1 (Dict.get?_of_mem h.base.nKeys hp)
    simp [Dict.has, this]
  · rintro ⟨i, p⟩ hp
    have := (h.base.loc p i).2 (Dict.get?_of_mem h.base.lKeys hp)
    simp [Dict.has, this]

theorem current_eq {n : Net} (h : Inv n) (v : Nat → ℚ) (x : Nat) (F : Finset Nat)
    (hF : ∀ y, (x, y) ∈ n.s.keys → y ∈ F) : current n v x = ∑ y ∈ F, g n x y * (v x - v y) := by
  unfold current
  rw [sum_row n.heap x (fun y => v x - v y) F n.s h.base.sKeys hF]
  rfl

theorem total_eq {n : Net} (h : Inv n) (x : Nat) : totalConductance n x = gsum n x := by
  have hF : ∀ y, (x, y) ∈ n.s.keys → y ∈ (n.s.map fun kv => kv.1.2).toFinset := by
    intro y hy
    obtain ⟨r, hr⟩ := (Dict.mem_keys _ _).1 hy
    rw [List.mem_toFinset, List.mem_map]; exact ⟨_, hr, rfl⟩
  rw [gsum_eq h x _ hF]
  have := sum_row n.heap x (fun _ => 1) _ n.s h.base.sKeys hF
  simp only [mul_one] at this
  exact this

def nbrs (n m : Net) (i : Nat) : Finset Nat :=
  insert i ((n.s.map fun kv => kv.1.2).toFinset ∪ (m.s.map fun kv => kv.1.2).toFinset)

theorem nbrs_left (n m : Net) (i x y : Nat) (hy : (x, y) ∈ n.s.keys) : y ∈ nbrs n m i := by
  obtain ⟨r, hr⟩ := (Dict.mem_keys _ _).1 hy
  unfold nbrs
  rw [Finset.mem_insert, Finset.mem_union, List.mem_toFinset, List.mem_map]
  exact Or.inr (Or.inl ⟨_, hr, rfl⟩)

private theorem nbrs_right (n m : Net) (i x y : Nat) (hy : (x, y) ∈ m.s.keys) : y ∈ nbrs n m i := by
  obtain ⟨r, hr⟩ := (Dict.mem_keys _ _).1 hy
  unfold nbrs
  rw [Finset.mem_insert, Finset.mem_union, List.mem_toFinset, List.mem_toFinset, List.mem_map, List.mem_map]
  exact Or.inr (Or.inr ⟨_, hr, rfl⟩)

theorem current_of_isolated {n : Net} (h : Inv n) {i : Nat} (hz : ∀ y, g n i y = 0) (v : Nat → ℚ) :
    current n v i = 0 := by
  rw [current_eq h v i (nbrs n n i) (nbrs_left n n i i)]
  apply Finset.sum_eq_zero
  intro y _; rw [hz]; ring

/-- Currents before and after the removal of node `i`. -/
private theorem eliminate_current {n n' : Net} (h : Inv n) (h' : Inv n') {i : Nat}
    (hg : ∀ x y, g n' x y = if x = i ∨ y = i ∨ x = y then 0 else g n x y + g n i x * g n i y / gsum n i)
    (hs : gsum n i ≠ 0) {u v : Nat → ℚ} (huv : ∀ x, x ≠ i → u x = v x) (hz : current n u i = 0) {x : Nat} (hx : x ≠ i) :
    current n' v x = current n u x := by
  have hi : i ∈ nbrs n n' i := by unfold nbrs; simp
  rw [current_eq h' v x (nbrs n n' i) (nbrs_right n n' i x), current_eq h u x (nbrs n n' i) (nbrs_left n n' i x)]
  rw [current_eq h u i (nbrs n n' i) (nbrs_left n n' i i)] at hz
  rw [← Finset.sum_erase_add _ _ hi] at hz ⊢
  rw [← Finset.sum_erase_add (a := i) (f := fun y => g n x y * (u x - u y)) _ hi]
  have hsum := gsum_eq h i (nbrs n n' i) (nbrs_left n n' i i)
  rw [← Finset.sum_erase_add _ _ hi, g_self h, add_zero] at hsum
  rw [g_self h, zero_mul, add_zero] at hz
  have hzero : g n' x i * (v x - v i) = 0 := by rw [hg, if_pos (by simp)]; ring
  rw [hzero, add_zero]
  have e1 : ∀ y ∈ (nbrs n n' i).erase i, g n' x y * (v x - v y)
      = g n x y * (u x - u y) + g n i x / gsum n i * (g n i y * (u x - u i) + g n i y * (u i - u y)) := by
    intro y hy
    have hyi : y ≠ i := (Finset.mem_erase.1 hy).1
    rw [huv x hx, huv y hyi, hg]
    by_cases hxy : x = y
    · subst hxy; rw [if_pos (by simp)]; ring
    · rw [if_neg (by simp [hx, hyi, hxy])]
      field_simp
      ring
  rw [Finset.sum_congr rfl e1, Finset.sum_add_distrib]
  congr 1
  rw [← Finset.mul_sum, Finset.sum_add_distrib, hz, add_zero, ← Finset.sum_mul, ← hsum, g_sym h x i]
  field_simp

theorem sameBehaviour_step {n n' : Net} (h : Inv n) {i : Nat} (hok : n.eliminateNode i = .ok n')
    (he : ExactStar n i) : SameBehaviour n n' [i] := by
  obtain ⟨n1, h1, h', hg, -⟩ := eliminateNode_spec h i
  rw [hok] at h1; cases h1
  have hiso : ∀ v, current n' v i = 0 := fun v =>
    current_of_isolated h' (fun y => by rw [hg, if_pos (by simp)]) v
  unfold ExactStar at he
  rw [total_eq h] at he
  intro v I hI
  have hIi : I i = 0 := hI i (by simp)
  by_cases hc : |gsum n i| > tiny
  · have hs : gsum n i ≠ 0 := by
      intro h0; rw [h0, abs_zero] at hc; unfold tiny at hc; norm_num at hc
    simp only [if_pos hc] at hg
    constructor
    · intro hcur
      let w : ℚ := (∑ y ∈ (nbrs n n' i).erase i, g n i y * v y) / gsum n i
      have hu : ∀ x, x ≠ i → Function.update v i w x = v x := fun x hx => Function.update_of_ne hx _ _
      have hz : current n (Function.update v i w) i = 0 := by
        have hi : i ∈ nbrs n n' i := by unfold nbrs; simp
        rw [current_eq h _ i (nbrs n n' i) (nbrs_left n n' i i), ← Finset.sum_erase_add _ _ hi, g_self h, zero_mul,
          add_zero, Function.update_self]
        have hsum := gsum_eq h i (nbrs n n' i) (nbrs_left n n' i i)
        rw [← Finset.sum_erase_add _ _ hi, g_self h, add_zero] at hsum
        have e1 : ∀ y ∈ (nbrs n n' i).erase i, g n i y * (w - Function.update v i w y) = g n i y * w - g n i y * v y := by
          intro y hy
          rw [hu y (Finset.mem_erase.1 hy).1]; ring
        rw [Finset.sum_congr rfl e1, Finset.sum_sub_distrib, ← Finset.sum_mul, ← hsum]
        show gsum n i * ((∑ y ∈ (nbrs n n' i).erase i, g n i y * v y) / gsum n i) - _ = 0
        field_simp
        ring
      refine ⟨Function.update v i w, fun x hx => hu x (by simpa using hx), ?_⟩
      intro x
      by_cases hx : x = i
      · subst hx; rw [hz, hIi]
      · rw [← eliminate_current h h' hg hs hu hz hx]; exact hcur x
    · rintro ⟨u, huv, hcur⟩ x
      by_cases hx : x = i
      · subst hx; rw [hiso, hIi]
      · rw [eliminate_current h h' hg hs (fun y hy => huv y (by simpa using hy)) (by rw [hcur, hIi]) hx]
        exact hcur x
  · have hz : ∀ y, g n i y = 0 := by
      rcases he with he | he
      · exact absurd he hc
      · intro y
        cases hs : S n i y with
        | none => unfold g; rw [hs]
        | some r => rw [g_of_S hs]; exact he y r hs
    simp only [if_neg hc] at hg
    have hsame : ∀ u v : Nat → ℚ, (∀ x, x ≠ i → u x = v x) → ∀ x, x ≠ i → current n' v x = current n u x := by
      intro u v huv x hx
      rw [current_eq h' v x (nbrs n n' i) (nbrs_right n n' i x), current_eq h u x (nbrs n n' i) (nbrs_left n n' i x)]
      apply Finset.sum_congr rfl
      intro y _
      rw [hg]
      by_cases hyi : y = i
      · subst hyi; rw [if_pos (by simp), g_sym h x y, hz]; ring
      · rw [huv x hx, huv y hyi]
        by_cases hxy : x = y
        · subst hxy; ring
        · rw [if_neg (by simp [hx, hyi, hxy])]
    constructor
    · intro hcur
      refine ⟨v, fun _ _ => rfl, fun x => ?_⟩
      by_cases hx : x = i
      · subst hx; rw [current_of_isolated h hz, hIi]
      · rw [← hsame v v (fun _ _ => rfl) x hx]; exact hcur x
    · rintro ⟨u, huv, hcur⟩ x
      by_cases hx : x = i
      · subst hx; rw [hiso, hIi]
      · rw [hsame u v (fun y hy => huv y (by simpa using hy)) x hx]; exact hcur x

theorem sameBehaviour_trans {n n1 n2 : Net} {i : Nat} {E : List Nat} (h1 : SameBehaviour n n1 [i])
    (h2 : SameBehaviour n1 n2 E) : SameBehaviour n n2 (i :: E) := by
  intro v I hI
  rw [h2 v I (fun e he => hI e (by simp [he]))]
  constructor
  · rintro ⟨u1, hu1, hc1⟩
    obtain ⟨u, hu, hc⟩ := (h1 u1 I (fun e he => hI e (by simp_all))).1 hc1
    refine ⟨u, fun x hx => ?_, hc⟩
    simp only [List.mem_cons, not_or] at hx
    rw [hu x (by simpa using hx.1), hu1 x hx.2]
  · rintro ⟨u, hu, hc⟩
    refine ⟨fun x => if x ∈ E then u x else v x, fun x hx => if_neg hx, ?_⟩
    refine (h1 _ I (fun e he => hI e (by simp_all))).2 ⟨u, fun x hx => ?_, hc⟩
    by_cases hxE : x ∈ E
    · rw [if_pos hxE]
    · rw [if_neg hxE]
      refine hu x ?_
      simp only [List.mem_cons, not_or]
      exact ⟨by simpa using hx, hxE⟩

theorem sameBehaviour_run : ∀ (is : List Nat) (n n' : Net), Inv n →
    is.foldlM (fun n i => n.eliminateNode i) n = .ok n' → ExactRun n is → SameBehaviour n n' is := by
  intro is
  induction is with
  | nil =>
    intro n n' _ hok _ v I _
    cases hok
    constructor
    · intro h; exact ⟨v, fun _ _ => rfl, h⟩
    · rintro ⟨u, hu, hc⟩
      have : u = v := funext fun x => hu x (by simp)
      subst this; exact hc
  | cons i is ih =>
    intro n n' h hok he
    obtain ⟨n1, h1, hV1, -⟩ := eliminateNode_spec h i
    rw [List.foldlM_cons, h1] at hok
    exact sameBehaviour_trans (sameBehaviour_step h h1 he.1) (ih n1 n' hV1 hok (he.2 n1 h1))

/-! ## C23: consistency -/

/-- **C23**.  Any legal history of calls runs without exception, the self-check reports no error afterwards, and the
tables are consistent. -/
theorem network_stays_consistent (h : List Op) (hl : LegalHistory {} h) :
    ∃ n, run h = .ok n ∧ n.check = 0 ∧ Consistent n := by
  obtain ⟨n, h1, h2, -⟩ := run_inv h {} inv_init hl
  exact ⟨n, h1, check_of_inv h2, consistent_of_inv h2⟩

/-- A sample history: a three-node chain with a parallel resistor, a contraction and a full reduction. -/
def sampleHistory : List Op :=
  [.nodeId (0, 0), .nodeId (10, 0), .nodeId (20, 0), .nodeId (30, 0), .addCond 0 1 2, .addCond 1 2 3, .addCond 0 1 1,
   .addCond 2 3 1, .connectNodes 2 3, .markPrecious 0, .markPrecious 2, .eliminateAll]

/-- Non-vacuity of C23: the sample history is legal and reduces to a single resistor of 3·3/6 S between 0 and 2. -/
example : LegalHistory {} sampleHistory := legalHistory_of_B _ _ (by decide +kernel)

example : (match run sampleHistory with
    | .ok n => decide (n.s.map (fun kv => (kv.1, n.heap kv.2)) = [((0, 2), 3 / 2), ((2, 0), 3 / 2)])
    | .error _ => false) = true := by decide +kernel

/-- Calling `add_cond` with twice the same node breaks the network: removing the node then raises an exception.  The
legality condition of C23 is therefore necessary. -/
theorem self_loop_breaks : run [.nodeId (0, 0), .addCond 0 0 1, .removeNode 0] = .error "KeyError" := by rfl

/-! ## C26: conductances stay non-negative -/

/-- **C26**.  If every conductance handed in is non-negative, every conductance of the network is non-negative after any
legal history. -/
theorem conductances_nonneg (h : List Op) (hl : LegalHistory {} h) (hc : ∀ a b c, Op.addCond a b c ∈ h → 0 ≤ c)
    (n : Net) (hr : run h = .ok n) (a b : Nat) (r : Ref) (_ : n.s.get? (a, b) = some r) : 0 ≤ n.heap r := by
  obtain ⟨n', h1, h2, h3⟩ := run_inv h {} inv_init hl
  unfold run at hr; rw [hr] at h1; cases h1
  exact h3 (fun _ => le_refl _) hc r

/-! ## C24: eliminating one node -/

/-- **C24** (partial: stars whose total conductance is within the cut-off 1e-10 but not all zero are excluded; see
`eliminate_node_tiny_error` for what happens there and `eliminate_node_tiny_fails` for the violation).
Eliminating a node removes it and preserves the current/voltage behaviour of all other nodes. -/
theorem eliminate_node_preserves_behaviour_partial (n : Net) (hn : Reachable n) (i : Nat) (he : ExactStar n i) :
    ∃ n', n.eliminateNode i = .ok n' ∧ SameBehaviour n n' [i] ∧ (∀ y, n'.s.get? (i, y) = none) ∧
      (∀ x, x ≠ i → n'.locations.get? x = n.locations.get? x) := by
  have h := reachable_inv hn
  obtain ⟨n', h1, hV, hg, hk, -, hl, -⟩ := eliminateNode_spec h i
  refine ⟨n', h1, sameBehaviour_step h h1 he, ?_, ?_⟩
  · intro y
    cases hs : S n' i y with
    | none => exact hs
    | some r =>
      obtain ⟨l, hl, -⟩ := (hV.g.star i r y).2 hs
      exact absurd rfl ((hk i).1 (mem_tKeys.2 ⟨l, hl⟩)).2
  · intro x hx; rw [hl, if_neg]; exact fun h => hx h.1.symm

/-- Inside the cut-off (total conductance at most 1e-10, non-negative conductances) the node is dropped without
replacement; the current at any other node then changes by at most 1e-10 times the voltage to the dropped node. -/
theorem eliminate_node_tiny_error (n : Net) (hn : Reachable n) (i : Nat)
    (hpos : ∀ y r, n.s.get? (i, y) = some r → 0 ≤ n.heap r) (ht : totalConductance n i ≤ 1 / 10000000000)
    (v : Nat → ℚ) (x : Nat) (hx : x ≠ i) :
    ∃ n', n.eliminateNode i = .ok n' ∧ |current n v x - current n' v x| ≤ 1 / 10000000000 * |v x - v i| := by
  have h := reachable_inv hn
  obtain ⟨n', h1, h', hg, -⟩ := eliminateNode_spec h i
  refine ⟨n', h1, ?_⟩
  rw [total_eq h] at ht
  have hgpos : ∀ y, 0 ≤ g n i y := by
    intro y
    cases hs : S n i y with
    | none => unfold g; rw [hs]
    | some r => rw [g_of_S hs]; exact hpos y r hs
  have hsum := gsum_eq h i (nbrs n n' i) (nbrs_left n n' i i)
  have hs0 : 0 ≤ gsum n i := by rw [hsum]; exact Finset.sum_nonneg (fun y _ => hgpos y)
  have hc : ¬ |gsum n i| > tiny := by rw [abs_of_nonneg hs0]; unfold tiny; exact not_lt.2 ht
  simp only [if_neg hc] at hg
  have hi : i ∈ nbrs n n' i := by unfold nbrs; simp
  rw [current_eq h' v x (nbrs n n' i) (nbrs_right n n' i x), current_eq h v x (nbrs n n' i) (nbrs_left n n' i x),
    ← Finset.sum_erase_add _ _ hi, ← Finset.sum_erase_add (f := fun y => g n' x y * (v x - v y)) _ hi]
  have e1 : ∀ y ∈ (nbrs n n' i).erase i, g n' x y * (v x - v y) = g n x y * (v x - v y) := by
    intro y hy
    rw [hg]
    by_cases hxy : x = y
    · subst hxy; ring
    · rw [if_neg (by simp [hx, (Finset.mem_erase.1 hy).1, hxy])]
  rw [Finset.sum_congr rfl e1, hg x i, if_pos (by simp), zero_mul, add_zero, add_sub_cancel_left, abs_mul, g_sym h x i,
    abs_of_nonneg (hgpos x)]
  refine mul_le_mul_of_nonneg_right ?_ (abs_nonneg _)
  by_cases hxF : x ∈ nbrs n n' i
  · refine le_trans ?_ ht
    rw [hsum]
    exact Finset.single_le_sum (fun y _ => hgpos y) hxF
  · have : g n i x = 0 := by
      cases hs : S n i x with
      | none => unfold g; rw [hs]
      | some r =>
        refine absurd (nbrs_left n n' i i x ?_) hxF
        rw [Dict.mem_keys_iff]; unfold S at hs; rw [hs]; rfl
    rw [this]; norm_num

/-- A chain of two resistors of 10 GΩ … 1e-11 S each, i.e. below the cut-off. -/
def tinyChain : List Op :=
  [.nodeId (0, 0), .nodeId (1, 0), .nodeId (2, 0), .addCond 0 1 (1 / 100000000000), .addCond 1 2 (1 / 100000000000)]

/-- **C24 is violated** inside the cut-off: two resistors of 1e-11 S in series are removed altogether, so that the
current 5e-12 A between the outer nodes at 1 V is lost. -/
theorem eliminate_node_tiny_fails : ∃ n n', Reachable n ∧ n.eliminateNode 1 = .ok n' ∧ ¬ SameBehaviour n n' [1] := by
  have hl : LegalHistory {} tinyChain := legalHistory_of_B _ _ (by decide +kernel)
  obtain ⟨n, h1, h2, -⟩ := run_inv tinyChain {} inv_init hl
  obtain ⟨n', h3, -⟩ := eliminateNode_spec h2 1
  refine ⟨n, n', ⟨tinyChain, hl, h1⟩, h3, ?_⟩
  have e1 : (match run tinyChain with
      | .ok n => decide (n.s = [((0, 1), 0), ((1, 0), 0), ((1, 2), 1), ((2, 1), 1)] ∧
          n.heap 0 = 1 / 100000000000 ∧ n.heap 1 = 1 / 100000000000) &&
          (match n.eliminateNode 1 with
          | .ok n' => decide (n'.s = [])
          | .error _ => false)
      | .error _ => false) = true := by decide +kernel
  have h1' : run tinyChain = .ok n := h1
  rw [h1'] at e1
  simp only [h3, Bool.and_eq_true, decide_eq_true_eq] at e1
  obtain ⟨⟨es, e0, e1⟩, es'⟩ := e1
  intro hsame
  obtain ⟨u, hu, hc⟩ := (hsame (fun x => if x = 0 then 1 else 0) (fun _ => 0) (fun _ _ => rfl)).1 (by
    intro x; unfold current; rw [es']; rfl)
  have c0 := hc 0
  have c2 := hc 2
  unfold current at c0 c2
  rw [es] at c0 c2
  have v0 := hu 0 (by simp)
  have v2 := hu 2 (by simp)
  simp [e0, e1] at c0 c2 v0 v2
  linarith

/-! ## C25: which nodes are kept -/

theorem unlink_precious {n n' : Net} {i : Nat} {e : Entry} (h : n.unlink i e = .ok n') : n'.precious = n.precious := by
  unfold Net.unlink at h
  rw [Exc.bind_ok] at h
  obtain ⟨t, -, h⟩ := h
  rw [Exc.bind_ok] at h
  obtain ⟨s, -, h⟩ := h
  rw [Exc.bind_ok] at h
  obtain ⟨s', -, h⟩ := h
  cases h
  rfl

theorem forget_precious {n n' : Net} {i : Nat} (h : n.forget i = .ok n') : n'.precious = n.precious := by
  unfold Net.forget at h
  rw [Exc.bind_ok] at h
  obtain ⟨t, -, h⟩ := h
  split at h
  · cases h
  · rw [Exc.bind_ok] at h
    obtain ⟨s, -, h⟩ := h
    cases h
    rfl

theorem addCondRef_precious (n : Net) (a b : Nat) (r : Ref) : (n.addCondRef a b r).precious = n.precious := by
  unfold Net.addCondRef
  split <;> rfl

theorem foldlM_precious {α : Type} {f : Net → α → Except String Net} (hf : ∀ n x n', f n x = .ok n' → n'.precious = n.precious)
    (l : List α) : ∀ n n', l.foldlM f n = .ok n' → n'.precious = n.precious := by
  induction l with
  | nil => intro n n' h; cases h; rfl
  | cons x l ih =>
    intro n n' h
    rw [List.foldlM_cons, Exc.bind_ok] at h
    obtain ⟨n1, h1, h2⟩ := h
    rw [ih _ _ h2, hf _ _ _ h1]

theorem removeNode_precious {n n' : Net} {i : Nat} (h : n.removeNode i = .ok n') : n'.precious = n.precious := by
  unfold Net.removeNode at h
  split at h
  · cases h; rfl
  · rw [Exc.bind_ok] at h
    obtain ⟨n1, h1, h2⟩ := h
    rw [forget_precious h2, foldlM_precious (fun _ _ _ h => unlink_precious h) _ _ _ h1]

theorem connectNodes_precious {n n' : Net} {a b : Nat} (h : n.connectNodes a b = .ok n') : n'.precious = n.precious := by
  unfold Net.connectNodes at h
  split at h
  · cases h; rfl
  · rw [Exc.bind_ok] at h
    obtain ⟨n1, h1, h2⟩ := h
    rw [forget_precious h2, foldlM_precious (fun m e m' h => ?_) _ _ _ h1]
    unfold Net.moveEntry at h
    rw [unlink_precious h]
    split
    · exact addCondRef_precious ..
    · rfl

theorem eliminateNode_precious {n n' : Net} {i : Nat} (h : n.eliminateNode i = .ok n') : n'.precious = n.precious := by
  have hm : ∀ (s : ℚ) (l : List (Entry × Entry)) (n : Net), (l.foldl (Net.meshStep s) n).precious = n.precious := by
    intro s l
    induction l with
    | nil => intro n; rfl
    | cons p l ih =>
      intro n
      rw [List.foldl_cons, ih]
      exact addCondRef_precious ..
  unfold Net.eliminateNode at h
  split at h
  · cases h; rfl
  · rw [removeNode_precious h]
    split
    · exact hm ..
    · rfl

theorem elimLoop_precious (fuel : Nat) : ∀ (m : Nat) (n n' : Net), Net.elimLoop fuel m n = .ok (some n') →
    n'.precious = n.precious := by
  induction fuel with
  | zero => intro m n n' h; cases h
  | succ f ih =>
    intro m n n' h
    unfold Net.elimLoop at h
    split at h
    · split at h
      · cases h; rfl
      · exact ih _ _ _ h
    · rw [Exc.bind_ok] at h
      obtain ⟨n1, h1, h2⟩ := h
      rw [ih _ _ _ h2, foldlM_precious (fun _ _ _ h => eliminateNode_precious h) _ _ _ h1]

theorem step_precious {n n' : Net} {op : Op} (h : n.step op = .ok n') (i : Nat) :
    i ∈ n'.precious ↔ i ∈ n.precious ∨ op = .markPrecious i := by
  cases op with
  | markPrecious j =>
    cases h
    show i ∈ j :: n.precious ↔ _
    rw [List.mem_cons, Op.markPrecious.injEq, or_comm, eq_comm]
  | nodeId p =>
    cases h
    have : (n.nodeId p).1.precious = n.precious := by unfold Net.nodeId; split <;> rfl
    simp [this]
  | name j nm => cases h; simp [Net.name]
  | addCond a b c =>
    cases h
    have : (n.addCond a b c).precious = n.precious := addCondRef_precious ..
    simp [this]
  | connectNodes a b => simp [connectNodes_precious h]
  | removeNode j => simp [removeNode_precious h]
  | eliminateNode j => simp [eliminateNode_precious h]
  | eliminateAll =>
    have h : n.eliminateAll = .ok n' := h
    unfold Net.eliminateAll at h
    rw [Exc.bind_ok] at h
    obtain ⟨o, h1, h2⟩ := h
    cases o with
    | none => cases h2
    | some n1 => cases h2; simp [elimLoop_precious _ _ _ _ h1]

/-- **C25** (terminals).  The precious nodes are exactly those that were marked, no matter what else happened before or after. -/
theorem precious_exact (h : List Op) (n : Net) (hr : run h = .ok n) (i : Nat) : i ∈ n.precious ↔ Op.markPrecious i ∈ h := by
  suffices ∀ (n₀ : Net), h.foldlM Net.step n₀ = .ok n → (i ∈ n.precious ↔ i ∈ n₀.precious ∨ Op.markPrecious i ∈ h) by
    simpa using this {} hr
  clear hr
  induction h with
  | nil => intro n₀ h; cases h; simp
  | cons op h ih =>
    intro n₀ hr
    rw [List.foldlM_cons, Exc.bind_ok] at hr
    obtain ⟨n1, h1, h2⟩ := hr
    rw [ih n1 h2, step_precious h1, List.mem_cons, or_assoc, eq_comm (a := op)]

/-- `precious_exact` on the history that marks two nodes and does other things. -/
example : ∃ n, run sampleHistory = .ok n ∧ 0 ∈ n.precious ∧ 2 ∈ n.precious ∧ 1 ∉ n.precious := by
  obtain ⟨n, h, -⟩ := run_inv sampleHistory {} inv_init (legalHistory_of_B _ _ (by decide +kernel))
  refine ⟨n, h, ?_, ?_, ?_⟩ <;> rw [precious_exact _ _ h] <;> simp [sampleHistory]

/-! ## C25: eliminating all nodes -/

/-- **C25** (termination and result).  `eliminate_all` terminates on every reachable network — its loops make at most
`2 * (number of connected nodes) + 1` passes, more fuel never changes the outcome — raises no exception, leaves
connections between precious nodes only, removes no precious node, and the result is the original network with exactly
the connected non-precious nodes eliminated one after the other. -/
theorem eliminate_all_keeps_terminals (n : Net) (hn : Reachable n) :
    ∃ (n' : Net) (is : List Nat), n.eliminateAll = .ok n' ∧
      (∀ fuel, 2 * n.nodeToS.length + 1 ≤ fuel → Net.elimLoop fuel 3 n = .ok (some n')) ∧
      (∀ a b r, n'.s.get? (a, b) = some r → a ∈ n.precious ∧ b ∈ n.precious) ∧
      (∀ i ∈ n.precious, n'.locations.get? i = n.locations.get? i) ∧
      (is.Nodup ∧ (∀ i ∈ is, i ∉ n.precious) ∧ is.foldlM (fun n i => n.eliminateNode i) n = .ok n') := by
  have h := reachable_inv hn
  obtain ⟨is, n', h1, h2, h3, h4⟩ := eliminateAll_spec h
  obtain ⟨n1, g1, hV, gk, -, gl, -⟩ := elimList_spec is n h
  rw [h2] at g1; cases g1
  have hprec : ∀ a l, T n' a = some l → a ∈ n.precious := by
    intro a l hl
    obtain ⟨k1, k2⟩ := (gk a).1 (mem_tKeys.2 ⟨l, hl⟩)
    by_contra hc
    exact k2 ((h4 a).2 ⟨k1, hc⟩)
  refine ⟨n', is, h1, ?_, ?_, ?_, h3, fun i hi => ((h4 i).1 hi).2, h2⟩
  · have mono : ∀ (f m : Nat) (a b : Net), Net.elimLoop f m a = .ok (some b) →
        Net.elimLoop (f + 1) m a = .ok (some b) := by
      intro f
      induction f with
      | zero => intro m a b hab; simp [Net.elimLoop] at hab
      | succ f ih =>
        intro m a b hab
        unfold Net.elimLoop at hab ⊢
        cases ht : a.toEliminate m with
        | nil =>
          rw [ht] at hab
          simp only at hab ⊢
          cases hx : a.nmaxNext m with
          | none => rw [hx] at hab; exact hab
          | some k => rw [hx] at hab; exact ih _ _ _ hab
        | cons i js =>
          rw [ht] at hab
          simp only at hab ⊢
          cases hf : (i :: js).foldlM (fun n i => n.eliminateNode i) a with
          | error e => rw [hf] at hab; cases hab
          | ok a1 => rw [hf] at hab; exact ih _ _ _ hab
    have base : Net.elimLoop (2 * n.nodeToS.length + 1) 3 n = .ok (some n') := by
      unfold Net.eliminateAll at h1
      cases hx : Net.elimLoop (2 * n.nodeToS.length + 1) 3 n with
      | error e => rw [hx] at h1; cases h1
      | ok o =>
        rw [hx] at h1
        cases o with
        | none => cases h1
        | some n2 => cases h1; rfl
    intro fuel hf
    induction fuel, hf using Nat.le_induction with
    | base => exact base
    | succ k _ ih => exact mono _ _ _ _ ih
  · intro a b r hs
    obtain ⟨l, hl, -⟩ := (hV.g.star a r b).2 hs
    have hs' : S n' b a = some r := by rw [hV.g.sym]; exact hs
    obtain ⟨l', hl', -⟩ := (hV.g.star b r a).2 hs'
    exact ⟨hprec a l hl, hprec b l' hl'⟩
  · intro i hi
    rw [gl, if_neg]
    rintro ⟨h5, -⟩
    exact ((h4 i).1 h5).2 hi

/-- **C25** (behaviour; partial: runs that meet a star inside the numerical cut-off are excluded, where already a single
elimination changes the behaviour, `eliminate_node_tiny_fails`).  The reduced network behaves at the remaining nodes
like the original one, no current being injected at the nodes `is` that were eliminated (in this order), namely the
connected nodes that are not precious. -/
theorem eliminate_all_preserves_behaviour_partial (n : Net) (hn : Reachable n) :
    ∃ (n' : Net) (is : List Nat), n.eliminateAll = .ok n' ∧
      is.Nodup ∧ (∀ i, i ∈ is ↔ (n.nodeToS.get? i).isSome ∧ i ∉ n.precious) ∧
      (ExactRun n is → SameBehaviour n n' is) := by
  obtain ⟨is, n', h1, h2, h3, h4⟩ := eliminateAll_spec (reachable_inv hn)
  refine ⟨n', is, h1, h3, fun i => ?_, fun he => sameBehaviour_run is n n' (reachable_inv hn) h2 he⟩
  rw [h4, Dict.mem_keys_iff]

/-- Executable form of `ExactRun` (first alternative), used for the example only. -/
def exactRunB : Net → List Nat → Bool
  | _, [] => true
  | n, i :: is => decide (|totalConductance n i| > 1 / 10000000000) && match n.eliminateNode i with
    | .ok n' => exactRunB n' is
    | .error _ => true

theorem exactRun_of_B : ∀ (is : List Nat) (n : Net), exactRunB n is = true → ExactRun n is
  | [], _, _ => trivial
  | i :: is, n, hb => by
    simp only [exactRunB, Bool.and_eq_true, decide_eq_true_eq] at hb
    refine ⟨Or.inl hb.1, fun n' hn => ?_⟩
    have := hb.2
    rw [hn] at this
    exact exactRun_of_B is n' this

/-- A mesh of five nodes, two of them precious. -/
def sampleMesh : List Op :=
  [.nodeId (0, 0), .nodeId (1, 0), .nodeId (2, 0), .nodeId (3, 0), .nodeId (4, 0), .addCond 0 1 1, .addCond 1 2 2,
   .addCond 2 3 3, .addCond 3 4 4, .addCond 4 1 5, .addCond 1 3 6, .markPrecious 0, .markPrecious 4]

/-- Non-vacuity of C24 and C25: the mesh is reachable, and in whatever order its three inner nodes are eliminated, no
star is inside the cut-off; so the reduced network behaves like the mesh. -/
example : ∃ n n' is, Reachable n ∧ n.eliminateAll = .ok n' ∧ SameBehaviour n n' is := by
  have hl : LegalHistory {} sampleMesh := legalHistory_of_B _ _ (by decide +kernel)
  obtain ⟨n, h1, h2, -⟩ := run_inv sampleMesh {} inv_init hl
  have h1' : run sampleMesh = .ok n := h1
  have hr : Reachable n := ⟨_, hl, h1'⟩
  obtain ⟨n', is, h3, h4, h5, h6⟩ := eliminate_all_preserves_behaviour_partial n hr
  have e1 : (match run sampleMesh with
      | .ok n => [1, 2, 3].permutations'.all (exactRunB n) && decide (n.nodeToS.keys = [0, 1, 2, 3, 4]) &&
          decide (n.precious = [4, 0])
      | .error _ => false) = true := by decide +kernel
  rw [h1'] at e1
  simp only [Bool.and_eq_true, decide_eq_true_eq, List.all_eq_true] at e1
  refine ⟨n, n', is, hr, h3, h6 (exactRun_of_B _ _ (e1.1.1 is ?_))⟩
  rw [List.mem_permutations', List.perm_ext_iff_of_nodup h4 (by decide)]
  intro i
  rw [h5, ← Dict.mem_keys_iff, e1.1.2, e1.2]
  simp only [List.mem_cons, List.not_mem_nil, or_false]
  omega

/-! ## C50: contracting two nodes -/

/-- **C50**.  Contracting a connected node `b` into a different node `a` is an ideal short between them: if both are at
the same voltage, node `a` of the new network carries the current of `a` and `b` together, and all other nodes carry the
same current as before.  Node `b` is gone. -/
theorem connect_nodes_is_short (n : Net) (hn : Reachable n) (a b : Nat) (hab : a ≠ b)
    (ha : (n.locations.get? a).isSome) (hb : (n.nodeToS.get? b).isSome) :
    ∃ n', n.connectNodes a b = .ok n' ∧ (∀ y, n'.s.get? (b, y) = none) ∧
      ∀ v : Nat → ℚ, v b = v a →
        current n' v a = current n v a + current n v b ∧ ∀ x, x ≠ a → x ≠ b → current n' v x = current n v x := by
  have h := reachable_inv hn
  rw [← Dict.mem_keys_iff] at ha hb
  obtain ⟨n', h1, h', -⟩ := connectNodes_spec h ha b
  have hg := connectNodes_g h hab ha hb h1
  refine ⟨n', h1, ?_, ?_⟩
  · intro y
    obtain ⟨star, hT⟩ := mem_tKeys.1 hb
    obtain ⟨n1, g1, hB1, hk1, hG1, hI1, -, -, hn1⟩ :=
      moveAll_spec star n h.base hb ha (by rw [update_T_self hT]; exact h.g) h.inj
    obtain ⟨n2, g2, hV2, hS2, hk2, -⟩ := forget_spec hB1 hk1 hG1 hI1
    have hok2 : n.connectNodes a b = .ok n2 := by
      unfold Net.connectNodes; unfold T at hT; rw [hT]
      simp only [g1, bind, Except.bind]; exact g2
    rw [h1] at hok2; cases hok2
    cases hs : S n' b y with
    | none => exact hs
    | some r =>
      obtain ⟨l, hl, -⟩ := (h'.g.star b r y).2 hs
      exact absurd rfl ((hk2 b).1 (mem_tKeys.2 ⟨l, hl⟩)).2
  · intro v hv
    have hF : ∀ x, current n' v x = ∑ y ∈ insert a (nbrs n n' b), g n' x y * (v x - v y) := fun x =>
      current_eq h' v x _ (fun y hy => Finset.mem_insert_of_mem (nbrs_right n n' b x y hy))
    have hF0 : ∀ x, current n v x = ∑ y ∈ insert a (nbrs n n' b), g n x y * (v x - v y) := fun x =>
      current_eq h v x _ (fun y hy => Finset.mem_insert_of_mem (nbrs_left n n' b x y hy))
    refine ⟨?_, ?_⟩
    · rw [hF, hF0, hF0, ← Finset.sum_add_distrib]
      apply Finset.sum_congr rfl
      intro y _
      rw [hg, hv]
      by_cases hy : y = b
      · subst hy; rw [if_pos (by simp), g_self h, hv]; ring
      · by_cases hya : y = a
        · subst hya; rw [if_pos (by simp)]; ring
        · rw [if_neg (by simp [hab, hy, Ne.symm hya]), if_pos rfl, if_neg hya]; ring
    · intro x hxa hxb
      rw [hF, hF0]
      have haF : a ∈ insert a (nbrs n n' b) := Finset.mem_insert_self _ _
      have hbF : b ∈ (insert a (nbrs n n' b)).erase a :=
        Finset.mem_erase.2 ⟨Ne.symm hab, Finset.mem_insert_of_mem (by unfold nbrs; simp)⟩
      rw [← Finset.sum_erase_add _ _ haF, ← Finset.sum_erase_add (f := fun y => g n x y * (v x - v y)) _ haF,
        ← Finset.sum_erase_add _ _ hbF, ← Finset.sum_erase_add (f := fun y => g n x y * (v x - v y)) _ hbF]
      have e1 : ∀ y ∈ ((insert a (nbrs n n' b)).erase a).erase b, g n' x y * (v x - v y) = g n x y * (v x - v y) := by
        intro y hy
        have hyb : y ≠ b := (Finset.mem_erase.1 hy).1
        have hya : y ≠ a := (Finset.mem_erase.1 (Finset.mem_erase.1 hy).2).1
        rw [hg]
        by_cases hxy : x = y
        · subst hxy; ring
        · rw [if_neg (by simp [hxb, hyb, hxy]), if_neg hxa, if_neg hya]; ring
      rw [Finset.sum_congr rfl e1, hg x b, if_pos (by simp), hg x a, if_neg (by simp [hxb, hab, hxa]), if_neg hxa,
        if_pos rfl, g_sym h b x, hv]
      ring

/-- Contracting a node with itself silently deletes it together with its resistors. -/
theorem connect_nodes_self_deletes : ∃ n n', Reachable n ∧ n.connectNodes 1 1 = .ok n' ∧
    (n.s.get? (0, 1)).isSome ∧ n'.s = [] ∧ n'.locations.get? 1 = none := by
  have hl : LegalHistory {} tinyChain := legalHistory_of_B _ _ (by decide +kernel)
  obtain ⟨n, h1, h2, -⟩ := run_inv tinyChain {} inv_init hl
  have h1' : run tinyChain = .ok n := h1
  have e1 : (match run tinyChain with
      | .ok n => (n.s.get? (0, 1)).isSome && n.locations.has 1 && (match n.connectNodes 1 1 with
        | .ok n' => decide (n'.s = [] ∧ n'.locations.get? 1 = none)
        | .error _ => false)
      | .error _ => false) = true := by decide +kernel
  rw [h1'] at e1
  simp only [Bool.and_eq_true] at e1
  obtain ⟨n', h3, -⟩ := connectNodes_spec h2 ((Dict.has_iff _ _).1 e1.1.2) 1
  have e2 := e1.2
  rw [h3] at e2
  simp only [decide_eq_true_eq] at e2
  exact ⟨n, n', ⟨_, hl, h1'⟩, h3, e1.1.1, e2.1, e2.2⟩

/-- Contracting a node without resistors does nothing: both nodes still exist afterwards, contrary to the documented
"b will be removed". -/
theorem connect_nodes_isolated_noop (n : Net) (a b : Nat) (h : n.nodeToS.get? b = none) :
    n.connectNodes a b = .ok n := by
  unfold Net.connectNodes; rw [h]

/-! ## C27: conductance laws -/

/-- **C27** (parallel).  Commutative, associative, 0 is neutral. -/
theorem parallel_laws (a b c : ℚ) : parallelC a b = parallelC b a ∧
    parallelC (parallelC a b) c = parallelC a (parallelC b c) ∧ parallelC a 0 = a := by
  unfold parallelC; exact ⟨add_comm _ _, add_assoc _ _ _, add_zero _⟩

/-- **C27** (serial).  For non-negative conductances: commutative, non-negative, at most either operand, zero as soon as
one operand is below 1e-10, and otherwise the reciprocal of the sum of the resistances. -/
theorem serial_laws (a b : ℚ) (ha : 0 ≤ a) (hb : 0 ≤ b) :
    serialC a b = serialC b a ∧ 0 ≤ serialC a b ∧ serialC a b ≤ a ∧ serialC a b ≤ b ∧
    (a < 1 / 10000000000 → serialC a b = 0) ∧
    (1 / 10000000000 ≤ a → 1 / 10000000000 ≤ b → 1 / serialC a b = 1 / a + 1 / b) := by
  have ht : (0 : ℚ) < tiny := by unfold tiny; norm_num
  have hcomm : serialC a b = serialC b a := by
    unfold serialC; simp only [or_comm, add_comm]
  by_cases hc : |a| < tiny ∨ |b| < tiny
  · have h0 : serialC a b = 0 := by unfold serialC; rw [if_pos hc]
    refine ⟨hcomm, by rw [h0], by rw [h0]; exact ha, by rw [h0]; exact hb, fun _ => h0, ?_⟩
    intro h1 h2
    rw [abs_of_nonneg ha, abs_of_nonneg hb] at hc
    unfold tiny at hc
    rcases hc with hc | hc <;> linarith
  · have hc' := hc
    push Not at hc
    rw [abs_of_nonneg ha, abs_of_nonneg hb] at hc
    have ha' : 0 < a := lt_of_lt_of_le ht hc.1
    have hb' : 0 < b := lt_of_lt_of_le ht hc.2
    have h0 : serialC a b = 1 / (1 / a + 1 / b) := by unfold serialC; rw [if_neg hc']
    have h1 : serialC a b = a * b / (a + b) := by rw [h0]; field_simp; ring
    refine ⟨hcomm, by rw [h1]; positivity, ?_, ?_, ?_, ?_⟩
    · rw [h1, div_le_iff₀ (by positivity)]; nlinarith
    · rw [h1, div_le_iff₀ (by positivity)]; nlinarith
    · intro hlt; unfold tiny at hc; linarith
    · intro _ _; rw [h0]; simp

/-- **C27** (copies).  `parallel` and `serial` return a new object and leave every existing object, in particular both
operands, as it was; the in-place variants change the receiver only. -/
theorem combining_does_not_alter_operands (h : Heap) (fresh a b : Ref) (hb : b ≠ fresh) :
    (h.parallel fresh a b) fresh = parallelC (h a) (h b) ∧ (∀ q, q ≠ fresh → (h.parallel fresh a b) q = h q) ∧
    (h.serial fresh a b) fresh = serialC (h a) (h b) ∧ (∀ q, q ≠ fresh → (h.serial fresh a b) q = h q) ∧
    (h.addParallel a b) a = parallelC (h a) (h b) ∧ (∀ q, q ≠ a → (h.addParallel a b) q = h q) ∧
    (h.addSerial a b) a = serialC (h a) (h b) ∧ (∀ q, q ≠ a → (h.addSerial a b) q = h q) := by
  unfold Heap.parallel Heap.serial Heap.addParallel Heap.addSerial
  refine ⟨?_, ?_, ?_, ?_, ?_, ?_, ?_, ?_⟩ <;> try intro q hq <;>
    simp [Function.update_of_ne, hq]
  all_goals simp [Function.update_of_ne hb]

example : serialC 2 2 = 1 ∧ parallelC 2 2 = 4 ∧ serialC 2 (1 / 100000000000) = 0 := by decide +kernel

end Verif.RNet
