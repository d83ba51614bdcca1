import Verif.RNet.Elim

/-! # Helper lemmas about resistor networks: `connect_nodes` values and the loop of `eliminate_all` -/

namespace Verif.RNet

/-! ### connect_nodes: values -/

/-- Conductance added between `x` and `y` when entry `e` of the removed node is moved to `a`. -/
def moveTerm (hp : Heap) (a x y : Nat) (e : Entry) : ℚ :=
  if e.2 ≠ a ∧ ((x = a ∧ y = e.2) ∨ (x = e.2 ∧ y = a)) then hp e.1 else 0

theorem moveEntry_g {n n' : Net} (hB : Base n) {a b o : Nat} {r : Ref} {pend : List Entry} (hbk : b ∈ n.nodeToS.keys)
    (ha : a ∈ n.locations.keys) (hab : a ≠ b)
    (hG : G (S n) (Function.update (T n) b (some ((r, o) :: pend)))) (hI : Inj (S n))
    (hok : n.moveEntry a b (r, o) = .ok n') :
    (∀ x y, x ≠ b → y ≠ b → g n' x y = g n x y + moveTerm n.heap a x y (r, o)) ∧
    (∀ y, y ≠ o → g n' b y = g n b y) ∧ (∀ x, g n' x x = 0) ∧ (∀ x, x ∈ n.nodeToS.keys ∨ x = a ↔ x ∈ n'.nodeToS.keys ∨ x = a) := by
  obtain ⟨hbo, hSbo, l, hl, hm, -⟩ := hG.unlink (Function.update_self ..)
  rw [Function.update_of_ne hbo.symm] at hl
  have hok' : o ∈ n.nodeToS.keys := mem_tKeys.2 ⟨l, hl⟩
  have ho : o ∈ n.locations.keys := hB.tloc o hok'
  have hself : ∀ {m : Net} {tt}, G (S m) tt → ∀ x, g m x x = 0 := by
    intro m tt hGm x; unfold g; rw [hGm.noloop]
  unfold Net.moveEntry at hok
  by_cases hoa : o = a
  · rw [if_neg (by simpa using hoa)] at hok
    obtain ⟨n1, h1, hB1, hG1, hS1, hk1, hh1, hr1, hp1, hl1⟩ := unlink_spec hB hbk hG
    rw [h1] at hok; cases hok
    refine ⟨?_, ?_, hself hG1, fun x => by rw [hk1]⟩
    · intro x y hx hy
      unfold moveTerm
      rw [if_neg (fun h => h.1 hoa), add_zero]
      unfold g; rw [hS1, hh1]; unfold unlinkS
      rw [if_neg (by rintro (⟨h, -⟩ | ⟨-, h⟩); exacts [hx h, hy h])]
    · intro y hy
      unfold g; rw [hS1, hh1]; unfold unlinkS
      rw [if_neg (by rintro (⟨-, h⟩ | ⟨h, -⟩); exacts [hy h, hbo h])]
  · rw [if_pos (by simpa using hoa)] at hok
    cases hs : S n a o with
    | some r₀ =>
      simp only at hok
      rw [S_addCondRef_some hs] at hok
      obtain ⟨n1, h1, hB1, hG1, hS1, hk1, hh1, hr1, hp1, hl1⟩ :=
        unlink_spec (n := { n with heap := n.heap.addParallel r₀ r }) (base_heap hB _) hbk hG
      rw [h1] at hok; cases hok
      have hS1' : S n' = unlinkS (S n) b o := hS1
      refine ⟨?_, ?_, hself hG1, fun x => by rw [hk1]⟩
      · intro x y hx hy
        unfold g; rw [hS1', hh1]; unfold unlinkS
        rw [if_neg (by rintro (⟨h, -⟩ | ⟨-, h⟩); exacts [hx h, hy h])]
        unfold moveTerm
        simp only [ne_eq, hoa, not_false_eq_true, true_and, Heap.addParallel, parallelC]
        by_cases hxy : (x = a ∧ y = o) ∨ (x = o ∧ y = a)
        · rw [if_pos hxy]
          have : S n x y = some r₀ := by
            rcases hxy with ⟨rfl, rfl⟩ | ⟨rfl, rfl⟩
            · exact hs
            · rw [hG.sym]; exact hs
          rw [this]; simp
        · rw [if_neg hxy]
          cases hq : S n x y with
          | none => simp
          | some q =>
            have h2 : q ≠ r₀ := by
              rintro rfl
              exact hxy (hI _ _ _ _ _ hq hs)
            simp [Function.update_of_ne h2]
      · intro y hy
        unfold g; rw [hS1', hh1]; unfold unlinkS
        rw [if_neg (by rintro (⟨-, h⟩ | ⟨h, -⟩); exacts [hy h, hbo h])]
        cases hq : S n b y with
        | none => simp
        | some q =>
          have h2 : q ≠ r₀ := by
            rintro rfl
            rcases hI _ _ _ _ _ hq hs with h3 | h3
            · exact hab h3.1.symm
            · exact hbo h3.1
          simp [Heap.addParallel, Function.update_of_ne h2]
    | none =>
      have hao : a ≠ o := Ne.symm hoa
      have hB1 := base_addCondRef hB hao ha ho (hB.refs _ _ _ hSbo)
      have eS := S_addCondRef (r := r) hs
      have eT := T_addCondRef (r := r) hao hs
      have hk1 : ∀ x, x ∈ (n.addCondRef a o r).nodeToS.keys ↔ x = a ∨ x = o ∨ x ∈ n.nodeToS.keys := by
        intro x
        rw [mem_tKeys, eT]
        unfold linkT
        by_cases hxa : x = a
        · simp [hxa]
        · by_cases hxo : x = o
          · subst hxo; simp [hxa]
          · simp only [hxa, hxo, if_false, false_or]; rw [mem_tKeys]
      have hG1 : G (S (n.addCondRef a o r)) (Function.update (T (n.addCondRef a o r)) b (some ((r, o) :: pend))) := by
        have := hG.link hao hs r
        rw [eS, eT]
        convert this using 1
        funext x
        unfold linkT
        by_cases hxb : x = b
        · subst hxb
          rw [Function.update_self, if_neg (Ne.symm hab), if_neg hbo, Function.update_self]
        · rw [Function.update_of_ne hxb]
          by_cases hxa : x = a
          · subst hxa; simp [Function.update_of_ne hxb]
          · rw [if_neg hxa, if_neg hxa]
            by_cases hxo : x = o
            · subst hxo; simp [Function.update_of_ne hxb]
            · rw [if_neg hxo, if_neg hxo, Function.update_of_ne hxb]
      obtain ⟨n1, h1, hB2, hG2, hS2, hk2, hh2, hr2, hp2, hl2⟩ := unlink_spec hB1 ((hk1 b).2 (Or.inr (Or.inr hbk))) hG1
      simp only at hok
      rw [h1] at hok; cases hok
      have hs' := hs
      unfold S at hs'
      have hp : (n.addCondRef a o r).heap = n.heap := by
        unfold Net.addCondRef; rw [hs']
      refine ⟨?_, ?_, hself hG2, ?_⟩
      · intro x y hx hy
        unfold g; rw [hS2, hh2, eS, hp]; unfold unlinkS
        rw [if_neg (by rintro (⟨h, -⟩ | ⟨-, h⟩); exacts [hx h, hy h])]
        unfold linkS moveTerm
        simp only [ne_eq, hoa, not_false_eq_true, true_and]
        by_cases hxy : (x = a ∧ y = o) ∨ (x = o ∧ y = a)
        · rw [if_pos hxy, if_pos hxy]
          have : S n x y = none := by
            rcases hxy with ⟨rfl, rfl⟩ | ⟨rfl, rfl⟩
            · exact hs
            · rw [hG.sym]; exact hs
          rw [this]; simp
        · rw [if_neg hxy, if_neg hxy, add_zero]
      · intro y hy
        unfold g; rw [hS2, hh2, eS, hp]; unfold unlinkS linkS
        rw [if_neg (by rintro (⟨-, h⟩ | ⟨h, -⟩); exacts [hy h, hbo h]),
          if_neg (by rintro (⟨h, -⟩ | ⟨h, -⟩); exacts [hab h.symm, hbo h])]
      · intro x
        rw [hk2, hk1]
        constructor
        · rintro (h | h)
          · exact Or.inl (Or.inr (Or.inr h))
          · exact Or.inr h
        · rintro ((h | rfl | h) | h)
          · exact Or.inr h
          · exact Or.inl hok'
          · exact Or.inl h
          · exact Or.inr h

theorem moveAll_g {a b : Nat} (hab : a ≠ b) : ∀ (pend : List Entry) (n n' : Net), Base n → b ∈ n.nodeToS.keys →
    a ∈ n.locations.keys → G (S n) (Function.update (T n) b (some pend)) → Inj (S n) →
    pend.foldlM (fun n e => n.moveEntry a b e) n = .ok n' →
    ∀ x y, x ≠ b → y ≠ b → g n' x y = g n x y + (pend.map (moveTerm n.heap a x y)).sum := by
  intro pend
  induction pend with
  | nil => intro n n' _ _ _ _ _ h x y _ _; cases h; simp
  | cons e pend ih =>
    intro n n' hB hk ha hG hI hok x y hx hy
    obtain ⟨n1, h1, hB1, hG1, hI1, hk1, hp1, hl1, -, -⟩ := moveEntry_spec hB hk ha hG hI
    obtain ⟨q1, q2, -, -⟩ := moveEntry_g hB hk ha hab hG hI h1
    rw [List.foldlM_cons, h1] at hok
    have := ih n1 n' hB1 (hk1 b hk) (by rw [hl1]; exact ha) hG1 hI1 hok x y hx hy
    rw [this, q1 x y hx hy, List.map_cons, List.sum_cons]
    have hpn := hG.nodup b _ (Function.update_self ..)
    simp only [List.map_cons, List.nodup_cons] at hpn
    have heq : pend.map (moveTerm n1.heap a x y) = pend.map (moveTerm n.heap a x y) := by
      apply List.map_congr_left
      intro f hf
      have hne : f.2 ≠ e.2 := fun h => hpn.1 (List.mem_map.2 ⟨f, hf, h⟩)
      have s0 : S n b f.2 = some f.1 := (hG.star b f.1 f.2).1 ⟨_, Function.update_self .., by simp [hf]⟩
      have s1 : S n1 b f.2 = some f.1 := (hG1.star b f.1 f.2).1 ⟨_, Function.update_self .., hf⟩
      have := q2 f.2 hne
      rw [g_of_S s0, g_of_S s1] at this
      unfold moveTerm; rw [this]
    rw [heq]; ring

/-- Values after `connect_nodes`: the resistors of `b` now end at `a`. -/
theorem connectNodes_g {n n' : Net} (h : Inv n) {a b : Nat} (hab : a ≠ b) (ha : a ∈ n.locations.keys)
    (hb : b ∈ n.nodeToS.keys) (hok : n.connectNodes a b = .ok n') (x y : Nat) :
    g n' x y = if x = b ∨ y = b ∨ x = y then 0 else
      g n x y + (if x = a then g n b y else 0) + (if y = a then g n b x else 0) := by
  obtain ⟨star, hT⟩ := mem_tKeys.1 hb
  obtain ⟨n1, h1, hB1, hk1, hG1, hI1, -, -, hn1⟩ :=
    moveAll_spec star n h.base hb ha (by rw [update_T_self hT]; exact h.g) h.inj
  obtain ⟨n2, h2, hV2, hS2, -, hh2, -⟩ := forget_spec hB1 hk1 hG1 hI1
  have hok2 : n.connectNodes a b = .ok n2 := by
    unfold Net.connectNodes; unfold T at hT; rw [hT]
    simp only [h1, bind, Except.bind]; exact h2
  rw [hok] at hok2; cases hok2
  have hgn : g n' x y = g n1 x y := by unfold g; rw [hS2, hh2]
  have hnb : ∀ y, S n1 b y = none := by
    intro y
    cases hs : S n1 b y with
    | none => rfl
    | some r =>
      obtain ⟨l, hl, hm⟩ := (hG1.star b r y).2 hs
      rw [Function.update_self] at hl; cases hl; simp at hm
  by_cases hx : x = b ∨ y = b ∨ x = y
  · rw [if_pos hx, hgn]
    unfold g
    rcases hx with rfl | rfl | rfl
    · rw [hnb]
    · rw [hG1.sym, hnb]
    · rw [hG1.noloop]
  · rw [if_neg hx, hgn]
    push Not at hx
    obtain ⟨hxb, hyb, hxy⟩ := hx
    rw [moveAll_g hab star n n1 h.base hb ha (by rw [update_T_self hT]; exact h.g) h.inj h1 x y hxb hyb, add_assoc]
    congr 1
    rw [← starTo_eq_g h hT x, ← starTo_eq_g h hT y]
    clear hok h1 hT
    induction star with
    | nil => simp [starTo]
    | cons e l ih =>
      simp only [List.map_cons, List.sum_cons, ih]
      unfold starTo moveTerm
      simp only [List.map_cons, List.sum_cons]
      by_cases hxa : x = a
      · have hya : y ≠ a := fun h => hxy (hxa.trans h.symm)
        by_cases he : y = e.2
        · have : e.2 ≠ a := he ▸ hya
          simp [hxa, he, this]
        · have he' : ¬ e.2 = y := fun h => he h.symm
          simp [hxa, hya, he, he']
      · by_cases hya : y = a
        · by_cases he : x = e.2
          · have : e.2 ≠ a := he ▸ hxa
            simp [hya, he, this]
          · have he' : ¬ e.2 = x := fun h => he h.symm
            simp [hxa, hya, he, he']
        · simp [hxa, hya]

/-! ### The elimination loop -/

theorem elimList_spec : ∀ (is : List Nat) (n : Net), Inv n →
    ∃ n', is.foldlM (fun n i => n.eliminateNode i) n = .ok n' ∧ Inv n' ∧
      (∀ x, x ∈ n'.nodeToS.keys ↔ x ∈ n.nodeToS.keys ∧ x ∉ is) ∧ n'.precious = n.precious ∧
      (∀ x, n'.locations.get? x = if x ∈ is ∧ x ∈ n.nodeToS.keys then none else n.locations.get? x) ∧
      ((∀ q, 0 ≤ n.heap q) → ∀ q, 0 ≤ n'.heap q) := by
  intro is
  induction is with
  | nil => intro n h; exact ⟨n, rfl, h, by simp, rfl, by simp, id⟩
  | cons i is ih =>
    intro n h
    obtain ⟨n1, h1, hV1, -, hk1, hp1, hl1, hn1⟩ := eliminateNode_spec h i
    obtain ⟨n2, h2, hV2, hk2, hp2, hl2, hn2⟩ := ih n1 hV1
    refine ⟨n2, ?_, hV2, ?_, hp2.trans hp1, ?_, fun h0 => hn2 (hn1 h0)⟩
    · rw [List.foldlM_cons, h1]; exact h2
    · intro x; rw [hk2, hk1]; simp only [List.mem_cons, not_or, and_assoc]
    · intro x
      rw [hl2, hl1]
      simp only [hk1]
      by_cases hix : x = i
      · subst hix; simp
      · have hix' : ¬ i = x := fun h => hix h.symm
        simp [hix, hix']

theorem mem_toEliminate {n : Net} {nmax i : Nat} :
    i ∈ n.toEliminate nmax ↔ i ∈ n.nodeToS.keys ∧ i ∉ n.precious ∧ (n.nodeToS.getD i []).length ≤ nmax := by
  unfold Net.toEliminate
  simp [List.mem_filter, List.mem_insertionSort]

theorem nodup_toEliminate {n : Net} (h : Inv n) (nmax : Nat) : (n.toEliminate nmax).Nodup := by
  unfold Net.toEliminate
  exact (((List.perm_insertionSort (· ≤ ·) n.nodeToS.keys).nodup_iff).2 h.base.tKeys).filter _

theorem nmaxNext_spec (n : Net) (nmax : Nat) :
    (n.nmaxNext nmax = none → ∀ i ∈ n.nodeToS.keys, i ∉ n.precious → (n.nodeToS.getD i []).length ≤ nmax) ∧
    (∀ m, n.nmaxNext nmax = some m → ∃ i ∈ n.nodeToS.keys, i ∉ n.precious ∧ (n.nodeToS.getD i []).length = m) := by
  have key : ∀ (l : List Nat) (best : Option Nat),
      (∀ i ∈ l, i ∈ n.nodeToS.keys) →
      (∀ m, best = some m → ∃ i ∈ n.nodeToS.keys, i ∉ n.precious ∧ (n.nodeToS.getD i []).length = m) →
      (l.foldl (n.nmaxStep nmax) best = none →
        best = none ∧ ∀ i ∈ l, i ∉ n.precious → (n.nodeToS.getD i []).length ≤ nmax) ∧
      (∀ m, l.foldl (n.nmaxStep nmax) best = some m →
        ∃ i ∈ n.nodeToS.keys, i ∉ n.precious ∧ (n.nodeToS.getD i []).length = m) := by
    intro l
    induction l with
    | nil => intro best _ hb; exact ⟨fun h => ⟨h, by simp⟩, hb⟩
    | cons i l ih =>
      intro best hl hb
      rw [List.foldl_cons]
      have hi := hl i (by simp)
      have hstep : ∀ m, n.nmaxStep nmax best i = some m →
          ∃ i ∈ n.nodeToS.keys, i ∉ n.precious ∧ (n.nodeToS.getD i []).length = m := by
        intro m hm
        unfold Net.nmaxStep at hm
        split at hm
        · rename_i hc
          cases best with
          | none => cases hm; exact ⟨i, hi, hc.1, rfl⟩
          | some m0 =>
            simp only at hm
            split at hm
            · cases hm; exact ⟨i, hi, hc.1, rfl⟩
            · cases hm; exact hb _ rfl
        · exact hb m hm
      obtain ⟨h1, h2⟩ := ih _ (fun j hj => hl j (by simp [hj])) hstep
      refine ⟨fun he => ?_, h2⟩
      obtain ⟨h3, h4⟩ := h1 he
      unfold Net.nmaxStep at h3
      split at h3
      · cases best with
        | none => cases h3
        | some m0 => simp only at h3; split at h3 <;> cases h3
      · rename_i hc
        refine ⟨h3, ?_⟩
        intro j hj hjp
        rcases List.mem_cons.1 hj with rfl | hj
        · by_contra h; exact hc ⟨hjp, h⟩
        · exact h4 j hj hjp
  obtain ⟨h1, h2⟩ := key (n.nodeToS.keys.insertionSort (· ≤ ·)) none (fun i hi => by simpa using hi) (by simp)
  exact ⟨fun he i hi => (h1 he).2 i (by simpa using hi), h2⟩

/-- Nodes that still have to be eliminated. -/
def todo (n : Net) : Finset Nat := (n.nodeToS.keys.filter fun i => i ∉ n.precious).toFinset

theorem mem_todo {n : Net} {i : Nat} : i ∈ todo n ↔ i ∈ n.nodeToS.keys ∧ i ∉ n.precious := by
  unfold todo; simp

/-- The loop terminates after at most `2 * |todo| + 1` passes, having eliminated exactly the nodes to do. -/
theorem elimLoop_spec : ∀ (k : Nat) (n : Net) (nmax fuel : Nat), Inv n → (todo n).card ≤ k → 2 * k + 1 ≤ fuel →
    ∃ (is : List Nat) (n' : Net), Net.elimLoop fuel nmax n = .ok (some n') ∧ is.foldlM (fun n i => n.eliminateNode i) n = .ok n' ∧
      is.Nodup ∧ (∀ i, i ∈ is ↔ i ∈ todo n) := by
  intro k
  induction k using Nat.strong_induction_on with
  | _ k ih =>
    have main : ∀ (n : Net) (nmax fuel : Nat), Inv n → (todo n).card ≤ k → 2 * k ≤ fuel →
        n.toEliminate nmax ≠ [] →
        ∃ (is : List Nat) (n' : Net), Net.elimLoop fuel nmax n = .ok (some n') ∧ is.foldlM (fun n i => n.eliminateNode i) n = .ok n' ∧
          is.Nodup ∧ (∀ i, i ∈ is ↔ i ∈ todo n) := by
      intro n nmax fuel h hc hf hne
      obtain ⟨j, hj⟩ := List.exists_mem_of_ne_nil _ hne
      have hjt := mem_todo.2 ⟨(mem_toEliminate.1 hj).1, (mem_toEliminate.1 hj).2.1⟩
      have hcpos : 0 < (todo n).card := Finset.card_pos.2 ⟨j, hjt⟩
      obtain ⟨n1, h1, hV1, hk1, hp1, -⟩ := elimList_spec (n.toEliminate nmax) n h
      have hsub : ∀ i, i ∈ todo n1 ↔ i ∈ todo n ∧ i ∉ n.toEliminate nmax := by
        intro i; rw [mem_todo, mem_todo, hk1, hp1]; tauto
      have hlt : (todo n1).card < (todo n).card := by
        apply Finset.card_lt_card
        rw [Finset.ssubset_iff_of_subset (fun i hi => ((hsub i).1 hi).1)]
        exact ⟨j, hjt, fun hjn => ((hsub j).1 hjn).2 hj⟩
      obtain ⟨fuel', rfl⟩ : ∃ f, fuel = f + 1 := ⟨fuel - 1, by omega⟩
      obtain ⟨is, n2, e1, e2, e3, e4⟩ := ih (k - 1) (by omega) n1 nmax fuel' hV1 (by omega) (by omega)
      refine ⟨n.toEliminate nmax ++ is, n2, ?_, ?_, ?_, ?_⟩
      · unfold Net.elimLoop
        cases hte : n.toEliminate nmax with
        | nil => exact absurd hte hne
        | cons a as =>
          simp only
          rw [← hte, h1]
          exact e1
      · rw [List.foldlM_append, h1]; exact e2
      · rw [List.nodup_append]
        refine ⟨nodup_toEliminate h nmax, e3, ?_⟩
        rintro a ha b hb rfl
        exact ((hsub a).1 ((e4 a).1 hb)).2 ha
      · intro i
        rw [List.mem_append, e4, hsub]
        by_cases hi : i ∈ n.toEliminate nmax
        · have := mem_toEliminate.1 hi
          simp [hi, mem_todo, this.1, this.2.1]
        · simp [hi]
    intro n nmax fuel h hc hf
    by_cases hne : n.toEliminate nmax = []
    · have hnx := nmaxNext_spec n nmax
      obtain ⟨fuel', rfl⟩ : ∃ f, fuel = f + 1 := ⟨fuel - 1, by omega⟩
      cases hx : n.nmaxNext nmax with
      | none =>
        have hnx := hnx.1 hx
        refine ⟨[], n, ?_, rfl, List.nodup_nil, ?_⟩
        · unfold Net.elimLoop; rw [hne]; simp only; rw [hx]
        · intro i
          simp only [List.not_mem_nil, false_iff]
          intro hi
          obtain ⟨h1, h2⟩ := mem_todo.1 hi
          have : i ∈ n.toEliminate nmax := mem_toEliminate.2 ⟨h1, h2, hnx i h1 h2⟩
          rw [hne] at this; simp at this
      | some m =>
        obtain ⟨j, hj1, hj2, hj3⟩ := hnx.2 m hx
        have hne' : n.toEliminate m ≠ [] := by
          intro he
          have : j ∈ n.toEliminate m := mem_toEliminate.2 ⟨hj1, hj2, hj3.le⟩
          rw [he] at this; simp at this
        obtain ⟨is, n2, e1, e2, e3, e4⟩ := main n m fuel' h hc (by omega) hne'
        refine ⟨is, n2, ?_, e2, e3, e4⟩
        unfold Net.elimLoop; rw [hne]; simp only; rw [hx]; exact e1
    · exact main n nmax fuel h hc (by omega) hne

theorem todo_card_le (n : Net) : (todo n).card ≤ n.nodeToS.length := by
  unfold todo
  refine (List.toFinset_card_le _).trans ((List.length_filter_le _ _).trans ?_)
  unfold Dict.keys; simp

/-- `eliminate_all` eliminates, one by one, exactly the connected nodes that are not precious. -/
theorem eliminateAll_spec {n : Net} (h : Inv n) :
    ∃ (is : List Nat) (n' : Net), n.eliminateAll = .ok n' ∧ is.foldlM (fun n i => n.eliminateNode i) n = .ok n' ∧
      is.Nodup ∧ (∀ i, i ∈ is ↔ i ∈ n.nodeToS.keys ∧ i ∉ n.precious) := by
  obtain ⟨is, n', h1, h2, h3, h4⟩ := elimLoop_spec n.nodeToS.length n 3 (2 * n.nodeToS.length + 1) h
    (todo_card_le n) le_rfl
  refine ⟨is, n', ?_, h2, h3, fun i => by rw [h4, mem_todo]⟩
  unfold Net.eliminateAll
  simp only [h1, bind, Except.bind]

end Verif.RNet
