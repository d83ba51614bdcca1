import Verif.Checker.Split
import Mathlib.Data.List.Dedup
import Mathlib.Algebra.BigOperators.Group.List.Basic
import Mathlib.Data.List.Perm.Subperm

/-!
# The rounds of `_split_edges` end
-/

namespace Verif.Checker

open Verif.Finalize (Point Triangle)

/-- Length of an edge, squared. -/
def Edge.len (e : Edge) : ℕ := (sqLength e.vec).toNat

theorem len_piece {e : Edge} {m : Point ℤ} (h : Mid e m) {r : Edge} (hr : r = ⟨e.p0, m⟩ ∨ r = ⟨m, e.p1⟩) :
    r.len < e.len := by
  obtain ⟨hpos, s, s0, s1, hs⟩ := h
  have key : ∀ (f : Edge) (k : ℚ), 0 < k → k < 1 → Multiple k e.side f.side → f.len < e.len := by
    intro f k k0 k1 hk
    obtain ⟨hx, hy, hz⟩ := hk
    simp only [Edge.side] at hx hy hz
    have h1 : (sqLength f.vec : ℚ) = k ^ 2 * sqLength e.vec := by
      simp only [sqLength, Edge.vec]
      push_cast
      rw [hx, hy, hz]
      ring
    have h2 : (0 : ℚ) < sqLength e.vec := by exact_mod_cast hpos
    have h3 : (sqLength f.vec : ℚ) < sqLength e.vec := by
      rw [h1]
      have : k ^ 2 < 1 := by nlinarith
      nlinarith
    have h4 : sqLength f.vec < sqLength e.vec := by exact_mod_cast h3
    have h5 : 0 ≤ sqLength f.vec := by unfold sqLength; positivity
    unfold Edge.len
    omega
  rcases hr with rfl | rfl
  · exact key _ _ (by linarith) (by linarith) (Mid.part1 hs).multiple
  · exact key _ _ (by linarith) (by linarith) (Mid.part2 hs).multiple

/-- The corners of the original edges. -/
def vertices (O : List Edge) : List (Point ℤ) := O.flatMap fun o => [o.p0, o.p1]

/-- All edges between corners. -/
def allEdges (O : List Edge) : List Edge := (vertices O).flatMap fun p => (vertices O).map fun q => ⟨p, q⟩

theorem EndOf.mem {O : List Edge} {e : Edge} {p : Point ℤ} (h : EndOf O e p) : p ∈ vertices O := by
  obtain ⟨o, ho, hp, _⟩ := h
  refine List.mem_flatMap.2 ⟨o, ho, ?_⟩
  rcases hp with rfl | rfl <;> simp

theorem Good.mem {O : List Edge} {e : Edge} (h : Good O e) : e ∈ allEdges O :=
  List.mem_flatMap.2 ⟨e.p0, h.end0.mem, List.mem_map.2 ⟨e.p1, h.end1.mem, rfl⟩⟩

/-- The quantity that decreases. -/
def phi (K : ℕ) (S : List Edge) : ℕ := (S.map fun e => K ^ e.len).sum

theorem phi_sublist (K : ℕ) {S T : List Edge} (h : S.Sublist T) : phi K S ≤ phi K T := by
  induction h with
  | slnil => exact le_rfl
  | cons a _ ih => simp only [phi, List.map_cons, List.sum_cons] at ih ⊢; omega
  | cons_cons a _ ih => simp only [phi, List.map_cons, List.sum_cons] at ih ⊢; omega

theorem phi_perm (K : ℕ) {S T : List Edge} (h : S.Perm T) : phi K S = phi K T :=
  (h.map fun e : Edge => K ^ e.len).sum_eq

theorem phi_subset (K : ℕ) {S T : List Edge} (hn : S.Nodup) (h : ∀ r ∈ S, r ∈ T) : phi K S ≤ phi K T := by
  obtain ⟨l, hp, hs⟩ := hn.subperm h
  rw [← phi_perm K hp]
  exact phi_sublist K hs

theorem phi_append (K : ℕ) (S T : List Edge) : phi K (S ++ T) = phi K S + phi K T := by
  simp [phi]

theorem phi_bound (K n : ℕ) (hK : 1 ≤ K) (S : List Edge) (h : ∀ r ∈ S, r.len ≤ n) : phi K S ≤ S.length * K ^ n := by
  induction S with
  | nil => simp [phi]
  | cons a S ih =>
    have h1 : phi K S ≤ S.length * K ^ n := ih fun r hr => h r (by simp [hr])
    have h2 : K ^ a.len ≤ K ^ n := Nat.pow_le_pow_right hK (h a (by simp))
    simp only [phi, List.map_cons, List.sum_cons, List.length_cons] at h1 ⊢
    rw [Nat.add_mul]
    omega

theorem phi_lt {O : List Edge} {S T P : List Edge} {e : Edge} (hT : T.Nodup) (he : e ∈ S)
    (hmem : ∀ r ∈ T, (r ∈ S ∧ r ≠ e) ∨ r ∈ P) (hP : ∀ r ∈ P, r ∈ allEdges O ∧ r.len < e.len) :
    phi ((allEdges O).length + 1) T < phi ((allEdges O).length + 1) S := by
  set K := (allEdges O).length + 1 with hK
  have h1 : phi K T ≤ phi K (S.erase e ++ P.dedup) := by
    refine phi_subset K hT ?_
    intro r hr
    rw [List.mem_append]
    rcases hmem r hr with ⟨h, h'⟩ | h
    · exact Or.inl ((List.mem_erase_of_ne h').2 h)
    · exact Or.inr (List.mem_dedup.2 h)
  have h2 : phi K S = K ^ e.len + phi K (S.erase e) := by
    rw [phi_perm K (List.perm_cons_erase he)]
    simp [phi]
  have h3 : phi K P.dedup < K ^ e.len := by
    have hlen : P.dedup.length ≤ (allEdges O).length :=
      ((List.nodup_dedup P).subperm fun r hr => (hP r (List.mem_dedup.1 hr)).1).length_le
    rcases hd : e.len with _ | n
    · have : P.dedup = [] := by
        rw [List.eq_nil_iff_forall_not_mem]
        intro r hr
        have := (hP r (List.mem_dedup.1 hr)).2
        omega
      rw [this]
      simp [phi]
    · have hb := phi_bound K n (by omega) P.dedup fun r hr => by
        have := (hP r (List.mem_dedup.1 hr)).2
        omega
      have hpos : 0 < K ^ n := Nat.pow_pos (by omega)
      calc phi K P.dedup ≤ P.dedup.length * K ^ n := hb
        _ ≤ (allEdges O).length * K ^ n := Nat.mul_le_mul_right _ hlen
        _ < K * K ^ n := Nat.mul_lt_mul_of_pos_right (by omega) hpos
        _ = K ^ (n + 1) := by rw [Nat.pow_succ, Nat.mul_comm]
  rw [phi_append] at h1
  omega

/-- All substitutions of a round succeed and the quantity decreases. -/
theorem apply_all {O : List Edge} (l : Dict Edge (List Edge)) (hnd : l.keys.Nodup) (st : St) (hinv : Inv O st)
    (hl : ∀ er ∈ l, er.1 ∈ st.edges ∧ ∃ ms, ms ≠ [] ∧ er.2 = pieces er.1 ms ∧ ∀ m ∈ ms, Mid er.1 m ∧ EndOf O er.1 m) :
    ∃ st', l.foldlM applySubst st = .ok st' ∧ Inv O st' ∧
      phi ((allEdges O).length + 1) st'.edges + l.length ≤ phi ((allEdges O).length + 1) st.edges := by
  induction l generalizing st with
  | nil => exact ⟨st, rfl, hinv, by simp⟩
  | cons er l ih =>
    obtain ⟨e, r⟩ := er
    obtain ⟨he, ms, hms, hr, hall⟩ := hl (e, r) (by simp)
    simp only at he hr hall
    subst hr
    obtain ⟨st1, h1, hinv1, hmem1⟩ := applySubst_ok hinv he hms hall
    simp only [Dict.keys, List.map_cons, List.nodup_cons] at hnd
    obtain ⟨st', h2, hinv', hphi⟩ := ih hnd.2 st1 hinv1 (by
      intro er her
      obtain ⟨h3, h4⟩ := hl er (by simp [her])
      refine ⟨(hmem1 _).2 (Or.inl ⟨h3, ?_⟩), h4⟩
      rintro rfl
      exact hnd.1 (List.mem_map.2 ⟨er, her, rfl⟩))
    refine ⟨st', ?_, hinv', ?_⟩
    · rw [List.foldlM_cons, h1]
      exact h2
    · have hlt : phi ((allEdges O).length + 1) st1.edges < phi ((allEdges O).length + 1) st.edges := by
        refine phi_lt hinv1.nodup he (fun r hr => (hmem1 r).1 hr) ?_
        intro r hr
        obtain ⟨m, hm, hrm⟩ := mem_pieces.1 hr
        exact ⟨(hinv1.good ((hmem1 r).2 (Or.inr hr))).mem, len_piece (hall m hm).1 hrm⟩
      simp only [List.length_cons]
      omega

/-- Nothing is left to split. -/
def Fixed (st : St) : Prop :=
  ∀ e ∈ st.edges, ∀ f ∈ st.edges, (f.p1 = e.p0 ∨ f.p0 = e.p1) → shorter e f = false

theorem rounds_end {ord : ℕ → List Edge → List Edge} (hord : ∀ n l, (ord n l).Perm l) {O : List Edge} (n : ℕ) :
    ∀ (i : ℕ) (st : St), Inv O st → phi ((allEdges O).length + 1) st.edges = n →
      ∃ st', Inv O st' ∧ Fixed st' ∧ ∀ fuel, n < fuel → rounds ord fuel i st = some (.ok st') := by
  induction n using Nat.strong_induction_on with
  | _ n ih =>
    intro i st hinv hn
    have hok := substOk_substs (es := ord (i + 1) st.edges) hinv
    by_cases hs : substs (ord (i + 1) st.edges) st = []
    · refine ⟨st, hinv, ?_, ?_⟩
      · intro e he f hf hef
        obtain ⟨h1, h2⟩ := substs_nil hs e ((hord _ _).mem_iff.2 he)
        rcases hef with h | h
        · exact h1 f (h ▸ hinv.in2 f hf)
        · exact h2 f (h ▸ hinv.in1 f hf)
      · intro fuel hfuel
        obtain ⟨fuel, rfl⟩ : ∃ k, fuel = k + 1 := ⟨fuel - 1, by omega⟩
        simp [rounds, hs]
    · obtain ⟨st1, h1, hinv1, hphi⟩ := apply_all _ hok.nodup st hinv (by
        rintro ⟨e, r⟩ her
        obtain ⟨h2, h3⟩ := hok.ok e r (Dict.get?_of_mem hok.nodup her)
        exact ⟨(hord _ _).mem_iff.1 h2, h3⟩)
      have hlen : (substs (ord (i + 1) st.edges) st).length ≠ 0 := by
        rwa [Ne, List.length_eq_zero_iff]
      obtain ⟨st', hinv', hfix, hr⟩ := ih _ (by omega) (i + 1) st1 hinv1 rfl
      refine ⟨st', hinv', hfix, ?_⟩
      intro fuel hfuel
      obtain ⟨fuel, rfl⟩ : ∃ k, fuel = k + 1 := ⟨fuel - 1, by omega⟩
      simp only [rounds]
      rw [if_neg hlen, h1]
      exact hr fuel (by omega)

/-! ### The start -/

theorem index_fold (l : List Edge) (st : St) :
    (l.foldl index st).edges = st.edges ∧
    (∀ p r, r ∈ (l.foldl index st).byP1.getD p [] ↔ r ∈ st.byP1.getD p [] ∨ (r ∈ l ∧ r.p0 = p)) ∧
    (∀ p r, r ∈ (l.foldl index st).byP2.getD p [] ↔ r ∈ st.byP2.getD p [] ∨ (r ∈ l ∧ r.p1 = p)) := by
  induction l generalizing st with
  | nil => simp
  | cons a l ih =>
    obtain ⟨h1, h2, h3⟩ := ih (index st a)
    refine ⟨h1, ?_, ?_⟩
    · intro p r
      rw [List.foldl_cons, h2]
      simp only [index, Dict.getD_upd]
      by_cases hp : a.p0 = p
      · subst hp
        rw [if_pos rfl]
        simp only [List.mem_append, List.mem_cons, List.not_mem_nil, or_false]
        constructor
        · rintro ((h | rfl) | ⟨h, h'⟩)
          · exact Or.inl h
          · exact Or.inr ⟨Or.inl rfl, rfl⟩
          · exact Or.inr ⟨Or.inr h, h'⟩
        · rintro (h | ⟨rfl | h, h'⟩)
          · exact Or.inl (Or.inl h)
          · exact Or.inl (Or.inr rfl)
          · exact Or.inr ⟨h, h'⟩
      · rw [if_neg hp]
        simp only [List.mem_cons]
        constructor
        · rintro (h | ⟨h, h'⟩)
          · exact Or.inl h
          · exact Or.inr ⟨Or.inr h, h'⟩
        · rintro (h | ⟨rfl | h, h'⟩)
          · exact Or.inl h
          · exact absurd h' hp
          · exact Or.inr ⟨h, h'⟩
    · intro p r
      rw [List.foldl_cons, h3]
      simp only [index, Dict.getD_upd]
      by_cases hp : a.p1 = p
      · subst hp
        rw [if_pos rfl]
        simp only [List.mem_append, List.mem_cons, List.not_mem_nil, or_false]
        constructor
        · rintro ((h | rfl) | ⟨h, h'⟩)
          · exact Or.inl h
          · exact Or.inr ⟨Or.inl rfl, rfl⟩
          · exact Or.inr ⟨Or.inr h, h'⟩
        · rintro (h | ⟨rfl | h, h'⟩)
          · exact Or.inl (Or.inl h)
          · exact Or.inl (Or.inr rfl)
          · exact Or.inr ⟨h, h'⟩
      · rw [if_neg hp]
        simp only [List.mem_cons]
        constructor
        · rintro (h | ⟨h, h'⟩)
          · exact Or.inl h
          · exact Or.inr ⟨Or.inr h, h'⟩
        · rintro (h | ⟨rfl | h, h'⟩)
          · exact Or.inl h
          · exact absurd h' hp
          · exact Or.inr ⟨h, h'⟩

/-- `_split_edges` always ends, without an exception, in a state where nothing is left to split. -/
theorem splitEdges_end {ord : ℕ → List Edge → List Edge} (hord : ∀ n l, (ord n l).Perm l) (O : List Edge)
    (hO : O.Nodup) :
    ∃ st, Inv O st ∧ Fixed st ∧ ∃ n, ∀ fuel, n ≤ fuel → splitEdges ord fuel O = some (.ok st) := by
  obtain ⟨h1, h2, h3⟩ := index_fold (ord 0 O) { edges := O, byP1 := [], byP2 := [] }
  have hinv : Inv O ((ord 0 O).foldl index { edges := O, byP1 := [], byP2 := [] }) := by
    refine ⟨by rw [h1]; exact hO, ?_, ?_, ?_, ?_, ?_⟩
    · intro e he
      rw [h1] at he
      exact (h2 _ _).2 (Or.inr ⟨(hord _ _).mem_iff.2 he, rfl⟩)
    · intro e he
      rw [h1] at he
      exact (h3 _ _).2 (Or.inr ⟨(hord _ _).mem_iff.2 he, rfl⟩)
    · intro p e he
      rcases (h2 _ _).1 he with h | ⟨h, h'⟩
      · simp [Dict.getD] at h
      · exact ⟨h', good_self ((hord _ _).mem_iff.1 h)⟩
    · intro p e he
      rcases (h3 _ _).1 he with h | ⟨h, h'⟩
      · simp [Dict.getD] at h
      · exact ⟨h', good_self ((hord _ _).mem_iff.1 h)⟩
    · intro d q
      rw [h1]
  obtain ⟨st, hst, hfix, hr⟩ := rounds_end hord _ 0 _ hinv rfl
  exact ⟨st, hst, hfix, _, fun fuel hf => hr fuel (Nat.lt_of_succ_le hf)⟩

end Verif.Checker
