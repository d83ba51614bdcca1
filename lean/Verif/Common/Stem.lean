import Verif.Common.PyStr

/-!
# The name of a file without directories and extensions
-/

namespace Verif

/-- `st` is the part of the file name of `path` before its first dot: the file name is what follows the last slash. -/
def StemOf (path st : Str) : Prop :=
  ∃ base, (path = base ∨ ∃ dir, path = dir ++ '/' :: base) ∧ '/' ∉ base ∧ '.' ∉ st ∧
    (base = st ∨ ∃ ext, base = st ++ '.' :: ext)

theorem splitOn_last (c : Char) (s : Str) :
    c ∉ (splitOn c s).getLast?.getD [] ∧
      (s = (splitOn c s).getLast?.getD [] ∨ ∃ dir, s = dir ++ c :: (splitOn c s).getLast?.getD []) := by
  generalize hn : s.length = n
  induction n using Nat.strong_induction_on generalizing s with
  | _ n IH =>
  by_cases h : c ∈ s
  · obtain ⟨a, b, rfl, ha⟩ := List.eq_append_cons_of_mem h
    rw [splitOn_append ha]
    have ih := IH b.length (by rw [← hn, List.length_append, List.length_cons]; omega) b rfl
    obtain ⟨x, l, hx⟩ := List.exists_cons_of_ne_nil (splitOn_ne_nil c b)
    rw [hx] at ih ⊢
    rw [List.getLast?_cons_cons]
    refine ⟨ih.1, Or.inr ?_⟩
    rcases ih.2 with e | ⟨dir, e⟩
    · exact ⟨a, by rw [← e]⟩
    · exact ⟨a ++ c :: dir, by rw [List.append_assoc, List.cons_append, ← e]⟩
  · rw [splitOn_none h]
    exact ⟨h, Or.inl rfl⟩

theorem splitOn_head (c : Char) (s : Str) :
    c ∉ (splitOn c s).head?.getD [] ∧
      (s = (splitOn c s).head?.getD [] ∨ ∃ ext, s = (splitOn c s).head?.getD [] ++ c :: ext) := by
  by_cases h : c ∈ s
  · obtain ⟨a, b, rfl, ha⟩ := List.eq_append_cons_of_mem h
    rw [splitOn_append ha]
    exact ⟨ha, Or.inr ⟨b, rfl⟩⟩
  · rw [splitOn_none h]
    exact ⟨h, Or.inl rfl⟩

theorem stemOf_split (path : Str) : StemOf path ((splitOn '.' ((splitOn '/' path).getLast?.getD [])).head?.getD []) := by
  obtain ⟨h1, h2⟩ := splitOn_last '/' path
  obtain ⟨h3, h4⟩ := splitOn_head '.' ((splitOn '/' path).getLast?.getD [])
  exact ⟨_, h2, h1, h3, h4⟩

/-- There is one such name. -/
theorem StemOf.unique {path s t : Str} (hs : StemOf path s) (ht : StemOf path t) : s = t := by
  obtain ⟨b, h1, h2, h3, h4⟩ := hs
  obtain ⟨b', h1', h2', h3', h4'⟩ := ht
  have hb : b = b' := by
    have key : ∀ {d d' b b' : Str}, '/' ∉ b → '/' ∉ b' → d ++ '/' :: b = d' ++ '/' :: b' → b = b' := by
      intro d d' b b' hb hb' h
      rcases List.append_eq_append_iff.1 h with ⟨x, e1, e2⟩ | ⟨x, e1, e2⟩
      · cases x with
        | nil => simpa using e2
        | cons y x =>
          rw [List.cons_append] at e2
          injection e2 with _ e2
          exact absurd (e2 ▸ List.mem_append_right _ (List.mem_cons_self ..)) hb
      · cases x with
        | nil => exact (by simpa using e2.symm)
        | cons y x =>
          rw [List.cons_append] at e2
          injection e2 with _ e2
          exact absurd (e2 ▸ List.mem_append_right _ (List.mem_cons_self ..)) hb'
    rcases h1 with rfl | ⟨d, rfl⟩ <;> rcases h1' with e | ⟨d', e⟩
    · exact e
    · exact absurd (e ▸ List.mem_append_right _ (List.mem_cons_self ..)) h2
    · exact absurd (e.symm ▸ List.mem_append_right _ (List.mem_cons_self ..)) h2'
    · exact key h2 h2' e
  subst hb
  rcases h4 with rfl | ⟨e, rfl⟩ <;> rcases h4' with h | ⟨e', h⟩
  · exact h
  · exact absurd (h ▸ List.mem_append_right _ (List.mem_cons_self ..)) h3
  · exact absurd (h.symm ▸ List.mem_append_right _ (List.mem_cons_self ..)) h3'
  · rcases List.append_eq_append_iff.1 h with ⟨x, e1, e2⟩ | ⟨x, e1, e2⟩
    · cases x with
      | nil => simpa using e1.symm
      | cons y x =>
        rw [List.cons_append] at e2
        injection e2 with e2 _
        subst e2
        exact absurd (e1 ▸ List.mem_append_right _ (List.mem_cons_self ..)) h3'
    · cases x with
      | nil => simpa using e1
      | cons y x =>
        rw [List.cons_append] at e2
        injection e2 with e2 _
        subst e2
        exact absurd (e1 ▸ List.mem_append_right _ (List.mem_cons_self ..)) h3

end Verif
