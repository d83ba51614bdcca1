import Verif.Rdb.Model

/-!
# Category paths (C40)
-/

namespace Verif.Rdb

/-! ### Specification: how a name is written -/

/-- `Spelled q name text`: `text` is a way to write `name` as a component of a category path, `q` telling whether one is
between quotes at its start.  Dots, quotes and backslashes are written with a backslash; a dot may also be written as it
is between quotes; other characters stand for themselves; quotes can be opened and closed anywhere and are closed at the end. -/
inductive Spelled : Bool → Str → Str → Prop where
  | done : Spelled false [] []
  | plain (q : Bool) (c : Char) (n t : Str) (hc : c ≠ '.' ∧ c ≠ '\'' ∧ c ≠ '\\') : Spelled q n t → Spelled q (c :: n) (c :: t)
  | dot (n t : Str) : Spelled true n t → Spelled true ('.' :: n) ('.' :: t)
  | escaped (q : Bool) (c : Char) (n t : Str) (hc : c = '.' ∨ c = '\'' ∨ c = '\\') :
      Spelled q n t → Spelled q (c :: n) ('\\' :: c :: t)
  | quote (q : Bool) (n t : Str) : Spelled (!q) n t → Spelled q n ('\'' :: t)

/-- A name in quotes, with a backslash before quotes and backslashes: the way KLayout writes names that are not plain words. -/
def quoted (name : Str) : Str :=
  '\'' :: (name.flatMap (fun c => if c = '\'' ∨ c = '\\' then ['\\', c] else [c]) ++ ['\''])

theorem spelled_quoted (name : Str) : Spelled false name (quoted name) := by
  unfold quoted
  refine .quote _ _ _ ?_
  show Spelled true name _
  induction name with
  | nil => exact .quote _ _ _ .done
  | cons c n ih =>
    rw [List.flatMap_cons, List.append_assoc]
    by_cases h : c = '\'' ∨ c = '\\'
    · rw [if_pos h]
      exact .escaped _ _ _ _ (h.elim (fun h => .inr (.inl h)) (fun h => .inr (.inr h))) ih
    · rw [if_neg h]
      by_cases hd : c = '.'
      · subst hd; exact .dot _ _ ih
      · exact .plain _ _ _ _ ⟨hd, fun e => h (.inl e), fun e => h (.inr e)⟩ ih

/-- A word without dots, quotes and backslashes stands for itself. -/
theorem spelled_word (name : Str) (h : ∀ c ∈ name, c ≠ '.' ∧ c ≠ '\'' ∧ c ≠ '\\') : Spelled false name name := by
  induction name with
  | nil => exact .done
  | cons c n ih =>
    exact .plain _ _ _ _ (h c List.mem_cons_self) (ih fun d hd => h d (List.mem_cons_of_mem _ hd))

/-! ### The scanner -/

theorem fold_spelled {q : Bool} {n t : Str} (h : Spelled q n t) (w : Str) (d : List Str) (rest : Str) :
    (t ++ rest).foldl step ⟨q, false, w, d⟩ = rest.foldl step ⟨false, false, w ++ n, d⟩ := by
  induction h generalizing w with
  | done => simp
  | plain q c n t hc _ ih =>
    rw [List.cons_append, List.foldl_cons]
    have : step ⟨q, false, w, d⟩ c = ⟨q, false, w ++ [c], d⟩ := by
      unfold step; rw [if_neg hc.1, if_neg hc.2.2, if_neg hc.2.1]
    rw [this, ih, List.append_assoc]; rfl
  | dot n t _ ih =>
    rw [List.cons_append, List.foldl_cons]
    have : step ⟨true, false, w, d⟩ '.' = ⟨true, false, w ++ ['.'], d⟩ := rfl
    rw [this, ih, List.append_assoc]; rfl
  | escaped q c n t hc _ ih =>
    rw [List.cons_append, List.foldl_cons, List.cons_append, List.foldl_cons]
    have : step (step ⟨q, false, w, d⟩ '\\') c = ⟨q, false, w ++ [c], d⟩ := by
      rcases hc with rfl | rfl | rfl <;> rfl
    rw [this, ih, List.append_assoc]; rfl
  | quote q n t _ ih =>
    rw [List.cons_append, List.foldl_cons]
    have : step ⟨q, false, w, d⟩ '\'' = ⟨!q, false, w, d⟩ := rfl
    rw [this, ih]

theorem fold_path (names texts : List Str) (h : List.Forall₂ (Spelled false) names texts) (hne : names ≠ []) (d : List Str) :
    (joinWith '.' texts).foldl step ⟨false, false, [], d⟩ =
      ⟨false, false, names.getLast hne, d ++ names.dropLast⟩ := by
  induction h generalizing d with
  | nil => exact absurd rfl hne
  | @cons n t ns ts hn hns ih =>
    cases hns with
    | nil =>
      have := fold_spelled hn [] d []
      rw [List.append_nil] at this
      show t.foldl step _ = _
      rw [this]
      simp
    | @cons n' t' ns' ts' hn' hns' =>
      show (t ++ '.' :: joinWith '.' (t' :: ts')).foldl step _ = _
      rw [fold_spelled hn, List.foldl_cons]
      have : step ⟨false, false, [] ++ n, d⟩ '.' = ⟨false, false, [], d ++ [n]⟩ := rfl
      rw [this, ih (by simp)]
      simp

/-- **C40.** If the names are written in any of the ways above, joined by dots, and the last name is not empty, then
parsing gives back exactly the names. -/
theorem path_round_trip_partial (names texts : List Str) (h : List.Forall₂ (Spelled false) names texts)
    (hlast : ∀ n, names.getLast? = some n → n ≠ []) : parseCategoryPath (joinWith '.' texts) = names := by
  by_cases hne : names = []
  · subst hne; cases h; rfl
  · unfold parseCategoryPath
    show finish ((joinWith '.' texts).foldl step ⟨false, false, [], []⟩) = names
    rw [fold_path names texts h hne]
    unfold finish
    have hl := hlast _ (List.getLast?_eq_some_getLast hne)
    have hl' : (names.getLast hne).length ≥ 1 := List.length_pos_iff.2 hl
    rw [if_pos hl']
    exact List.dropLast_concat_getLast hne

/-- **C40 for KLayout's quoting.** -/
theorem quoted_round_trip_partial (names : List Str) (hlast : ∀ n, names.getLast? = some n → n ≠ []) :
    parseCategoryPath (joinWith '.' (names.map quoted)) = names := by
  refine path_round_trip_partial names _ ?_ hlast
  induction names with
  | nil => exact .nil
  | cons n ns ih =>
    refine .cons (spelled_quoted n) (ih ?_)
    intro m hm
    refine hlast m ?_
    cases ns with
    | nil => cases hm
    | cons _ _ => rw [List.getLast?_cons_cons]; exact hm

/-- **C40 fails for a path that ends with an empty name**: the name is lost. -/
theorem last_empty_lost (names : List Str) (hne : names ≠ []) (hlast : names.getLast hne = []) :
    parseCategoryPath (joinWith '.' (names.map quoted)) = names.dropLast := by
  have h : List.Forall₂ (Spelled false) names (names.map quoted) := by
    clear hlast hne
    induction names with
    | nil => exact .nil
    | cons n ns ih => exact .cons (spelled_quoted n) ih
  unfold parseCategoryPath
  show finish ((joinWith '.' (names.map quoted)).foldl step ⟨false, false, [], []⟩) = names.dropLast
  rw [fold_path names _ h hne, hlast]
  rfl

/-- **C40 fails for the escapes of other characters** (such as `\n` for a line break): the backslash is still pending at
the next dot or quote, so that the closing quote and the following dot become part of the name. -/
theorem other_escape_fails : parseCategoryPath "'a\\nb'.c".toList = ["anb'.c".toList] := by decide

example : parseCategoryPath "drc.'met1.width \\'a\\''.x\\.y".toList =
    ["drc".toList, "met1.width 'a'".toList, "x.y".toList] := by decide

example : List.Forall₂ (Spelled false) ["drc".toList, "met1.width".toList] ["drc".toList, "'met1.width'".toList] := by
  refine .cons (spelled_word _ (by decide)) (.cons ?_ .nil)
  have := spelled_quoted "met1.width".toList
  have e : quoted "met1.width".toList = "'met1.width'".toList := by decide
  rwa [e] at this

end Verif.Rdb
