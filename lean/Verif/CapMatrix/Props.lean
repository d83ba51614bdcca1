import Verif.CapMatrix.Lemmas
import Mathlib.Tactic.IntervalCases
import Mathlib.Algebra.BigOperators.Group.Finset.Basic
import Mathlib.Algebra.BigOperators.Group.Finset.Sigma

/-!
# Properties of capacitance matrices (C09, C10)
-/

namespace Verif.CapMatrix

/-! ## Specification -/

/-- The matrix object holds an `n`×`n` matrix with the entries `m i j`. -/
def Holds (h : Heap) (o : Obj) (n : Nat) (m : Nat → Nat → ℚ) : Prop :=
  o.names.length = n ∧ (h o.rows).length = n ∧
  ∀ i < n, ∃ row, (h o.rows)[i]? = some row ∧ row.length = n ∧ ∀ j < n, row[j]? = some (m i j)

/-- The averaged matrix: diagonal kept, off-diagonal entries are the mean of the two mirrored ones. -/
def averaged (m : Nat → Nat → ℚ) (i j : Nat) : ℚ := if i = j then m i i else (m i j + m j i) / 2

theorem holds_iff_table {h : Heap} {o : Obj} {n : Nat} {m : Nat → Nat → ℚ} :
    Holds h o n m ↔ o.names.length = n ∧ h o.rows = table n m := by
  constructor
  · rintro ⟨h1, h2, h3⟩
    refine ⟨h1, List.ext_getElem? fun i => ?_⟩
    by_cases hi : i < n
    · obtain ⟨row, e1, e2, e3⟩ := h3 i hi
      rw [e1, table_row m hi]
      congr 1
      apply List.ext_getElem?
      intro j
      by_cases hj : j < n
      · rw [e3 j hj, row_get _ hj]
      · rw [List.getElem?_eq_none (by omega), List.getElem?_eq_none (by simp; omega)]
    · rw [List.getElem?_eq_none (by omega), List.getElem?_eq_none (by simp [table]; omega)]
  · rintro ⟨h1, h2⟩
    refine ⟨h1, by rw [h2]; simp [table], fun i hi => ⟨_, by rw [h2]; exact table_row m hi, by simp, fun j hj => row_get _ hj⟩⟩

/-- C09: averaging a square matrix succeeds; the result is a different object with the same names and holds the averaged
matrix; nothing that existed before is modified, in particular not the original. -/
theorem averaging_correct (h : Heap) (fresh : Nat) (self : Obj) (n : Nat) (m : Nat → Nat → ℚ)
    (hm : Holds h self n m) (hf : fresh ≠ self.rows) :
    ∃ h' c, averagedOffDiagonals h fresh self = .ok (h', c) ∧ c.names = self.names ∧ c.rows ≠ self.rows ∧
      Holds h' c n (averaged m) ∧ Holds h' self n m ∧ ∀ r, r ≠ fresh → h' r = h r := by
  obtain ⟨hn, ht⟩ := holds_iff_table.1 hm
  unfold averagedOffDiagonals deepcopy
  have hlen : (h self.rows).length = n := hm.2.1
  obtain ⟨h', e, t, o⟩ := outer_loop (h := Function.update h fresh (h self.rows)) (self := self)
    (c := ⟨self.names, fresh⟩) (n := n) (m := m) hf.symm (by rw [Function.update_of_ne hf.symm]; exact ht)
    (by rw [Function.update_self]; exact ht) n le_rfl
  refine ⟨h', ⟨self.names, fresh⟩, ?_, rfl, hf, ?_, ?_, ?_⟩
  · rw [hlen, hn]
    simp only [e]
    rfl
  · refine holds_iff_table.2 ⟨hn, t.trans (table_congr fun a ha b hb => ?_)⟩
    unfold progress averaged
    by_cases hab : a = b
    · rw [if_neg (by simp [hab]), if_pos hab, hab]
    · rw [if_pos ⟨hab, Or.inl (by omega)⟩, if_neg hab]
  · refine holds_iff_table.2 ⟨hn, ?_⟩
    rw [o _ hf.symm, Function.update_of_ne hf.symm]; exact ht
  · intro r hr
    rw [o r hr, Function.update_of_ne hr]

/-- C09: the result is symmetric, keeps the diagonal, and a symmetric matrix stays as it is. -/
theorem averaged_symm (m : Nat → Nat → ℚ) : (∀ i j, averaged m i j = averaged m j i) ∧ (∀ i, averaged m i i = m i i) ∧
    ((∀ i j, m i j = m j i) → averaged m = m) := by
  refine ⟨fun i j => ?_, fun i => by simp [averaged], fun hs => ?_⟩
  · unfold averaged
    by_cases h : i = j
    · rw [if_pos h, if_pos h.symm, h]
    · rw [if_neg h, if_neg (Ne.symm h), add_comm]
  · funext i j
    unfold averaged
    by_cases h : i = j
    · rw [if_pos h, h]
    · rw [if_neg h, hs j i]; ring

/-- C09: averaging the result once more gives an equal matrix. -/
theorem averaging_idempotent (h : Heap) (f1 f2 : Nat) (self : Obj) (n : Nat) (m : Nat → Nat → ℚ)
    (hm : Holds h self n m) (hf1 : f1 ≠ self.rows) :
    ∃ h1 c1, averagedOffDiagonals h f1 self = .ok (h1, c1) ∧
      (f2 ≠ c1.rows → ∃ h2 c2, averagedOffDiagonals h1 f2 c1 = .ok (h2, c2) ∧ c2.names = c1.names ∧ h2 c2.rows = h1 c1.rows) := by
  obtain ⟨h1, c1, e1, n1, _, hold1, _, _⟩ := averaging_correct h f1 self n m hm hf1
  refine ⟨h1, c1, e1, fun hf2 => ?_⟩
  obtain ⟨h2, c2, e2, n2, _, hold2, _, _⟩ := averaging_correct h1 f2 c1 n (averaged m) hold1 hf2
  refine ⟨h2, c2, e2, n2, ?_⟩
  rw [(holds_iff_table.1 hold2).2, (holds_iff_table.1 hold1).2, (averaged_symm (averaged m)).2.2 (averaged_symm m).1]

/-- C09: the sum of all entries is preserved. -/
theorem averaging_preserves_sum (n : Nat) (m : Nat → Nat → ℚ) :
    ∑ i ∈ Finset.range n, ∑ j ∈ Finset.range n, averaged m i j = ∑ i ∈ Finset.range n, ∑ j ∈ Finset.range n, m i j := by
  have h1 : ∀ i j, averaged m i j = m i j / 2 + m j i / 2 := by
    intro i j
    unfold averaged
    by_cases h : i = j
    · rw [if_pos h, h]; ring
    · rw [if_neg h]; ring
  simp only [h1, Finset.sum_add_distrib]
  rw [Finset.sum_comm (f := fun i j => m j i / 2), ← Finset.sum_add_distrib]
  apply Finset.sum_congr rfl
  intro i _
  rw [← Finset.sum_add_distrib]
  apply Finset.sum_congr rfl
  intro j _
  ring

/-- A concrete matrix that is not symmetric. -/
example : (match averagedOffDiagonals (fun _ => [[1, 2, 3], [4, 5, 6], [7, 8, 9]]) 1 ⟨["a".toList, "b".toList, "c".toList], 0⟩ with
    | .ok (h, c) => decide (h c.rows = [[1, 3, 5], [3, 5, 7], [5, 7, 9]] ∧ h 0 = [[1, 2, 3], [4, 5, 6], [7, 8, 9]])
    | .error _ => false) = true := by decide +kernel

example : Holds (fun _ => [[1, 2], [4, 5]]) ⟨["a".toList, "b".toList], 0⟩ 2 (fun i j => [[1, 2], [4, 5]][i]![j]!) := by
  rw [holds_iff_table]; exact ⟨rfl, by decide +kernel⟩

/-! ### CSV -/

/-- C10: for non-empty lists of names and rows, parsing the written file gives back the same names and, for every value, what
reading its 12 digit text gives (`rnd v`).  Names contain no separator, line break or surrounding blanks; number texts
contain no separator and no white space. -/
theorem csv_round_trip (fmt : ℚ → Str) (flt : Str → Option ℚ) (rnd : ℚ → ℚ) (sep : Char) (m : Matrix)
    (hsep : sep ≠ '\n') (hnames : m.names ≠ []) (hrows : m.rows ≠ []) (hrow : ∀ r ∈ m.rows, r ≠ [])
    (hn : ∀ w ∈ m.names, sep ∉ w ∧ '\n' ∉ w ∧ strip w = w)
    (hf : ∀ v, flt (fmt v) = some (rnd v) ∧ sep ∉ fmt v ∧ ∀ x ∈ fmt v, isWs x = false) :
    parseCsv flt sep (writeCsv fmt sep m) = .ok ⟨m.names, m.rows.map fun r => r.map rnd⟩ := by
  have hnl : isWs '\n' = true := by decide
  have hfmtnl : ∀ v, '\n' ∉ fmt v := fun v hv => by
    have := (hf v).2.2 _ hv; rw [hnl] at this; cases this
  have hjoin : ∀ ws : List Str, (∀ w ∈ ws, '\n' ∉ w) → '\n' ∉ joinWith sep ws := by
    intro ws h hx
    rcases mem_joinWith hx with h1 | ⟨w, hw, h1⟩
    · exact hsep h1.symm
    · exact h w hw h1
  have hread : readlines (writeCsv fmt sep m) =
      (joinWith sep m.names ++ ['\n']) :: m.rows.map fun row => joinWith sep (row.map fmt) ++ ['\n'] := by
    unfold writeCsv
    rw [List.append_assoc, List.singleton_append, readlines_line (hjoin _ fun w hw => (hn w hw).2.1)]
    have := readlines_lines (ls := m.rows.map fun row => joinWith sep (row.map fmt)) (by
      intro l hl
      obtain ⟨r, _, rfl⟩ := List.mem_map.1 hl
      apply hjoin
      intro w hw
      obtain ⟨v, _, rfl⟩ := List.mem_map.1 hw
      exact hfmtnl v)
    rw [List.map_map] at this
    simp only [Function.comp_def] at this
    rw [this]
  have hparse : ∀ r ∈ m.rows, parseRow flt sep (joinWith sep (r.map fmt) ++ ['\n']) = .ok (r.map rnd) := by
    intro r hr
    unfold parseRow
    rw [splitOn_snoc_ws (fun h => hsep h.symm) hnl, splitOn_joinWith (by simpa using hrow r hr)]
    · have : ((r.map fmt).map strip).mapM flt = some (r.map rnd) := by
        clear hr
        induction r with
        | nil => rfl
        | cons v r ih =>
          rw [List.map_cons, List.map_cons, List.mapM_cons, strip_of_noWs (hf v).2.2, (hf v).1, ih]; rfl
      rw [this]
    · intro w hw
      obtain ⟨v, _, rfl⟩ := List.mem_map.1 hw
      exact (hf v).2.1
  have hrowsM : (m.rows.map fun row => joinWith sep (row.map fmt) ++ ['\n']).mapM (parseRow flt sep) =
      .ok (m.rows.map fun r => r.map rnd) := by
    clear hread hrows hrow
    generalize m.rows = rows at hparse ⊢
    induction rows with
    | nil => rfl
    | cons r rs ih =>
      rw [List.map_cons, List.mapM_cons, hparse r (by simp), ih (fun x hx => hparse x (by simp [hx]))]
      rfl
  have hhead : (splitOn sep (joinWith sep m.names ++ ['\n'])).map strip = m.names := by
    rw [splitOn_snoc_ws (fun h => hsep h.symm) hnl, splitOn_joinWith hnames (fun w hw => (hn w hw).1)]
    conv_rhs => rw [← List.map_id m.names]
    exact List.map_congr_left fun w hw => (hn w hw).2.2
  unfold parseCsv
  rw [hread]
  cases hr : m.rows with
  | nil => exact absurd hr hrows
  | cons r rs =>
    rw [hr] at hrowsM
    simp only [List.map_cons] at hrowsM ⊢
    rw [hrowsM, hhead]
    rfl

/-- A number text for the examples: one digit. -/
def digitFmt (q : ℚ) : Str := [Char.ofNat (48 + q.num.toNat % 10)]

def digitFlt : Str → Option ℚ
  | [c] => if c.isDigit then some ((c.toNat - 48 : Nat) : ℚ) else none
  | _ => none

/-- The hypotheses on the number format can be met. -/
example : ∀ v, digitFlt (digitFmt v) = some (((v.num.toNat % 10 : Nat) : ℚ)) ∧ ';' ∉ digitFmt v ∧
    ∀ x ∈ digitFmt v, isWs x = false := by
  intro v
  have h : v.num.toNat % 10 < 10 := Nat.mod_lt _ (by decide)
  unfold digitFmt
  generalize v.num.toNat % 10 = k at h
  interval_cases k <;> decide +kernel

/-- C10: an empty matrix does not survive: the file has one line, and is rejected. -/
theorem csv_empty_matrix_rejected (fmt : ℚ → Str) (flt : Str → Option ℚ) (sep : Char) :
    ∃ e, parseCsv flt sep (writeCsv fmt sep ⟨[], []⟩) = .error e := ⟨_, rfl⟩

/-- C10: a name that contains the separator is split. -/
theorem csv_separator_in_name_fails :
    parseCsv digitFlt ';' (writeCsv digitFmt ';' ⟨["a;b".toList], [[1]]⟩) = .ok ⟨["a".toList, "b".toList], [[1]]⟩ := by
  decide +kernel

end Verif.CapMatrix
