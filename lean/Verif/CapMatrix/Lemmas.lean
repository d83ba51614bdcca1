import Verif.CapMatrix.Model
import Mathlib.Data.List.Forall2
import Mathlib.Tactic.Ring
import Mathlib.Tactic.Linarith

/-! # Helper lemmas about capacitance matrices -/

namespace Verif.CapMatrix

/-- The nested list with entries `f i j`. -/
def table (n : Nat) (f : Nat → Nat → ℚ) : List (List ℚ) :=
  (List.range n).map fun i => (List.range n).map fun j => f i j

theorem table_congr {n : Nat} {f g : Nat → Nat → ℚ} (h : ∀ i < n, ∀ j < n, f i j = g i j) : table n f = table n g := by
  unfold table
  apply List.map_congr_left
  intro i hi
  apply List.map_congr_left
  intro j hj
  exact h i (List.mem_range.1 hi) j (List.mem_range.1 hj)

theorem table_row {n : Nat} (f : Nat → Nat → ℚ) {i : Nat} (hi : i < n) :
    (table n f)[i]? = some ((List.range n).map fun j => f i j) := by
  unfold table
  rw [List.getElem?_map, List.getElem?_range hi]
  rfl

theorem row_get {n : Nat} (f : Nat → ℚ) {j : Nat} (hj : j < n) : ((List.range n).map f)[j]? = some (f j) := by
  rw [List.getElem?_map, List.getElem?_range hj]
  rfl

/-- Pointwise update. -/
def upd2 (f : Nat → Nat → ℚ) (i j : Nat) (v : ℚ) : Nat → Nat → ℚ := fun a b => if a = i ∧ b = j then v else f a b

theorem map_range_set {α : Type} (n : Nat) (f : Nat → α) (i : Nat) (v : α) :
    ((List.range n).map f).set i v = (List.range n).map (fun a => if a = i then v else f a) := by
  apply List.ext_getElem
  · simp
  · intro k h1 h2
    rw [List.getElem_set]
    simp only [List.getElem_map, List.getElem_range]
    by_cases h : i = k
    · rw [if_pos h, if_pos h.symm]
    · rw [if_neg h, if_neg (fun h' => h h'.symm)]

theorem getCell_table {h : Heap} {o : Obj} {n : Nat} {f : Nat → Nat → ℚ} (ht : h o.rows = table n f) {i j : Nat}
    (hi : i < n) (hj : j < n) : getCell h o i j = .ok (f i j) := by
  unfold getCell
  simp only [ht, table_row f hi, row_get _ hj]

theorem setCell_table {h : Heap} {o : Obj} {n : Nat} {f : Nat → Nat → ℚ} (ht : h o.rows = table n f) {i j : Nat}
    (hi : i < n) (hj : j < n) (v : ℚ) :
    setCell h o i j v = .ok (Function.update h o.rows (table n (upd2 f i j v))) := by
  unfold setCell
  simp only [ht, table_row f hi, List.length_map, List.length_range, if_pos hj]
  congr 2
  rw [map_range_set]
  unfold table
  rw [map_range_set]
  apply List.map_congr_left
  intro a _
  by_cases hai : a = i
  · subst hai
    rw [if_pos rfl]
    apply List.map_congr_left
    intro b _
    simp [upd2]
  · rw [if_neg hai]
    apply List.map_congr_left
    intro b _
    simp [upd2, hai]

/-- One step of the inner loop on tables. -/
theorem innerStep_table {h : Heap} {self c : Obj} {n : Nat} {m f : Nat → Nat → ℚ}
    (hs : h self.rows = table n m) (hc : h c.rows = table n f) {i j : Nat} (hi : i < n) (hj : j < n) :
    ∃ h', innerStep self c i h j = .ok h' ∧ h' c.rows = table n (if j ≤ i then f else
        upd2 (upd2 f i j ((m i j + m j i) / 2)) j i ((m i j + m j i) / 2)) ∧ ∀ r, r ≠ c.rows → h' r = h r := by
  unfold innerStep
  by_cases hij : j ≤ i
  · rw [if_pos hij]
    exact ⟨h, rfl, by rw [if_pos hij]; exact hc, fun _ _ => rfl⟩
  · rw [if_neg hij, if_neg hij, getCell_table hs hi hj, getCell_table hs hj hi]
    simp only [bind, Except.bind]
    rw [setCell_table hc hi hj]
    simp only
    rw [setCell_table (by rw [Function.update_self]) hj hi]
    refine ⟨_, rfl, by rw [Function.update_self], fun r hr => ?_⟩
    rw [Function.update_of_ne hr, Function.update_of_ne hr]

/-- The values after the rows below `k` and, in row `k`, the columns below `l` were processed. -/
def progress (m : Nat → Nat → ℚ) (k l : Nat) : Nat → Nat → ℚ := fun a b =>
  if a ≠ b ∧ (min a b < k ∨ (min a b = k ∧ max a b < l)) then (m a b + m b a) / 2 else m a b

theorem inner_loop {h : Heap} {self c : Obj} {n : Nat} {m : Nat → Nat → ℚ} (hne : self.rows ≠ c.rows)
    (hs : h self.rows = table n m) {i : Nat} (hi : i < n) (hc : h c.rows = table n (progress m i 0)) :
    ∀ l ≤ n, ∃ h', (List.range l).foldlM (innerStep self c i) h = .ok h' ∧ h' c.rows = table n (progress m i l) ∧
      ∀ r, r ≠ c.rows → h' r = h r := by
  intro l
  induction l with
  | zero => intro _; exact ⟨h, rfl, hc, fun _ _ => rfl⟩
  | succ l ih =>
    intro hl
    obtain ⟨h1, e1, t1, o1⟩ := ih (by omega)
    rw [List.range_succ, List.foldlM_append, e1]
    obtain ⟨h2, e2, t2, o2⟩ := innerStep_table (by rw [o1 _ hne]; exact hs) t1 hi (show l < n by omega)
    refine ⟨h2, ?_, ?_, fun r hr => (o2 r hr).trans (o1 r hr)⟩
    · show (List.foldlM _ h1 [l] : Except String Heap) = _
      rw [List.foldlM_cons, e2]
      rfl
    · rw [t2]
      apply table_congr
      intro a _ b _
      split
      · rename_i hle
        unfold progress
        congr 1
        apply propext
        constructor <;> rintro ⟨h1, h2⟩ <;> refine ⟨h1, ?_⟩ <;> omega
      · rename_i hle
        unfold upd2 progress
        by_cases hab : a = l ∧ b = i
        · rw [if_pos hab, if_pos ⟨by omega, by omega⟩, hab.1, hab.2]
          ring
        · rw [if_neg hab]
          by_cases hba : a = i ∧ b = l
          · rw [if_pos hba, if_pos ⟨by omega, by omega⟩, hba.1, hba.2]
          · rw [if_neg hba]
            congr 1
            apply propext
            constructor <;> rintro ⟨h1, h2⟩ <;> refine ⟨h1, ?_⟩ <;> omega

theorem outer_loop {h : Heap} {self c : Obj} {n : Nat} {m : Nat → Nat → ℚ} (hne : self.rows ≠ c.rows)
    (hs : h self.rows = table n m) (hc : h c.rows = table n m) :
    ∀ k ≤ n, ∃ h', (List.range k).foldlM (fun h i => (List.range n).foldlM (innerStep self c i) h) h = .ok h' ∧
      h' c.rows = table n (progress m k 0) ∧ ∀ r, r ≠ c.rows → h' r = h r := by
  intro k
  induction k with
  | zero =>
    intro _
    refine ⟨h, rfl, ?_, fun _ _ => rfl⟩
    rw [hc]
    apply table_congr
    intro a _ b _
    unfold progress
    rw [if_neg]
    omega
  | succ k ih =>
    intro hk
    obtain ⟨h1, e1, t1, o1⟩ := ih (by omega)
    rw [List.range_succ, List.foldlM_append, e1]
    obtain ⟨h2, e2, t2, o2⟩ := inner_loop hne (by rw [o1 _ hne]; exact hs) (show k < n by omega) t1 n le_rfl
    refine ⟨h2, ?_, ?_, fun r hr => (o2 r hr).trans (o1 r hr)⟩
    · simp only [bind, Except.bind, List.foldlM_cons, e2]
      rfl
    · rw [t2]
      apply table_congr
      intro a ha b hb
      unfold progress
      congr 1
      apply propext
      constructor <;> rintro ⟨h1, h2⟩ <;> refine ⟨h1, ?_⟩ <;> omega

/-! ### CSV -/

theorem readlines_line {s : Str} (hs : '\n' ∉ s) (t : Str) : readlines (s ++ '\n' :: t) = (s ++ ['\n']) :: readlines t := by
  induction s with
  | nil => simp [readlines]
  | cons c s ih =>
    have hc : c ≠ '\n' := fun h => hs (by simp [h])
    rw [List.cons_append, readlines, if_neg hc, ih (fun h => hs (by simp [h]))]
    rfl

theorem readlines_lines {ls : List Str} (h : ∀ l ∈ ls, '\n' ∉ l) :
    readlines (ls.map (· ++ ['\n'])).flatten = ls.map (· ++ ['\n']) := by
  induction ls with
  | nil => rfl
  | cons l ls ih =>
    rw [List.map_cons, List.flatten_cons, List.append_assoc, List.singleton_append, readlines_line (h l (by simp)),
      ih (fun x hx => h x (by simp [hx]))]

theorem mem_joinWith {c x : Char} {ws : List Str} (hx : x ∈ joinWith c ws) : x = c ∨ ∃ w ∈ ws, x ∈ w := by
  induction ws with
  | nil => cases hx
  | cons w ws ih =>
    cases ws with
    | nil => exact Or.inr ⟨w, by simp, hx⟩
    | cons w' ws' =>
      rw [joinWith, List.mem_append, List.mem_cons] at hx
      · rcases hx with h | h | h
        · exact Or.inr ⟨w, by simp, h⟩
        · exact Or.inl h
        · rcases ih h with h | ⟨y, hy, hxy⟩
          · exact Or.inl h
          · exact Or.inr ⟨y, by simp [hy], hxy⟩
      · simp

theorem splitOn_snoc_ws {c x : Char} (hc : x ≠ c) (hx : isWs x = true) (s : Str) :
    (splitOn c (s ++ [x])).map strip = (splitOn c s).map strip := by
  have key : ∃ init last, splitOn c s = init ++ [last] ∧ splitOn c (s ++ [x]) = init ++ [last ++ [x]] := by
    induction s with
    | nil => exact ⟨[], [], rfl, by simp [splitOn, hc]⟩
    | cons y s ih =>
      obtain ⟨init, last, e1, e2⟩ := ih
      rw [List.cons_append]
      by_cases hy : y = c
      · refine ⟨[] :: init, last, ?_, ?_⟩
        · unfold splitOn; rw [if_pos hy, e1]; rfl
        · conv_lhs => unfold splitOn
          rw [if_pos hy, e2]; rfl
      · cases init with
        | nil =>
          refine ⟨[], y :: last, ?_, ?_⟩
          · unfold splitOn; rw [if_neg hy, e1]; rfl
          · conv_lhs => unfold splitOn
            rw [if_neg hy, e2]; rfl
        | cons w init =>
          refine ⟨(y :: w) :: init, last, ?_, ?_⟩
          · unfold splitOn; rw [if_neg hy, e1]; rfl
          · conv_lhs => unfold splitOn
            rw [if_neg hy, e2]; rfl
  obtain ⟨init, last, e1, e2⟩ := key
  rw [e1, e2, List.map_append, List.map_append, List.map_singleton, List.map_singleton]
  rw [strip_append_ws (s := last) (t := [x]) (by simpa using hx)]

end Verif.CapMatrix
