import Verif.Rcx25Netlist.Props
import Verif.Summary.Order

/-!
# The order of the rows of the CSV report and of the devices of the netlist (C117)
-/

namespace Verif.Rcx25Netlist

open Netlist Summary

/-! ## Specification -/

/-- Row `a` may stand above row `b`: the names of the nets, without regard to case, are in alphabetical order, the first
name being decisive. -/
def Above (cf : String → String) (a b : CsvRow) : Prop :=
  cf a.net1 < cf b.net1 ∨ (cf a.net1 = cf b.net1 ∧ cf a.net2 ≤ cf b.net2)

/-- The rows name no two pairs of nets that differ only in case. -/
def CaseDistinct (cf : String → String) (rows : List CsvRow) : Prop :=
  ∀ a ∈ rows, ∀ b ∈ rows, cf a.net1 = cf b.net1 → cf a.net2 = cf b.net2 → a.net1 = b.net1 ∧ a.net2 = b.net2

/-! ## Proofs -/

private theorem not_lt_iff (cf : String → String) (a b : NetCoupleKey) :
    ¬ keyLt cf b a ↔ cf a.net1 < cf b.net1 ∨ (cf a.net1 = cf b.net1 ∧ cf a.net2 ≤ cf b.net2) := by
  unfold keyLt
  rcases lt_trichotomy (cf a.net1) (cf b.net1) with h | h | h
  · simp [h, not_lt_of_gt h, h.ne']
  · simp only [h, lt_irrefl, true_and, false_or, not_lt]
  · simp [h, not_lt_of_gt h, h.ne']

private theorem sorted_pairwise (cf : String → String) (d : Dict NetCoupleKey ℚ) :
    (sortedItems cf d).Pairwise (fun a b => ¬ keyLt cf b.1 a.1) := by
  have : Std.Total (fun a b : NetCoupleKey × ℚ => ¬ keyLt cf b.1 a.1) := ⟨fun a b => by
    rw [not_lt_iff, not_lt_iff]
    rcases lt_trichotomy (cf a.1.net1) (cf b.1.net1) with h | h | h
    · exact Or.inl (Or.inl h)
    · rcases le_total (cf a.1.net2) (cf b.1.net2) with h' | h'
      · exact Or.inl (Or.inr ⟨h, h'⟩)
      · exact Or.inr (Or.inr ⟨h.symm, h'⟩)
    · exact Or.inr (Or.inl h)⟩
  have : IsTrans (NetCoupleKey × ℚ) (fun a b => ¬ keyLt cf b.1 a.1) := ⟨fun a b c h1 h2 => by
    rw [not_lt_iff] at *
    rcases h1 with h1 | ⟨h1, h1'⟩ <;> rcases h2 with h2 | ⟨h2, h2'⟩
    · exact Or.inl (h1.trans h2)
    · exact Or.inl (h2 ▸ h1)
    · exact Or.inl (h1 ▸ h2)
    · exact Or.inr ⟨h1.trans h2, h1'.trans h2'⟩⟩
  exact List.pairwise_insertionSort _ _

private theorem pairwise_zipIdx {α : Type} {R : α → α → Prop} :
    ∀ (l : List α) (n : Nat), l.Pairwise R → (l.zipIdx n).Pairwise (fun x y => R x.1 y.1) := by
  intro l n h
  have : ((l.zipIdx n).map Prod.fst).Pairwise R := by rw [List.zipIdx_map_fst]; exact h
  exact List.pairwise_map.1 this

/-- **C117** (sorted).  The rows of the capacitors come first, those of the resistors follow; both are in alphabetical
order of the names of their nets, without regard to case, and are numbered in this order. -/
theorem csv_rows_sorted (cf : String → String) (round3 : ℚ → ℚ) (cells : Dict String CellResults) (rows : List CsvRow)
    (h : csvRows cf round3 cells = .ok rows) :
    ∃ caps ress, rows = caps ++ ress ∧ (∀ r ∈ caps, r.cap.isSome ∧ r.res = none) ∧
      (∀ r ∈ ress, r.res.isSome ∧ r.cap = none) ∧ caps.Pairwise (Above cf) ∧ ress.Pairwise (Above cf) ∧
      (∀ i (hi : i < caps.length), caps[i].device = "C" ++ toString (i + 1)) ∧
      (∀ i (hi : i < ress.length), ress[i].device = "R" ++ toString (i + 1)) := by
  unfold csvRows at h
  cases hs : summarizeAll cells with
  | error e => rw [hs] at h; cases h
  | ok s =>
    rw [hs] at h
    cases h
    refine ⟨_, _, rfl, ?_, ?_, ?_, ?_, ?_, ?_⟩
    · intro r hr
      obtain ⟨x, -, rfl⟩ := List.mem_map.1 hr
      exact ⟨rfl, rfl⟩
    · intro r hr
      obtain ⟨x, -, rfl⟩ := List.mem_map.1 hr
      exact ⟨rfl, rfl⟩
    · rw [List.pairwise_map]
      refine (pairwise_zipIdx _ 0 (sorted_pairwise cf _)).imp ?_
      intro x y hxy
      exact (not_lt_iff cf x.1.1 y.1.1).1 hxy
    · rw [List.pairwise_map]
      refine (pairwise_zipIdx _ 0 (sorted_pairwise cf _)).imp ?_
      intro x y hxy
      exact (not_lt_iff cf x.1.1 y.1.1).1 hxy
    · intro i hi
      simp
    · intro i hi
      simp

private theorem sorted_eq (cf : String → String) {d d' : Dict NetCoupleKey ℚ} (hp : d.Perm d') (hn : d.keys.Nodup)
    (hc : ∀ x ∈ d, ∀ y ∈ d, cf x.1.net1 = cf y.1.net1 → cf x.1.net2 = cf y.1.net2 → x.1 = y.1) :
    sortedItems cf d = sortedItems cf d' := by
  refine List.Perm.eq_of_pairwise (le := fun a b => ¬ keyLt cf b.1 a.1) ?_ (sorted_pairwise cf d)
    (sorted_pairwise cf d')
    ((List.perm_insertionSort _ _).trans (hp.trans (List.perm_insertionSort _ _).symm))
  intro x y hx hy h1 h2
  have hx' : x ∈ d := (List.perm_insertionSort _ _).mem_iff.1 hx
  have hy' : y ∈ d := hp.mem_iff.2 ((List.perm_insertionSort _ _).mem_iff.1 hy)
  rw [not_lt_iff] at h1 h2
  have e1 : cf x.1.net1 = cf y.1.net1 := by
    rcases h1 with h1 | h1
    · rcases h2 with h2 | h2
      · exact absurd h1 (not_lt_of_gt h2)
      · exact h2.1.symm
    · exact h1.1
  have e2 : cf x.1.net2 = cf y.1.net2 := by
    rcases h1 with h1 | h1
    · exact absurd e1 h1.ne
    · rcases h2 with h2 | h2
      · exact absurd e1.symm h2.ne
      · exact le_antisymm h1.2 h2.2
  have hk := hc x hx' y hy' e1 e2
  obtain ⟨k, v⟩ := x
  obtain ⟨k', v'⟩ := y
  cases hk
  have := Dict.get?_of_mem hn hx'
  rw [Dict.get?_of_mem hn hy'] at this
  simp only [Option.some.injEq] at this
  rw [this]

private theorem keys_nodup {t : Dict NetCoupleKey ℚ}
    (hp : t.Pairwise (fun x y => ¬ SamePair x.1.net1 x.1.net2 y.1.net1 y.1.net2)) : t.keys.Nodup := by
  unfold Dict.keys
  refine List.Pairwise.map _ (R := fun x y => ¬ SamePair x.1.net1 x.1.net2 y.1.net1 y.1.net2) ?_ hp
  intro x y h e
  exact h (Or.inl ⟨by rw [e], by rw [e]⟩)

private theorem mem_caps {cf : String → String} {round3 : ℚ → ℚ} {s : ExtractionSummary} {x : NetCoupleKey × ℚ}
    (hx : x ∈ s.capacitances) : ∃ r ∈ rowsOf cf round3 s, r.net1 = x.1.net1 ∧ r.net2 = x.1.net2 := by
  have : x ∈ sortedItems cf s.capacitances := (List.perm_insertionSort _ _).mem_iff.2 hx
  obtain ⟨i, hi, rfl⟩ := List.mem_iff_getElem.1 this
  refine ⟨_, List.mem_append_left _ (List.mem_map.2
    ⟨((sortedItems cf s.capacitances)[i], i), List.mem_zipIdx_iff_getElem?.2 (by simp [hi]), rfl⟩), rfl, rfl⟩

private theorem mem_ress {cf : String → String} {round3 : ℚ → ℚ} {s : ExtractionSummary} {x : NetCoupleKey × ℚ}
    (hx : x ∈ s.resistances) : ∃ r ∈ rowsOf cf round3 s, r.net1 = x.1.net1 ∧ r.net2 = x.1.net2 := by
  have : x ∈ sortedItems cf s.resistances := (List.perm_insertionSort _ _).mem_iff.2 hx
  obtain ⟨i, hi, rfl⟩ := List.mem_iff_getElem.1 this
  refine ⟨_, List.mem_append_right _ (List.mem_map.2
    ⟨((sortedItems cf s.resistances)[i], i), List.mem_zipIdx_iff_getElem?.2 (by simp [hi]), rfl⟩), rfl, rfl⟩

/-- **C117** (the same results give the same files).  If two runs record the same contributions, in whatever order of
cells and of recordings, and no two reported pairs of nets differ only in case, then the CSV reports are equal, row by
row, and so are the netlists, with all their nets and devices. -/
theorem output_order_free_partial (cf : String → String) (round3 : ℚ → ℚ) (hs₁ hs₂ : List (String × List Op))
    (hd : (hs₁.map Prod.fst).Nodup) (hsame : SameRecordings hs₁ hs₂) (rows : List CsvRow)
    (h : csvRows cf round3 (runCells hs₁) = .ok rows) (hc : CaseDistinct cf rows) :
    csvRows cf round3 (runCells hs₂) = .ok rows ∧
    ∀ (c : Circuit) (bb : Bool), expand cf c (runCells hs₁) bb = expand cf c (runCells hs₂) bb := by
  have h0 := h
  unfold csvRows at h
  cases hs : summarizeAll (runCells hs₁) with
  | error e => rw [hs] at h; cases h
  | ok s₁ =>
    rw [hs] at h
    cases h
    obtain ⟨s₂, h₂, p1, p2⟩ := same_entries hs₁ hs₂ hd hsame s₁ hs
    obtain ⟨l₁, -, e₁⟩ := merged_of_summarizeAll hs
    have c1 := summary_keys_canonical l₁ s₁.capacitances (Or.inl (by rw [e₁]))
    have c2 := summary_keys_canonical l₁ s₁.resistances (Or.inr (by rw [e₁]))
    have q1 : sortedItems cf s₁.capacitances = sortedItems cf s₂.capacitances := by
      refine sorted_eq cf p1 (keys_nodup c1.2) ?_
      intro x hx y hy n1 n2
      obtain ⟨r, hr, r1, r2⟩ := mem_caps (cf := cf) (round3 := round3) hx
      obtain ⟨r', hr', r1', r2'⟩ := mem_caps (cf := cf) (round3 := round3) hy
      have := hc r hr r' hr' (by rw [r1, r1', n1]) (by rw [r2, r2', n2])
      rw [r1, r1', r2, r2'] at this
      obtain ⟨⟨a, b⟩, v⟩ := x
      obtain ⟨⟨a', b'⟩, v'⟩ := y
      simpa using this
    have q2 : sortedItems cf s₁.resistances = sortedItems cf s₂.resistances := by
      refine sorted_eq cf p2 (keys_nodup c2.2) ?_
      intro x hx y hy n1 n2
      obtain ⟨r, hr, r1, r2⟩ := mem_ress (cf := cf) (round3 := round3) hx
      obtain ⟨r', hr', r1', r2'⟩ := mem_ress (cf := cf) (round3 := round3) hy
      have := hc r hr r' hr' (by rw [r1, r1', n1]) (by rw [r2, r2', n2])
      rw [r1, r1', r2, r2'] at this
      obtain ⟨⟨a, b⟩, v⟩ := x
      obtain ⟨⟨a', b'⟩, v'⟩ := y
      simpa using this
    refine ⟨?_, ?_⟩
    · unfold csvRows
      rw [h₂]
      show Except.ok (rowsOf cf round3 s₂) = Except.ok (rowsOf cf round3 s₁)
      unfold rowsOf
      rw [q1, q2]
    · intro c bb
      unfold expand
      rw [hs, h₂]
      simp only [bind, Except.bind, q1, q2]

/-- The recordings of the examples: a sidewall capacitance between two nets. -/
def exOp (a b : String) (v : ℚ) : Op := .sidewall ⟨⟨"met1", a, b⟩, v, 1, 1⟩

/-- A case mapping for the examples. -/
def exFold (s : String) : String := if s = "A" then "a" else if s = "B" then "b" else s

private def exRun₁ : List (String × List Op) :=
  [("TOP", [exOp "A" "z" 1, .network ⟨[⟨0, "A"⟩, ⟨1, "B"⟩], [⟨0, 1, 2⟩]⟩, exOp "B" "A" 2]), ("SUB", [exOp "z" "A" 3])]

private def exRun₂ : List (String × List Op) :=
  [("SUB", [exOp "z" "A" 3]), ("TOP", [exOp "B" "A" 2, exOp "A" "z" 1, .network ⟨[⟨0, "A"⟩, ⟨1, "B"⟩], [⟨0, 1, 2⟩]⟩])]

/-- Non-vacuity of `output_order_free_partial` and `csv_rows_sorted`: two cells and three tables, recorded in two orders. -/
example : (exRun₁.map Prod.fst).Nodup ∧ SameRecordings exRun₁ exRun₂ ∧
    ∃ rows, csvRows exFold id (runCells exRun₁) = .ok rows ∧ CaseDistinct exFold rows ∧
      rows.map (fun r => (r.device, r.net1, r.net2, r.cap, r.res)) =
        [("C1", "A", "B", some 2, none), ("C2", "A", "z", some 4, none), ("R1", "A", "B", none, some 2)] := by
  refine ⟨by decide, ⟨[exRun₁[1], exRun₁[0]], List.Perm.swap _ _ _, .cons ⟨rfl, List.Perm.refl _⟩ (.cons ⟨rfl, ?_⟩ .nil)⟩,
    _, rfl, ?_, by decide +kernel⟩
  · exact ((List.Perm.swap _ _ _).cons _).trans (List.Perm.swap _ _ _)
  · unfold CaseDistinct; decide +kernel

/-- **C117 is violated** when two pairs of nets differ only in case: the rows, and with them the names of the devices,
stand in the order of the recordings. -/
theorem case_order : ∃ rows₁ rows₂,
    SameRecordings [("TOP", [exOp "A" "z" 1, exOp "a" "z" 2])] [("TOP", [exOp "a" "z" 2, exOp "A" "z" 1])] ∧
    csvRows exFold id (runCells [("TOP", [exOp "A" "z" 1, exOp "a" "z" 2])]) = .ok rows₁ ∧
    csvRows exFold id (runCells [("TOP", [exOp "a" "z" 2, exOp "A" "z" 1])]) = .ok rows₂ ∧
    rows₁.map (fun r => (r.device, r.net1, r.cap)) = [("C1", "A", some 1), ("C2", "a", some 2)] ∧
    rows₂.map (fun r => (r.device, r.net1, r.cap)) = [("C1", "a", some 2), ("C2", "A", some 1)] := by
  refine ⟨_, _, ⟨_, List.Perm.refl _, .cons ⟨rfl, List.Perm.swap _ _ _⟩ .nil⟩, rfl, rfl, ?_, ?_⟩ <;> decide +kernel

end Verif.Rcx25Netlist
