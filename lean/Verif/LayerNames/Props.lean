import Verif.LayerNames.Model
import Verif.Magic.Lemmas

/-!
# C114: the script names every layer of the log
-/

namespace Verif.LayerNames

open Verif.Magic

/-! ## Specification -/

/-- A line of the log that states how many polygons the layer `n` has: `… : n has 12 polygons`. -/
def LayerLine (line n : Str) : Prop :=
  ∃ pre digits stop, line = pre ++ " : ".toList ++ n ++ " has ".toList ++ digits ++ " polygons".toList ++ stop ∧
    pre ≠ [] ∧ '\n' ∉ pre ∧ n ≠ [] ∧ (∀ c ∈ n, c.isAlphanum = true ∨ c = '_') ∧
    digits ≠ [] ∧ (∀ c ∈ digits, c.isDigit = true) ∧ (stop = [] ∨ stop = ['\n'])

/-- The words of a text that are separated by blanks and line feeds, as Ruby reads `%w(…)`. -/
inductive Words : Str → List Str → Prop
  | done {s : Str} : (∀ c ∈ s, c = ' ' ∨ c = '\n') → Words s []
  | word {sep w rest : Str} {ws : List Str} : (∀ c ∈ sep, c = ' ' ∨ c = '\n') → w ≠ [] → (∀ c ∈ w, c ≠ ' ' ∧ c ≠ '\n') →
      (∀ c, rest.head? = some c → c = ' ' ∨ c = '\n') → Words rest ws → Words (sep ++ w ++ rest) (w :: ws)

/-! ## Proofs -/

theorem isWord_iff (c : Char) : isWord c = true ↔ c.isAlphanum = true ∨ c = '_' := by
  unfold isWord; simp

/-- **C114, lines.** The expression accepts exactly the lines that state the number of polygons of a layer, and gives this
layer. -/
theorem match_exact (line n : Str) : matchLine line = some n ↔ LayerLine line n := by
  have hsep : Sep [L "snogylop ", .cls Char.isDigit, L " sah ", .cls isWord, L " : ", .rest] = true := by decide
  unfold matchLine
  obtain ⟨s, hs⟩ : ∃ s, s = (if line.getLast? = some '\n' then line.dropLast else line) := ⟨_, rfl⟩
  simp only
  rw [← hs]
  have hline : line = s ++ (if line.getLast? = some '\n' then ['\n'] else []) := by
    rw [hs]
    split_ifs with h
    · rw [← List.dropLast_append_getLast? _ h]
      simp
    · simp
  constructor
  · intro h
    split at h
    · rename_i a b c m d pre heq
      rw [fullMatch_iff _ hsep] at heq
      obtain ⟨hf, hr⟩ := heq
      cases hf with | cons h1 hf => cases hf with | cons h2 hf => cases hf with | cons h3 hf => cases hf with
        | cons h4 hf => cases hf with | cons h5 hf =>
      split_ifs at h with hp
      obtain rfl := Option.some.inj h
      simp only [L, Accepts] at h1 h2 h3 h4 h5
      subst h1 h3 h5
      have hr' := congrArg List.reverse hr
      rw [List.reverse_reverse] at hr'
      simp only [List.flatten_cons, List.flatten_nil, List.append_nil, List.reverse_append] at hr'
      obtain ⟨stop, hstop⟩ : ∃ stop, stop = (if line.getLast? = some '\n' then ['\n'] else []) := ⟨_, rfl⟩
      refine ⟨pre.reverse, b.reverse, stop, ?_, ?_, ?_, ?_, ?_, ?_, ?_, ?_⟩
      · rw [hline, ← hstop, hr']
        rfl
      · simpa using hp.1
      · simpa using hp.2
      · simpa using h4.1
      · intro c hc; exact (isWord_iff c).1 (h4.2 c (by simpa using hc))
      · simpa using h2.1
      · intro c hc; exact h2.2 c (by simpa using hc)
      · rw [hstop]; split_ifs <;> simp
    · cases h
  · rintro ⟨pre, digits, stop, hl, h1, h2, h3, h4, h5, h6, h7⟩
    have hs' : s = pre ++ " : ".toList ++ n ++ " has ".toList ++ digits ++ " polygons".toList := by
      rcases h7 with rfl | rfl
      · have hlast : line.getLast? = some 's' := by
          rw [hl, List.append_nil, List.getLast?_append]; rfl
        rw [hs, hlast, if_neg (by decide), hl, List.append_nil]
      · have hlast : line.getLast? = some '\n' := by rw [hl, List.getLast?_append]; rfl
        rw [hs, if_pos hlast, hl, List.dropLast_concat]
    have hm : fullMatch [L "snogylop ", .cls Char.isDigit, L " sah ", .cls isWord, L " : ", .rest] s.reverse =
        some ["snogylop ".toList, digits.reverse, " sah ".toList, n.reverse, " : ".toList, pre.reverse] := by
      rw [fullMatch_iff _ hsep]
      constructor
      · refine .cons rfl (.cons ⟨by simpa using h5, fun c hc => h6 c (by simpa using hc)⟩ (.cons rfl (.cons
          ⟨by simpa using h3, fun c hc => (isWord_iff c).2 (h4 c (by simpa using hc))⟩ (.cons rfl (.cons trivial .nil)))))
      · rw [hs']
        simp only [List.reverse_append, List.flatten_cons, List.flatten_nil, List.append_nil, List.append_assoc]
        rfl
    rw [hm]
    simp only [List.reverse_reverse]
    rw [if_pos ⟨by simpa using h1, by simpa using h2⟩]

theorem writeNames_words : ∀ (ns : List Str) (cnt : Nat), (∀ n ∈ ns, n ≠ [] ∧ ∀ c ∈ n, c ≠ ' ' ∧ c ≠ '\n') →
    ∀ pre : Str, (∀ c ∈ pre, c = ' ' ∨ c = '\n') → Words (pre ++ writeNames cnt ns) ns
  | [], cnt, _, pre, hp => by
    refine .done fun c hc => ?_
    rw [List.mem_append] at hc
    rcases hc with hc | hc
    · exact hp c hc
    · unfold writeNames at hc
      split_ifs at hc
      · rw [List.mem_singleton] at hc; exact Or.inr hc
      · cases hc
  | n :: ns, cnt, hn, pre, hp => by
    obtain ⟨h1, h2⟩ := hn n (by simp)
    unfold writeNames
    have e : pre ++ ((if cnt + 1 = 1 then "    ".toList else []) ++ n ++ [' '] ++
        if cnt + 1 = 10 then '\n' :: writeNames 0 ns else writeNames (cnt + 1) ns) =
        (pre ++ (if cnt + 1 = 1 then "    ".toList else [])) ++ n ++ (' ' :: if cnt + 1 = 10 then '\n' :: writeNames 0 ns else
          writeNames (cnt + 1) ns) := by simp
    rw [e]
    refine .word ?_ h1 h2 (fun c hc => ?_) ?_
    · intro c hc
      rw [List.mem_append] at hc
      rcases hc with hc | hc
      · exact hp c hc
      · split_ifs at hc
        · left
          have : ∀ c ∈ "    ".toList, c = ' ' := by decide
          exact this c hc
        · cases hc
    · simp only [List.head?_cons, Option.some.injEq] at hc; exact Or.inl hc.symm
    · split_ifs
      · exact writeNames_words ns 0 (fun m hm => hn m (by simp [hm])) [' ', '\n'] (by simp)
      · exact writeNames_words ns (cnt + 1) (fun m hm => hn m (by simp [hm])) [' '] (by simp)

theorem writeNames_chars : ∀ (ns : List Str) (cnt : Nat), ∀ c ∈ writeNames cnt ns, c = ' ' ∨ c = '\n' ∨ ∃ n ∈ ns, c ∈ n
  | [], cnt, c, hc => by
    unfold writeNames at hc
    split_ifs at hc
    · rw [List.mem_singleton] at hc; exact Or.inr (Or.inl hc)
    · cases hc
  | n :: ns, cnt, c, hc => by
    have hrec : ∀ k, c ∈ writeNames k ns → c = ' ' ∨ c = '\n' ∨ ∃ m ∈ n :: ns, c ∈ m := by
      intro k hk
      rcases writeNames_chars ns k c hk with h | h | ⟨m, hm, h⟩
      · exact Or.inl h
      · exact Or.inr (Or.inl h)
      · exact Or.inr (Or.inr ⟨m, by simp [hm], h⟩)
    unfold writeNames at hc
    simp only [List.mem_append] at hc
    rcases hc with ((hc | hc) | hc) | hc
    · split_ifs at hc
      · left
        have : ∀ c ∈ "    ".toList, c = ' ' := by decide
        exact this c hc
      · cases hc
    · exact Or.inr (Or.inr ⟨n, by simp, hc⟩)
    · rw [List.mem_singleton] at hc; exact Or.inl hc
    · split_ifs at hc
      · rcases List.mem_cons.1 hc with hc | hc
        · exact Or.inr (Or.inl hc)
        · exact hrec 0 hc
      · exact hrec _ hc

/-- **C114, once the tool starts** (it imports from a package that the repository does not have).  The script has one list
of words, and these words are exactly the layers of the log, each once and in alphabetical order; the list is not closed
before its end. -/
theorem script_exact_partial (version : Str) (lines : List Str) :
    ∃ start body ns, script version lines = start ++ "if self.respond_to?(:name)\n  %w(\n".toList ++ body ++
        "  ).each do |l|\n    name(eval(l), l)\n  end\nend\n".toList ∧
      Words body ns ∧ ')' ∉ body ∧ ns.Pairwise (· < ·) ∧ ∀ n, n ∈ ns ↔ ∃ line ∈ lines, LayerLine line n := by
  have hmem : ∀ n, n ∈ layerNames lines ↔ ∃ line ∈ lines, LayerLine line n := by
    intro n
    unfold layerNames
    rw [List.mem_insertionSort, List.mem_dedup, List.mem_filterMap]
    simp only [match_exact]
  have hword : ∀ n ∈ layerNames lines, n ≠ [] ∧ ∀ c ∈ n, c.isAlphanum = true ∨ c = '_' := by
    intro n hn
    obtain ⟨line, -, pre, digits, stop, -, -, -, h1, h2, -⟩ := (hmem n).1 hn
    exact ⟨h1, h2⟩
  refine ⟨"# Script generated by lvs_layer_names version ".toList ++ version ++ "\n\n".toList ++
    "# ================================================================\n".toList ++
    "# ---------------------- SAVE LAYER NAMES ------------------------\n".toList ++
    "# ================================================================\n".toList,
    writeNames 0 (layerNames lines), layerNames lines, ?_, ?_, ?_, ?_, hmem⟩
  · unfold script head tail
    have e : "if self.respond_to?(:name)\n  %w(\n".toList = "if self.respond_to?(:name)\n".toList ++ "  %w(\n".toList := by decide
    rw [e]
    simp only [← List.append_assoc]
  · refine writeNames_words _ 0 (fun n hn => ⟨(hword n hn).1, fun c hc => ?_⟩) [] (by simp)
    constructor <;> rintro rfl <;> exact absurd ((hword n hn).2 _ hc) (by decide)
  · intro hc
    rcases writeNames_chars _ _ _ hc with h | h | ⟨n, hn, h⟩
    · exact absurd h (by decide)
    · exact absurd h (by decide)
    · exact absurd ((hword n hn).2 _ h) (by decide)
  · unfold layerNames
    have h1 : ((lines.filterMap matchLine).dedup.insertionSort (· ≤ ·)).Pairwise (· ≤ ·) := List.pairwise_insertionSort _ _
    have h2 : ((lines.filterMap matchLine).dedup.insertionSort (· ≤ ·)).Nodup :=
      (List.perm_insertionSort _ _).nodup_iff.2 (List.nodup_dedup _)
    exact (h1.and h2).imp fun h => lt_of_le_of_ne h.1 h.2

/-- A text has only one list of words. -/
theorem Words.unique {s : Str} {ws ws' : List Str} (h : Words s ws) (h' : Words s ws') : ws = ws' := by
  let isSep : Char → Bool := fun c => decide (c = ' ' ∨ c = '\n')
  have hdone : ∀ {s : Str}, (∀ c ∈ s, c = ' ' ∨ c = '\n') → s.dropWhile isSep = [] := by
    intro s hs
    exact List.dropWhile_eq_nil_iff.2 fun c hc => decide_eq_true (hs c hc)
  have hword : ∀ {sep w rest : Str}, (∀ c ∈ sep, c = ' ' ∨ c = '\n') → w ≠ [] → (∀ c ∈ w, c ≠ ' ' ∧ c ≠ '\n') →
      (∀ c, rest.head? = some c → c = ' ' ∨ c = '\n') →
      (sep ++ w ++ rest).dropWhile isSep = w ++ rest ∧ (w ++ rest).takeWhile (fun c => !isSep c) = w ∧
        (w ++ rest).dropWhile (fun c => !isSep c) = rest := by
    intro sep w rest h1 h2 h3 h4
    have hns : ∀ c ∈ w, isSep c = false := fun c hc => by
      have := h3 c hc
      simp [isSep, this.1, this.2]
    obtain ⟨-, e1⟩ := takeWhile_append_stop (p := isSep) (a := sep) (r := w ++ rest)
      (fun c hc => decide_eq_true (h1 c hc)) (fun c hc => by
        cases w with
        | nil => exact absurd rfl h2
        | cons x w =>
          simp only [List.cons_append, List.head?_cons, Option.some.injEq] at hc
          exact hns c (by simp [hc]))
    obtain ⟨e2, e3⟩ := takeWhile_append_stop (p := fun c => !isSep c) (a := w) (r := rest)
      (fun c hc => by simp [hns c hc]) (fun c hc => by
        have : isSep c = true := decide_eq_true (h4 c hc)
        simp [this])
    rw [List.append_assoc]
    exact ⟨e1, e2, e3⟩
  induction h generalizing ws' with
  | done hs =>
    have e := hdone hs
    cases h' with
    | done _ => rfl
    | word h1 h2 h3 h4 _ =>
      rw [(hword h1 h2 h3 h4).1] at e
      exact absurd (List.append_eq_nil_iff.1 e).1 h2
  | @word sep w rest ws h1 h2 h3 h4 _ ih =>
    obtain ⟨e1, e2, e3⟩ := hword h1 h2 h3 h4
    generalize hs : sep ++ w ++ rest = s at h'
    rw [hs] at e1
    cases h' with
    | done hs' =>
      rw [hdone hs'] at e1
      exact absurd (List.append_eq_nil_iff.1 e1.symm).1 h2
    | @word sep' w' rest' ws1 k1 k2 k3 k4 k5 =>
      obtain ⟨f1, f2, f3⟩ := hword k1 k2 k3 k4
      rw [f1] at e1
      rw [e1, e2] at f2
      rw [e1, e3] at f3
      subst f2 f3
      rw [ih k5]

/-- A log with two layers, one of them twice. -/
def exLog : List Str :=
  ["INFO : nwell has 3 polygons\n".toList, "INFO : done\n".toList, "a : b : m1_con has 12 polygons\n".toList,
    "INFO : nwell has 4 polygons".toList]

example : (exLog.map matchLine) = [some "nwell".toList, none, some "m1_con".toList, some "nwell".toList] := by decide +kernel

example : script "1".toList exLog = head "1".toList ++ "    m1_con nwell \n".toList ++ tail := by decide +kernel

end Verif.LayerNames
