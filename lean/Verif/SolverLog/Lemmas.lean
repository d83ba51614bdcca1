import Verif.SolverLog.Spec
import Mathlib.Data.List.Forall2
import Mathlib.Tactic.Ring

/-! # Helper lemmas about the log parsers -/

namespace Verif.SolverLog

/-! ### Tokens -/

theorem isWs_blank : isWs ' ' = true := by decide

theorem token_noBlank {w : Str} (h : Token w) : ' ' ∉ w := by
  intro hm
  have := h.2 _ hm
  rw [isWs_blank] at this
  cases this

theorem token_strip {w : Str} (h : Token w) : strip w = w := strip_of_noWs h.2

theorem spaced_head {s : Str} {ws : List Str} (h : Spaced s ws) : ∀ x, s.head? = some x → isWs x = false := by
  intro x hx
  cases h with
  | last hw => exact hw.2 x (List.mem_of_mem_head? hx)
  | @cons w hw gap rest ws h =>
    obtain ⟨hne, hw2⟩ := hw
    cases w with
    | nil => exact absurd rfl hne
    | cons a w =>
      simp only [List.cons_append, List.head?_cons, Option.some.injEq] at hx
      subst hx
      exact hw2 _ (by simp)

theorem spaced_ne {s : Str} {ws : List Str} (h : Spaced s ws) : s ≠ [] := by
  cases h with
  | last hw => exact hw.1
  | cons hw gap h =>
    intro he
    simp at he

theorem spaced_last {s : Str} {ws : List Str} (h : Spaced s ws) : ∀ x, s.getLast? = some x → isWs x = false := by
  induction h with
  | last hw => intro x hx; exact hw.2 x (List.mem_of_getLast? hx)
  | @cons w hw gap rest ws h ih =>
    intro x hx
    rw [List.getLast?_append_of_ne_nil _ (spaced_ne h)] at hx
    exact ih x hx

theorem spaced_strip {s : Str} {ws : List Str} (h : Spaced s ws) : strip s = s :=
  strip_clean (spaced_head h) (spaced_last h)

theorem splitOn_blanks (gap : Nat) (s : Str) :
    splitOn ' ' (List.replicate gap ' ' ++ s) = List.replicate gap [] ++ splitOn ' ' s := by
  induction gap with
  | zero => rfl
  | succ n ih =>
    rw [List.replicate_succ, List.cons_append, List.replicate_succ, List.cons_append, ← ih]
    conv_lhs => unfold splitOn
    simp

theorem spaced_parts {s : Str} {ws : List Str} (h : Spaced s ws) :
    ((splitOn ' ' s).map strip).filter (fun c => c ≠ []) = ws := by
  induction h with
  | last hw =>
    rw [splitOn_none (token_noBlank hw)]
    simp [token_strip hw, hw.1]
  | @cons w hw gap rest ws h ih =>
    rw [List.append_assoc, List.cons_append, splitOn_append (token_noBlank hw), splitOn_blanks]
    simp only [List.map_cons, List.map_append, List.map_replicate, List.filter_cons, List.filter_append, ih, token_strip hw]
    have : List.filter (fun c : Str => decide (c ≠ [])) (List.replicate gap (strip [])) = [] := by
      rw [List.filter_eq_nil_iff]
      intro a ha
      rw [List.mem_replicate] at ha
      rw [ha.2]; decide
    rw [this, if_pos (by simpa using hw.1), List.nil_append]

theorem strip_line {lead body trail : Str} {toks : List Str} (h1 : ∀ x ∈ lead, isWs x = true)
    (h2 : ∀ x ∈ trail, isWs x = true) (h : Spaced body toks) : strip (lead ++ body ++ trail) = body := by
  rw [strip_append_ws h2, strip_ws_append h1, spaced_strip h]

theorem lineOf_parts {line : Str} {toks : List Str} (h : LineOf line toks) :
    ((splitOn ' ' (strip line)).map strip).filter (fun c => c ≠ []) = toks := by
  obtain ⟨lead, body, trail, rfl, h1, h2, hs⟩ := h
  rw [strip_line h1 h2 hs, spaced_parts hs]

theorem mapM_flt {flt : Str → Option ℚ} {toks : List Str} {vs : List ℚ}
    (h : List.Forall₂ (fun t v => flt t = some v) toks vs) : toks.mapM flt = some vs := by
  induction h with
  | nil => rfl
  | cons h1 _ ih => rw [List.mapM_cons, h1, ih]; rfl

theorem parseRow_shows {flt : Str → Option ℚ} {line : Str} {row : Str × List ℚ} (h : ShowsRow flt line row) :
    parseRow flt line = .ok (row.1, row.2.map (· / 1000000)) := by
  obtain ⟨toks, hl, hv⟩ := h
  unfold parseRow
  rw [lineOf_parts hl]
  unfold rowOfCells
  simp only [mapM_flt hv]

theorem parseRow2_shows {flt : Str → Option ℚ} {line : Str} {row : Str × List ℚ} (h : ShowsRow2 flt line row) :
    parseRow2 flt line = .ok (row.1, row.2.map (· / 1000000)) := by
  obtain ⟨lead, name, num, gap, rest, trail, toks, rfl, h1, h2, hn, hm, rfl, hs, hv⟩ := h
  have hbody : Spaced (row.1 ++ ' ' :: (num ++ (' ' :: List.replicate gap ' ') ++ rest)) (row.1 :: num :: toks) := by
    have := Spaced.cons hn 0 (Spaced.cons hm gap hs)
    simpa using this
  unfold parseRow2
  rw [strip_line h1 h2 hbody, splitOn_append (token_noBlank hn), List.append_assoc, List.cons_append,
    splitOn_append (token_noBlank hm), splitOn_blanks]
  have hp : (strip row.1 :: List.map strip (List.replicate gap [] ++ splitOn ' ' rest)).filter (fun c => decide (c ≠ [])) =
      row.1 :: toks := by
    simp only [List.map_append, List.map_replicate, List.filter_cons, List.filter_append, spaced_parts hs, token_strip hn]
    have : List.filter (fun c : Str => decide (c ≠ [])) (List.replicate gap (strip [])) = [] := by
      rw [List.filter_eq_nil_iff]
      intro a ha
      rw [List.mem_replicate] at ha
      rw [ha.2]; decide
    rw [this, if_pos (by simpa using hn.1), List.nil_append]
  simp only [List.map_cons]
  rw [hp]
  unfold rowOfCells
  simp only [mapM_flt hv]

/-! ### The dimension line -/

theorem stripPrefix_append (p s : Str) : stripPrefix p (p ++ s) = some s := by
  unfold stripPrefix
  rw [if_pos (by simp), List.drop_left]

theorem parseDim_shows (n m : Nat) :
    parseDim ("Dimension ".toList ++ (toString n).toList ++ " x ".toList ++ (toString m).toList) = some n := by
  unfold parseDim
  rw [List.append_assoc, List.append_assoc, stripPrefix_append]
  have hd : ((toString n).toList ++ (" x ".toList ++ (toString m).toList)).dropWhile Char.isDigit =
      " x ".toList ++ (toString m).toList := by
    rw [List.dropWhile_append_of_pos (fun c hc => dec_digits hc)]; rfl
  have ht : ((toString n).toList ++ (" x ".toList ++ (toString m).toList)).takeWhile Char.isDigit = (toString n).toList := by
    rw [List.takeWhile_append_of_pos (fun c hc => dec_digits hc)]
    have : List.takeWhile Char.isDigit (" x ".toList ++ (toString m).toList) = [] := rfl
    rw [this, List.append_nil]
  simp only [hd, ht, stripPrefix_append]
  rw [if_neg]
  · have : (toString n).toList = Nat.toDigits 10 n := Nat.toList_repr
    rw [this, Nat.ofDigitChars_ten_toDigits]
  · simp only [Bool.or_eq_true, not_or]
    refine ⟨⟨?_, ?_⟩, ?_⟩
    · rw [List.isEmpty_iff]; exact dec_ne_nil n
    · rw [List.isEmpty_iff]; exact dec_ne_nil m
    · simp only [Bool.not_eq_true', Bool.not_eq_false, List.all_eq_true]
      intro x hx; exact dec_digits hx

/-! ### Reversed indices -/

theorem pyIndex_rev {α : Type} (l : List α) (i : Nat) (h : i < l.length) :
    pyIndex l.reverse ((l.length : Int) - 1 - i) = .ok l[i] := by
  unfold pyIndex
  have h1 : ¬ ((l.length : Int) - 1 - i < 0) := by omega
  simp only [h1, if_false]
  have h2 : ((l.length : Int) - 1 - i).toNat = l.length - 1 - i := by omega
  rw [h2, List.getElem?_reverse (by omega)]
  have h3 : l.length - 1 - (l.length - 1 - i) = i := by omega
  rw [h3, List.getElem?_eq_getElem h]

/-- A negative index into the reversed list reads the list from its start. -/
theorem pyIndex_rev_neg {α : Type} (l : List α) (i : Nat) :
    pyIndex l.reverse (-1 - (i : Int)) = match l[i]? with | some x => .ok x | none => .error "IndexError" := by
  unfold pyIndex
  have h1 : (-1 - (i : Int)) < 0 := by omega
  simp only [h1, if_true, List.length_reverse]
  by_cases h : i < l.length
  · have h2 : ¬ (-1 - (i : Int) + l.length < 0) := by omega
    simp only [h2, if_false]
    have h3 : (-1 - (i : Int) + l.length).toNat = l.length - 1 - i := by omega
    rw [h3, List.getElem?_reverse (by omega)]
    have h4 : l.length - 1 - (l.length - 1 - i) = i := by omega
    rw [h4]
    cases l[i]? <;> rfl
  · have h2 : (-1 - (i : Int) + l.length < 0) := by omega
    simp only [h2, if_true]
    rw [List.getElem?_eq_none (by omega)]

theorem mapM_range_eq {α β : Type} (f : Nat → Except String β) (g : α → Except String β) (l : List α)
    (h : ∀ i (hi : i < l.length), f i = g l[i]) : (List.range l.length).mapM f = l.mapM g := by
  induction l generalizing f with
  | nil => rfl
  | cons a l ih =>
    rw [List.length_cons, List.range_succ_eq_map, List.mapM_cons, List.mapM_cons, h 0 (by simp)]
    have h2 := ih (fun i => f (i + 1)) (fun i hi => by
      have := h (i + 1) (by simp; omega)
      simpa using this)
    rw [List.mapM_map]
    have h3 : (f ∘ Nat.succ) = fun i => f (i + 1) := rfl
    rw [h3, h2]
    rfl

theorem mapM_ok_of {α β : Type} (g : α → Except String β) {l : List α} {r : List β}
    (h : List.Forall₂ (fun a b => g a = .ok b) l r) : l.mapM g = .ok r := by
  induction h with
  | nil => rfl
  | cons h1 _ ih => rw [List.mapM_cons, h1, ih]; rfl

/-- Where the last header is, seen from the end. -/
theorem findIdx_rev {p : Str → Bool} (pre rest : List Str) (hdr : Str) (hh : p hdr = true)
    (hr : ∀ l ∈ rest, p l = false) : (pre ++ hdr :: rest).reverse.findIdx? p = some rest.length := by
  rw [List.reverse_append, List.reverse_cons, List.append_assoc]
  rw [List.findIdx?_append]
  have h1 : rest.reverse.findIdx? p = none := by
    rw [List.findIdx?_eq_none_iff]
    intro x hx
    exact hr x (List.mem_reverse.1 hx)
  rw [h1]
  simp [List.findIdx?_cons, hh]

/-! ### `split()` -/

theorem splitWs_token {w : Str} (h : Token w) : splitWs w = [w] := by
  obtain ⟨hne, hw⟩ := h
  induction w with
  | nil => exact absurd rfl hne
  | cons x w ih =>
    have hx : isWs x = false := hw x (by simp)
    cases w with
    | nil => simp [splitWs, hx]
    | cons y w =>
      have hy : isWs y = false := hw y (by simp)
      have := ih (by simp) (fun z hz => hw z (by simp [hz]))
      rw [splitWs]
      simp only [hx, hy, this]
      simp

theorem splitWs_blank (rest : Str) : splitWs (' ' :: rest) = splitWs rest := by
  conv_lhs => unfold splitWs
  simp [isWs_blank]

theorem splitWs_token_blank {w : Str} (h : Token w) (rest : Str) : splitWs (w ++ ' ' :: rest) = w :: splitWs rest := by
  obtain ⟨hne, hw⟩ := h
  induction w with
  | nil => exact absurd rfl hne
  | cons x w ih =>
    have hx : isWs x = false := hw x (by simp)
    cases w with
    | nil =>
      rw [List.cons_append, List.nil_append, splitWs]
      simp only [hx, isWs_blank, splitWs_blank]
      simp
    | cons y w =>
      have hy : isWs y = false := hw y (by simp)
      have := ih (by simp) (fun z hz => hw z (by simp [hz]))
      rw [List.cons_append, List.cons_append, splitWs]
      rw [List.cons_append] at this
      simp only [hx, hy, this]
      simp

theorem splitWs_blanks (gap : Nat) (s : Str) : splitWs (List.replicate gap ' ' ++ s) = splitWs s := by
  induction gap with
  | zero => rfl
  | succ n ih =>
    rw [List.replicate_succ, List.cons_append, splitWs_blank, ih]

theorem splitWs_spaced {s : Str} {ws : List Str} (h : Spaced s ws) : splitWs s = ws := by
  induction h with
  | last hw => exact splitWs_token hw
  | @cons w hw gap rest ws h ih =>
    rw [List.append_assoc, List.cons_append, splitWs_token_blank hw, splitWs_blanks, ih]

theorem splitWs_lineOf {line : Str} {toks : List Str} (h : LineOf line toks) : splitWs (strip line) = toks := by
  obtain ⟨lead, body, trail, rfl, h1, h2, hs⟩ := h
  rw [strip_line h1 h2 hs, splitWs_spaced hs]

/-! ### Headers -/

theorem header_spaced : Spaced "Capacitance matrix is:".toList ["Capacitance".toList, "matrix".toList, "is:".toList] := by
  have t : ∀ w : Str, w ≠ [] → w.all (fun c => !isWs c) = true → Token w := by
    intro w h1 h2
    refine ⟨h1, fun x hx => ?_⟩
    have := List.all_eq_true.1 h2 x hx
    simpa using this
  exact Spaced.cons (w := "Capacitance".toList) (t _ (by decide) (by decide)) 0
    (Spaced.cons (w := "matrix".toList) (t _ (by decide) (by decide)) 0
      (Spaced.last (w := "is:".toList) (t _ (by decide) (by decide))))

theorem row_not_header {flt : Str → Option ℚ} (hf : flt "matrix".toList = none) {line : Str} {row : Str × List ℚ}
    (h : ShowsRow flt line row) : isHeader line = false := by
  obtain ⟨toks, hl, hv⟩ := h
  by_contra hc
  simp only [Bool.not_eq_false] at hc
  have he : strip line = "Capacitance matrix is:".toList := by simpa [isHeader] using hc
  have h1 := lineOf_parts hl
  rw [he, spaced_parts header_spaced] at h1
  simp only [List.cons.injEq] at h1
  obtain ⟨_, rfl⟩ := h1
  rcases row with ⟨nm, vs⟩
  cases hv with
  | cons h _ => rw [hf] at h; cases h

theorem digit_not_ws {c : Char} (h : c.isDigit = true) : isWs c = false := by
  by_contra hc
  simp only [Bool.not_eq_false] at hc
  simp only [isWs, Bool.or_eq_true, beq_iff_eq] at hc
  rcases hc with ((((rfl | rfl) | rfl) | rfl) | rfl) | rfl <;> revert h <;> decide

theorem dim_not_header (n m : Nat) :
    isHeader ("Dimension ".toList ++ (toString n).toList ++ " x ".toList ++ (toString m).toList) = false := by
  unfold isHeader
  rw [strip_clean]
  · have : ("Dimension ".toList ++ (toString n).toList ++ " x ".toList ++ (toString m).toList) ≠
        "Capacitance matrix is:".toList := by
      intro h
      have := congrArg List.head? h
      simp at this
    simpa using this
  · intro x hx
    have : x = 'D' := by
      have h2 : ("Dimension ".toList ++ (toString n).toList ++ " x ".toList ++ (toString m).toList).head? = some 'D' := by
        simp
      rw [h2] at hx
      exact (Option.some.inj hx).symm
    subst this; decide
  · intro x hx
    rw [List.getLast?_append_of_ne_nil _ (dec_ne_nil m)] at hx
    exact digit_not_ws (dec_digits (List.mem_of_getLast? hx))

end Verif.SolverLog
