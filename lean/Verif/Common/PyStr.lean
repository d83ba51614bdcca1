import Mathlib.Data.List.TakeWhile
import Mathlib.Data.List.Infix

/-!
# Python string functions on lists of characters

Only the parts of `str` that the modelled code uses.  White space is ASCII white space.
-/

namespace Verif

/-- Text. -/
abbrev Str := List Char

/-- White space as removed by `str.strip()` and used by `str.split()` (ASCII only). -/
def isWs (c : Char) : Bool := c == ' ' || c == '\t' || c == '\n' || c == '\r' || c == '\x0b' || c == '\x0c'

/-- `s.strip()` -/
def strip (s : Str) : Str := ((s.dropWhile isWs).reverse.dropWhile isWs).reverse

/-- `s.split(c)` for a single character. -/
def splitOn (c : Char) : Str → List Str
  | [] => [[]]
  | x :: s =>
    if x = c then [] :: splitOn c s
    else match splitOn c s with
      | [] => [[x]]
      | w :: ws => (x :: w) :: ws

/-- `s.split()`: the maximal runs of characters that are not white space. -/
def splitWs : Str → List Str
  | [] => []
  | x :: s =>
    if isWs x then splitWs s
    else match s with
      | [] => [[x]]
      | y :: _ =>
        if isWs y then [x] :: splitWs s
        else match splitWs s with
          | [] => [[x]]
          | w :: ws => (x :: w) :: ws

/-- `c.join(parts)` for a single character. -/
def joinWith (c : Char) : List Str → Str
  | [] => []
  | [w] => w
  | w :: ws => w ++ c :: joinWith c ws

/-! ### Lemmas -/

theorem strip_clean {s : Str} (h1 : ∀ x, s.head? = some x → isWs x = false)
    (h2 : ∀ x, s.getLast? = some x → isWs x = false) : strip s = s := by
  unfold strip
  have e1 : s.dropWhile isWs = s := by
    cases s with
    | nil => rfl
    | cons a l => rw [List.dropWhile_cons_of_neg]; simp [h1 a rfl]
  rw [e1]
  have e2 : s.reverse.dropWhile isWs = s.reverse := by
    cases hr : s.reverse with
    | nil => rfl
    | cons a l =>
      rw [List.dropWhile_cons_of_neg]
      have : s.getLast? = some a := by rw [← List.head?_reverse, hr]; rfl
      simp [h2 a this]
  rw [e2, List.reverse_reverse]

theorem strip_of_noWs {s : Str} (h : ∀ x ∈ s, isWs x = false) : strip s = s :=
  strip_clean (fun x hx => h x (List.mem_of_mem_head? hx)) (fun x hx => h x (List.mem_of_getLast? hx))

theorem strip_append_ws {s t : Str} (ht : ∀ x ∈ t, isWs x = true) : strip (s ++ t) = strip s := by
  unfold strip
  have key : ∀ u : Str, ((u ++ t).reverse.dropWhile isWs) = u.reverse.dropWhile isWs := by
    intro u
    rw [List.reverse_append, List.dropWhile_append_of_pos]
    intro x hx
    exact ht x (List.mem_reverse.1 hx)
  by_cases hall : ∀ x ∈ s, isWs x = true
  · have h1 : (s ++ t).dropWhile isWs = [] := by
      rw [List.dropWhile_eq_nil_iff]
      intro x hx
      rcases List.mem_append.1 hx with h | h
      · exact hall x h
      · exact ht x h
    have h2 : s.dropWhile isWs = [] := by
      rw [List.dropWhile_eq_nil_iff]; exact hall
    rw [h1, h2]
  · have h1 : (s ++ t).dropWhile isWs = s.dropWhile isWs ++ t := by
      induction s with
      | nil => exact absurd (by simp) hall
      | cons a l ih =>
        rw [List.cons_append]
        by_cases ha : isWs a = true
        · rw [List.dropWhile_cons_of_pos ha, List.dropWhile_cons_of_pos ha]
          apply ih
          intro hl
          apply hall
          intro x hx
          rcases List.mem_cons.1 hx with rfl | hx
          · exact ha
          · exact hl x hx
        · rw [List.dropWhile_cons_of_neg ha, List.dropWhile_cons_of_neg ha, List.cons_append]
    rw [h1, key]

theorem strip_ws_append {s t : Str} (ht : ∀ x ∈ t, isWs x = true) : strip (t ++ s) = strip s := by
  unfold strip
  rw [List.dropWhile_append_of_pos ht]

theorem splitOn_ne_nil (c : Char) (s : Str) : splitOn c s ≠ [] := by
  cases s with
  | nil => simp [splitOn]
  | cons x s =>
    unfold splitOn
    split
    · simp
    · split <;> simp

/-- A text without the separator is one part. -/
theorem splitOn_none {c : Char} {s : Str} (h : c ∉ s) : splitOn c s = [s] := by
  induction s with
  | nil => rfl
  | cons x s ih =>
    have hx : x ≠ c := fun hh => h (by simp [hh])
    have hs : c ∉ s := fun hh => h (by simp [hh])
    unfold splitOn
    rw [if_neg hx, ih hs]

theorem splitOn_append {c : Char} {s t : Str} (h : c ∉ s) : splitOn c (s ++ c :: t) = s :: splitOn c t := by
  induction s with
  | nil => simp [splitOn]
  | cons x s ih =>
    have hx : x ≠ c := fun hh => h (by simp [hh])
    have hs : c ∉ s := fun hh => h (by simp [hh])
    rw [List.cons_append]
    conv_lhs => unfold splitOn
    rw [if_neg hx, ih hs]

theorem splitOn_joinWith {c : Char} {ws : List Str} (hne : ws ≠ []) (h : ∀ w ∈ ws, c ∉ w) :
    splitOn c (joinWith c ws) = ws := by
  induction ws with
  | nil => exact absurd rfl hne
  | cons w ws ih =>
    cases ws with
    | nil => exact splitOn_none (h w (by simp))
    | cons w' ws' =>
      show splitOn c (w ++ c :: joinWith c (w' :: ws')) = _
      rw [splitOn_append (h w (by simp)), ih (by simp) (fun x hx => h x (by simp [hx]))]

end Verif
