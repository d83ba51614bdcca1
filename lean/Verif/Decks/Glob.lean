/-!
# How LVS of sg13g2 recognises labels in any letter case

Models `glob_to_case_insensitive_glob` (pdk/ihp_sg13g2/libs.tech/kpex/rule_decks/custom_classes.lvs 29–44), which prepares the patterns
for the labels of wells, substrate contacts, RF transistors, ESD devices and inductors, and the glob patterns of KLayout.
-/

namespace Verif.Decks

/-- `/[A-Za-z]/`. -/
def isLetter (c : Char) : Bool := c.isUpper || c.isLower

/-- `Regexp.escape` of Ruby for one character. -/
def rubyEscape (c : Char) : List Char :=
  if c = '\n' then ['\\', 'n'] else if c = '\t' then ['\\', 't'] else if c = '\r' then ['\\', 'r']
  else if c = '\x0c' then ['\\', 'f'] else if c = '\x0b' then ['\\', 'v']
  else if ['[', ']', '{', '}', '(', ')', '|', '-', '*', '.', '\\', '?', '+', '^', '$', '#', ' '].contains c then ['\\', c]
  else [c]

/-- The pattern for one character; custom_classes.lvs 32–40. -/
def caseGlobChar (c : Char) : List Char :=
  if isLetter c then ['[', c.toUpper, c.toLower, ']']
  else if c = '*' ∨ c = '?' then [c]
  else rubyEscape c

/-- `glob_to_case_insensitive_glob`; custom_classes.lvs 29–44. -/
def caseGlob (glob : List Char) : List Char := glob.flatMap caseGlobChar

/-- The parts of a glob pattern of KLayout. -/
inductive GlobPart where
  | many
  | one
  | set (a b : Char)
  | lit (c : Char)
deriving DecidableEq, Repr

/-- KLayout's reading of a pattern: `*`, `?`, sets and characters after a backslash. Sets of more or fewer than two characters and
braces do not occur in the patterns of `caseGlob` and are left out. -/
def readGlob : List Char → List GlobPart
  | [] => []
  | '*' :: r => .many :: readGlob r
  | '?' :: r => .one :: readGlob r
  | '\\' :: c :: r => .lit c :: readGlob r
  | '[' :: a :: b :: ']' :: r => .set a b :: readGlob r
  | c :: r => .lit c :: readGlob r

/-- Whether the pattern matches the whole text. -/
def globMatch : List GlobPart → List Char → Bool
  | [], s => s.isEmpty
  | .many :: t, [] => globMatch t []
  | .many :: t, c :: s => globMatch t (c :: s) || globMatch (.many :: t) s
  | .one :: t, _ :: s => globMatch t s
  | .set a b :: t, c :: s => (c == a || c == b) && globMatch t s
  | .lit d :: t, c :: s => c == d && globMatch t s
  | _ :: _, [] => false
termination_by t s => (t.length, s.length)

/-! ### Specification -/

/-- The characters are the same up to the case of letters. -/
def SameLetter (c d : Char) : Prop := d = c ∨ isLetter c = true ∧ (d = c.toUpper ∨ d = c.toLower)

/-- The text fits to the pattern: `*` stands for any text, `?` for any character, the other characters for themselves in any case. -/
inductive Fits : List Char → List Char → Prop
  | nil : Fits [] []
  | skip {g s} : Fits g s → Fits ('*' :: g) s
  | more {g c s} : Fits ('*' :: g) s → Fits ('*' :: g) (c :: s)
  | one {g c s} : Fits g s → Fits ('?' :: g) (c :: s)
  | char {g s c d} : c ≠ '*' → c ≠ '?' → SameLetter c d → Fits g s → Fits (c :: g) (d :: s)

/-! ### Proofs -/

/-- What a character becomes. -/
def partOf (c : Char) : GlobPart :=
  if c = '*' then .many else if c = '?' then .one else if isLetter c then .set c.toUpper c.toLower else .lit c

theorem letter_case {c : Char} (h : isLetter c = true) : c = c.toUpper ∨ c = c.toLower := by
  unfold isLetter at h
  rw [Bool.or_eq_true] at h
  rcases h with h | h
  · left
    unfold Char.toUpper
    unfold Char.isUpper at h
    simp only [ge_iff_le, decide_eq_true_eq, UInt32.le_iff_toNat_le] at h
    rw [dif_neg]
    simp only [UInt32.le_iff_toNat_le]
    intro h'
    have := Nat.lt_of_le_of_lt h.2 (by decide : ('Z' : Char).val.toNat < ('a' : Char).val.toNat)
    omega
  · right
    unfold Char.toLower
    unfold Char.isLower at h
    simp only [ge_iff_le, Bool.and_eq_true, decide_eq_true_eq, UInt32.le_iff_toNat_le] at h
    rw [dif_neg]
    simp only [ge_iff_le, UInt32.le_iff_toNat_le]
    intro h'
    have := Nat.lt_of_le_of_lt h'.2 (by decide : ('Z' : Char).val.toNat < ('a' : Char).val.toNat)
    omega

theorem readGlob_plain {c : Char} (r : List Char) (h1 : c ≠ '*') (h2 : c ≠ '?') (h3 : c ≠ '\\') (h4 : c ≠ '[') :
    readGlob (c :: r) = .lit c :: readGlob r := by
  rw [readGlob] <;> simp_all

theorem readGlob_char {c : Char} (r : List Char) (hc : c ∉ ['\n', '\t', '\r', '\x0c', '\x0b']) :
    readGlob (caseGlobChar c ++ r) = partOf c :: readGlob r := by
  unfold caseGlobChar partOf
  by_cases hl : isLetter c = true
  · have h1 : c ≠ '*' := by rintro rfl; exact absurd hl (by decide)
    have h2 : c ≠ '?' := by rintro rfl; exact absurd hl (by decide)
    rw [if_pos hl, if_neg h1, if_neg h2, if_pos hl]
    rfl
  rw [if_neg hl]
  by_cases h1 : c = '*'
  · subst h1; rfl
  by_cases h2 : c = '?'
  · subst h2; rfl
  rw [if_neg (by simp [h1, h2]), if_neg h1, if_neg h2, if_neg hl, rubyEscape]
  simp only [List.mem_cons, List.not_mem_nil, or_false, not_or] at hc
  rw [if_neg hc.1, if_neg hc.2.1, if_neg hc.2.2.1, if_neg hc.2.2.2.1, if_neg hc.2.2.2.2]
  split
  · rfl
  · next hn =>
    simp only [List.contains_cons, List.contains_nil, Bool.or_eq_true, beq_iff_eq, not_or] at hn
    exact readGlob_plain r h1 h2 (by simp_all) (by simp_all)

theorem readGlob_caseGlob : ∀ {g : List Char}, (∀ c ∈ g, c ∉ ['\n', '\t', '\r', '\x0c', '\x0b']) →
    readGlob (caseGlob g) = g.map partOf
  | [], _ => rfl
  | c :: g, h => by
    rw [caseGlob, List.flatMap_cons, readGlob_char _ (h c (.head _)), List.map_cons]
    exact congrArg _ (readGlob_caseGlob fun d hd => h d (.tail _ hd))

theorem globMatch_iff : ∀ (g s : List Char), globMatch (g.map partOf) s = true ↔ Fits g s := by
  intro g
  induction g with
  | nil =>
    intro s
    cases s with
    | nil => exact ⟨fun _ => .nil, fun _ => by simp [globMatch]⟩
    | cons c s => exact ⟨fun h => by simp [globMatch] at h, fun h => nomatch h⟩
  | cons c g ih =>
    intro s
    by_cases h1 : c = '*'
    · subst h1
      have hp : partOf '*' = .many := rfl
      rw [List.map_cons, hp]
      induction s with
      | nil =>
        rw [globMatch, ih]
        constructor
        · exact .skip
        · intro h
          cases h with
          | skip h => exact h
      | cons d s ihs =>
        rw [globMatch, Bool.or_eq_true, ih]
        refine (or_congr Iff.rfl ihs).trans ?_
        constructor
        · rintro (h | h)
          · exact .skip h
          · exact .more h
        · intro h
          cases h with
          | skip h => exact .inl h
          | more h => exact .inr h
          | char h => exact absurd rfl h
    by_cases h2 : c = '?'
    · subst h2
      have hp : partOf '?' = .one := rfl
      rw [List.map_cons, hp]
      cases s with
      | nil => exact ⟨fun h => by simp [globMatch] at h, fun h => nomatch h⟩
      | cons d s =>
        rw [globMatch, ih]
        constructor
        · exact .one
        · intro h
          cases h with
          | one h => exact h
          | char _ h => exact absurd rfl h
    have hf : ∀ d s, Fits (c :: g) (d :: s) ↔ SameLetter c d ∧ Fits g s := by
      intro d s
      constructor
      · intro h
        cases h with
        | skip => exact absurd rfl h1
        | more => exact absurd rfl h1
        | one => exact absurd rfl h2
        | char _ _ h h' => exact ⟨h, h'⟩
      · exact fun h => .char h1 h2 h.1 h.2
    have hn : ¬ Fits (c :: g) [] := by
      intro h
      cases h
      exact h1 rfl
    rw [List.map_cons, partOf, if_neg h1, if_neg h2]
    by_cases hl : isLetter c = true
    · rw [if_pos hl]
      cases s with
      | nil => simp [globMatch, hn]
      | cons d s =>
        rw [globMatch, Bool.and_eq_true, ih, hf]
        have : SameLetter c d ↔ d = c.toUpper ∨ d = c.toLower := by
          constructor
          · rintro (rfl | h)
            · exact letter_case hl
            · exact h.2
          · exact fun h => .inr ⟨hl, h⟩
        simp [this]
    · rw [if_neg hl]
      cases s with
      | nil => simp [globMatch, hn]
      | cons d s =>
        rw [globMatch, Bool.and_eq_true, ih, hf]
        simp [SameLetter, hl]

/-- A label is recognised exactly if it fits to the pattern, where letters stand for themselves in any case. -/
theorem label_recognised {g : List Char} (hg : ∀ c ∈ g, c ∉ ['\n', '\t', '\r', '\x0c', '\x0b']) (s : List Char) :
    globMatch (readGlob (caseGlob g)) s = true ↔ Fits g s := by
  rw [readGlob_caseGlob hg, globMatch_iff]

/-- The pattern of the labels of substrate contacts: `Sub!` is recognised, `sub` and `substrate!` are not; with a wildcard more is. -/
theorem label_ex : caseGlob "sub!".toList = "[Ss][Uu][Bb]!".toList ∧
    globMatch (readGlob (caseGlob "sub!".toList)) "Sub!".toList = true ∧
    globMatch (readGlob (caseGlob "sub!".toList)) "sub".toList = false ∧
    globMatch (readGlob (caseGlob "sub!".toList)) "substrate!".toList = false ∧
    globMatch (readGlob (caseGlob "sub*!".toList)) "SUBstrate!".toList = true := by
  refine ⟨by decide, ?_, ?_, ?_, ?_⟩ <;> rw [readGlob_caseGlob (by decide)] <;> simp [globMatch, partOf, isLetter] <;> decide

end Verif.Decks
