import Verif.Options.Model

/-!
# Boolean values (C38) and the dielectric filter (C39)
-/

namespace Verif.Options

/-! ### Specification -/

/-- `s` is the (lower case) word `w` in any letter case. -/
def Spells (s : Str) (w : String) : Prop := List.Forall₂ (fun c d => c = d ∨ c = d.toUpper) s w.toList

/-- The components of a pattern: the texts between the commas, in lower case and without white space around. -/
def Listed (pattern : Str) (c : Str) : Prop := ∃ w ∈ splitOn ',' pattern, strip (w.map Char.toLower) = c

/-! ### C38 -/

def isLow (d : Char) : Bool := 'a' ≤ d && d ≤ 'z'

theorem toLower_toNat (c : Char) :
    c.toLower.val.toNat = if 65 ≤ c.val.toNat ∧ c.val.toNat ≤ 90 then c.val.toNat + 32 else c.val.toNat := by
  unfold Char.toLower
  by_cases h : c.val ≥ 'A'.val ∧ c.val ≤ 'Z'.val
  · have h' : 65 ≤ c.val.toNat ∧ c.val.toNat ≤ 90 := h
    rw [dif_pos h, if_pos h']
    have : (c.val + ('a'.val - 'A'.val)).toNat = (c.val.toNat + 32) % 4294967296 := UInt32.toNat_add _ _
    rw [this]
    omega
  · have h' : ¬ (65 ≤ c.val.toNat ∧ c.val.toNat ≤ 90) := h
    rw [dif_neg h, if_neg h']

theorem toUpper_toNat (c : Char) :
    c.toUpper.val.toNat = if 97 ≤ c.val.toNat ∧ c.val.toNat ≤ 122 then c.val.toNat - 32 else c.val.toNat := by
  unfold Char.toUpper
  by_cases h : 'a'.val ≤ c.val ∧ c.val ≤ 'z'.val
  · have h' : 97 ≤ c.val.toNat ∧ c.val.toNat ≤ 122 := h
    rw [dif_pos h, if_pos h']
    have : (c.val + ('A'.val - 'a'.val)).toNat = (c.val.toNat + 4294967264) % 4294967296 := UInt32.toNat_add _ _
    rw [this]
    omega
  · have h' : ¬ (97 ≤ c.val.toNat ∧ c.val.toNat ≤ 122) := h
    rw [dif_neg h, if_neg h']

theorem char_eq (c d : Char) : c = d ↔ c.val.toNat = d.val.toNat :=
  ⟨fun h => by rw [h], fun h => Char.ext (UInt32.toNat_inj.1 h)⟩

theorem toLower_idem (c : Char) : c.toLower.toLower = c.toLower := by
  rw [char_eq]
  have h1 := toLower_toNat c.toLower
  have h2 := toLower_toNat c
  split at h1 <;> split at h2 <;> omega

theorem toLower_eq (c d : Char) (hd : isLow d = true) : c.toLower = d ↔ c = d ∨ c = d.toUpper := by
  unfold isLow at hd
  rw [Bool.and_eq_true, decide_eq_true_eq, decide_eq_true_eq] at hd
  have h1 : 97 ≤ d.val.toNat := hd.1
  have h2 : d.val.toNat ≤ 122 := hd.2
  rw [char_eq c.toLower d, char_eq c d, char_eq c d.toUpper]
  have e1 := toLower_toNat c
  have e2 := toUpper_toNat d
  rw [if_pos ⟨h1, h2⟩] at e2
  split at e1 <;> omega

theorem spells_iff (s : Str) (w : String) (hw : w.toList.all isLow = true) : lower s = w.toList ↔ Spells s w := by
  unfold lower Spells
  generalize w.toList = l at *
  induction s generalizing l with
  | nil =>
    constructor
    · rintro h; cases l with
      | nil => exact .nil
      | cons _ _ => cases h
    · intro h; cases h; rfl
  | cons c s ih =>
    cases l with
    | nil => constructor
             · intro h; cases h
             · intro h; cases h
    | cons d l =>
      rw [List.all_cons, Bool.and_eq_true] at hw
      rw [List.map_cons, List.cons.injEq, toLower_eq c d hw.1, ih l hw.2, List.forall₂_cons]

/-- **C38.** A text is read as true exactly if it is `yes`, `true`, `y` or `t` in any letter case, as false exactly if it is
`no`, `false`, `n` or `f` in any letter case, and rejected otherwise. -/
theorem bool_exact_partial (s : Str) :
    (trueOrFalse (.text s) = .ok true ↔ Spells s "yes" ∨ Spells s "true" ∨ Spells s "t" ∨ Spells s "y") ∧
    (trueOrFalse (.text s) = .ok false ↔ Spells s "no" ∨ Spells s "false" ∨ Spells s "f" ∨ Spells s "n") ∧
    ((∀ b, trueOrFalse (.text s) ≠ .ok b) → trueOrFalse (.text s) = .error "Boolean value expected.") := by
  rw [← spells_iff s "yes" (by decide), ← spells_iff s "true" (by decide), ← spells_iff s "t" (by decide),
    ← spells_iff s "y" (by decide), ← spells_iff s "no" (by decide), ← spells_iff s "false" (by decide),
    ← spells_iff s "f" (by decide), ← spells_iff s "n" (by decide)]
  unfold trueOrFalse
  dsimp only
  by_cases h1 : lower s = "yes".toList ∨ lower s = "true".toList ∨ lower s = "t".toList ∨ lower s = "y".toList
  · have h2 : ¬ (lower s = "no".toList ∨ lower s = "false".toList ∨ lower s = "f".toList ∨ lower s = "n".toList) := by
      rcases h1 with h | h | h | h <;> rw [h] <;> decide
    rw [if_pos h1]
    exact ⟨⟨fun _ => h1, fun _ => rfl⟩, ⟨fun h => (by cases h), fun h => absurd h h2⟩, fun h => absurd rfl (h true)⟩
  · rw [if_neg h1]
    by_cases h2 : lower s = "no".toList ∨ lower s = "false".toList ∨ lower s = "f".toList ∨ lower s = "n".toList
    · rw [if_pos h2]
      exact ⟨⟨fun h => (by cases h), fun h => absurd h h1⟩, ⟨fun _ => h2, fun _ => rfl⟩, fun h => absurd rfl (h false)⟩
    · rw [if_neg h2]
      exact ⟨⟨fun h => (by cases h), fun h => absurd h h1⟩, ⟨fun h => (by cases h), fun h => absurd h h2⟩, fun _ => rfl⟩

/-- A value that is already a truth value is kept. -/
theorem bool_default (b : Bool) : trueOrFalse (.bool b) = .ok b := rfl

/-- **C38 fails for `1` and `0`**: the code lists them as spellings of true and false, but the texts are rejected. -/
theorem digits_rejected :
    trueOrFalse (.text "1".toList) = .error "Boolean value expected." ∧
    trueOrFalse (.text "0".toList) = .error "Boolean value expected." := by decide

example : trueOrFalse (.text "YeS".toList) = .ok true ∧ trueOrFalse (.text "F".toList) = .ok false ∧
    Spells "YeS".toList "yes" := by
  refine ⟨by decide, by decide, ?_⟩
  exact .cons (.inr (by decide)) (.cons (.inl rfl) (.cons (.inr (by decide)) .nil))

/-! ### C39 -/

theorem mem_components (pattern c : Str) : c ∈ components pattern ↔ Listed pattern c := by
  unfold components Listed lower
  rw [List.mem_map]

theorem mem_marked (m : Char) (cs : List Str) (x : Str) : x ∈ marked m cs ↔ (m :: x) ∈ cs := by
  unfold marked
  rw [List.mem_map]
  constructor
  · rintro ⟨c, hc, rfl⟩
    rw [List.mem_filter] at hc
    rcases c with _ | ⟨a, c⟩
    · exact absurd hc.2 (by simp)
    · have : a = m := by simpa using hc.2
      subst this
      exact hc.1
  · intro h; exact ⟨m :: x, List.mem_filter.2 ⟨h, by simp⟩, rfl⟩

/-- A pattern is contradictory if it has both `all` and `none`, `none` and an exclusion, or `all` and an inclusion. -/
def Contradictory (pattern : Str) : Prop :=
  (Listed pattern "none".toList ∧ Listed pattern "all".toList) ∨
  (Listed pattern "none".toList ∧ ∃ x, Listed pattern ('-' :: x)) ∨
  (Listed pattern "all".toList ∧ ∃ x, Listed pattern ('+' :: x))

theorem parse_fields (pattern : Str) (p : Pattern) (h : parse pattern = .ok p) :
    (p.hasAll = true ↔ Listed pattern "all".toList) ∧ (p.hasNone = true ↔ Listed pattern "none".toList) ∧
    (∀ x, x ∈ p.included ↔ Listed pattern ('+' :: x)) ∧ (∀ x, x ∈ p.excluded ↔ Listed pattern ('-' :: x)) := by
  unfold parse at h
  simp only at h
  split at h
  · cases h
  · split at h
    · cases h
    · split at h
      · cases h
      · cases h
        refine ⟨?_, ?_, ?_, ?_⟩
        · rw [List.contains_iff_mem, mem_components]
        · rw [List.contains_iff_mem, mem_components]
        · intro x; rw [mem_marked, mem_components]
        · intro x; rw [mem_marked, mem_components]

/-- **C39, contradictory patterns are rejected**, and no others. -/
theorem contradictory_rejected (pattern : Str) : (∃ p, parse pattern = .ok p) ↔ ¬ Contradictory pattern := by
  have e1 : ∀ m, (decide ((marked m (components pattern)).length ≥ 1) = true ↔ ∃ x, Listed pattern (m :: x)) := by
    intro m
    rw [decide_eq_true_eq]
    constructor
    · intro h
      obtain ⟨x, hx⟩ := List.exists_mem_of_ne_nil (marked m (components pattern)) (by
        intro e; rw [e] at h; exact absurd h (by simp))
      exact ⟨x, (mem_components _ _).1 ((mem_marked _ _ _).1 hx)⟩
    · rintro ⟨x, hx⟩
      have := (mem_marked m _ x).2 ((mem_components _ _).2 hx)
      exact List.length_pos_of_mem this
  have ea : (components pattern).contains "all".toList = true ↔ Listed pattern "all".toList := by
    rw [List.contains_iff_mem, mem_components]
  have en : (components pattern).contains "none".toList = true ↔ Listed pattern "none".toList := by
    rw [List.contains_iff_mem, mem_components]
  have ex := e1 '-'
  have ei := e1 '+'
  unfold parse Contradictory
  simp only
  rw [← ea, ← en, ← ex, ← ei]
  generalize (components pattern).contains "all".toList = a
  generalize (components pattern).contains "none".toList = n
  generalize decide ((marked '-' (components pattern)).length ≥ 1) = x
  generalize decide ((marked '+' (components pattern)).length ≥ 1) = i
  cases a <;> cases n <;> cases x <;> cases i <;> simp

/-- **C39, meaning of a pattern.** With `none` exactly the choices marked by `+` are included; with `all` all choices
except those marked by `-`; with neither, nothing. -/
theorem included_exact (pattern : Str) (p : Pattern) (h : parse pattern = .ok p) (c : Str) :
    p.isIncluded c = true ↔
      (Listed pattern "none".toList ∧ Listed pattern ('+' :: c)) ∨
      (Listed pattern "all".toList ∧ ¬ Listed pattern ('-' :: c)) := by
  obtain ⟨ha, hn, hi, hx⟩ := parse_fields pattern p h
  have hc := (contradictory_rejected pattern).1 ⟨p, h⟩
  rw [← ha, ← hn, ← hi, ← hx]
  unfold Contradictory at hc
  rw [← ha, ← hn] at hc
  unfold Pattern.isIncluded
  cases hN : p.hasNone <;> cases hA : p.hasAll
  · simp
  · simp
  · simp
  · exact absurd (.inl ⟨hN, hA⟩) hc

/-- **C39, filter (partial).** For a pattern with `all` or `none` filtering keeps exactly the included choices, in order. -/
theorem filter_agrees_partial (pattern : Str) (p : Pattern) (h : parse pattern = .ok p)
    (hb : Listed pattern "all".toList ∨ Listed pattern "none".toList) (choices : List Str) :
    p.filter choices = choices.filter p.isIncluded := by
  obtain ⟨ha, hn, _, _⟩ := parse_fields pattern p h
  have hc := (contradictory_rejected pattern).1 ⟨p, h⟩
  unfold Contradictory at hc
  rw [← ha, ← hn] at hb hc
  unfold Pattern.filter Pattern.isIncluded
  cases hN : p.hasNone <;> cases hA : p.hasAll
  · rw [hN, hA] at hb; simp at hb
  · simp
  · simp
  · exact absurd (.inl ⟨hN, hA⟩) hc

/-- **C39 fails without `all` and `none`**: for every pattern that only includes, filtering keeps the marked choices, but
none of them counts as included. -/
theorem filter_disagrees (pattern : Str) (ha : ¬ Listed pattern "all".toList) (hn : ¬ Listed pattern "none".toList)
    (c : Str) (hc : Listed pattern ('+' :: c)) :
    ∃ p, parse pattern = .ok p ∧ p.filter [c] = [c] ∧ p.isIncluded c = false := by
  obtain ⟨p, hp⟩ := (contradictory_rejected pattern).2 (by
    rintro (⟨h, _⟩ | ⟨h, _⟩ | ⟨h, _⟩)
    · exact hn h
    · exact hn h
    · exact ha h)
  obtain ⟨fa, fn, fi, _⟩ := parse_fields pattern p hp
  have h1 : p.hasAll = false := by rw [← Bool.not_eq_true, fa]; exact ha
  have h2 : p.hasNone = false := by rw [← Bool.not_eq_true, fn]; exact hn
  refine ⟨p, hp, ?_, ?_⟩
  · unfold Pattern.filter
    rw [h1]
    simp [(fi c).2 hc]
  · unfold Pattern.isIncluded; rw [h1, h2]; rfl

example : ¬ Listed "+nild5".toList "all".toList ∧ ¬ Listed "+nild5".toList "none".toList ∧
    Listed "+nild5".toList ('+' :: "nild5".toList) := by
  refine ⟨?_, ?_, ⟨"+nild5".toList, by decide, by decide⟩⟩ <;>
  · rintro ⟨w, hw, e⟩
    have : w = "+nild5".toList := by
      have h : splitOn ',' "+nild5".toList = ["+nild5".toList] := by decide
      rw [h] at hw; simpa using hw
    subst this
    exact absurd e (by decide)

/-- A name as it can be used in a pattern: no comma, no upper case letter, no white space at its end. -/
def Plain (x : Str) : Prop := ',' ∉ x ∧ x.map Char.toLower = x ∧ x ≠ [] ∧ ∀ c, x.getLast? = some c → isWs c = false

theorem listed_join (b : Str) (m : Char) (xs : List Str) (hb : ',' ∉ b ∧ strip (b.map Char.toLower) = b)
    (hm : m = '+' ∨ m = '-') (hx : ∀ x ∈ xs, Plain x) (c : Str) :
    Listed (joinWith ',' (b :: xs.map (m :: ·))) c ↔ c = b ∨ ∃ x ∈ xs, c = m :: x := by
  have hmc : m ≠ ',' ∧ m.toLower = m ∧ isWs m = false := by rcases hm with rfl | rfl <;> decide
  have key : ∀ x ∈ xs, strip ((m :: x).map Char.toLower) = m :: x := by
    intro x hx'
    obtain ⟨_, h2, h3, h4⟩ := hx x hx'
    rw [List.map_cons, h2, hmc.2.1]
    refine strip_clean (fun c hc => ?_) (fun c hc => ?_)
    · simp only [List.head?_cons, Option.some.injEq] at hc; rw [← hc]; exact hmc.2.2
    · rw [List.getLast?_cons_of_ne_nil h3] at hc; exact h4 c hc
  unfold Listed
  rw [splitOn_joinWith (by simp) (by
    intro w hw
    rcases List.mem_cons.1 hw with rfl | hw
    · exact hb.1
    · obtain ⟨x, hx', rfl⟩ := List.mem_map.1 hw
      intro h
      rcases List.mem_cons.1 h with h | h
      · exact hmc.1 h.symm
      · exact (hx x hx').1 h)]
  constructor
  · rintro ⟨w, hw, rfl⟩
    rcases List.mem_cons.1 hw with rfl | hw
    · exact .inl hb.2
    · obtain ⟨x, hx', rfl⟩ := List.mem_map.1 hw
      exact .inr ⟨x, hx', key x hx'⟩
  · rintro (rfl | ⟨x, hx', rfl⟩)
    · exact ⟨c, List.mem_cons_self, hb.2⟩
    · exact ⟨m :: x, List.mem_cons_of_mem _ (List.mem_map_of_mem hx'), key x hx'⟩

/-- **C39, `all,-x,-y,…`** includes everything but the listed names. -/
theorem all_but (xs : List Str) (hx : ∀ x ∈ xs, Plain x) :
    ∃ p, parse (joinWith ',' ("all".toList :: xs.map ('-' :: ·))) = .ok p ∧
      (∀ c, p.isIncluded c = true ↔ c ∉ xs) ∧
      ∀ choices, p.filter choices = choices.filter fun c => decide (c ∉ xs) := by
  have hl := listed_join "all".toList '-' xs (by decide) (.inr rfl) hx
  obtain ⟨p, hp⟩ := (contradictory_rejected _).2 (by
    rintro (⟨h, _⟩ | ⟨h, _⟩ | ⟨_, x, h⟩)
    · rw [hl] at h; rcases h with h | ⟨x, _, h⟩ <;> exact absurd h (by simp)
    · rw [hl] at h; rcases h with h | ⟨x, _, h⟩ <;> exact absurd h (by simp)
    · rw [hl] at h; rcases h with h | ⟨x, _, h⟩ <;> exact absurd h (by simp))
  have hi : ∀ c, p.isIncluded c = true ↔ c ∉ xs := by
    intro c
    rw [included_exact _ p hp c, hl, hl, hl, hl]
    constructor
    · rintro (⟨h | ⟨x, _, h⟩, _⟩ | ⟨_, h⟩)
      · exact absurd h (by decide)
      · exact absurd h (by simp)
      · intro hc; exact h (.inr ⟨c, hc, rfl⟩)
    · intro hc
      refine .inr ⟨.inl rfl, ?_⟩
      rintro (h | ⟨x, hx', h⟩)
      · exact absurd h (by simp)
      · exact hc (by have := List.cons.inj h; rw [this.2]; exact hx')
  refine ⟨p, hp, hi, fun choices => ?_⟩
  rw [filter_agrees_partial _ p hp (.inl ((hl _).2 (.inl rfl)))]
  refine List.filter_congr fun c _ => ?_
  rw [Bool.eq_iff_iff, hi, decide_eq_true_eq]

/-- **C39, `none,+x,+y,…`** includes exactly the listed names. -/
theorem none_but (xs : List Str) (hx : ∀ x ∈ xs, Plain x) :
    ∃ p, parse (joinWith ',' ("none".toList :: xs.map ('+' :: ·))) = .ok p ∧
      (∀ c, p.isIncluded c = true ↔ c ∈ xs) ∧
      ∀ choices, p.filter choices = choices.filter fun c => decide (c ∈ xs) := by
  have hl := listed_join "none".toList '+' xs (by decide) (.inl rfl) hx
  obtain ⟨p, hp⟩ := (contradictory_rejected _).2 (by
    rintro (⟨_, h⟩ | ⟨_, x, h⟩ | ⟨h, _⟩)
    · rw [hl] at h; rcases h with h | ⟨x, _, h⟩ <;> exact absurd h (by simp)
    · rw [hl] at h; rcases h with h | ⟨x, _, h⟩ <;> exact absurd h (by simp)
    · rw [hl] at h; rcases h with h | ⟨x, _, h⟩ <;> exact absurd h (by simp))
  have hi : ∀ c, p.isIncluded c = true ↔ c ∈ xs := by
    intro c
    rw [included_exact _ p hp c, hl, hl, hl, hl]
    constructor
    · rintro (⟨_, h | ⟨x, hx', h⟩⟩ | ⟨h | ⟨x, _, h⟩, _⟩)
      · exact absurd h (by simp)
      · have := List.cons.inj h; rw [this.2]; exact hx'
      · exact absurd h (by decide)
      · exact absurd h (by simp)
    · intro hc; exact .inl ⟨.inl rfl, .inr ⟨c, hc, rfl⟩⟩
  refine ⟨p, hp, hi, fun choices => ?_⟩
  rw [filter_agrees_partial _ p hp (.inr ((hl _).2 (.inl rfl)))]
  refine List.filter_congr fun c _ => ?_
  rw [Bool.eq_iff_iff, hi, decide_eq_true_eq]

example : ∀ x ∈ ["nild5".toList, "nild6".toList], Plain x := by
  intro x hx
  simp only [List.mem_cons, List.not_mem_nil, or_false] at hx
  rcases hx with rfl | rfl <;> exact ⟨by decide, by decide, by decide, by decide⟩

example : (parse "all,-nild5,-nild6".toList).toOption.map (fun p => p.filter ["nild4".toList, "nild5".toList]) =
    some ["nild4".toList] := by decide

/-- **C39, letter case.** Patterns are put into lower case but names are not: a name with an upper case letter can neither
be excluded from `all` nor be included into `none`. -/
theorem upper_case_ignored (pattern : Str) (p : Pattern) (h : parse pattern = .ok p) (c : Str)
    (hc : c.map Char.toLower ≠ c) :
    (Listed pattern "all".toList → p.isIncluded c = true) ∧ (Listed pattern "none".toList → p.isIncluded c = false) := by
  have hno : ∀ m, ¬ Listed pattern (m :: c) := by
    rintro m ⟨w, _, e⟩
    apply hc
    have hall : ∀ x ∈ strip (w.map Char.toLower), x.toLower = x := by
      intro x hx
      unfold strip at hx
      rw [List.mem_reverse] at hx
      have h1 := (List.dropWhile_sublist _).mem hx
      rw [List.mem_reverse] at h1
      have h2 := (List.dropWhile_sublist _).mem h1
      obtain ⟨y, _, rfl⟩ := List.mem_map.1 h2
      exact toLower_idem y
    rw [e] at hall
    conv_rhs => rw [← List.map_id c]
    exact List.map_congr_left fun x hx => hall x (List.mem_cons_of_mem _ hx)
  have hi := included_exact pattern p h c
  constructor
  · intro ha; exact hi.2 (.inr ⟨ha, hno _⟩)
  · intro hn
    rw [← Bool.not_eq_true, hi]
    rintro (⟨_, h'⟩ | ⟨ha, _⟩)
    · exact hno _ h'
    · exact (contradictory_rejected pattern).1 ⟨p, h⟩ (.inl ⟨hn, ha⟩)

end Verif.Options
