import Verif.Magic.Model
import Verif.Common.Exc

/-!
# Regular expressions and numbers of the Magic parser
-/

namespace Verif.Magic

/-! ### Sequences of tokens -/

/-- The texts a part stands for. -/
def Accepts : Tok → Str → Prop
  | .lit w, a => a = w
  | .cls p, a => a ≠ [] ∧ ∀ c ∈ a, p c = true
  | .signed p, a => (a ≠ [] ∧ ∀ c ∈ a, p c = true) ∨ ∃ b, a = '-' :: b ∧ b ≠ [] ∧ ∀ c ∈ b, p c = true
  | .rest, _ => True

/-- What follows a class starts with a character outside of it. -/
def Stops (p : Char → Bool) : List Tok → Bool
  | [] => true
  | .lit (c :: _) :: _ => !p c
  | _ => false

/-- Classes are delimited, so that there is only one way to match. -/
def Sep : List Tok → Bool
  | [] => true
  | .lit _ :: ts => Sep ts
  | .cls p :: ts => Stops p ts && Sep ts
  | .signed p :: ts => !p '-' && (Stops p ts && Sep ts)
  | .rest :: ts => ts.isEmpty

theorem takeWhile_append_stop {p : Char → Bool} {a r : Str} (ha : ∀ c ∈ a, p c = true)
    (hr : ∀ c, r.head? = some c → p c = false) : (a ++ r).takeWhile p = a ∧ (a ++ r).dropWhile p = r := by
  induction a with
  | nil =>
    cases r with
    | nil => simp
    | cons c r => simp [hr c rfl]
  | cons c a ih =>
    have h := ih (fun d hd => ha d (by simp [hd]))
    simp [ha c (by simp), h]

theorem dropWhile_head (p : Char → Bool) (s : Str) (c : Char) (h : (s.dropWhile p).head? = some c) : p c = false := by
  induction s with
  | nil => simp at h
  | cons d s ih =>
    by_cases hd : p d = true
    · rw [List.dropWhile_cons_of_pos hd] at h; exact ih h
    · rw [List.dropWhile_cons_of_neg hd] at h
      simp only [List.head?_cons, Option.some.injEq] at h
      subst h; simpa using hd

theorem mem_takeWhile {p : Char → Bool} {s : Str} {c : Char} (h : c ∈ s.takeWhile p) : p c = true := by
  induction s with
  | nil => simp at h
  | cons d s ih =>
    by_cases hd : p d = true
    · rw [List.takeWhile_cons_of_pos hd] at h
      rcases List.mem_cons.1 h with rfl | h
      · exact hd
      · exact ih h
    · rw [List.takeWhile_cons_of_neg hd] at h; simp at h

theorem scanCls_some {p : Char → Bool} {s a r : Str} (h : scanCls p s = some (a, r)) :
    a ≠ [] ∧ (∀ c ∈ a, p c = true) ∧ s = a ++ r := by
  unfold scanCls at h
  split_ifs at h with hn
  obtain ⟨rfl, rfl⟩ := Prod.mk.inj (Option.some.inj h)
  exact ⟨hn, fun c hc => mem_takeWhile hc, List.takeWhile_append_dropWhile.symm⟩

theorem scanCls_of {p : Char → Bool} {a r : Str} (hne : a ≠ []) (ha : ∀ c ∈ a, p c = true)
    (hr : ∀ c, r.head? = some c → p c = false) : scanCls p (a ++ r) = some (a, r) := by
  unfold scanCls
  obtain ⟨h1, h2⟩ := takeWhile_append_stop ha hr
  rw [h1, h2, if_neg hne]

theorem stops_head {p : Char → Bool} {ts : List Tok} {gs : List Str} (hs : Stops p ts = true)
    (h : List.Forall₂ Accepts ts gs) : ∀ c, gs.flatten.head? = some c → p c = false := by
  intro c hc
  cases h with
  | nil => simp at hc
  | @cons t g ts gs h1 h2 =>
    cases t with
    | lit w =>
      cases w with
      | nil => cases hs
      | cons d w =>
        change g = d :: w at h1
        subst h1
        simp at hc
        subst hc
        simpa [Stops] using hs
    | cls q => cases hs
    | signed q => cases hs
    | rest => cases hs

/-- Matching is the same as writing the text as a concatenation of texts of the parts. -/
theorem fullMatch_iff (ts : List Tok) (hs : Sep ts = true) (s : Str) (gs : List Str) :
    fullMatch ts s = some gs ↔ List.Forall₂ Accepts ts gs ∧ s = gs.flatten := by
  induction ts generalizing s gs with
  | nil =>
    unfold fullMatch
    constructor
    · intro h
      split_ifs at h with hn
      cases h
      exact ⟨List.Forall₂.nil, by simpa using hn⟩
    · rintro ⟨h, rfl⟩
      cases h
      rfl
  | cons t ts ih =>
    -- the rest
    have hsep : Sep ts = true := by
      cases t with
      | lit w => exact hs
      | cls p => simp only [Sep, Bool.and_eq_true] at hs; exact hs.2
      | signed p => simp only [Sep, Bool.and_eq_true] at hs; exact hs.2.2
      | rest => simp only [Sep, List.isEmpty_iff] at hs; subst hs; rfl
    have ih := ih hsep
    have key : (∀ a r, scan t s = some (a, r) → Accepts t a ∧ s = a ++ r) ∧
        ∀ a gs', Accepts t a → List.Forall₂ Accepts ts gs' → s = a ++ gs'.flatten → scan t s = some (a, gs'.flatten) := by
      cases t with
      | lit w =>
        constructor
        · intro a r h
          simp only [scan] at h
          split_ifs at h with hp
          obtain ⟨rfl, rfl⟩ := Prod.mk.inj (Option.some.inj h)
          refine ⟨rfl, ?_⟩
          rw [List.isPrefixOf_iff_prefix] at hp
          obtain ⟨r, rfl⟩ := hp
          simp
        · rintro a gs' h _ rfl
          change a = w at h
          subst h
          simp only [scan]
          rw [if_pos (by rw [List.isPrefixOf_iff_prefix]; exact List.prefix_append _ _)]
          simp
      | cls p =>
        constructor
        · intro a r h
          obtain ⟨h1, h2, h3⟩ := scanCls_some h
          exact ⟨⟨h1, h2⟩, h3⟩
        · rintro a gs' ⟨h1, h2⟩ h3 rfl
          simp only [Sep, Bool.and_eq_true] at hs
          exact scanCls_of h1 h2 (stops_head hs.1 h3)
      | signed p =>
        simp only [Sep, Bool.and_eq_true, Bool.not_eq_true'] at hs
        constructor
        · intro a r h
          simp only [scan] at h
          cases s with
          | nil => cases h
          | cons c u =>
            simp only [scanSigned] at h
            by_cases hc : c = '-'
            · rw [if_pos hc, Option.map_eq_some_iff] at h
              subst hc
              obtain ⟨⟨b, r'⟩, hb, he⟩ := h
              obtain ⟨rfl, rfl⟩ := Prod.mk.inj he
              obtain ⟨h1, h2, h3⟩ := scanCls_some hb
              exact ⟨Or.inr ⟨b, rfl, h1, h2⟩, by simp [h3]⟩
            · rw [if_neg hc] at h
              obtain ⟨h1, h2, h3⟩ := scanCls_some h
              exact ⟨Or.inl ⟨h1, h2⟩, h3⟩
        · rintro a gs' h h3 rfl
          have hst := stops_head hs.2.1 h3
          simp only [scan]
          rcases h with ⟨h1, h2⟩ | ⟨b, rfl, h1, h2⟩
          · cases a with
            | nil => exact absurd rfl h1
            | cons c a =>
              have hc : c ≠ '-' := by
                intro he
                have := h2 c (by simp)
                rw [he, hs.1] at this
                cases this
              rw [List.cons_append]
              simp only [scanSigned]
              rw [if_neg hc]
              exact scanCls_of h1 h2 hst
          · rw [List.cons_append]
            simp only [scanSigned]
            rw [if_pos trivial, scanCls_of h1 h2 hst]
            rfl
      | rest =>
        constructor
        · intro a r h
          simp only [scan] at h
          obtain ⟨rfl, rfl⟩ := Prod.mk.inj (Option.some.inj h)
          exact ⟨trivial, by simp⟩
        · rintro a gs' _ h3 rfl
          simp only [Sep, List.isEmpty_iff] at hs
          subst hs
          cases h3
          simp [scan]
    unfold fullMatch
    constructor
    · intro h
      cases hsc : scan t s with
      | none => rw [hsc] at h; cases h
      | some e =>
        obtain ⟨a, r⟩ := e
        rw [hsc] at h
        simp only [Option.map_eq_some_iff] at h
        obtain ⟨gs', h1, rfl⟩ := h
        obtain ⟨h2, h3⟩ := (ih r gs').1 h1
        obtain ⟨h4, h5⟩ := key.1 a r hsc
        exact ⟨List.Forall₂.cons h4 h2, by rw [h5, h3, List.flatten_cons]⟩
    · rintro ⟨h, he⟩
      cases h with
      | @cons _ a _ gs' h1 h2 =>
        rw [List.flatten_cons] at he
        rw [key.2 a gs' h1 h2 he]
        simp only
        rw [(ih _ gs').2 ⟨h2, rfl⟩]
        rfl

/-! ### The expressions are delimited -/

theorem sep_port : Sep portRe = true := by decide
theorem sep_node (k : String) : Sep (nodeRe k) = true := by
  simp only [nodeRe, List.cons_append, L, Sep]; decide
theorem sep_device : Sep deviceRe = true := by decide
theorem sep_rnode : Sep rnodeRe = true := by decide
theorem sep_resist : Sep resistRe = true := by decide

end Verif.Magic
