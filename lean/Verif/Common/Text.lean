import Std.Data.String.ToNat

/-!
# Text helpers: decimal numbers inside of names
-/

namespace Verif

theorem dec_digits {n : Nat} {c : Char} (h : c ∈ (toString n).toList) : c.isDigit = true := by
  have : (toString n).toList = Nat.toDigits 10 n := Nat.toList_repr
  rw [this] at h
  exact Nat.isDigit_of_mem_toDigits (by decide) (by decide) h

theorem dec_ne_nil (n : Nat) : (toString n).toList ≠ [] := by
  have : (toString n).toList = Nat.toDigits 10 n := Nat.toList_repr
  rw [this]; exact Nat.toDigits_ne_nil

theorem dec_inj {m n : Nat} (h : (toString m).toList = (toString n).toList) : m = n :=
  Nat.repr_injective (String.toList_inj.1 h)

/-- Two texts that start with digits followed by the same non-digit agree on the digits and on the rest. -/
theorem digits_sep {c : Char} (hc : c.isDigit = false) :
    ∀ {a b r s : List Char}, (∀ x ∈ a, x.isDigit = true) → (∀ x ∈ b, x.isDigit = true) →
      a ++ c :: r = b ++ c :: s → a = b ∧ r = s
  | [], [], r, s, _, _, h => by simpa using h
  | [], y :: b, r, s, _, hb, h => by
    exfalso
    simp only [List.nil_append, List.cons_append, List.cons.injEq] at h
    have := hb y (by simp)
    rw [← h.1, hc] at this
    exact Bool.noConfusion this
  | x :: a, [], r, s, ha, _, h => by
    exfalso
    simp only [List.nil_append, List.cons_append, List.cons.injEq] at h
    have := ha x (by simp)
    rw [h.1, hc] at this
    exact Bool.noConfusion this
  | x :: a, y :: b, r, s, ha, hb, h => by
    simp only [List.cons_append, List.cons.injEq] at h
    obtain ⟨h1, h2⟩ := digits_sep hc (fun x hx => ha x (by simp [hx])) (fun x hx => hb x (by simp [hx])) h.2
    exact ⟨by rw [h.1, h1], h2⟩

/-- `{i}<sep>{rest}` determines `i` and `rest` when `sep` is not a digit. -/
theorem dec_sep_inj {c : Char} (hc : c.isDigit = false) {m n : Nat} {r s : List Char}
    (h : (toString m).toList ++ c :: r = (toString n).toList ++ c :: s) : m = n ∧ r = s := by
  obtain ⟨h1, h2⟩ := digits_sep hc (fun _ hx => dec_digits hx) (fun _ hx => dec_digits hx) h
  exact ⟨dec_inj h1, h2⟩

end Verif
