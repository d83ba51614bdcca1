import Mathlib.Data.List.Forall2

/-!
# Computations that may raise an exception
-/

namespace Verif.Exc

theorem elim_ok {α : Type} (o : Option α) (m : String) (v : α) :
    o.elim (.error m : Except String α) .ok = .ok v ↔ o = some v := by
  cases o <;> simp [Option.elim]

theorem bind_ok {α β : Type} (e : Except String α) (f : α → Except String β) (b : β) :
    (e >>= f) = .ok b ↔ ∃ a, e = .ok a ∧ f a = .ok b := by
  cases e with
  | error m =>
    constructor
    · intro h; cases h
    · rintro ⟨a, h, _⟩; cases h
  | ok a =>
    constructor
    · intro h; exact ⟨a, rfl, h⟩
    · rintro ⟨a', h, h'⟩; cases h; exact h'

theorem pure_ok {α : Type} (a b : α) : (pure a : Except String α) = .ok b ↔ a = b := by
  constructor
  · intro h; exact Except.ok.inj h
  · rintro rfl; rfl

theorem mapM_ok {α β : Type} (f : α → Except String β) (l : List α) (r : List β) :
    l.mapM f = .ok r ↔ List.Forall₂ (fun a b => f a = .ok b) l r := by
  induction l generalizing r with
  | nil =>
    rw [List.mapM_nil, pure_ok]
    constructor
    · rintro rfl; exact .nil
    · intro h; cases h; rfl
  | cons a l ih =>
    rw [List.mapM_cons, bind_ok]
    constructor
    · rintro ⟨b, hb, h⟩
      rw [bind_ok] at h
      obtain ⟨bs, hbs, h⟩ := h
      rw [pure_ok] at h
      subst h
      exact .cons hb ((ih bs).1 hbs)
    · intro h
      cases h with
      | cons hb h =>
        refine ⟨_, hb, ?_⟩
        rw [bind_ok]
        exact ⟨_, (ih _).2 h, rfl⟩

/-- An element whose computation fails makes the whole list fail. -/
theorem mapM_error {α β : Type} (f : α → Except String β) (l : List α) (a : α) (ha : a ∈ l) (m : String)
    (h : f a = .error m) : ∀ r, l.mapM f ≠ .ok r := by
  intro r hr
  rw [mapM_ok] at hr
  induction hr with
  | nil => cases ha
  | cons hb _ ih =>
    rcases List.mem_cons.1 ha with rfl | ha
    · rw [h] at hb; cases hb
    · exact ih ha

end Verif.Exc
