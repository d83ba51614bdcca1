import Verif.Stack3d.Props

/-!
# Deciding the hypotheses about a process stack

The theorems of `Props` have hypotheses about the process stack.  Here each of them is derived, for every filter of the
dielectrics, from a decidable condition on the list of layers, so that they can be checked for a given technology.
-/

namespace Verif.Stack3d

open Verif.Sweep (Call Drawn z2norm)

instance : DecidablePred Kind.isMetal
  | .metal .. => isTrue trivial
  | .substrate .. | .nwell | .diffusion _ | .fieldOxide _ | .simple _ | .conformal .. | .sidewall .. => isFalse id

instance : DecidablePred Kind.isSimple
  | .simple _ => isTrue trivial
  | .substrate .. | .nwell | .diffusion _ | .fieldOxide _ | .metal .. | .conformal .. | .sidewall .. => isFalse id

instance : DecidablePred Kind.isSubstrate
  | .substrate .. => isTrue trivial
  | .simple _ | .nwell | .diffusion _ | .fieldOxide _ | .metal .. | .conformal .. | .sidewall .. => isFalse id

instance : DecidablePred Kind.isFieldOxide
  | .fieldOxide _ => isTrue trivial
  | .simple _ | .nwell | .diffusion _ | .substrate .. | .metal .. | .conformal .. | .sidewall .. => isFalse id

/-- The layers that wrap another one. -/
def wrapping (ls : List Layer) : List Layer := ls.filter (fun l => l.kind.reference?.isSome)

theorem Wraps.mem_wrapping {t : Tech} {n : String} {l : Layer} (h : Wraps t n l) :
    l ∈ wrapping t.layers ∧ l.kind.reference? = some n := by
  obtain ⟨h1, _, h3⟩ := h
  have : l.kind.reference? = some n := by
    rcases h3 with ⟨k, a, w, e⟩ | ⟨k, o, m, s, e⟩ <;> rw [e] <;> rfl
  exact ⟨List.mem_filter.2 ⟨h1, by rw [this]; rfl⟩, this⟩

/-- Condition for `WellNamed`. -/
def NamesOk (ls : List Layer) : Prop :=
  (∀ l ∈ ls, l.kind.isMetal → ls.countP (fun x => decide (x.name = l.name)) = 1) ∧
  ∀ l₁ ∈ wrapping ls, ∀ l₂ ∈ wrapping ls, l₁.name = l₂.name → (∃ x ∈ ls, x.kind.reference? = some l₁.name) → l₁ = l₂

instance (ls : List Layer) : Decidable (NamesOk ls) := by unfold NamesOk; infer_instance

theorem NamesOk.wellNamed {t : Tech} (h : NamesOk t.layers) : WellNamed t where
  metal := by
    intro pre m z th c post e l hl hlm
    have h1 := h.1 ⟨m, .metal z th c⟩ (by rw [e]; simp) trivial
    rw [e, List.countP_append, List.countP_cons] at h1
    simp only [decide_true, if_true] at h1
    have h2 : pre.countP (fun x => decide (x.name = m)) = 0 := by omega
    have h3 : post.countP (fun x => decide (x.name = m)) = 0 := by omega
    rw [List.countP_eq_zero] at h2 h3
    rcases List.mem_append.1 hl with hl | hl
    · exact h2 l hl (by simp [hlm])
    · exact h3 l hl (by simp [hlm])
  wrapped := by
    intro l₁ l₂ a b x h1 h2 e hx
    exact h.2 l₁ h1.mem_wrapping.1 l₂ h2.mem_wrapping.1 e ⟨x, hx.1, hx.mem_wrapping.2⟩

/-- Condition for building to succeed. -/
def BuildOk (ls : List Layer) : Prop :=
  (∃ l ∈ ls, l.kind.isSubstrate) ∧ (∃ l ∈ ls, l.kind.isFieldOxide) ∧ (∃ l ∈ ls, l.kind.isMetal) ∧
  ((wrapping ls).map (fun l => l.kind.reference?)).Nodup ∧
  ∀ l ∈ wrapping ls, ∀ m ∈ ls, match m.kind with
    | .metal _ th _ => 0 ≤ l.kind.rise th
    | _ => True

instance (ls : List Layer) : Decidable (BuildOk ls) := by
  have : ∀ (l m : Layer), Decidable (match m.kind with
    | .metal _ th _ => 0 ≤ l.kind.rise th
    | _ => True) := by
    intro l m
    cases m.kind <;> infer_instance
  unfold BuildOk
  infer_instance

/-- Building succeeds if the conditions hold, whatever is filtered out. -/
theorem build_succeeds_of {P : Type} [DecidableEq P] {t : Tech} (hn : NamesOk t.layers) (hb : BuildOk t.layers)
    (ly : Layout P) : ∃ calls, ∀ fuel, t.layers.length < fuel → buildCalls t ly fuel = some (.ok calls) := by
  obtain ⟨h1, h2, h3, h4, h5⟩ := hb
  refine build_succeeds hn.wellNamed ly h1 h2 h3 ?_ ?_
  · intro n pre l mid l' post e hl hl'
    have hw : wrapping t.layers = wrapping pre ++ l :: wrapping mid ++ l' :: wrapping post := by
      have hs : l.kind.reference?.isSome = true := by rw [hl.mem_wrapping.2]; rfl
      have hs' : l'.kind.reference?.isSome = true := by rw [hl'.mem_wrapping.2]; rfl
      simp [wrapping, e, List.filter_append, hs, hs']
    rw [hw, List.map_append, List.nodup_append] at h4
    exact h4.2.2 (some n) (by simp [hl.mem_wrapping.2]) (some n) (by simp [hl'.mem_wrapping.2]) rfl
  · intro n l m z th c hw hm
    exact h5 l hw.mem_wrapping.1 _ hm

/-- Condition for `OnePermittivity`. -/
def PermittivityOk (ls : List Layer) : Prop :=
  ∀ l₁ ∈ ls, ∀ l₂ ∈ ls, l₁.name = l₂.name → l₂.kind.dielectricK.isSome → match l₁.kind with
    | .fieldOxide k => l₂.kind.dielectricK = some k
    | kd => kd.dielectricK.isSome → kd.dielectricK = l₂.kind.dielectricK

instance (ls : List Layer) : Decidable (PermittivityOk ls) := by
  have : ∀ (l₁ l₂ : Layer), Decidable (match l₁.kind with
    | .fieldOxide k => l₂.kind.dielectricK = some k
    | kd => kd.dielectricK.isSome → kd.dielectricK = l₂.kind.dielectricK) := by
    intro l₁ l₂
    cases l₁.kind <;> infer_instance
  unfold PermittivityOk
  infer_instance

theorem PermittivityOk.one {t : Tech} (h : PermittivityOk t.layers) : OnePermittivity t where
  same := by
    intro l₁ h1 l₂ h2 k₁ k₂ e _ hk1 hk2
    rw [← dielectricK_iff] at hk1 hk2
    have := h l₁ h1 l₂ h2 e (by rw [hk2]; rfl)
    cases hkd : l₁.kind <;> rw [hkd] at this hk1 <;> simp only [Kind.dielectricK] at hk1 this <;>
      simp_all [Kind.dielectricK]
  fieldOxide := by
    intro l₁ h1 l₂ h2 k₁ k₂ e _ hk1 hk2
    rw [← dielectricK_iff] at hk2
    have := h l₁ h1 l₂ h2 e (by rw [hk2]; rfl)
    rw [hk1] at this
    simp only at this
    rw [hk2] at this
    simpa using this.symm

/-- Condition for a metal at height `z` to have a simple dielectric, or a metal that is not higher, after it. -/
def fillsFrom (inc : String → Bool) (z : ℚ) : List Layer → Bool
  | [] => false
  | ⟨n, .simple _⟩ :: _ => inc n
  | ⟨_, .metal z' _ _⟩ :: _ => decide (z' ≤ z)
  | _ :: ls => fillsFrom inc z ls

/-- Condition for the filling of the stack. -/
def fills (inc : String → Bool) : List Layer → Bool
  | [] => true
  | ⟨_, .metal z _ _⟩ :: ls => fillsFrom inc z ls && fills inc ls
  | _ :: ls => fills inc ls

theorem fillsFrom_split {inc : String → Bool} {z : ℚ} {post : List Layer} (h : fillsFrom inc z post = true) :
    ∃ mid d post', post = mid ++ d :: post' ∧ (∀ x ∈ mid, ¬ x.kind.isMetal ∧ ¬ x.kind.isSimple) ∧
      (d.kind.isSimple ∧ inc d.name = true ∨ d.kind.isMetal ∧ d.kind.metalZ ≤ z) := by
  induction post with
  | nil => simp [fillsFrom] at h
  | cons l ls ih =>
    obtain ⟨n, kd⟩ := l
    have skip : ¬ kd.isMetal ∧ ¬ kd.isSimple → fillsFrom inc z ls = true →
        ∃ mid d post', (⟨n, kd⟩ : Layer) :: ls = mid ++ d :: post' ∧ (∀ x ∈ mid, ¬ x.kind.isMetal ∧ ¬ x.kind.isSimple) ∧
          (d.kind.isSimple ∧ inc d.name = true ∨ d.kind.isMetal ∧ d.kind.metalZ ≤ z) := by
      intro hk hls
      obtain ⟨mid, d, post', e, h1, h2⟩ := ih hls
      refine ⟨⟨n, kd⟩ :: mid, d, post', by rw [e]; rfl, ?_, h2⟩
      intro x hx
      rcases List.mem_cons.1 hx with rfl | hx
      · exact hk
      · exact h1 x hx
    cases kd with
    | simple k => exact ⟨[], _, ls, rfl, by simp, Or.inl ⟨trivial, h⟩⟩
    | metal z' th c =>
      simp only [fillsFrom, decide_eq_true_eq] at h
      exact ⟨[], _, ls, rfl, by simp, Or.inr ⟨trivial, h⟩⟩
    | _ => exact skip ⟨id, id⟩ h

theorem fills_split {inc : String → Bool} {ls : List Layer} (h : fills inc ls = true) :
    ∀ pre l post, ls = pre ++ l :: post → l.kind.isMetal →
      ∃ mid d post', post = mid ++ d :: post' ∧ (∀ x ∈ mid, ¬ x.kind.isMetal ∧ ¬ x.kind.isSimple) ∧
        (d.kind.isSimple ∧ inc d.name = true ∨ d.kind.isMetal ∧ d.kind.metalZ ≤ l.kind.metalZ) := by
  intro pre
  induction pre generalizing ls with
  | nil =>
    intro l post e hm
    obtain ⟨n, kd⟩ := l
    cases kd with
    | metal z th c =>
      rw [e] at h
      simp only [List.nil_append, fills, Bool.and_eq_true] at h
      exact fillsFrom_split h.1
    | _ => exact hm.elim
  | cons x pre ih =>
    intro l post e hm
    refine ih (ls := pre ++ l :: post) ?_ l post rfl hm
    rw [e] at h
    obtain ⟨n, kd⟩ := x
    cases kd with
    | metal z th c =>
      simp only [List.cons_append, fills, Bool.and_eq_true] at h
      exact h.2
    | _ => exact h

/-- Height of the last metal. -/
def lastMetalZ (ls : List Layer) : Option ℚ :=
  (ls.filterMap (fun l => match l.kind with | .metal z _ _ => some z | _ => none)).getLast?

theorem lastMetalZ_eq {ls pre post : List Layer} {m : String} {z th : ℚ} {c : Option Contact}
    (e : ls = pre ++ ⟨m, .metal z th c⟩ :: post) (hp : ∀ l ∈ post, ¬ l.kind.isMetal) : lastMetalZ ls = some z := by
  have hnil : post.filterMap (fun l : Layer => match l.kind with | .metal z _ _ => some z | _ => none) = [] := by
    rw [List.filterMap_eq_nil_iff]
    intro l hl
    have := hp l hl
    obtain ⟨n, kd⟩ := l
    cases kd <;> first | rfl | exact absurd trivial this
  rw [lastMetalZ, e, List.filterMap_append, List.filterMap_cons, hnil]
  simp

/-- No gaps, from the decidable conditions. -/
theorem no_gaps_of {P : Type} [DecidableEq P] {t : Tech} (hn : NamesOk t.layers) (hf : fills t.included t.layers = true)
    (hw : ∀ l ∈ t.layers, 0 ≤ l.kind.width) {top : ℚ} (htop : lastMetalZ t.layers = some top)
    {ly : Layout P} (hdbu : 0 < ly.dbu) (hgrow : ∀ d r, 0 ≤ d → r ⊆ ly.sized d r)
    {fuel : Nat} {calls : List (Call P)} (h : buildCalls t ly fuel = some (.ok calls))
    (k : Int) (p : P) (hp : p ∈ ly.block) (hlow : z2norm ly.dbu 0 ≤ k) (hhigh : k < z2norm ly.dbu (top + 5)) :
    ∃ n, Drawn ly.dbu calls (.mat n) k p := by
  refine no_gaps hn.wellNamed hdbu hgrow hw (fills_split hf) h k p hp hlow ?_
  intro pre m z th c post e hpost
  rw [lastMetalZ_eq e hpost] at htop
  simp only [Option.some.injEq] at htop
  rw [htop]
  exact hhigh

end Verif.Stack3d
