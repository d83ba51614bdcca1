import Verif.LvsRules.Joins

/-!
# Texts of the LVS scripts name the conductors they lie on
-/

namespace Verif.LvsRules

open Pdk (Technology Carries SameLayer StackLayer Contact canonical)

/-! ### Specification -/

/-- `v` is a layer of texts. -/
def IsText (s : Script) (v : String) : Prop :=
  ∃ a b, (v, Expr.text a b) ∈ s.layers ∨ ∃ f, (v, Expr.diff (.text a b) f) ∈ s.layers

/-- Where the scripts leave a text apart from the conductor it lies on: on sky130A, gate poly and local interconnect of
vertical parallel plate capacitors; on sg13g2, Metal5 inside a Metal5 slit (67/24) or resistor marker (67/29). -/
inductive TextGap (L : Layout) (c : Cell) : Technology → String → Prop
  | vpp {l : String} : l ∈ ["poly_vpp", "li_vpp"] → TextGap L c Pdk.Sky130A.tech l
  | metal5 {l : String} : l ∈ ["metal5_n_cap", "metal5_cap"] → L.drawn 67 24 c ∨ L.drawn 67 29 c →
    TextGap L c Pdk.Sg13g2.tech l

/-! ### Proofs -/

/-- `IsText` of a layer. -/
def isText : Expr → Bool
  | .text _ _ => true
  | .diff (.text _ _) _ => true
  | _ => false

/-- The check of all texts with all layers of their conductors. -/
def textsOk (t : Technology) (s : Script) (P : Process) (skip : List String) (facts : String → Facts) : Bool :=
  P.conductors.all fun k => s.layers.all fun v => !(k.layers.contains v.1) || !(s.layers.any fun w => w.1 == v.1 && isText w.2) ||
    t.computed.all fun j => !((j.kind == .regular || j.kind == .deviceCapacitor) && k.layers.contains j.info.name) ||
      skip.contains j.info.name ||
      s.layers.all fun l => l.1 != j.info.name || together s (facts l.1) v l

set_option maxRecDepth 100000 in
theorem sky_texts : textsOk Pdk.Sky130A.tech Sky130A.script sky130A ["poly_vpp", "li_vpp"] (fun _ => []) = true := by
  decide +kernel

set_option maxRecDepth 100000 in
theorem sg_texts : textsOk Pdk.Sg13g2.tech Sg13g2.script sg13g2 [] (sgFacts "") = true := by decide +kernel

theorem together_of_texts {t : Technology} {s : Script} {P : Process} {skip : List String} {facts : String → Facts}
    (h : textsOk t s P skip facts = true) {k : Conductor} (hk : k ∈ P.conductors) {v l : String} (hvk : v ∈ k.layers)
    (hv : IsText s v) (hlk : l ∈ k.layers)
    (hl : ∃ j ∈ t.computed, (j.kind = .regular ∨ j.kind = .deviceCapacitor) ∧ j.info.name = l) (hs : l ∉ skip)
    {e f : Expr} (he : (v, e) ∈ s.layers) (hf : (l, f) ∈ s.layers) : together s (facts l) (v, e) (l, f) = true := by
  have h1 := List.all_eq_true.1 (List.all_eq_true.1 h k hk) _ he
  rw [Bool.or_eq_true, Bool.or_eq_true] at h1
  obtain ⟨j, hj, hkind, rfl⟩ := hl
  have h1 := h1.resolve_left (by
    rintro (h1 | h1)
    · rw [Bool.not_eq_true', ← Bool.not_eq_true] at h1
      exact h1 (List.contains_iff_mem.2 hvk)
    · rw [Bool.not_eq_true', ← Bool.not_eq_true] at h1
      refine h1 (List.any_eq_true.2 ?_)
      obtain ⟨a, b, hm | ⟨g, hm⟩⟩ := hv
      · exact ⟨_, hm, by simp [isText]⟩
      · exact ⟨_, hm, by simp [isText]⟩)
  have h1 := List.all_eq_true.1 h1 j hj
  rw [Bool.or_eq_true, Bool.or_eq_true] at h1
  have h1 := h1.resolve_left (by
    rintro (h1 | h1)
    · rw [Bool.not_eq_true', ← Bool.not_eq_true] at h1
      refine h1 ?_
      rw [Bool.and_eq_true, Bool.or_eq_true]
      exact ⟨hkind.imp (by rintro h; rw [h]; decide) (by rintro h; rw [h]; decide), List.contains_iff_mem.2 hlk⟩
    · exact hs (List.contains_iff_mem.1 h1))
  have h1 := List.all_eq_true.1 h1 _ hf
  rw [Bool.or_eq_true] at h1
  exact h1.resolve_left (by simp)

/-- **C124.** A text drawn on a conductor belongs to the net of the conductor, so that it names the net, except at the gaps. -/
theorem texts_join_partial {t : Technology} {s : Script} {P : Process} (hP : ProcessOf t s P) {touch : Cell → Cell → Prop}
    (hrefl : ∀ c, touch c c) (hsym : ∀ c c', touch c c' → touch c' c) (L : Layout) {k : Conductor} (hk : k ∈ P.conductors)
    {v l : String} (hvk : v ∈ k.layers) (hv : IsText s v) (hlk : l ∈ k.layers)
    (hl : ∃ j ∈ t.computed, (j.kind = .regular ∨ j.kind = .deviceCapacitor) ∧ j.info.name = l) {p : Cell}
    (hvp : s.Lies L v p) (hlp : s.Lies L l p) (hgap : ¬ TextGap L p t l) : SameNet s touch L (v, p) (l, p) := by
  obtain ⟨e, he, hvp⟩ := hvp
  obtain ⟨f, hf, hlp⟩ := hlp
  cases hP with
  | sky130A =>
    refine together_sound hrefl hsym (F := []) (fun _ h => by cases h) he hf hvp hlp
      (together_of_texts sky_texts hk hvk hv hlk hl (fun hm => hgap (.vpp hm)) he hf)
  | sg13g2 =>
    have hF : (sgFacts "" l).At L p := by
      unfold sgFacts
      split_ifs with h1
      · intro f hf
        rcases List.mem_cons.1 hf with rfl | hf
        · exact fun hd => hgap (.metal5 h1 (.inl hd))
        · obtain rfl := List.mem_singleton.1 hf
          exact fun hd => hgap (.metal5 h1 (.inr hd))
      · exact fun f hf => by cases hf
    exact together_sound hrefl hsym hF he hf hvp hlp (together_of_texts sg_texts hk hvk hv hlk hl (by simp) he hf)

/-- A layout of sky130A with local interconnect (67/20), drawn as part of a vertical parallel plate capacitor (82/64) if `vpp`,
and a text (67/5) on it. -/
def textLayout (vpp : Bool) : Layout where
  drawn l d c := c = (0, 0) ∧ ((l, d) = (67, 20) ∨ vpp = true ∧ (l, d) = (82, 64))
  text l d c := c = (0, 0) ∧ (l, d) = (67, 5)
  other _ _ := False

/-- C124: the hypotheses are met by a text on local interconnect. -/
theorem texts_ex : IsText Sky130A.script "li_label" ∧ Sky130A.script.Lies (textLayout false) "li_label" (0, 0) ∧
    Sky130A.script.Lies (textLayout false) "li_con" (0, 0) ∧
    SameNet Sky130A.script (· = ·) (textLayout false) ("li_label", (0, 0)) ("li_con", (0, 0)) := by
  have h0 : IsText Sky130A.script "li_label" := ⟨67, 5, .inl (by decide +kernel)⟩
  have h1 : Sky130A.script.Lies (textLayout false) "li_label" (0, 0) :=
    ⟨Sky130A.li_label, by decide +kernel, by simp [Sky130A.li_label, holds, textLayout]⟩
  have h2 : Sky130A.script.Lies (textLayout false) "li_con" (0, 0) :=
    ⟨Sky130A.li_con, by decide +kernel, by simp [Sky130A.li_con, Sky130A.li, Sky130A.li_res, Sky130A.vpp, holds, textLayout]⟩
  refine ⟨h0, h1, h2, ?_⟩
  have hk : (sky130A.conductors.any fun k => k.layers.contains "li_label" && k.layers.contains "li_con") = true := by
    decide +kernel
  obtain ⟨k, hk, hm⟩ := List.any_eq_true.1 hk
  rw [Bool.and_eq_true, List.contains_iff_mem, List.contains_iff_mem] at hm
  have hc : (Pdk.Sky130A.tech.computed.any fun j => j.kind == .regular && j.info.name == "li_con") = true := by decide +kernel
  obtain ⟨j, hj, hc⟩ := List.any_eq_true.1 hc
  rw [Bool.and_eq_true] at hc
  refine texts_join_partial .sky130A (fun _ => rfl) (fun _ _ h => h.symm) _ hk hm.1 h0 hm.2
    ⟨j, hj, .inl (eq_of_beq hc.1), eq_of_beq hc.2⟩ h1 h2 fun h => ?_
  generalize ht : Pdk.Sky130A.tech = t at h
  cases h with
  | vpp h => exact absurd h (by decide)
  | metal5 h => exact absurd h (by decide)

/-- **C124, violated.** A text on local interconnect inside a vertical parallel plate capacitor of sky130A does not belong to
its net. -/
theorem text_lost : Sky130A.script.Lies (textLayout true) "li_label" (0, 0) ∧
    Sky130A.script.Lies (textLayout true) "li_vpp" (0, 0) ∧
    ∀ touch, ¬ SameNet Sky130A.script touch (textLayout true) ("li_label", (0, 0)) ("li_vpp", (0, 0)) := by
  have h1 : Sky130A.script.Lies (textLayout true) "li_label" (0, 0) :=
    ⟨Sky130A.li_label, by decide +kernel, by simp [Sky130A.li_label, holds, textLayout]⟩
  have h2 : Sky130A.script.Lies (textLayout true) "li_vpp" (0, 0) :=
    ⟨Sky130A.li_vpp, by decide +kernel, by simp [Sky130A.li_vpp, Sky130A.li, Sky130A.vpp, holds, textLayout]⟩
  refine ⟨h1, h2, fun touch h => ?_⟩
  have hcon : ∀ c, ¬ Sky130A.script.Lies (textLayout true) "li_con" c := by
    rintro c ⟨e, he, hc⟩
    have : (Sky130A.script.layers.all fun l => !(l.1 == "li_con") || decide (l.2 = Sky130A.li_con)) = true := by decide +kernel
    have := List.all_eq_true.1 this _ he
    simp only [beq_self_eq_true, Bool.not_true, Bool.false_or, decide_eq_true_eq] at this
    subst this
    simp only [Sky130A.li_con, Sky130A.li, Sky130A.li_res, Sky130A.vpp, holds, textLayout] at hc
    simp at hc
  have hside : ∀ p ∈ Sky130A.script.connects, (p.1 = "li_label" ↔ p.2 = "li_label") ∨ p.1 = "li_con" ∨ p.2 = "li_con" := by
    decide +kernel
  have key : ∀ {x y : String × Cell}, SameNet Sky130A.script touch (textLayout true) x y →
      (x.1 = "li_label" ↔ y.1 = "li_label") := by
    intro x y h
    induction h with
    | refl => exact Iff.rfl
    | symm _ ih => exact ih.symm
    | trans _ _ ih1 ih2 => exact ih1.trans ih2
    | within => exact Iff.rfl
    | across hlm ht hc hc' =>
      rcases hside _ hlm with h | h | h
      · exact h
      · simp only at h
        exact (hcon _ (h ▸ hc)).elim
      · simp only at h
        exact (hcon _ (h ▸ hc')).elim
  exact absurd ((key h).1 rfl) (by decide)

end Verif.LvsRules
