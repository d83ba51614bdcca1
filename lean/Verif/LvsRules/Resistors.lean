import Verif.LvsRules.Conductors
import Mathlib.Logic.Relation

/-!
# Metal resistors of the LVS scripts separate nets
-/

namespace Verif.LvsRules

open Pdk (Technology)

/-! ### Specification -/

/-- The layer of the LVS result with the regular shapes of a metal (or of gate poly), the drawn layer of the metal and the
layer that marks resistors in it. -/
inductive ResistorMetal : Technology → Script → String → Nat × Nat → Nat × Nat → Prop
  | poly : ResistorMetal Pdk.Sky130A.tech Sky130A.script "poly_con" (66, 20) (66, 13)
  | li1 : ResistorMetal Pdk.Sky130A.tech Sky130A.script "li_con" (67, 20) (67, 13)
  | met1 : ResistorMetal Pdk.Sky130A.tech Sky130A.script "met1_con" (68, 20) (68, 13)
  | met2 : ResistorMetal Pdk.Sky130A.tech Sky130A.script "met2_con" (69, 20) (69, 13)
  | met3 : ResistorMetal Pdk.Sky130A.tech Sky130A.script "met3_ncap" (70, 20) (70, 13)
  | met4 : ResistorMetal Pdk.Sky130A.tech Sky130A.script "met4_ncap" (71, 20) (71, 13)
  | met5 : ResistorMetal Pdk.Sky130A.tech Sky130A.script "met5_con" (72, 20) (72, 13)
  | metal1 : ResistorMetal Pdk.Sg13g2.tech Sg13g2.script "metal1_con" (8, 0) (8, 29)
  | metal2 : ResistorMetal Pdk.Sg13g2.tech Sg13g2.script "metal2_con" (10, 0) (10, 29)
  | metal3 : ResistorMetal Pdk.Sg13g2.tech Sg13g2.script "metal3_con" (30, 0) (30, 29)
  | metal4 : ResistorMetal Pdk.Sg13g2.tech Sg13g2.script "metal4_con" (50, 0) (50, 29)
  | topMetal1 : ResistorMetal Pdk.Sg13g2.tech Sg13g2.script "topmetal1_con" (126, 0) (126, 29)
  | topMetal2 : ResistorMetal Pdk.Sg13g2.tech Sg13g2.script "topmetal2_con" (134, 0) (134, 29)

/-- The layout has shapes only on the layers `m` and `r`, and no texts. -/
def Only (L : Layout) (m r : Nat × Nat) : Prop :=
  (∀ l d c, L.drawn l d c → (l, d) = m ∨ (l, d) = r) ∧ ∀ l d c, ¬ L.text l d c

/-- `p` and `q` are connected by touching places of the set `A`. -/
def Path (touch : Cell → Cell → Prop) (A : Cell → Prop) (p q : Cell) : Prop :=
  Relation.ReflTransGen (fun c c' => touch c c' ∧ A c ∧ A c') p q

/-! ### Proofs -/

/-- The layer at a place of a layout with shapes only on `m` and `r`, if it does not depend on the operations that are not
modelled: `a` and `b` say whether there are shapes on `m` and `r`. -/
def ev3 (m r : Nat × Nat) (a b : Bool) : Expr → Option Bool
  | .drawn l d => some (if (l, d) = m then a else if (l, d) = r then b else false)
  | .text _ _ => some false
  | .other _ => none
  | .and x y => match ev3 m r a b x, ev3 m r a b y with
    | some false, _ => some false
    | _, some false => some false
    | some true, some true => some true
    | _, _ => none
  | .or x y => match ev3 m r a b x, ev3 m r a b y with
    | some false, some false => some false
    | some true, _ => some true
    | _, some true => some true
    | _, _ => none
  | .diff x y => match ev3 m r a b x, ev3 m r a b y with
    | some false, _ => some false
    | _, some true => some false
    | some true, some false => some true
    | _, _ => none
  | .some _ x => match ev3 m r a b x with
    | some false => some false
    | _ => none
  | .made _ x =>
    if ev3 m r false false x = some false ∧ ev3 m r false true x = some false ∧ ev3 m r true false x = some false ∧
      ev3 m r true true x = some false then some false else none

theorem ev3_sound {L : Layout} {m r : Nat × Nat} (hL : Only L m r) (hmr : m ≠ r) : ∀ (e : Expr) {c : Cell} {a b v : Bool},
    (a = true ↔ L.drawn m.1 m.2 c) → (b = true ↔ L.drawn r.1 r.2 c) → ev3 m r a b e = some v → (holds L e c ↔ v = true)
  | .drawn l d, c, a, b, v, ha, hb, h => by
    simp only [ev3, Option.some.injEq] at h
    subst h
    simp only [holds]
    split_ifs with h1 h2
    · obtain ⟨rfl, rfl⟩ := Prod.ext_iff.1 h1
      exact ha.symm
    · obtain ⟨rfl, rfl⟩ := Prod.ext_iff.1 h2
      exact hb.symm
    · simp only [iff_false]
      exact fun hd => (hL.1 l d c hd).elim h1 h2
  | .text l d, c, a, b, v, ha, hb, h => by
    simp only [ev3, Option.some.injEq] at h
    subst h
    simp [holds, hL.2]
  | .other n, c, a, b, v, ha, hb, h => by simp [ev3] at h
  | .and x y, c, a, b, v, ha, hb, h => by
    have hx := fun w => @ev3_sound L m r hL hmr x c a b w ha hb
    have hy := fun w => @ev3_sound L m r hL hmr y c a b w ha hb
    simp only [ev3] at h
    cases ex : ev3 m r a b x with
    | none =>
      cases ey : ev3 m r a b y with
      | none => simp [ex, ey] at h
      | some w => cases w <;> simp_all [holds]
    | some u =>
      cases ey : ev3 m r a b y with
      | none => cases u <;> simp_all [holds]
      | some w => cases u <;> cases w <;> simp_all [holds]
  | .or x y, c, a, b, v, ha, hb, h => by
    have hx := fun w => @ev3_sound L m r hL hmr x c a b w ha hb
    have hy := fun w => @ev3_sound L m r hL hmr y c a b w ha hb
    simp only [ev3] at h
    cases ex : ev3 m r a b x with
    | none =>
      cases ey : ev3 m r a b y with
      | none => simp [ex, ey] at h
      | some w => cases w <;> simp_all [holds]
    | some u =>
      cases ey : ev3 m r a b y with
      | none => cases u <;> simp_all [holds]
      | some w => cases u <;> cases w <;> simp_all [holds]
  | .diff x y, c, a, b, v, ha, hb, h => by
    have hx := fun w => @ev3_sound L m r hL hmr x c a b w ha hb
    have hy := fun w => @ev3_sound L m r hL hmr y c a b w ha hb
    simp only [ev3] at h
    cases ex : ev3 m r a b x with
    | none =>
      cases ey : ev3 m r a b y with
      | none => simp [ex, ey] at h
      | some w => cases w <;> simp_all [holds]
    | some u =>
      cases ey : ev3 m r a b y with
      | none => cases u <;> simp_all [holds]
      | some w => cases u <;> cases w <;> simp_all [holds]
  | .some n x, c, a, b, v, ha, hb, h => by
    have hx := fun w => @ev3_sound L m r hL hmr x c a b w ha hb
    simp only [ev3] at h
    cases ex : ev3 m r a b x with
    | none => simp [ex] at h
    | some u => cases u <;> simp_all [holds]
  | .made n x, c, a, b, v, ha, hb, h => by
    simp only [ev3] at h
    split_ifs at h with hx
    obtain rfl : v = false := by simpa using h.symm
    simp only [holds, Bool.false_eq_true, iff_false, not_and, not_exists]
    intro _ c' hc'
    by_cases h1 : L.drawn m.1 m.2 c' <;> by_cases h2 : L.drawn r.1 r.2 c'
    · simpa using (@ev3_sound L m r hL hmr x c' true true false (by simp [h1]) (by simp [h2]) hx.2.2.2).1 hc'
    · simpa using (@ev3_sound L m r hL hmr x c' true false false (by simp [h1]) (by simp [h2]) hx.2.2.1).1 hc'
    · simpa using (@ev3_sound L m r hL hmr x c' false true false (by simp [h1]) (by simp [h2]) hx.2.1).1 hc'
    · simpa using (@ev3_sound L m r hL hmr x c' false false false (by simp [h1]) (by simp [h2]) hx.1).1 hc'

/-- The layer is empty in every layout with shapes only on `m` and `r`. -/
def emptyIn (m r : Nat × Nat) (e : Expr) : Bool :=
  [false, true].all fun a => [false, true].all fun b => ev3 m r a b e == some false

/-- In layouts with shapes only on `m` and `r`, the layer `l` is `m` without `r`, and the layers that `connect` joins with it
are empty. -/
def separates (s : Script) (l : String) (m r : Nat × Nat) : Bool :=
  (s.layers.all fun x => !(x.1 == l) || [false, true].all fun a => [false, true].all fun b =>
    ev3 m r a b x.2 == some (a && !b)) && (s.layers.any fun x => x.1 == l) &&
  s.connects.all fun p => (!(p.1 == l) || !(p.2 == l) && s.layers.all fun x => !(x.1 == p.2) || emptyIn m r x.2) &&
    (!(p.2 == l) || s.layers.all fun x => !(x.1 == p.1) || emptyIn m r x.2)

theorem separates_ok {t : Technology} {s : Script} {l : String} {m r : Nat × Nat} (h : ResistorMetal t s l m r) :
    separates s l m r = true ∧ m ≠ r := by
  cases h <;> decide +kernel

theorem bool_mem (b : Bool) : b ∈ [false, true] := by cases b <;> simp

theorem emptyIn_sound {L : Layout} {m r : Nat × Nat} (hL : Only L m r) (hmr : m ≠ r) {e : Expr}
    (h : emptyIn m r e = true) (c : Cell) : ¬ holds L e c := by
  classical
  have h1 := List.all_eq_true.1 (List.all_eq_true.1 h (decide (L.drawn m.1 m.2 c)) (bool_mem _))
    (decide (L.drawn r.1 r.2 c)) (bool_mem _)
  have := ev3_sound hL hmr e (c := c) (by simp) (by simp) (eq_of_beq h1)
  simpa using this

theorem lies_iff {s : Script} {l : String} {m r : Nat × Nat} (h : separates s l m r = true) {L : Layout} (hL : Only L m r)
    (hmr : m ≠ r) (c : Cell) : s.Lies L l c ↔ L.drawn m.1 m.2 c ∧ ¬ L.drawn r.1 r.2 c := by
  classical
  simp only [separates, Bool.and_eq_true] at h
  have key : ∀ e, (l, e) ∈ s.layers → (holds L e c ↔ L.drawn m.1 m.2 c ∧ ¬ L.drawn r.1 r.2 c) := by
    intro e he
    have h1 := List.all_eq_true.1 h.1.1 _ he
    rw [beq_self_eq_true, Bool.not_true, Bool.false_or] at h1
    have h2 := List.all_eq_true.1 (List.all_eq_true.1 h1 (decide (L.drawn m.1 m.2 c)) (bool_mem _))
      (decide (L.drawn r.1 r.2 c)) (bool_mem _)
    have := ev3_sound hL hmr e (c := c) (by simp) (by simp) (eq_of_beq h2)
    simpa using this
  constructor
  · rintro ⟨e, he, hc⟩
    exact (key e he).1 hc
  · intro hc
    obtain ⟨⟨n, e⟩, he, hn⟩ := List.any_eq_true.1 h.1.2
    obtain rfl := eq_of_beq hn
    exact ⟨e, he, (key e he).2 hc⟩

/-- **C125.** A metal resistor separates nets: in every layout that has shapes of one metal and of its resistor marker only,
two places belong to one net exactly if they are connected by touching places of the metal outside the marker. -/
theorem resistor_separates_partial {t : Technology} {s : Script} {l : String} {m r : Nat × Nat} (h : ResistorMetal t s l m r)
    {touch : Cell → Cell → Prop} (hsym : ∀ c c', touch c c' → touch c' c) {L : Layout} (hL : Only L m r) {p q : Cell} :
    (s.Lies L l p ↔ L.drawn m.1 m.2 p ∧ ¬ L.drawn r.1 r.2 p) ∧
      (SameNet s touch L (l, p) (l, q) ↔ Path touch (fun c => L.drawn m.1 m.2 c ∧ ¬ L.drawn r.1 r.2 c) p q) := by
  obtain ⟨hs, hmr⟩ := separates_ok h
  have lies := lies_iff hs hL hmr
  have hcon : ∀ a b, (a, b) ∈ s.connects → ∀ c c', s.Lies L a c → s.Lies L b c' → a ≠ l ∧ b ≠ l := by
    intro a b hab c c' ha hb
    have hs := hs
    simp only [separates, Bool.and_eq_true] at hs
    have h1 := List.all_eq_true.1 hs.2 _ hab
    simp only [Bool.and_eq_true, Bool.or_eq_true] at h1
    have none : ∀ {x : String} {c : Cell}, s.Lies L x c → ¬ (s.layers.all fun k => !(k.1 == x) || emptyIn m r k.2) = true := by
      rintro x c ⟨e, he, hx⟩ hall
      have := List.all_eq_true.1 hall _ he
      rw [beq_self_eq_true, Bool.not_true, Bool.false_or] at this
      exact emptyIn_sound hL hmr this c hx
    constructor
    · rintro rfl
      rcases h1.1 with h2 | h2
      · simp at h2
      · exact none hb h2.2
    · rintro rfl
      rcases h1.2 with h2 | h2
      · simp at h2
      · exact none ha h2
  refine ⟨lies p, ?_, ?_⟩
  · intro hn
    have symm : ∀ {a b : Cell}, Path touch (fun c => L.drawn m.1 m.2 c ∧ ¬ L.drawn r.1 r.2 c) a b →
        Path touch (fun c => L.drawn m.1 m.2 c ∧ ¬ L.drawn r.1 r.2 c) b a := by
      intro a b hab
      induction hab with
      | refl => exact .refl
      | tail _ hstep ih => exact .head ⟨hsym _ _ hstep.1, hstep.2.2, hstep.2.1⟩ ih
    have main : ∀ {x y : String × Cell}, SameNet s touch L x y → (x.1 = l ↔ y.1 = l) ∧
        (x.1 = l → Path touch (fun c => L.drawn m.1 m.2 c ∧ ¬ L.drawn r.1 r.2 c) x.2 y.2) := by
      intro x y hxy
      induction hxy with
      | refl => exact ⟨Iff.rfl, fun _ => .refl⟩
      | symm _ ih => exact ⟨ih.1.symm, fun hl => symm (ih.2 (ih.1.2 hl))⟩
      | trans _ _ ih1 ih2 => exact ⟨ih1.1.trans ih2.1, fun hl => (ih1.2 hl).trans (ih2.2 (ih1.1.1 hl))⟩
      | within ht hc hc' =>
        refine ⟨Iff.rfl, fun hl => ?_⟩
        obtain rfl : _ = l := hl
        exact .single ⟨ht, (lies _).1 hc, (lies _).1 hc'⟩
      | across hab ht hc hc' =>
        obtain ⟨ha, hb⟩ := hcon _ _ hab _ _ hc hc'
        exact ⟨⟨fun hl => absurd hl ha, fun hl => absurd hl hb⟩, fun hl => absurd hl ha⟩
    exact (main hn).2 rfl
  · intro hp
    induction hp with
    | refl => exact .refl _
    | tail _ hstep ih => exact ih.trans (.within hstep.1 ((lies _).2 hstep.2.1) ((lies _).2 hstep.2.2))

/-- **C125, violated.** Metal5 resistors of sg13g2 do not separate nets: in every layout, two places of Metal5 that are
connected by touching places of Metal5 (67/0) outside MIM capacitors (36/0) and unchecked areas (62/0) belong to one net,
whether or not the places between them are marked as a resistor (67/29). -/
theorem metal5_resistor_shorts {touch : Cell → Cell → Prop} (hrefl : ∀ c, touch c c) (L : Layout) {p q : Cell}
    (hp : Sg13g2.script.Lies L "metal5_con" p) (hq : Sg13g2.script.Lies L "metal5_con" q)
    (hA : L.drawn 67 0 p ∧ ¬ L.drawn 36 0 p ∧ ¬ L.drawn 62 0 p)
    (hpq : Path touch (fun c => L.drawn 67 0 c ∧ ¬ L.drawn 36 0 c ∧ ¬ L.drawn 62 0 c) p q) :
    SameNet Sg13g2.script touch L ("metal5_con", p) ("metal5_con", q) := by
  have lies : ∀ c, (L.drawn 67 0 c ∧ ¬ L.drawn 36 0 c ∧ ¬ L.drawn 62 0 c) → Sg13g2.script.Lies L "metal5_n_cap" c := by
    rintro c ⟨h1, h2, h3⟩
    exact ⟨Sg13g2.metal5_n_cap, by decide +kernel, ⟨h1, h3⟩, fun h => h2 h.1⟩
  have hcon : ("metal5_n_cap", "metal5_con") ∈ Sg13g2.script.connects := by decide +kernel
  have hend : Sg13g2.script.Lies L "metal5_n_cap" q := by
    rcases Relation.ReflTransGen.cases_tail hpq with rfl | ⟨c, _, h⟩
    · exact lies _ hA
    · exact lies _ h.2.2
  have hmid : SameNet Sg13g2.script touch L ("metal5_n_cap", p) ("metal5_n_cap", q) := by
    clear hq hend
    induction hpq with
    | refl => exact .refl _
    | tail _ hstep ih => exact ih.trans (.within hstep.1 (lies _ hstep.2.1) (lies _ hstep.2.2))
  exact (SameNet.across hcon (hrefl p) (lies _ hA) hp).symm.trans
    (hmid.trans (.across hcon (hrefl q) hend hq))

/-- C125: three places in a row with the marker on the middle one. Their Metal 1 falls into two nets with sg13g2, but Metal5
is one net. -/
theorem resistor_ex :
    let row (m r : Nat × Nat) : Layout := ⟨fun l d c => ((l, d) = m ∧ c ∈ [((0 : ℤ), (0 : ℤ)), (1, 0), (2, 0)]) ∨
      ((l, d) = r ∧ c = (1, 0)), fun _ _ _ => False, fun _ _ => False⟩
    let touch (c c' : Cell) : Prop := c.2 = c'.2 ∧ (c'.1 - c.1 = 1 ∨ c.1 - c'.1 = 1 ∨ c.1 = c'.1)
    Only (row (8, 0) (8, 29)) (8, 0) (8, 29) ∧
      Sg13g2.script.Lies (row (8, 0) (8, 29)) "metal1_con" (0, 0) ∧
      Sg13g2.script.Lies (row (8, 0) (8, 29)) "metal1_con" (2, 0) ∧
      ¬ SameNet Sg13g2.script touch (row (8, 0) (8, 29)) ("metal1_con", (0, 0)) ("metal1_con", (2, 0)) ∧
      Sg13g2.script.Lies (row (67, 0) (67, 29)) "metal5_con" (0, 0) ∧
      Sg13g2.script.Lies (row (67, 0) (67, 29)) "metal5_con" (2, 0) ∧
      SameNet Sg13g2.script touch (row (67, 0) (67, 29)) ("metal5_con", (0, 0)) ("metal5_con", (2, 0)) := by
  intro row touch
  have hL : Only (row (8, 0) (8, 29)) (8, 0) (8, 29) := ⟨fun l d c h => h.imp And.left And.left, fun _ _ _ => id⟩
  have hsym : ∀ c c', touch c c' → touch c' c := fun c c' h => ⟨h.1.symm, by
    rcases h.2 with h | h | h
    · exact .inr (.inl h)
    · exact .inl h
    · exact .inr (.inr h.symm)⟩
  have hrefl : ∀ c, touch c c := fun c => ⟨rfl, .inr (.inr rfl)⟩
  have r := fun p q => resistor_separates_partial .metal1 hsym hL (p := p) (q := q)
  have h5 : ∀ c : Cell, c ∈ [((0 : ℤ), (0 : ℤ)), (2, 0)] → Sg13g2.script.Lies (row (67, 0) (67, 29)) "metal5_con" c := by
    intro c hc
    refine ⟨Sg13g2.metal5_con, by decide +kernel, ⟨⟨.inl ⟨.inl ⟨rfl, ?_⟩, ?_⟩, ?_⟩, ?_⟩⟩
    · fin_cases hc <;> simp
    · simp [holds, Sg13g2.nodrc_drw, row]
    · simp [holds, Sg13g2.metal5_slit_2, Sg13g2.metal5_slit, row]
    · fin_cases hc <;> simp [holds, Sg13g2.metal5_res_2, Sg13g2.metal5_res, row]
  refine ⟨hL, (r _ (0, 0)).1.2 (by simp [row]), (r _ (0, 0)).1.2 (by simp [row]), fun h => ?_, h5 _ (by simp), h5 _ (by simp),
    metal5_resistor_shorts hrefl _ (h5 _ (by simp)) (h5 _ (by simp)) (by simp [row]) ?_⟩
  · have hp := (r _ _).2.1 h
    -- from (0, 0) no other place of the metal is reached
    have stay : ∀ q, Path touch (fun c => (row (8, 0) (8, 29)).drawn 8 0 c ∧ ¬ (row (8, 0) (8, 29)).drawn 8 29 c)
        (0, 0) q → q = (0, 0) := by
      intro q hq
      induction hq with
      | refl => rfl
      | tail _ hstep ih =>
        subst ih
        obtain ⟨ht, -, hq1, hq2⟩ := hstep
        simp only [row, touch] at ht hq1 hq2
        simp at hq1 hq2
        rcases hq1 with h | h | h
        · exact h
        · exact absurd h hq2
        · subst h
          simp at ht
    exact absurd (stay _ hp) (by simp)
  · refine .head (b := (1, 0)) ⟨?_, ?_, ?_⟩ (.single ⟨?_, ?_, ?_⟩) <;> simp [row, touch]

end Verif.LvsRules
