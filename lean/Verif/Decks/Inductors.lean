import Verif.Decks.Glob
import Verif.Decks.Measure

/-!
# Which inductors LVS of sg13g2 extracts

Models ind_derivations.lvs and ind_extraction.lvs (pdk/ihp_sg13g2/libs.tech/kpex/rule_decks) with `GeneralNTerminalExtractor`
(custom_extractor.lvs) for one inductor: a marker that touches no other one, with one winding, whose pins are rectangles that lie apart
from each other, touch the edge of the marker, and have one label each.

Left out: how KLayout finds the width and the space of a winding, the layers that exclude a winding, and the terminal of the substrate.
-/

namespace Verif.Decks

/-- A pin of an inductor: its label, its shape, and whether it lies on TopMetal1 and on TopMetal2. -/
structure IndPort where
  label : List Char
  shape : Rectangle
  tm1 : Bool
  tm2 : Bool

/-- An inductor: the texts in its marker, and its pins. -/
structure Winding where
  texts : List (List Char)
  ports : List IndPort

/-- `texts(glob_to_case_insensitive_glob(pattern))`; ind_derivations.lvs 33–37. -/
def hasLabel (pattern : String) (s : List Char) : Bool := globMatch (readGlob (caseGlob pattern.toList)) s

/-- `ind2_ports`; ind_derivations.lvs 42, 44, 50. -/
def ind2Ports (w : Winding) : List IndPort := w.ports.filter fun p => hasLabel "LA" p.label || hasLabel "LB" p.label

/-- `ind2_core` has the winding; ind_derivations.lvs 51. -/
def ind2Core (w : Winding) : Bool := (w.ports.any fun p => hasLabel "LA" p.label) && w.ports.any fun p => hasLabel "LB" p.label

/-- `ind2_mk` has the marker; ind_derivations.lvs 52–53. -/
def ind2Marker (w : Winding) : Bool :=
  w.texts.any (hasLabel "inductor2*") && ind2Core w && !(ind2Ports w).isEmpty && !w.ports.any fun p => hasLabel "LC" p.label

/-- `ind3_ports`; ind_derivations.lvs 43, 45, 47, 59. -/
def ind3Ports (w : Winding) : List IndPort :=
  w.ports.filter fun p => hasLabel "LA" p.label && p.tm1 || hasLabel "LB" p.label && p.tm1 || hasLabel "LC" p.label && p.tm2

/-- `ind3_core` has the winding: the script asks for the pin LB twice and not for LA; ind_derivations.lvs 60. -/
def ind3Core (w : Winding) : Bool :=
  (w.ports.any fun p => hasLabel "LB" p.label && p.tm1) && (w.ports.any fun p => hasLabel "LB" p.label && p.tm1) &&
    w.ports.any fun p => hasLabel "LC" p.label && p.tm2

/-- `ind3_mk` has the marker; ind_derivations.lvs 61–62. -/
def ind3Marker (w : Winding) : Bool := w.texts.any (hasLabel "inductor3*") && ind3Core w && !(ind3Ports w).isEmpty

/-- The devices `inductor` of the marker `mk`, each with the shapes of its terminals; ind_extraction.lvs 26–33. -/
def inductor2 (mk : List Vertex) (w : Winding) : Option (List (List (List Vertex))) :=
  let ports := (ind2Ports w).map (·.shape.corners)
  extractGeneral 2 (if ind2Marker w then [mk] else []) ports ports

/-- The devices `inductor3`; ind_extraction.lvs 35–43. -/
def inductor3 (mk : List Vertex) (w : Winding) : Option (List (List (List Vertex))) :=
  let ports := (ind3Ports w).map (·.shape.corners)
  extractGeneral 3 (if ind3Marker w then [mk] else []) ports ports

/-- The edge and the rectangle have a common point. -/
def Seg.meets (e : Seg) (r : Rectangle) : Bool :=
  if e.horizontal then decide (r.y0 ≤ e.pos) && decide (e.pos ≤ r.y1) && decide (max e.lo r.x0 ≤ min e.hi r.x1)
  else decide (r.x0 ≤ e.pos) && decide (e.pos ≤ r.x1) && decide (max e.lo r.y0 ≤ min e.hi r.y1)

/-- Width, space, diameter and number of turns of an inductor. -/
structure IndParams where
  w : Int
  s : Int
  d : Int
  turns : Int
deriving DecidableEq, Repr

/-- `calc_ind_params`, in database units; custom_extractor.lvs 198–246. `box` is the bounding box of the winding, `width` and `space` are
the results of the checks (`none` for `nil`), `pieces` the number of polygons on TopMetal2; `none` as result is the exception of an
operation with `nil`. -/
def calcInd (box : Rectangle) (ports : List Rectangle) (width space : Option Int) (pieces : Int) : Option IndParams :=
  let excluded := box.edges.filter fun e => ports.any e.meets
  let edges := box.edges.filter fun e => !excluded.any e.touches
  let outer := (lengths edges).sum
  space.bind fun s => width.map fun w =>
    let d := outer - 2 * (pieces - 1) * s - 2 * pieces * w
    ⟨w, s, if d < 0 then 0 else d, pieces⟩

/-! ### Specification -/

/-- The pin lies on the lower side of the box, away from the other sides. -/
def OnLower (box p : Rectangle) : Prop := p.y0 ≤ box.y0 ∧ box.y0 ≤ p.y1 ∧ p.y1 < box.y1 ∧ box.x0 < p.x0 ∧ p.x0 < p.x1 ∧ p.x1 < box.x1

/-- The pin lies on the upper side of the box, away from the other sides. -/
def OnUpper (box p : Rectangle) : Prop := p.y0 ≤ box.y1 ∧ box.y1 ≤ p.y1 ∧ box.y0 < p.y0 ∧ box.x0 < p.x0 ∧ p.x0 < p.x1 ∧ p.x1 < box.x1


/-- The pins with the label LA, LB or LC in any letter case. -/
def NamedA (p : IndPort) : Prop := p.label ∈ ["LA".toList, "La".toList, "lA".toList, "la".toList]
def NamedB (p : IndPort) : Prop := p.label ∈ ["LB".toList, "Lb".toList, "lB".toList, "lb".toList]
def NamedC (p : IndPort) : Prop := p.label ∈ ["LC".toList, "Lc".toList, "lC".toList, "lc".toList]

instance : DecidablePred NamedA := fun p => inferInstanceAs (Decidable (p.label ∈ _))
instance : DecidablePred NamedB := fun p => inferInstanceAs (Decidable (p.label ∈ _))
instance : DecidablePred NamedC := fun p => inferInstanceAs (Decidable (p.label ∈ _))

/-- The pins are proper rectangles. -/
def Proper (w : Winding) : Prop := ∀ p ∈ w.ports, p.shape.x0 < p.shape.x1 ∧ p.shape.y0 < p.shape.y1

/-- The marker has a text that begins with inductor2; there is one pin LA, one pin LB and no pin LC. -/
def Drawn2 (w : Winding) : Prop :=
  (∃ t ∈ w.texts, Fits "inductor2*".toList t) ∧ (w.ports.filter (NamedA ·)).length = 1 ∧
    (w.ports.filter (NamedB ·)).length = 1 ∧ (w.ports.filter (NamedC ·)).length = 0

/-- The marker has a text that begins with inductor3; there are three pins LA or LB on TopMetal1 or LC on TopMetal2, with at least one
LB and one LC. -/
def Drawn3 (w : Winding) : Prop :=
  (∃ t ∈ w.texts, Fits "inductor3*".toList t) ∧
    1 ≤ (w.ports.filter fun p => NamedB p ∧ p.tm1 = true).length ∧
    1 ≤ (w.ports.filter fun p => NamedC p ∧ p.tm2 = true).length ∧
    (w.ports.filter fun p => NamedA p ∧ p.tm1 = true).length + (w.ports.filter fun p => NamedB p ∧ p.tm1 = true).length +
      (w.ports.filter fun p => NamedC p ∧ p.tm2 = true).length = 3

/-- One device, whose terminals are the given pins, ordered by their lower left corners. -/
def OneDevice (devices : Option (List (List (List Vertex)))) (pins : List IndPort) : Prop :=
  ∃ order : List IndPort, order.Perm pins ∧ devices = some [order.map (·.shape.corners)] ∧
    order.Pairwise fun p q => p.shape.x0 < q.shape.x0 ∨ p.shape.x0 = q.shape.x0 ∧ p.shape.y0 ≤ q.shape.y0

/-! ### Proofs -/

theorem hasLabel_two {a b A B : Char} (s : List Char) (h : (partOf A, partOf B) = (.set A a, .set B b))
    (hA : A ∉ ['\n', '\t', '\r', '\x0c', '\x0b']) (hB : B ∉ ['\n', '\t', '\r', '\x0c', '\x0b']) :
    globMatch (readGlob (caseGlob [A, B])) s = true ↔ s ∈ [[A, B], [A, b], [a, B], [a, b]] := by
  rw [readGlob_caseGlob (by simpa using ⟨by simpa using hA, by simpa using hB⟩)]
  simp only [Prod.mk.injEq] at h
  simp only [List.map_cons, List.map_nil, h.1, h.2]
  rcases s with _ | ⟨c, _ | ⟨d, _ | ⟨e, s⟩⟩⟩ <;> simp [globMatch]
  grind

theorem hasLabel_A (p : IndPort) : hasLabel "LA" p.label = true ↔ NamedA p :=
  hasLabel_two (a := 'l') (b := 'a') p.label (by decide) (by decide) (by decide)
theorem hasLabel_B (p : IndPort) : hasLabel "LB" p.label = true ↔ NamedB p :=
  hasLabel_two (a := 'l') (b := 'b') p.label (by decide) (by decide) (by decide)
theorem hasLabel_C (p : IndPort) : hasLabel "LC" p.label = true ↔ NamedC p :=
  hasLabel_two (a := 'l') (b := 'c') p.label (by decide) (by decide) (by decide)

theorem not_AB {p : IndPort} (h : NamedA p) : ¬ NamedB p := by
  unfold NamedA at h
  unfold NamedB
  simp only [List.mem_cons, List.not_mem_nil, or_false] at h
  rcases h with h | h | h | h <;> rw [h] <;> decide
theorem not_AC {p : IndPort} (h : NamedA p) : ¬ NamedC p := by
  unfold NamedA at h
  unfold NamedC
  simp only [List.mem_cons, List.not_mem_nil, or_false] at h
  rcases h with h | h | h | h <;> rw [h] <;> decide
theorem not_BC {p : IndPort} (h : NamedB p) : ¬ NamedC p := by
  unfold NamedB at h
  unfold NamedC
  simp only [List.mem_cons, List.not_mem_nil, or_false] at h
  rcases h with h | h | h | h <;> rw [h] <;> decide

theorem length_or {α : Type} (l : List α) (f g : α → Bool) (h : ∀ a ∈ l, f a = true → g a = false) :
    (l.filter fun a => f a || g a).length = (l.filter f).length + (l.filter g).length := by
  induction l with
  | nil => rfl
  | cons a l ih =>
    have ih := ih fun b hb => h b (.tail _ hb)
    have ha := h a (.head _)
    cases hf : f a <;> cases hg : g a <;> simp_all <;> omega

theorem any_length {α : Type} (l : List α) (f : α → Bool) : l.any f = true ↔ 1 ≤ (l.filter f).length := by
  rw [List.any_eq_true, Nat.one_le_iff_ne_zero, ne_eq, List.length_eq_zero_iff, List.filter_eq_nil_iff]
  simp

theorem corners_good {r : Rectangle} (h : r.x0 < r.x1 ∧ r.y0 < r.y1) : r.corners.length = 4 ∧ r.corners.Nodup := by
  refine ⟨rfl, ?_⟩
  simp [Rectangle.corners]
  omega

/-- One marker and the right number of pins give one device. -/
theorem one_device {num : Nat} {mk : List Vertex} {ps : List IndPort} (hn : ps.length = num)
    (hp : ∀ p ∈ ps, p.shape.x0 < p.shape.x1 ∧ p.shape.y0 < p.shape.y1) :
    OneDevice (extractGeneral num [mk] (ps.map (·.shape.corners)) (ps.map (·.shape.corners))) ps := by
  obtain ⟨ts, he, hperm, hsort⟩ := terminals_ports_partial (num := num) (regions := [mk]) (ports := ps.map (·.shape.corners))
    (by simpa using hn) (List.Perm.refl _) (by
      intro q hq
      obtain ⟨p, hp', rfl⟩ := List.mem_map.1 hq
      exact corners_good (hp p hp'))
  obtain ⟨order, ho, rfl⟩ : ∃ order : List IndPort, order.Perm ps ∧ ts = order.map (·.shape.corners) := by
    clear he hsort hp hn
    generalize hx : ps.map (·.shape.corners) = xs at hperm
    have := hperm.symm
    clear hperm
    induction this generalizing ps with
    | nil => exact ⟨[], by simp_all, rfl⟩
    | cons x _ ih =>
      rcases ps with _ | ⟨p, ps⟩
      · simp at hx
      · simp only [List.map_cons, List.cons.injEq] at hx
        obtain ⟨o, h1, h2⟩ := ih hx.2
        exact ⟨p :: o, h1.cons p, by simp [← hx.1, h2]⟩
    | swap x y l =>
      rcases ps with _ | ⟨p, _ | ⟨q, ps⟩⟩
      · simp at hx
      · simp at hx
      · simp only [List.map_cons, List.cons.injEq] at hx
        exact ⟨q :: p :: ps, List.Perm.swap _ _ _, by simp [← hx.1, ← hx.2.1, ← hx.2.2]⟩
    | trans _ _ ih1 ih2 =>
      obtain ⟨o, h1, h2⟩ := ih1 hx
      obtain ⟨o', h3, h4⟩ := ih2 h2.symm
      exact ⟨o', h3.trans h1, h4⟩
  refine ⟨order, ho, by simpa using he, ?_⟩
  rw [List.pairwise_map] at hsort
  refine hsort.imp ?_
  intro p q h
  exact h _ (by rfl) _ (by rfl)

theorem two_ports (w : Winding) :
    ind2Ports w = w.ports.filter (fun p => decide (NamedA p) || decide (NamedB p)) := by
  unfold ind2Ports
  congr 1
  funext p
  rw [Bool.eq_iff_iff]
  simp [hasLabel_A, hasLabel_B]

theorem three_ports (w : Winding) : ind3Ports w = w.ports.filter (fun p => decide (NamedA p ∧ p.tm1 = true) ||
    (decide (NamedB p ∧ p.tm1 = true) || decide (NamedC p ∧ p.tm2 = true))) := by
  unfold ind3Ports
  congr 1
  funext p
  rw [Bool.eq_iff_iff]
  simp [hasLabel_A, hasLabel_B, hasLabel_C, or_assoc]

theorem any_named {l : List IndPort} {f : IndPort → Bool} {P : IndPort → Prop} [DecidablePred P] (h : ∀ p, f p = true ↔ P p) :
    l.any f = true ↔ 1 ≤ (l.filter fun p => decide (P p)).length := by
  rw [any_length]
  have : f = fun p => decide (P p) := by
    funext p
    rw [Bool.eq_iff_iff, h]
    simp
  rw [this]

/-- **C145 for inductors with two pins.** There is one device with the terminals LA and LB if a text in the marker begins with
inductor2 and there is one pin LA, one pin LB and no pin LC; otherwise there is none. -/
theorem inductor2_extracted (mk : List Vertex) (w : Winding) (hp : Proper w) :
    (Drawn2 w → OneDevice (inductor2 mk w) (w.ports.filter fun p => NamedA p ∨ NamedB p)) ∧
    (¬ Drawn2 w → inductor2 mk w = some []) := by
  have ht : w.texts.any (hasLabel "inductor2*") = true ↔ ∃ t ∈ w.texts, Fits "inductor2*".toList t := by
    rw [List.any_eq_true]
    exact exists_congr fun t => and_congr_right fun _ => label_recognised (by decide) t
  have hl : (ind2Ports w).length = (w.ports.filter (NamedA ·)).length + (w.ports.filter (NamedB ·)).length := by
    rw [two_ports, length_or]
    intro p _ h
    simpa using not_AB (by simpa using h)
  have hm : ind2Marker w = true ↔ (∃ t ∈ w.texts, Fits "inductor2*".toList t) ∧ 1 ≤ (w.ports.filter (NamedA ·)).length ∧
      1 ≤ (w.ports.filter (NamedB ·)).length ∧ (w.ports.filter (NamedC ·)).length = 0 := by
    have hc : (!w.ports.any fun p => hasLabel "LC" p.label) = true ↔ (w.ports.filter (NamedC ·)).length = 0 := by
      rw [Bool.not_eq_true', ← Bool.not_eq_true, any_named hasLabel_C]
      omega
    have he : (!(ind2Ports w).isEmpty) = true ↔ 1 ≤ (ind2Ports w).length := by
      cases ind2Ports w <;> simp
    simp only [ind2Marker, ind2Core, Bool.and_eq_true, ht, any_named hasLabel_A, any_named hasLabel_B, hc, he, hl]
    constructor
    · rintro ⟨⟨⟨a, b, c⟩, _⟩, d⟩
      exact ⟨a, b, c, d⟩
    · rintro ⟨a, b, c, d⟩
      exact ⟨⟨⟨a, b, c⟩, by omega⟩, d⟩
  have hports : ind2Ports w = w.ports.filter fun p => NamedA p ∨ NamedB p := by
    rw [two_ports]
    simp
  refine ⟨fun h => ?_, fun h => ?_⟩
  · obtain ⟨h1, h2, h3, h4⟩ := h
    rw [inductor2, if_pos (hm.2 ⟨h1, by omega, by omega, h4⟩), ← hports]
    exact one_device (by omega) fun p h => hp p (List.mem_filter.1 h).1
  · unfold inductor2
    by_cases hm' : ind2Marker w = true
    · obtain ⟨h1, h2, h3, h4⟩ := hm.1 hm'
      refine ports_wrong ?_
      rw [List.length_map, hl]
      intro hs
      exact h ⟨h1, by omega, by omega, h4⟩
    · rw [if_neg hm']
      rfl

/-- **C145 for inductors with three pins, partial.** There is one device with the pins on their metals as terminals if a text in the
marker begins with inductor3 and there are three such pins, at least one LB and at least one LC; otherwise there is none. Missing: that
one of them must be LA, which is false (`inductor3_without_A`). -/
theorem inductor3_extracted_partial (mk : List Vertex) (w : Winding) (hp : Proper w) :
    (Drawn3 w → OneDevice (inductor3 mk w)
      (w.ports.filter fun p => NamedA p ∧ p.tm1 = true ∨ NamedB p ∧ p.tm1 = true ∨ NamedC p ∧ p.tm2 = true)) ∧
    (¬ Drawn3 w → inductor3 mk w = some []) := by
  have ht : w.texts.any (hasLabel "inductor3*") = true ↔ ∃ t ∈ w.texts, Fits "inductor3*".toList t := by
    rw [List.any_eq_true]
    exact exists_congr fun t => and_congr_right fun _ => label_recognised (by decide) t
  have hl : (ind3Ports w).length = (w.ports.filter fun p => NamedA p ∧ p.tm1 = true).length +
      ((w.ports.filter fun p => NamedB p ∧ p.tm1 = true).length + (w.ports.filter fun p => NamedC p ∧ p.tm2 = true).length) := by
    rw [three_ports, length_or, length_or]
    · intro p _ h
      simp only [decide_eq_true_eq] at h
      simp [not_BC h.1]
    · intro p _ h
      simp only [decide_eq_true_eq] at h
      simp [not_AB h.1, not_AC h.1]
  have hB : ∀ p : IndPort, (hasLabel "LB" p.label && p.tm1) = true ↔ NamedB p ∧ p.tm1 = true := by simp [hasLabel_B]
  have hC : ∀ p : IndPort, (hasLabel "LC" p.label && p.tm2) = true ↔ NamedC p ∧ p.tm2 = true := by simp [hasLabel_C]
  have hm : ind3Marker w = true ↔ (∃ t ∈ w.texts, Fits "inductor3*".toList t) ∧
      1 ≤ (w.ports.filter fun p => NamedB p ∧ p.tm1 = true).length ∧
      1 ≤ (w.ports.filter fun p => NamedC p ∧ p.tm2 = true).length := by
    have he : (!(ind3Ports w).isEmpty) = true ↔ 1 ≤ (ind3Ports w).length := by
      cases ind3Ports w <;> simp
    simp only [ind3Marker, ind3Core, Bool.and_eq_true, ht, any_named hB, any_named hC, he, hl]
    constructor
    · rintro ⟨⟨a, ⟨b, _⟩, c⟩, _⟩
      exact ⟨a, b, c⟩
    · rintro ⟨a, b, c⟩
      exact ⟨⟨a, ⟨b, b⟩, c⟩, by omega⟩
  have hports : ind3Ports w =
      w.ports.filter fun p => NamedA p ∧ p.tm1 = true ∨ NamedB p ∧ p.tm1 = true ∨ NamedC p ∧ p.tm2 = true := by
    rw [three_ports]
    simp
  refine ⟨fun h => ?_, fun h => ?_⟩
  · obtain ⟨h1, h2, h3, h4⟩ := h
    rw [inductor3, if_pos (hm.2 ⟨h1, h2, h3⟩), ← hports]
    exact one_device (by omega) fun p h => hp p (List.mem_filter.1 h).1
  · unfold inductor3
    by_cases hm' : ind3Marker w = true
    · obtain ⟨h1, h2, h3⟩ := hm.1 hm'
      refine ports_wrong ?_
      rw [List.length_map, hl]
      intro hs
      exact h ⟨h1, h2, h3, by omega⟩
    · rw [if_neg hm']
      rfl

/-- Violation: with two pins LB, one pin LC and no pin LA there is a device. -/
theorem inductor3_without_A (mk : List Vertex) (w : Winding) (hp : Proper w) (ht : ∃ t ∈ w.texts, Fits "inductor3*".toList t)
    (hA : ∀ p ∈ w.ports, ¬ NamedA p) (hB : (w.ports.filter fun p => NamedB p ∧ p.tm1 = true).length = 2)
    (hC : (w.ports.filter fun p => NamedC p ∧ p.tm2 = true).length = 1) :
    ∃ terminals, inductor3 mk w = some [terminals] := by
  have h := (inductor3_extracted_partial mk w hp).1
  have h0 : (w.ports.filter fun p => NamedA p ∧ p.tm1 = true).length = 0 := by
    rw [List.length_eq_zero_iff, List.filter_eq_nil_iff]
    intro p hq
    simp [hA p hq]
  obtain ⟨o, -, h, -⟩ := h ⟨ht, by omega, by omega, by omega⟩
  exact ⟨_, h⟩

/-- Violation: the first terminal of an inductor is the left pin, whatever its label; if LB is left of LA, it is LB. -/
theorem inductor2_swapped (mk : List Vertex) (w : Winding) (hp : Proper w) (ht : ∃ t ∈ w.texts, Fits "inductor2*".toList t)
    {p q : IndPort} (hw : w.ports = [p, q]) (hA : NamedA p) (hB : NamedB q) (hx : q.shape.x0 < p.shape.x0) :
    inductor2 mk w = some [[q.shape.corners, p.shape.corners]] := by
  have h := (inductor2_extracted mk w hp).1
  have hnb : ¬ NamedA q := fun h => not_AB h hB
  obtain ⟨o, h1, h2, h3⟩ := h ⟨ht, by simp [hw, hA, hnb], by simp [hw, hB, not_AB hA], by simp [hw, not_AC hA, not_BC hB]⟩
  rw [h2]
  simp only [hw, hA, hB, hnb, List.filter_cons, List.filter_nil, true_or, or_true, decide_true, if_true] at h1
  have : o = [q, p] := by
    have hlen := h1.length_eq
    rcases o with _ | ⟨a, _ | ⟨b, _ | ⟨c, o⟩⟩⟩ <;> simp at hlen
    have ha := h1.subset (.head _)
    have hb := h1.subset (.tail _ (.head _))
    simp only [List.mem_cons, List.not_mem_nil, or_false] at ha hb
    have hab := (List.pairwise_cons.1 h3).1 b (.head _)
    have hpin := h1.symm.subset (a := p) (by simp)
    have hqin := h1.symm.subset (a := q) (by simp)
    simp only [List.mem_cons, List.not_mem_nil, or_false] at hpin hqin
    rcases ha with rfl | rfl <;> rcases hb with rfl | rfl
    · rcases hqin with rfl | rfl <;> omega
    · omega
    · rfl
    · rcases hpin with rfl | rfl <;> omega
  rw [this]
  rfl

theorem lower_meets {box p : Rectangle} (h : OnLower box p) : Seg.meets ⟨true, box.y0, box.x0, box.x1⟩ p = true ∧
    Seg.meets ⟨true, box.y1, box.x0, box.x1⟩ p = false ∧ Seg.meets ⟨false, box.x0, box.y0, box.y1⟩ p = false ∧
    Seg.meets ⟨false, box.x1, box.y0, box.y1⟩ p = false := by
  obtain ⟨h1, h2, h3, h4, h5, h6⟩ := h
  simp only [Seg.meets, if_true, Bool.false_eq_true, if_false, Bool.and_eq_true, decide_eq_true_eq, Bool.and_eq_false_iff,
    decide_eq_false_iff_not]
  omega

theorem upper_meets {box p : Rectangle} (h : OnUpper box p) : Seg.meets ⟨true, box.y1, box.x0, box.x1⟩ p = true := by
  obtain ⟨h1, h2, h3, h4, h5, h6⟩ := h
  simp only [Seg.meets, if_true, Bool.and_eq_true, decide_eq_true_eq]
  omega

/-- **C140 for inductors, partial.** If all pins lie on the lower side, and the winding is as wide as its inner diameter with the widths
of all turns and the spaces between them on both sides, then the diameter is the inner one. Missing: pins on two sides
(`ind_opposite`), and that the number of polygons on TopMetal2 is that of the turns. -/
theorem ind_diameter_partial {box : Rectangle} {ports : List Rectangle} {w s d n : Int} (hx : box.x0 < box.x1) (hy : box.y0 < box.y1)
    (hp : ports ≠ []) (hl : ∀ p ∈ ports, OnLower box p) (hd : 0 ≤ d)
    (ho : box.x1 - box.x0 = w * n + s * (n - 1) + d + s * (n - 1) + w * n) :
    calcInd box ports (some w) (some s) n = some ⟨w, s, d, n⟩ := by
  obtain ⟨p, ports, rfl⟩ := List.exists_cons_of_ne_nil hp
  have no : ∀ e : Seg, (∀ q, OnLower box q → e.meets q = false) → (p :: ports).any e.meets = false := by
    intro e h
    rw [List.any_eq_false]
    intro q hq
    simp [h q (hl q hq)]
  have e1 : (p :: ports).any (Seg.meets ⟨true, box.y0, box.x0, box.x1⟩) = true := by
    simp [(lower_meets (hl p (.head _))).1]
  have e2 := no ⟨true, box.y1, box.x0, box.x1⟩ fun q hq => (lower_meets hq).2.1
  have e3 := no ⟨false, box.x0, box.y0, box.y1⟩ fun q hq => (lower_meets hq).2.2.1
  have e4 := no ⟨false, box.x1, box.y0, box.y1⟩ fun q hq => (lower_meets hq).2.2.2
  have hne : (box.y1 == box.y0) = false := by simp; omega
  have t1 : Seg.touches ⟨true, box.y0, box.x0, box.x1⟩ ⟨true, box.y0, box.x0, box.x1⟩ = true := by simp [Seg.touches]; omega
  have t2 : Seg.touches ⟨true, box.y1, box.x0, box.x1⟩ ⟨true, box.y0, box.x0, box.x1⟩ = false := by simp [Seg.touches, hne]
  have t3 : Seg.touches ⟨false, box.x0, box.y0, box.y1⟩ ⟨true, box.y0, box.x0, box.x1⟩ = true := by simp [Seg.touches]; omega
  have t4 : Seg.touches ⟨false, box.x1, box.y0, box.y1⟩ ⟨true, box.y0, box.x0, box.x1⟩ = true := by simp [Seg.touches]; omega
  have hdd : box.x1 - box.x0 - 2 * (n - 1) * s - 2 * n * w = d := by rw [ho]; ring
  generalize p :: ports = ps at e1 e2 e3 e4
  simp only [calcInd, Rectangle.edges, List.filter_cons, List.filter_nil, e1, e2, e3, e4, if_true, Bool.false_eq_true, if_false,
    List.any_cons, List.any_nil, t1, t2, t3, t4, Bool.or_false, Bool.not_true, Bool.not_false, lengths, List.map_cons, List.map_nil,
    List.sum_cons, List.sum_nil, add_zero, Option.bind_some, Option.map_some, hdd]
  rw [if_neg (by omega)]

/-- Violation: with pins on two opposite sides the diameter is 0, whatever the winding. -/
theorem ind_opposite {box p q : Rectangle} {ports : List Rectangle} {w s n : Int} (hx : box.x0 < box.x1) (hy : box.y0 < box.y1)
    (hp : p ∈ ports) (hq : q ∈ ports) (h1 : OnLower box p) (h2 : OnUpper box q) (hw : 0 ≤ w) (hs : 0 ≤ s) (hn : 1 ≤ n) :
    calcInd box ports (some w) (some s) n = some ⟨w, s, 0, n⟩ := by
  have e1 : ports.any (Seg.meets ⟨true, box.y0, box.x0, box.x1⟩) = true := List.any_eq_true.2 ⟨p, hp, (lower_meets h1).1⟩
  have e2 : ports.any (Seg.meets ⟨true, box.y1, box.x0, box.x1⟩) = true := List.any_eq_true.2 ⟨q, hq, upper_meets h2⟩
  have t1 : Seg.touches ⟨true, box.y0, box.x0, box.x1⟩ ⟨true, box.y0, box.x0, box.x1⟩ = true := by simp [Seg.touches]; omega
  have t2 : Seg.touches ⟨true, box.y1, box.x0, box.x1⟩ ⟨true, box.y1, box.x0, box.x1⟩ = true := by simp [Seg.touches]; omega
  have t3 : Seg.touches ⟨false, box.x0, box.y0, box.y1⟩ ⟨true, box.y0, box.x0, box.x1⟩ = true := by simp [Seg.touches]; omega
  have t4 : Seg.touches ⟨false, box.x1, box.y0, box.y1⟩ ⟨true, box.y0, box.x0, box.x1⟩ = true := by simp [Seg.touches]; omega
  have hle : 0 - 2 * (n - 1) * s - 2 * n * w ≤ 0 := by
    have a : 0 ≤ (n - 1) * s := mul_nonneg (by omega) hs
    have b : 0 ≤ n * w := mul_nonneg (by omega) hw
    linarith
  simp only [calcInd, Rectangle.edges, List.filter_cons, List.filter_nil, e1, e2, if_true, List.any_cons, t1, t2, t3, t4, Bool.true_or,
    Bool.or_true, Bool.not_true, Bool.false_eq_true, if_false, lengths, List.map_nil, List.sum_nil, Option.bind_some, Option.map_some]
  congr 2
  split <;> omega

/-- Violation: if no edges of the winding face each other, so that there is no space, the extraction ends with an exception. -/
theorem ind_no_space (box : Rectangle) (ports : List Rectangle) (width : Option Int) (n : Int) :
    calcInd box ports width none n = none := rfl

/-- A winding of two turns with the inner diameter 20; the same with a pin on the other side. -/
theorem ind_ex : calcInd ⟨0, 0, 34, 50⟩ [⟨5, 0, 8, 2⟩, ⟨20, 0, 23, 2⟩] (some 3) (some 1) 2 = some ⟨3, 1, 20, 2⟩ ∧
    calcInd ⟨0, 0, 34, 50⟩ [⟨5, 0, 8, 2⟩, ⟨20, 48, 23, 50⟩] (some 3) (some 1) 2 = some ⟨3, 1, 0, 2⟩ := by
  decide

/-- An inductor with the pins LA at the left and lb at the right. -/
def exInd : Winding := ⟨["inductor2_sp".toList], [⟨"LA".toList, ⟨0, 0, 10, 5⟩, false, true⟩, ⟨"lb".toList, ⟨20, 0, 30, 5⟩, false, true⟩]⟩

/-- The same, mirrored. -/
def exMirrored : Winding :=
  ⟨["inductor2_sp".toList], [⟨"LA".toList, ⟨20, 0, 30, 5⟩, false, true⟩, ⟨"lb".toList, ⟨0, 0, 10, 5⟩, false, true⟩]⟩

/-- Two pins LB and one pin LC. -/
def exNoA : Winding := ⟨["inductor3".toList], [⟨"LB".toList, ⟨0, 0, 10, 5⟩, true, false⟩, ⟨"LB".toList, ⟨20, 0, 30, 5⟩, true, false⟩,
  ⟨"LC".toList, ⟨40, 0, 50, 5⟩, false, true⟩]⟩

theorem fits_star : ∀ s : List Char, Fits ['*'] s
  | [] => .skip .nil
  | _ :: s => .more (fits_star s)

theorem fits_self : ∀ {g : List Char}, (∀ c ∈ g, c ≠ '*' ∧ c ≠ '?') → ∀ s, Fits (g ++ ['*']) (g ++ s)
  | [], _, s => fits_star s
  | c :: _, h, s => .char (h c (.head _)).1 (h c (.head _)).2 (.inl rfl) (fits_self (fun d hd => h d (.tail _ hd)) s)

/-- The hypotheses hold for concrete inductors: with two pins, the same mirrored, and one without LA. -/
theorem inductors_ex (mk : List Vertex) :
    OneDevice (inductor2 mk exInd) exInd.ports ∧
    inductor2 mk exMirrored = some [[[(0, 0), (0, 5), (10, 5), (10, 0)], [(20, 0), (20, 5), (30, 5), (30, 0)]]] ∧
    ∃ terminals, inductor3 mk exNoA = some [terminals] := by
  have t2 : Fits "inductor2*".toList "inductor2_sp".toList := fits_self (g := "inductor2".toList) (by decide) "_sp".toList
  have t3 : Fits "inductor3*".toList "inductor3".toList := fits_self (g := "inductor3".toList) (by decide) []
  refine ⟨?_, ?_, ?_⟩
  · exact (inductor2_extracted mk exInd (by simp [Proper, exInd])).1 ⟨⟨_, .head _, t2⟩, by decide, by decide, by decide⟩
  · exact inductor2_swapped mk exMirrored (by simp [Proper, exMirrored]) ⟨_, .head _, t2⟩ rfl (by decide) (by decide) (by decide)
  · exact inductor3_without_A mk exNoA (by simp [Proper, exNoA]) ⟨_, .head _, t3⟩ (by simp [exNoA, NamedA]) (by decide) (by decide)

end Verif.Decks
