import Verif.LvsRules.Vias

/-!
# Conductors and pins of the LVS scripts
-/

namespace Verif.LvsRules

open Pdk (Technology Carries SameLayer StackLayer Contact canonical)

/-! ### Specification -/

/-- `n` is a metal of the process stack. -/
def IsMetal (t : Technology) (n : String) : Prop := ∃ z th c, ⟨n, .metal z th c⟩ ∈ t.stack

/-- Where the scripts cut a conductor in two although its shapes touch: on sky130A, poly and local interconnect at the border
of a vertical parallel plate capacitor, and Metal 3 or 4 where the plate of a MIM capacitor meets one; on sg13g2, Metal5
where a MIM capacitor begins inside a Metal5 slit (67/24) or resistor marker (67/29). -/
inductive Seam (L : Layout) (c : Cell) : Technology → String → String → Prop
  | poly : Seam L c Pdk.Sky130A.tech "poly_con" "poly_vpp"
  | li : Seam L c Pdk.Sky130A.tech "li_con" "li_vpp"
  | met3 : Seam L c Pdk.Sky130A.tech "met3_cap" "met3_vpp"
  | met4 : Seam L c Pdk.Sky130A.tech "met4_cap" "met4_vpp"
  | metal5 : L.drawn 67 24 c ∨ L.drawn 67 29 c → Seam L c Pdk.Sg13g2.tech "metal5_n_cap" "metal5_cap"

/-- `q` is the layer of the LVS result with the pins of the layer named `n`. -/
def PinPiece (t : Technology) (n q : String) : Prop :=
  ∃ k ∈ t.computed, k.kind = .pin ∧ k.info.name = q ∧ ∃ o, Engine25.CanonicalIs t.read n o ∧ k.original = o ++ ".pin"

/-- Where the scripts leave a pin apart from the conductor it lies on: the plates of the MIM capacitors of sky130A. -/
inductive PinGap : Technology → String → String → Prop
  | met3 : PinGap Pdk.Sky130A.tech "met3_pin_con" "met3_cap"
  | met4 : PinGap Pdk.Sky130A.tech "met4_pin_con" "met4_cap"

/-- In some layout the layers `v` and `l` have shapes at the neighbouring places (0, 0) and (1, 0) that are not in one net,
whatever places touch. -/
def ApartNext (s : Script) (v l : String) : Prop :=
  ∃ L, s.Lies L v (0, 0) ∧ s.Lies L l (1, 0) ∧ ∀ touch, ¬ SameNet s touch L (v, (0, 0)) (l, (1, 0))

/-! ### Conductors -/

/-- Pairs of layers that are left out of the check on sky130A. -/
def skySeams : List (String × String) :=
  [("poly_con", "poly_vpp"), ("li_con", "li_vpp"), ("met3_cap", "met3_vpp"), ("met4_cap", "met4_vpp")]

/-- The check of all pairs of layers of one metal. -/
def metalsOk (t : Technology) (s : Script) (facts : String → String → Facts) (leave : List (String × String)) : Bool :=
  t.stack.all fun x => match x.kind with
    | .metal _ _ _ => t.computed.all fun k =>
      !((k.kind == .regular || k.kind == .deviceCapacitor) && canonical t.read k.info.name == canonical t.read x.name) ||
        t.computed.all fun k' =>
          !((k'.kind == .regular || k'.kind == .deviceCapacitor) &&
            canonical t.read k'.info.name == canonical t.read x.name) ||
          leave.contains (k.info.name, k'.info.name) || leave.contains (k'.info.name, k.info.name) ||
          s.layers.all fun v => v.1 != k.info.name || s.layers.all fun l => l.1 != k'.info.name ||
            nextTo s (facts v.1 l.1) v l
    | _ => true

/-- What is known at the first place outside the seams of sg13g2. -/
def sgSeamFacts (v l : String) : Facts :=
  if (v = "metal5_n_cap" ∧ l = "metal5_cap") ∨ (v = "metal5_cap" ∧ l = "metal5_n_cap") then
    [(false, .drawn 67 24), (false, .drawn 67 29)] else []

theorem sky_metals : metalsOk Pdk.Sky130A.tech Sky130A.script (fun _ _ => []) skySeams = true := by decide +kernel

theorem sg_metals : metalsOk Pdk.Sg13g2.tech Sg13g2.script sgSeamFacts [] = true := by decide +kernel

theorem nextTo_of_metals {t : Technology} {s : Script} {facts : String → String → Facts} {leave : List (String × String)}
    (h : metalsOk t s facts leave = true) {n : String} (hn : IsMetal t n) {v l : String} (hv : Piece t n v)
    (hl : Piece t n l) (h1 : (v, l) ∉ leave) (h2 : (l, v) ∉ leave) {e f : Expr} (he : (v, e) ∈ s.layers)
    (hf : (l, f) ∈ s.layers) : nextTo s (facts v l) (v, e) (l, f) = true := by
  obtain ⟨z, th, c, hx⟩ := hn
  obtain ⟨k, hk, hkind, rfl, hsame⟩ := hv
  obtain ⟨k', hk', hkind', rfl, hsame'⟩ := hl
  have kind : ∀ {k : Pdk.ComputedLayer}, (k.kind = .regular ∨ k.kind = .deviceCapacitor) →
      (k.kind == .regular || k.kind == .deviceCapacitor) = true := by
    intro k hk
    rcases hk with hk | hk <;> rw [hk] <;> rfl
  have hs := List.all_eq_true.1 (List.all_eq_true.1 h _ hx) k hk
  rw [kind hkind, (canonical_of hsame).symm, beq_self_eq_true, Bool.and_self, Bool.not_true, Bool.false_or] at hs
  have hs := List.all_eq_true.1 hs k' hk'
  rw [kind hkind', (canonical_of hsame').symm, beq_self_eq_true, Bool.and_self, Bool.not_true, Bool.false_or,
    Bool.or_eq_true, Bool.or_eq_true] at hs
  rcases hs with (hs | hs) | hs
  · exact absurd (List.contains_iff_mem.1 hs) h1
  · exact absurd (List.contains_iff_mem.1 hs) h2
  · have hs := List.all_eq_true.1 hs _ he
    rw [Bool.or_eq_true] at hs
    have hs := List.all_eq_true.1 (hs.resolve_left (by simp)) _ hf
    rw [Bool.or_eq_true] at hs
    exact hs.resolve_left (by simp)

/-- **C124.** LVS with a shipped script keeps a conductor whole: touching shapes of a metal of the process stack belong to one
net, also where the script divides the metal into several layers, except at the seams. -/
theorem conductor_whole_partial {t : Technology} {s : Script} (hts : ShippedWith t s) {touch : Cell → Cell → Prop}
    (hrefl : ∀ c, touch c c) (hsym : ∀ c c', touch c c' → touch c' c) (L : Layout) {n : String} (hn : IsMetal t n)
    {v l : String} (hv : Piece t n v) (hl : Piece t n l) {p q : Cell} (hpq : touch p q) (hvp : s.Lies L v p)
    (hlq : s.Lies L l q) (h1 : ¬ Seam L p t v l) (h2 : ¬ Seam L p t l v) : SameNet s touch L (v, p) (l, q) := by
  obtain ⟨e, he, hvp⟩ := hvp
  obtain ⟨f, hf, hlq⟩ := hlq
  cases hts with
  | sky130A =>
    have seam : ∀ {a b : String}, ¬ Seam L p Pdk.Sky130A.tech a b → (a, b) ∉ skySeams := by
      intro a b h hm
      fin_cases hm
      · exact h .poly
      · exact h .li
      · exact h .met3
      · exact h .met4
    exact nextTo_sound hrefl hsym (F := []) (fun _ h => by cases h) hpq he hf hvp hlq
      (nextTo_of_metals sky_metals hn hv hl (seam h1) (seam h2) he hf)
  | sg13g2 =>
    have hF : (sgSeamFacts v l).At L p := by
      unfold sgSeamFacts
      split_ifs with hvl
      · have : ¬ (L.drawn 67 24 p ∨ L.drawn 67 29 p) := by
          intro hd
          rcases hvl with ⟨rfl, rfl⟩ | ⟨rfl, rfl⟩
          · exact h1 (.metal5 hd)
          · exact h2 (.metal5 hd)
        intro g hg
        rcases List.mem_cons.1 hg with rfl | hg
        · exact fun hd => this (.inl hd)
        · obtain rfl := List.mem_singleton.1 hg
          exact fun hd => this (.inr hd)
      · exact fun g hg => by cases hg
    exact nextTo_sound hrefl hsym hF hpq he hf hvp hlq
      (nextTo_of_metals sg_metals hn hv hl (by simp) (by simp) he hf)

/-! ### Pins -/

/-- The check of all pins with the layers of their conductor. -/
def pinsOk (t : Technology) (s : Script) (leave : List (String × String)) : Bool :=
  t.computed.all fun q => !(q.kind == .pin) || t.computed.all fun k =>
    !((k.kind == .regular || k.kind == .deviceCapacitor) &&
      (canonical t.read k.info.name).map (· ++ ".pin") == some q.original) ||
    leave.contains (q.info.name, k.info.name) ||
    s.layers.all fun v => v.1 != q.info.name || s.layers.all fun l => l.1 != k.info.name || together s [] v l

/-- Pairs of layers that are left out of the check of the pins. -/
def skyPinGaps : List (String × String) := [("met3_pin_con", "met3_cap"), ("met4_pin_con", "met4_cap")]

theorem sky_pins : pinsOk Pdk.Sky130A.tech Sky130A.script skyPinGaps = true := by decide +kernel

theorem sg_pins : pinsOk Pdk.Sg13g2.tech Sg13g2.script [] = true := by decide +kernel

theorem together_of_pins {t : Technology} {s : Script} {leave : List (String × String)} (h : pinsOk t s leave = true)
    {n q l : String} (hq : PinPiece t n q) (hl : Piece t n l) (h1 : (q, l) ∉ leave) {e f : Expr} (he : (q, e) ∈ s.layers)
    (hf : (l, f) ∈ s.layers) : together s [] (q, e) (l, f) = true := by
  obtain ⟨k, hk, hkind, rfl, o, ho, horig⟩ := hq
  obtain ⟨k', hk', hkind', rfl, hsame⟩ := hl
  have hcan : canonical t.read k'.info.name = some o :=
    (canonical_of hsame).symm.trans ((Engine25.canonical_iff _ _ _).2 ho)
  have hs := List.all_eq_true.1 h k hk
  rw [hkind, beq_self_eq_true, Bool.not_true, Bool.false_or] at hs
  have hs := List.all_eq_true.1 hs k' hk'
  have kind : (k'.kind == .regular || k'.kind == .deviceCapacitor) = true := by
    rcases hkind' with hk | hk <;> rw [hk] <;> rfl
  rw [kind, hcan, Option.map_some, horig, beq_self_eq_true, Bool.and_self, Bool.not_true, Bool.false_or,
    Bool.or_eq_true] at hs
  rcases hs with hs | hs
  · exact absurd (List.contains_iff_mem.1 hs) h1
  · have hs := List.all_eq_true.1 hs _ he
    rw [Bool.or_eq_true] at hs
    have hs := List.all_eq_true.1 (hs.resolve_left (by simp)) _ hf
    rw [Bool.or_eq_true] at hs
    exact hs.resolve_left (by simp)

/-- **C124.** A pin drawn on a conductor belongs to the net of the conductor, except on the plates of MIM capacitors of
sky130A. -/
theorem pins_join_partial {t : Technology} {s : Script} (hts : ShippedWith t s) {touch : Cell → Cell → Prop}
    (hrefl : ∀ c, touch c c) (hsym : ∀ c c', touch c c' → touch c' c) (L : Layout) {n q l : String} (hq : PinPiece t n q)
    (hl : Piece t n l) {p : Cell} (hqp : s.Lies L q p) (hlp : s.Lies L l p) (hgap : ¬ PinGap t q l) :
    SameNet s touch L (q, p) (l, p) := by
  obtain ⟨e, he, hqp⟩ := hqp
  obtain ⟨f, hf, hlp⟩ := hlp
  have none : ∀ {L : Layout} {c : Cell}, Facts.At [] L c := fun _ h => by cases h
  cases hts with
  | sky130A =>
    refine together_sound hrefl hsym none he hf hqp hlp (together_of_pins sky_pins hq hl (fun hm => ?_) he hf)
    fin_cases hm
    · exact hgap .met3
    · exact hgap .met4
  | sg13g2 => exact together_sound hrefl hsym none he hf hqp hlp (together_of_pins sg_pins hq hl (by simp) he hf)

/-- C124: the hypotheses are met by Metal 3 at the border of a MIM capacitor and by a pin on Metal 1. -/
theorem conductor_ex :
    (IsMetal Pdk.Sky130A.tech "met3_ncap" ∧ Piece Pdk.Sky130A.tech "met3_ncap" "met3_ncap" ∧
      Piece Pdk.Sky130A.tech "met3_ncap" "met3_cap" ∧
      Sky130A.script.Lies (spots [(70, 20)] [(70, 20), (89, 44)]) "met3_ncap" (0, 0) ∧
      Sky130A.script.Lies (spots [(70, 20)] [(70, 20), (89, 44)]) "met3_cap" (1, 0) ∧
      SameNet Sky130A.script (fun _ _ => True) (spots [(70, 20)] [(70, 20), (89, 44)]) ("met3_ncap", (0, 0))
        ("met3_cap", (1, 0))) ∧
      PinPiece Pdk.Sky130A.tech "met1" "met1_pin_con" ∧ Piece Pdk.Sky130A.tech "met1" "met1_con" ∧
      Sky130A.script.Lies (spot [(68, 20), (68, 16)]) "met1_pin_con" (0, 0) ∧
      Sky130A.script.Lies (spot [(68, 20), (68, 16)]) "met1_con" (0, 0) ∧
      SameNet Sky130A.script (· = ·) (spot [(68, 20), (68, 16)]) ("met1_pin_con", (0, 0)) ("met1_con", (0, 0)) := by
  have hm : IsMetal Pdk.Sky130A.tech "met3_ncap" := by
    have : (Pdk.Sky130A.tech.stack.any fun x => x.name == "met3_ncap" && match x.kind with
        | .metal _ _ _ => true
        | _ => false) = true := by decide +kernel
    obtain ⟨⟨n, k⟩, hx, h⟩ := List.any_eq_true.1 this
    rw [Bool.and_eq_true] at h
    obtain rfl := eq_of_beq h.1
    cases k with
    | metal z th c => exact ⟨z, th, c, hx⟩
    | _ => exact absurd h.2 (by simp)
  have p1 : Piece Pdk.Sky130A.tech "met3_ncap" "met3_ncap" := piece_of "met3" (by decide +kernel)
  have p2 : Piece Pdk.Sky130A.tech "met3_ncap" "met3_cap" := piece_of "met3" (by decide +kernel)
  have l1 := (lies_spot (s := Sky130A.script) (ps := [(70, 20)]) (a := "met3_ncap") (by decide +kernel)).1
    [(70, 20), (89, 44)]
  have l2 := (lies_spot (s := Sky130A.script) (ps := [(70, 20), (89, 44)]) (a := "met3_cap") (by decide +kernel)).2
    [(70, 20)]
  have seam : ∀ (L : Layout) (c : Cell) (a b : String), (a, b) ∉ skySeams → ¬ Seam L c Pdk.Sky130A.tech a b := by
    intro L c a b hab h
    generalize ht : Pdk.Sky130A.tech = t at h
    cases h with
    | metal5 => exact absurd (congrArg Technology.name ht) (by decide)
    | _ => exact hab (by simp [skySeams])
  have q1 : PinPiece Pdk.Sky130A.tech "met1" "met1_pin_con" := by
    have : (Pdk.Sky130A.tech.computed.any fun k => k.kind == .pin && k.info.name == "met1_pin_con" &&
        k.original == "met1" ++ ".pin") = true := by decide +kernel
    obtain ⟨k, hk, h⟩ := List.any_eq_true.1 this
    simp only [Bool.and_eq_true] at h
    exact ⟨k, hk, eq_of_beq h.1.1, eq_of_beq h.1.2, "met1", (Engine25.canonical_iff _ _ _).1 (by decide +kernel),
      eq_of_beq h.2⟩
  have p3 : Piece Pdk.Sky130A.tech "met1" "met1_con" := piece_of "met1" (by decide +kernel)
  have l3 := (lies_spot (s := Sky130A.script) (ps := [(68, 20), (68, 16)]) (a := "met1_pin_con") (by decide +kernel)).1 []
  have l4 := (lies_spot (s := Sky130A.script) (ps := [(68, 20), (68, 16)]) (a := "met1_con") (by decide +kernel)).1 []
  refine ⟨⟨hm, p1, p2, l1, l2, conductor_whole_partial .sky130A (fun _ => trivial) (fun _ _ _ => trivial) _ hm p1 p2 trivial
    l1 l2 (seam _ _ _ _ (by decide)) (seam _ _ _ _ (by decide))⟩, q1, p3, l3, l4,
    pins_join_partial .sky130A (fun _ => rfl) (fun _ _ => Eq.symm) _ q1 p3 l3 l4 fun h => ?_⟩
  generalize hn : "met1_con" = l at h
  generalize "met1_pin_con" = q at h
  cases h <;> exact absurd hn (by decide)

/-- **C124, violated.** A pin on the bottom plate of a MIM capacitor of sky130A can be apart from the plate, and the seams are
real: neighbouring shapes of one conductor can be apart there. -/
theorem conductors_apart :
    Apart Sky130A.script "met3_pin_con" "met3_cap" ∧ Apart Sky130A.script "met4_pin_con" "met4_cap" ∧
      ApartNext Sky130A.script "poly_con" "poly_vpp" ∧ ApartNext Sky130A.script "li_con" "li_vpp" ∧
      ApartNext Sky130A.script "met3_cap" "met3_vpp" ∧ ApartNext Sky130A.script "met4_cap" "met4_vpp" ∧
      ApartNext Sg13g2.script "metal5_n_cap" "metal5_cap" := by
  have h1 : apart Sky130A.script [(70, 20), (70, 16), (89, 44)] ["met3_pin_con"] "met3_pin_con" "met3_cap" = true := by
    decide +kernel
  have h2 : apart Sky130A.script [(71, 20), (71, 16), (97, 44)] ["met4_pin_con"] "met4_pin_con" "met4_cap" = true := by
    decide +kernel
  have h3 : apartNext Sky130A.script [(66, 20)] [(66, 20), (82, 64)] ["poly_con"] "poly_con" "poly_vpp" = true := by
    decide +kernel
  have h4 : apartNext Sky130A.script [(67, 20)] [(67, 20), (82, 64)] ["li_con"] "li_con" "li_vpp" = true := by
    decide +kernel
  have h5 : apartNext Sky130A.script [(70, 20), (89, 44)] [(70, 20), (82, 64)] ["met3_cap", "met3_con"] "met3_cap"
      "met3_vpp" = true := by
    decide +kernel
  have h6 : apartNext Sky130A.script [(71, 20), (97, 44)] [(71, 20), (82, 64)] ["met4_cap", "met4_con"] "met4_cap"
      "met4_vpp" = true := by
    decide +kernel
  have h7 : apartNext Sg13g2.script [(67, 0), (67, 29)] [(67, 0), (67, 29), (36, 0)] ["metal5_n_cap"] "metal5_n_cap"
      "metal5_cap" = true := by
    decide +kernel
  exact ⟨⟨_, _, apart_sound h1⟩, ⟨_, _, apart_sound h2⟩, ⟨_, apartNext_sound h3⟩, ⟨_, apartNext_sound h4⟩,
    ⟨_, apartNext_sound h5⟩, ⟨_, apartNext_sound h6⟩, ⟨_, apartNext_sound h7⟩⟩

end Verif.LvsRules
