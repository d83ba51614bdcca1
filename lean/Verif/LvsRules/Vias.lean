import Verif.LvsRules.Check
import Verif.LvsRules.Sky130A
import Verif.LvsRules.Sg13g2
import Verif.Pdk.Stack

/-!
# Contacts and vias of the LVS scripts join the conductors they lie on
-/

namespace Verif.LvsRules

open Pdk (Technology Carries SameLayer StackLayer Contact canonical)

/-! ### Specification -/

/-- The technology and the LVS script that KPEX ships for it. -/
inductive ShippedWith : Technology → Script → Prop
  | sky130A : ShippedWith Pdk.Sky130A.tech Sky130A.script
  | sg13g2 : ShippedWith Pdk.Sg13g2.tech Sg13g2.script

/-- `l` is a layer of the LVS result that the technology counts as part of the layer named `n`: as regular shapes or as part
of a capacitor device. -/
def Piece (t : Technology) (n l : String) : Prop :=
  ∃ k ∈ t.computed, (k.kind = .regular ∨ k.kind = .deviceCapacitor) ∧ k.info.name = l ∧ SameLayer t n l

/-- Where the scripts leave a contact or via `v` apart from a conductor `l` at the same place `c`: on sky130A, a contact on
gate poly that is not inside the nitride-poly-cut layer (95/20), the contacts inside a vertical parallel plate capacitor
(82/64), and a via 2 under a MIM capacitor (89/44); on sg13g2, a via on Metal5 inside a Metal5 slit (67/24) or resistor
marker (67/29). -/
inductive Gap (L : Layout) (c : Cell) : Technology → String → String → Prop
  | poly : ¬ L.drawn 95 20 c → Gap L c Pdk.Sky130A.tech "licon_poly_con" "poly_con"
  | vpp {v l : String} : v ∈ ["licon_nsd_con", "licon_psd_con", "licon_poly_con"] → l ∈ ["poly_vpp", "li_vpp"] →
    L.drawn 82 64 c → Gap L c Pdk.Sky130A.tech v l
  | mim : L.drawn 89 44 c → Gap L c Pdk.Sky130A.tech "via2_con" "met3_cap"
  | metal5 {v l : String} : l ∈ ["metal5_n_cap", "metal5_cap"] → L.drawn 67 24 c ∨ L.drawn 67 29 c →
    Gap L c Pdk.Sg13g2.tech v l

/-- The layers `v` and `l` have shapes at one place of some layout that are not in one net, whatever places touch. -/
def Apart (s : Script) (v l : String) : Prop :=
  ∃ L c, s.Lies L v c ∧ s.Lies L l c ∧ ∀ touch, ¬ SameNet s touch L (v, c) (l, c)

/-! ### Proofs -/

/-- What is known at a place outside the gaps of sky130A. -/
def skyFacts (v l : String) : Facts :=
  if v = "licon_poly_con" ∧ l = "poly_con" then [(true, .drawn 95 20)]
  else if v ∈ ["licon_nsd_con", "licon_psd_con", "licon_poly_con"] ∧ l ∈ ["poly_vpp", "li_vpp"] then [(false, .drawn 82 64)]
  else if v = "via2_con" ∧ l = "met3_cap" then [(false, .drawn 89 44)] else []

/-- What is known at a place outside the gaps of sg13g2. -/
def sgFacts (_v l : String) : Facts :=
  if l ∈ ["metal5_n_cap", "metal5_cap"] then [(false, .drawn 67 24), (false, .drawn 67 29)] else []

theorem skyFacts_at {L : Layout} {c : Cell} {v l : String} (h : ¬ Gap L c Pdk.Sky130A.tech v l) :
    (skyFacts v l).At L c := by
  unfold skyFacts
  split_ifs with h1 h2 h3
  · obtain ⟨rfl, rfl⟩ := h1
    intro f hf
    obtain rfl := List.mem_singleton.1 hf
    show L.drawn 95 20 c
    by_contra hn
    exact h (.poly hn)
  · intro f hf
    obtain rfl := List.mem_singleton.1 hf
    exact fun hd => h (.vpp h2.1 h2.2 hd)
  · obtain ⟨rfl, rfl⟩ := h3
    intro f hf
    obtain rfl := List.mem_singleton.1 hf
    exact fun hd => h (.mim hd)
  · exact fun f hf => by cases hf

theorem sgFacts_at {L : Layout} {c : Cell} {v l : String} (h : ¬ Gap L c Pdk.Sg13g2.tech v l) : (sgFacts v l).At L c := by
  unfold sgFacts
  split_ifs with h1
  · intro f hf
    rcases List.mem_cons.1 hf with rfl | hf
    · exact fun hd => h (.metal5 h1 (.inl hd))
    · obtain rfl := List.mem_singleton.1 hf
      exact fun hd => h (.metal5 h1 (.inr hd))
  · exact fun f hf => by cases hf

/-- The check of all contacts of the stack with all layers of the conductors they join. -/
def viasOk (t : Technology) (s : Script) (facts : String → String → Facts) : Bool :=
  t.stack.all fun x => match Pdk.carried x with
    | none => true
    | some (c, _) => t.computed.all fun k =>
      !((k.kind == .regular || k.kind == .deviceCapacitor) &&
        (canonical t.read k.info.name == canonical t.read x.name ||
          canonical t.read k.info.name == canonical t.read c.metalAbove)) ||
      s.layers.all fun v => v.1 != c.name || s.layers.all fun l => l.1 != k.info.name || together s (facts v.1 l.1) v l

set_option maxRecDepth 100000 in
theorem sky_vias : viasOk Pdk.Sky130A.tech Sky130A.script skyFacts = true := by decide +kernel

set_option maxRecDepth 100000 in
theorem sg_vias : viasOk Pdk.Sg13g2.tech Sg13g2.script sgFacts = true := by decide +kernel

theorem canonical_of {t : Technology} {a b : String} (h : SameLayer t a b) : canonical t.read a = canonical t.read b :=
  h.canonical

theorem together_of_vias {t : Technology} {s : Script} {facts : String → String → Facts} (h : viasOk t s facts = true)
    {n : String} {z th : ℚ} {c : Contact} (hc : Carries t n z th c) {l : String} (hl : Piece t n l ∨ Piece t c.metalAbove l)
    {e f : Expr} (he : (c.name, e) ∈ s.layers) (hf : (l, f) ∈ s.layers) :
    together s (facts c.name l) (c.name, e) (l, f) = true := by
  obtain ⟨x, hx, hn, z', hcar⟩ : ∃ x ∈ t.stack, x.name = n ∧ ∃ z', Pdk.carried x = some (c, z') := by
    rcases hc with hx | ⟨d, r, hx, -, -⟩
    · exact ⟨_, hx, rfl, _, rfl⟩
    · exact ⟨_, hx, rfl, _, rfl⟩
  have hs := List.all_eq_true.1 h x hx
  rw [hcar] at hs
  obtain ⟨k, hk, hkind, hkl, hsame⟩ : ∃ k ∈ t.computed, (k.kind = .regular ∨ k.kind = .deviceCapacitor) ∧
      k.info.name = l ∧ (canonical t.read l = canonical t.read n ∨ canonical t.read l = canonical t.read c.metalAbove) := by
    rcases hl with ⟨k, hk, hkind, hkl, hsame⟩ | ⟨k, hk, hkind, hkl, hsame⟩
    · exact ⟨k, hk, hkind, hkl, .inl (canonical_of hsame).symm⟩
    · exact ⟨k, hk, hkind, hkl, .inr (canonical_of hsame).symm⟩
  have hs := List.all_eq_true.1 hs k hk
  rw [hkl, hn, Bool.or_eq_true] at hs
  rcases hs with hs | hs
  · exfalso
    rw [Bool.not_eq_true', Bool.and_eq_false_iff, Bool.or_eq_false_iff, Bool.or_eq_false_iff] at hs
    rcases hs with hs | hs
    · rcases hkind with hk' | hk' <;> rw [hk'] at hs <;> exact absurd hs (by decide)
    · rcases hsame with hk' | hk' <;> rw [hk'] at hs <;> simp at hs
  · have hs := List.all_eq_true.1 hs _ he
    rw [Bool.or_eq_true] at hs
    have hs := List.all_eq_true.1 (hs.resolve_left (by simp)) _ hf
    rw [Bool.or_eq_true] at hs
    exact hs.resolve_left (by simp)

/-- **C123.** LVS with a shipped script joins what contacts and vias touch: wherever a contact or via of the process stack
lies on a layer of the conductor below or above it, the two belong to one net, except at the gaps. -/
theorem vias_join_partial {t : Technology} {s : Script} (hts : ShippedWith t s) {touch : Cell → Cell → Prop}
    (hrefl : ∀ c, touch c c) (hsym : ∀ c c', touch c c' → touch c' c) (L : Layout) {n : String} {z th : ℚ} {c : Contact}
    (hc : Carries t n z th c) {l : String} (hl : Piece t n l ∨ Piece t c.metalAbove l) {p : Cell}
    (hv : s.Lies L c.name p) (hp : s.Lies L l p) (hgap : ¬ Gap L p t c.name l) :
    SameNet s touch L (c.name, p) (l, p) := by
  obtain ⟨e, he, hv⟩ := hv
  obtain ⟨f, hf, hp⟩ := hp
  cases hts with
  | sky130A =>
    exact together_sound hrefl hsym (skyFacts_at hgap) he hf hv hp (together_of_vias sky_vias hc hl he hf)
  | sg13g2 =>
    exact together_sound hrefl hsym (sgFacts_at hgap) he hf hv hp (together_of_vias sg_vias hc hl he hf)

/-- **C123.** So the conductors below and above a contact or via are one net. -/
theorem vias_join_layers_partial {t : Technology} {s : Script} (hts : ShippedWith t s) {touch : Cell → Cell → Prop}
    (hrefl : ∀ c, touch c c) (hsym : ∀ c c', touch c c' → touch c' c) (L : Layout) {n : String} {z th : ℚ} {c : Contact}
    (hc : Carries t n z th c) {b a : String} (hb : Piece t n b) (ha : Piece t c.metalAbove a) {p : Cell}
    (hv : s.Lies L c.name p) (hbp : s.Lies L b p) (hap : s.Lies L a p) (hgb : ¬ Gap L p t c.name b)
    (hga : ¬ Gap L p t c.name a) : SameNet s touch L (b, p) (a, p) :=
  (vias_join_partial hts hrefl hsym L hc (.inl hb) hv hbp hgb).symm.trans
    (vias_join_partial hts hrefl hsym L hc (.inr ha) hv hap hga)

/-- **C123, violated.** The gaps are real: a contact on gate poly, the contacts in a vertical parallel plate capacitor, a
via 2 under a MIM capacitor and a via on marked Metal5 can be apart from the conductor they lie on, and Metal 2 from Metal 3
with a via 2 between them. -/
theorem vias_apart :
    Apart Sky130A.script "licon_poly_con" "poly_con" ∧ Apart Sky130A.script "licon_poly_con" "poly_vpp" ∧
      Apart Sky130A.script "licon_poly_con" "li_vpp" ∧ Apart Sky130A.script "via2_con" "met3_cap" ∧
      (∃ L c, Sky130A.script.Lies L "via2_con" c ∧ Sky130A.script.Lies L "met2_con" c ∧
        Sky130A.script.Lies L "met3_cap" c ∧ ∀ touch, ¬ SameNet Sky130A.script touch L ("met2_con", c) ("met3_cap", c)) ∧
      Apart Sg13g2.script "via4_drw" "metal5_n_cap" ∧ Apart Sg13g2.script "topvia1_n_cap" "metal5_n_cap" := by
  have h1 : apart Sky130A.script [(66, 44), (66, 20)] ["licon_poly_con", "licon"] "licon_poly_con" "poly_con" = true := by
    decide +kernel
  have h2 : apart Sky130A.script [(66, 44), (66, 20), (82, 64)] ["licon_poly_con", "licon"] "licon_poly_con" "poly_vpp" =
      true := by
    decide +kernel
  have h3 : apart Sky130A.script [(66, 44), (66, 20), (67, 20), (82, 64)] ["licon_poly_con", "licon"] "licon_poly_con"
      "li_vpp" = true := by
    decide +kernel
  have h4 : apart Sky130A.script [(69, 20), (69, 44), (70, 20), (89, 44)] ["via2_con", "met2_con"] "via2_con" "met3_cap" =
      true := by
    decide +kernel
  have h5 : apart Sky130A.script [(69, 20), (69, 44), (70, 20), (89, 44)] ["via2_con", "met2_con"] "met2_con" "met3_cap" =
      true := by
    decide +kernel
  have h6 : apart Sg13g2.script [(66, 0), (67, 0), (67, 29)] ["via4_drw"] "via4_drw" "metal5_n_cap" = true := by
    decide +kernel
  have h7 : apart Sg13g2.script [(125, 0), (67, 0), (67, 29)] ["topvia1_n_cap"] "topvia1_n_cap" "metal5_n_cap" = true := by
    decide +kernel
  exact ⟨⟨_, _, apart_sound h1⟩, ⟨_, _, apart_sound h2⟩, ⟨_, _, apart_sound h3⟩, ⟨_, _, apart_sound h4⟩,
    ⟨_, _, (apart_sound h4).1, apart_sound h5⟩, ⟨_, _, apart_sound h6⟩, ⟨_, _, apart_sound h7⟩⟩

/-- **C123.** Every layer that the technology knows from LVS is named by the script. -/
theorem layers_named {t : Technology} {s : Script} (hts : ShippedWith t s) : ∀ k ∈ t.computed, k.info.name ∈ s.names := by
  have h : (t.computed.all fun k => s.names.contains k.info.name) = true := by
    cases hts <;> decide +kernel
  exact fun k hk => List.contains_iff_mem.1 (List.all_eq_true.1 h k hk)

theorem piece_of {t : Technology} {n l : String} (o : String) (h : (t.computed.any fun k =>
    (k.kind == .regular || k.kind == .deviceCapacitor) && k.info.name == l &&
      canonical t.read n == some o && canonical t.read l == some o) = true) : Piece t n l := by
  obtain ⟨k, hk, h⟩ := List.any_eq_true.1 h
  simp only [Bool.and_eq_true, Bool.or_eq_true] at h
  obtain ⟨⟨⟨hkind, hkl⟩, hn⟩, hl⟩ := h
  exact ⟨k, hk, hkind.imp eq_of_beq eq_of_beq, eq_of_beq hkl, o, (Engine25.canonical_iff _ _ _).1 (eq_of_beq hn),
    (Engine25.canonical_iff _ _ _).1 (eq_of_beq hl)⟩

/-- C123: the hypotheses are met by a via 1 between Metal 1 and Metal 2. -/
theorem vias_join_ex :
    (∃ z th c, Carries Pdk.Sky130A.tech "met1" z th c ∧ c.name = "via1_con" ∧ c.metalAbove = "met2") ∧
      Sky130A.script.Lies (spot [(68, 20), (68, 44), (69, 20)]) "via1_con" (0, 0) ∧
      Sky130A.script.Lies (spot [(68, 20), (68, 44), (69, 20)]) "met1_con" (0, 0) ∧
      Sky130A.script.Lies (spot [(68, 20), (68, 44), (69, 20)]) "met2_con" (0, 0) ∧
      Piece Pdk.Sky130A.tech "met1" "met1_con" ∧ Piece Pdk.Sky130A.tech "met2" "met2_con" ∧
      SameNet Sky130A.script (· = ·) (spot [(68, 20), (68, 44), (69, 20)]) ("met1_con", (0, 0)) ("met2_con", (0, 0)) := by
  have hc : Carries Pdk.Sky130A.tech "met1" 1.3761 0.36 ⟨"via1_con", "met1", "met2", 0.27, 0.15, 0.17, 0.055⟩ :=
    Or.inl (by decide +kernel)
  have hv := (lies_spot (s := Sky130A.script) (ps := [(68, 20), (68, 44), (69, 20)]) (a := "via1_con") (by decide +kernel)).1 []
  have h1 := (lies_spot (s := Sky130A.script) (ps := [(68, 20), (68, 44), (69, 20)]) (a := "met1_con") (by decide +kernel)).1 []
  have h2 := (lies_spot (s := Sky130A.script) (ps := [(68, 20), (68, 44), (69, 20)]) (a := "met2_con") (by decide +kernel)).1 []
  have p1 : Piece Pdk.Sky130A.tech "met1" "met1_con" := piece_of "met1" (by decide +kernel)
  have p2 : Piece Pdk.Sky130A.tech "met2" "met2_con" := piece_of "met2" (by decide +kernel)
  have hg : ∀ (L : Layout) (c : Cell) (l : String), ¬ Gap L c Pdk.Sky130A.tech "via1_con" l := by
    intro L c l h
    generalize ht : Pdk.Sky130A.tech = t at h
    generalize hn : "via1_con" = v at h
    cases h with
    | poly => exact absurd hn (by decide)
    | vpp hv =>
      subst hn
      exact absurd hv (by decide)
    | mim => exact absurd hn (by decide)
    | metal5 => exact absurd (congrArg Technology.name ht) (by decide)
  exact ⟨⟨_, _, _, hc, rfl, rfl⟩, hv, h1, h2, p1, p2,
    vias_join_layers_partial .sky130A (fun _ => rfl) (fun _ _ => Eq.symm) _ hc p1 p2 hv h1 h2 (hg _ _ _) (hg _ _ _)⟩

end Verif.LvsRules
