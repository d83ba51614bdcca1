import Verif.LvsRules.Resistors

/-!
# The LVS scripts join conductors only through contacts and vias
-/

namespace Verif.LvsRules

open Pdk (Technology Carries SameLayer StackLayer Contact canonical)

/-! ### Specification -/

/-- A conductor of a process: its name, the layers of the LVS result that belong to it, and the drawn layers and texts on
which it is drawn. A via between two metals and the part of it that ends on the plate of a capacitor are two parts. -/
structure Conductor where
  name : String
  layers : List String
  drawn : List (Nat × Nat)
  texts : List (Nat × Nat)
  /-- The part is only where these are drawn. -/
  need : List (Nat × Nat)
  /-- The part is only where these are not drawn. -/
  avoid : List (Nat × Nat)
deriving DecidableEq

/-- A contact or via of a process, with the conductors it joins. -/
structure Cut extends Conductor where
  ends : List String

/-- A process above the silicon. The silicon, and what the scripts derive for single devices, is the part `"below"`. -/
structure Process where
  conductors : List Conductor
  cuts : List Cut

/-- sky130A. -/
def sky130A : Process where
  conductors := [
    ⟨"poly", ["poly_con", "poly_vpp", "poly_pin_con", "poly_label"], [(66, 20)], [(66, 5)], [], []⟩,
    ⟨"li1", ["li_con", "li_vpp", "li_pin_con", "li_label"], [(67, 20)], [(67, 5)], [], []⟩,
    ⟨"met1", ["met1_con", "met1_vpp", "met1_pin_con", "met1_label"], [(68, 20)], [(68, 5)], [], []⟩,
    ⟨"met2", ["met2_con", "met2_vpp", "met2_pin_con", "met2_label"], [(69, 20)], [(69, 5)], [], []⟩,
    ⟨"met3", ["met3_con", "met3_ncap", "met3_cap", "met3_vpp", "met3_pin_con", "met3_label"], [(70, 20)], [(70, 5)], [], []⟩,
    ⟨"capm", ["capm"], [(89, 44)], [], [], []⟩,
    ⟨"met4", ["met4_con", "met4_ncap", "met4_cap", "met4_vpp", "met4_pin_con", "met4_label"], [(71, 20)], [(71, 5)], [], []⟩,
    ⟨"capm2", ["capm2"], [(97, 44)], [], [], []⟩,
    ⟨"met5", ["met5_con", "met5_vpp", "met5_pin_con", "met5_label"], [(72, 20)], [(72, 5)], [], []⟩,
    ⟨"rdl", ["rdl", "rdl_label"], [(74, 20)], [(74, 5)], [], []⟩,
    ⟨"pad", ["pad", "pad_label"], [(76, 20)], [(76, 5)], [], []⟩]
  cuts := [
    ⟨⟨"licon1", ["licon", "licon_npc", "licon_nsd_con", "licon_psd_con", "licon_poly_con", "licon_vpp"], [(66, 44)], [], [], []⟩,
      ["below", "poly", "li1"]⟩,
    ⟨⟨"mcon", ["mcon_con", "mcon_vpp"], [(67, 44)], [], [], []⟩, ["li1", "met1"]⟩,
    ⟨⟨"via", ["via1_con", "via1_vpp"], [(68, 44)], [], [], []⟩, ["met1", "met2"]⟩,
    ⟨⟨"via2", ["via2", "via2_con", "via2_vpp"], [(69, 44)], [], [], []⟩, ["met2", "met3"]⟩,
    ⟨⟨"via3", ["via3_ncap"], [(70, 44)], [], [], [(89, 44)]⟩, ["met3", "met4"]⟩,
    ⟨⟨"via3 on capm", ["via3_cap"], [(70, 44)], [], [(89, 44)], []⟩, ["capm", "met4", "via3"]⟩,
    ⟨⟨"via3 in VPP", ["via3_vpp"], [(70, 44)], [], [(82, 64)], []⟩, ["met3", "met4"]⟩,
    ⟨⟨"via4", ["via4_ncap"], [(71, 44)], [], [], [(97, 44)]⟩, ["met4", "met5"]⟩,
    ⟨⟨"via4 on capm2", ["via4_cap"], [(71, 44)], [], [(97, 44)], []⟩, ["capm2", "met5", "via4"]⟩,
    ⟨⟨"via4 in VPP", ["via4_vpp"], [(71, 44)], [], [(82, 64)], []⟩, ["met4", "met5"]⟩]

/-- ihp-sg13g2. Metals have filler shapes (datatype 22), the emitter window joins a bipolar transistor with Metal1, Vmim the
upper plate of a MIM capacitor with TopMetal1. -/
def sg13g2 : Process where
  conductors := [
    ⟨"GatPoly", ["poly_con", "poly_pin_con", "poly_text"], [(5, 0), (5, 22)], [(5, 25)], [], []⟩,
    ⟨"Metal1", ["metal1_con", "metal1_pin_con", "metal1_text"], [(8, 0), (8, 22)], [(8, 25)], [], []⟩,
    ⟨"Metal2", ["metal2_con", "metal2_pin_con", "metal2_text"], [(10, 0), (10, 22)], [(10, 25)], [], []⟩,
    ⟨"Metal3", ["metal3_con", "metal3_pin_con", "metal3_text"], [(30, 0), (30, 22)], [(30, 25)], [], []⟩,
    ⟨"Metal4", ["metal4_con", "metal4_pin_con", "metal4_text"], [(50, 0), (50, 22)], [(50, 25)], [], []⟩,
    ⟨"Metal5", ["metal5_con", "metal5_n_cap", "metal5_cap", "metal5_pin_con", "metal5_text", "cmim_btm", "rfmim_btm"],
      [(67, 0), (67, 22)], [(67, 25)], [], []⟩,
    ⟨"MIM", ["cmim_top", "rfmim_top"], [(36, 0)], [], [], []⟩,
    ⟨"TopMetal1", ["topmetal1_con", "topmetal1_pin_con", "topmetal1_text"], [(126, 0), (126, 22)], [(126, 25)], [], []⟩,
    ⟨"TopMetal2", ["topmetal2_con", "topmetal2_pin_con", "topmetal2_text"], [(134, 0), (134, 22)], [(134, 25)], [], []⟩]
  cuts := [
    ⟨⟨"Cont", ["cont_drw", "cont_nsd_con", "cont_psd_con", "cont_poly_con", "schottcky_p", "schottcky_n_con"], [(6, 0)], [], [], []⟩,
      ["below", "GatPoly", "Metal1"]⟩,
    ⟨⟨"EmWind", ["emwind_drw"], [(33, 0)], [], [], []⟩, ["below", "Metal1"]⟩,
    ⟨⟨"Via1", ["via1_drw"], [(19, 0)], [], [], []⟩, ["Metal1", "Metal2"]⟩,
    ⟨⟨"Via2", ["via2_drw"], [(29, 0)], [], [], []⟩, ["Metal2", "Metal3"]⟩,
    ⟨⟨"Via3", ["via3_drw"], [(49, 0)], [], [], []⟩, ["Metal3", "Metal4"]⟩,
    ⟨⟨"Via4", ["via4_drw"], [(66, 0)], [], [], []⟩, ["Metal4", "Metal5"]⟩,
    ⟨⟨"TopVia1", ["topvia1_n_cap"], [(125, 0)], [], [], [(36, 0)]⟩, ["Metal5", "TopMetal1"]⟩,
    ⟨⟨"Vmim", ["mim_via"], [(129, 0), (125, 0)], [], [(36, 0)], []⟩, ["MIM", "TopMetal1"]⟩,
    ⟨⟨"TopVia2", ["topvia2_drw"], [(133, 0)], [], [], []⟩, ["TopMetal1", "TopMetal2"]⟩]

/-- The parts of a process with shapes. -/
def Process.parts (P : Process) : List Conductor := P.conductors ++ P.cuts.map Cut.toConductor

/-- The part of the process to which a layer of the LVS result belongs. -/
def Process.part (P : Process) (l : String) : String :=
  match P.parts.find? fun k => k.layers.contains l with
  | some k => k.name
  | none => "below"

/-- The conductor, contact or via is drawn at the place `c`. -/
def Conductor.At (k : Conductor) (L : Layout) (c : Cell) : Prop :=
  ((∃ g ∈ k.drawn, L.drawn g.1 g.2 c) ∨ ∃ g ∈ k.texts, L.text g.1 g.2 c) ∧ (∀ g ∈ k.need, L.drawn g.1 g.2 c) ∧
    ∀ g ∈ k.avoid, ¬ L.drawn g.1 g.2 c

/-- The part `a` is drawn at the place `c`; what is below may be anywhere. -/
def Process.Has (P : Process) (L : Layout) (a : String) (c : Cell) : Prop :=
  a = "below" ∨ ∃ k ∈ P.parts, k.name = a ∧ k.At L c

/-- Touching shapes that conduct: of one part, or of a contact or via and a conductor that it joins. -/
inductive Linked (P : Process) (touch : Cell → Cell → Prop) (L : Layout) : String × Cell → String × Cell → Prop
  | refl (x) : Linked P touch L x x
  | symm {x y} : Linked P touch L x y → Linked P touch L y x
  | trans {x y z} : Linked P touch L x y → Linked P touch L y z → Linked P touch L x z
  | within {a p q} (ht : touch p q) (hp : P.Has L a p) (hq : P.Has L a q) : Linked P touch L (a, p) (a, q)
  | through {k b p q} (hk : k ∈ P.cuts) (hb : b ∈ k.ends) (ht : touch p q) (hp : P.Has L k.name p) (hq : P.Has L b q) :
    Linked P touch L (k.name, p) (b, q)

/-- The technology, its script and its process. -/
inductive ProcessOf : Technology → Script → Process → Prop
  | sky130A : ProcessOf Pdk.Sky130A.tech Sky130A.script sky130A
  | sg13g2 : ProcessOf Pdk.Sg13g2.tech Sg13g2.script sg13g2

/-- The contact or via is not drawn anywhere. -/
def Absent (L : Layout) (k : Cut) : Prop := ∀ c, ¬ k.At L c

/-- For sg13g2: there are no pins of inductors (27/2), and Metal5 reaches as far under the MIM capacitors as the design rules
say (the script lets their lower plates be 0.6 µm larger than Metal5 inside of the MIM layer). -/
def Regular (s : Script) (L : Layout) : Prop :=
  s = Sg13g2.script → (∀ c, ¬ L.drawn 27 2 c) ∧
    ∀ l ∈ ["cmim_btm", "rfmim_btm"], ∀ c, s.Lies L l c → L.drawn 67 0 c ∨ L.drawn 67 22 c

/-! ### Proofs -/

/-- The layer lies inside the union of the drawn layers `ds` and the texts `ts`. -/
def inside (ds ts : List (Nat × Nat)) : Expr → Bool
  | .drawn l d => ds.contains (l, d)
  | .text l d => ts.contains (l, d)
  | .other _ => false
  | .and a b => inside ds ts a || inside ds ts b
  | .or a b => inside ds ts a && inside ds ts b
  | .diff a _ => inside ds ts a
  | .some _ a => inside ds ts a
  | .made _ _ => false

theorem inside_sound {ds ts : List (Nat × Nat)} {L : Layout} {c : Cell} : ∀ (e : Expr), inside ds ts e = true →
    holds L e c → (∃ g ∈ ds, L.drawn g.1 g.2 c) ∨ ∃ g ∈ ts, L.text g.1 g.2 c
  | .drawn l d, h, hc => .inl ⟨_, List.contains_iff_mem.1 h, hc⟩
  | .text l d, h, hc => .inr ⟨_, List.contains_iff_mem.1 h, hc⟩
  | .and a b, h, hc => (Bool.or_eq_true_iff.1 h).elim (fun h => inside_sound a h hc.1) fun h => inside_sound b h hc.2
  | .or a b, h, hc => hc.elim (inside_sound a (Bool.and_eq_true_iff.1 h).1) (inside_sound b (Bool.and_eq_true_iff.1 h).2)
  | .diff a _, h, hc => inside_sound a h hc.1
  | .some _ a, h, hc => inside_sound a h hc.1
  | .other _, h, _ => by cases h
  | .made _ _, h, _ => by cases h

/-- The layers of the script that belong to a part lie inside its drawn layers and texts, except `free`. -/
def insideOk (s : Script) (P : Process) (free : List String) : Bool :=
  s.layers.all fun l => free.contains l.1 || match P.parts.find? fun k => k.layers.contains l.1 with
    | none => true
    | some k => inside k.drawn k.texts l.2 && (k.need.all fun g => inside [g] [] l.2) &&
      k.avoid.all fun g => contradictory ((true, .drawn g.1 g.2) :: present l.2)

/-- A contact or via `a` joins the part `b`. -/
def meets (P : Process) (a b : String) : Bool := P.cuts.any fun k => k.name == a && k.ends.contains b

/-- Every `connect` statement joins layers of one part, or a contact or via with a part that it joins, or a layer inside the
drawn layers `gone`. -/
def connectsOk (s : Script) (P : Process) (gone : List (Nat × Nat)) : Bool :=
  s.connects.all fun p => P.part p.1 == P.part p.2 || meets P (P.part p.1) (P.part p.2) ||
    meets P (P.part p.2) (P.part p.1) ||
    (s.layers.all fun l => !(l.1 == p.1) || inside gone [] l.2) || s.layers.all fun l => !(l.1 == p.2) || inside gone [] l.2

set_option maxRecDepth 100000 in
theorem sky_parts : insideOk Sky130A.script sky130A [] = true ∧ connectsOk Sky130A.script sky130A [] = true := by
  decide +kernel

set_option maxRecDepth 100000 in
theorem sg_parts : insideOk Sg13g2.script sg13g2 ["cmim_btm", "rfmim_btm"] = true ∧
    connectsOk Sg13g2.script sg13g2 [(27, 2)] = true := by
  decide +kernel

theorem has_of_inside {s : Script} {P : Process} {free : List String} (h : insideOk s P free = true) {L : Layout}
    {l : String} {c : Cell} (hl : s.Lies L l c) (hf : l ∉ free) : P.Has L (P.part l) c := by
  obtain ⟨e, he, hc⟩ := hl
  have h1 := List.all_eq_true.1 h _ he
  rw [Bool.or_eq_true] at h1
  have h1 := h1.resolve_left fun h => hf (List.contains_iff_mem.1 h)
  unfold Process.part
  cases hk : P.parts.find? fun k => k.layers.contains l with
  | none => exact .inl rfl
  | some k =>
    rw [hk] at h1
    simp only [Bool.and_eq_true] at h1
    refine .inr ⟨k, List.mem_of_find?_eq_some hk, rfl, inside_sound e h1.1.1 hc, fun g hg => ?_, fun g hg hd => ?_⟩
    · rcases inside_sound e (List.all_eq_true.1 h1.1.2 g hg) hc with ⟨g', hg', hd⟩ | ⟨g', hg', -⟩
      · obtain rfl := List.mem_singleton.1 hg'
        exact hd
      · cases hg'
    · refine contradictory_sound (L := L) (c := c) ?_ (List.all_eq_true.1 h1.2 g hg)
      exact Facts.At.append (F := [(true, .drawn g.1 g.2)]) (fun f hf => by
        obtain rfl := List.mem_singleton.1 hf
        exact hd) (present_sound _ hc)

theorem meets_linked {P : Process} {touch : Cell → Cell → Prop} {L : Layout} {a b : String} {p q : Cell}
    (h : meets P a b = true) (ht : touch p q) (hp : P.Has L a p) (hq : P.Has L b q) : Linked P touch L (a, p) (b, q) := by
  obtain ⟨k, hk, h⟩ := List.any_eq_true.1 h
  rw [Bool.and_eq_true] at h
  obtain rfl := eq_of_beq h.1
  exact .through hk (List.contains_iff_mem.1 h.2) ht hp hq

theorem linked_of_sameNet {s : Script} {P : Process} {touch : Cell → Cell → Prop} (hsym : ∀ c c', touch c c' → touch c' c)
    {L : Layout} {gone : List (Nat × Nat)} (hgone : ∀ g ∈ gone, ∀ c, ¬ L.drawn g.1 g.2 c)
    (hok : connectsOk s P gone = true) (hhas : ∀ l c, s.Lies L l c → P.Has L (P.part l) c) {x y : String × Cell}
    (h : SameNet s touch L x y) : Linked P touch L (P.part x.1, x.2) (P.part y.1, y.2) := by
  have none : ∀ {l : String} {c : Cell}, s.Lies L l c →
      (s.layers.all fun k => !(k.1 == l) || inside gone [] k.2) = true → False := by
    rintro l c ⟨e, he, hc⟩ h
    have h1 := List.all_eq_true.1 h _ he
    rw [beq_self_eq_true, Bool.not_true, Bool.false_or] at h1
    rcases inside_sound e h1 hc with ⟨g, hg, hd⟩ | ⟨g, hg, -⟩
    · exact hgone g hg c hd
    · cases hg
  induction h with
  | refl => exact .refl _
  | symm _ ih => exact ih.symm
  | trans _ _ ih1 ih2 => exact ih1.trans ih2
  | within ht hc hc' => exact .within ht (hhas _ _ hc) (hhas _ _ hc')
  | @across l m c c' hlm ht hc hc' =>
    have h1 := List.all_eq_true.1 hok _ hlm
    simp only [Bool.or_eq_true] at h1
    rcases h1 with (((h1 | h1) | h1) | h1) | h1
    · have hm := hhas _ _ hc'
      rw [← eq_of_beq h1] at hm ⊢
      exact .within ht (hhas _ _ hc) hm
    · exact meets_linked h1 ht (hhas _ _ hc) (hhas _ _ hc')
    · exact (meets_linked h1 (hsym _ _ ht) (hhas _ _ hc') (hhas _ _ hc)).symm
    · exact (none hc (by simpa using h1)).elim
    · exact (none hc' (by simpa using h1)).elim

/-- **C126.** LVS with a shipped script joins only what conducts: if two shapes belong to one net, they are linked by touching
shapes, which go from a conductor to another only through a contact or via drawn there that joins the two. For sg13g2, this
holds for layouts without pins of inductors whose MIM capacitors obey the design rule. -/
theorem joins_through_cuts_partial {t : Technology} {s : Script} {P : Process} (hP : ProcessOf t s P)
    {touch : Cell → Cell → Prop} (hsym : ∀ c c', touch c c' → touch c' c) {L : Layout} (hL : Regular s L) {l m : String}
    {p q : Cell} (h : SameNet s touch L (l, p) (m, q)) : Linked P touch L (P.part l, p) (P.part m, q) := by
  cases hP with
  | sky130A =>
    exact linked_of_sameNet hsym (gone := []) (fun g hg => by cases hg) sky_parts.2
      (fun l c hl => has_of_inside sky_parts.1 hl (by simp)) h
  | sg13g2 =>
    obtain ⟨hind, hmim⟩ := hL rfl
    refine linked_of_sameNet hsym (gone := [(27, 2)]) (fun g hg c => ?_) sg_parts.2 (fun l c hl => ?_) h
    · obtain rfl := List.mem_singleton.1 hg
      exact hind c
    · by_cases hf : l ∈ ["cmim_btm", "rfmim_btm"]
      · have hd := hmim l hf c hl
        have hpart : sg13g2.part l = "Metal5" := by
          rcases List.mem_cons.1 hf with rfl | hf
          · decide +kernel
          · obtain rfl := List.mem_singleton.1 hf
            decide +kernel
        rw [hpart]
        refine .inr ⟨⟨"Metal5", ["metal5_con", "metal5_n_cap", "metal5_cap", "metal5_pin_con", "metal5_text", "cmim_btm",
          "rfmim_btm"], [(67, 0), (67, 22)], [(67, 25)], [], []⟩, ?_, rfl, .inl ?_, by simp, by simp⟩
        · simp [Process.parts, sg13g2]
        · exact hd.elim (fun h => ⟨(67, 0), by simp, h⟩) fun h => ⟨(67, 22), by simp, h⟩
      · exact has_of_inside sg_parts.1 hl hf

/-- A part that has the name of a cut is the cut. -/
def cutsOk (P : Process) : Bool := P.cuts.all fun k => k.name != "below" && P.parts.all fun j =>
  j.name != k.name || decide (j = k.toConductor)

theorem cuts_ok {t : Technology} {s : Script} {P : Process} (hP : ProcessOf t s P) : cutsOk P = true := by
  cases hP <;> decide +kernel

theorem absent_iff {P : Process} (hP : cutsOk P = true) {L : Layout} {k : Cut} (hk : k ∈ P.cuts) (h : Absent L k) (c : Cell) :
    ¬ P.Has L k.name c := by
  have h1 := List.all_eq_true.1 hP _ hk
  simp only [Bool.and_eq_true, bne_iff_ne, ne_eq] at h1
  rintro (h2 | ⟨j, hj, hn, h2⟩)
  · exact h1.1 h2
  · have h3 := List.all_eq_true.1 h1.2 j hj
    rw [Bool.or_eq_true, hn] at h3
    have h3 := of_decide_eq_true (h3.resolve_left (by simp))
    subst h3
    exact h c h2

/-- **C126.** Conductors on different sides are apart: if every contact or via that joins a conductor of the set `U` with one
that is not in it is missing in the layout, then no net has shapes of both sides. -/
theorem sides_apart_partial {t : Technology} {s : Script} {P : Process} (hP : ProcessOf t s P)
    {touch : Cell → Cell → Prop} (hsym : ∀ c c', touch c c' → touch c' c) {L : Layout} (hL : Regular s L)
    (U : String → Prop) (hU : ∀ k ∈ P.cuts, Absent L k ∨ ∀ b ∈ k.ends, U b ↔ U k.name) {l m : String} {p q : Cell}
    (h : SameNet s touch L (l, p) (m, q)) : U (P.part l) ↔ U (P.part m) := by
  have key : ∀ {x y : String × Cell}, Linked P touch L x y → (U x.1 ↔ U y.1) := by
    intro x y h
    induction h with
    | refl => exact Iff.rfl
    | symm _ ih => exact ih.symm
    | trans _ _ ih1 ih2 => exact ih1.trans ih2
    | within => exact Iff.rfl
    | through hk hb ht hp hq =>
      rcases hU _ hk with h | h
      · exact (absent_iff (cuts_ok hP) hk h _ hp).elim
      · exact (h _ hb).symm
  exact key (joins_through_cuts_partial hP hsym hL h)

theorem Path.symm {touch : Cell → Cell → Prop} (hsym : ∀ c c', touch c c' → touch c' c) {A : Cell → Prop} {p q : Cell}
    (h : Path touch A p q) : Path touch A q p := by
  induction h with
  | refl => exact .refl
  | tail _ h ih => exact Relation.ReflTransGen.head ⟨hsym _ _ h.1, h.2.2, h.2.1⟩ ih

/-- **C126.** Crossing wires are no short: in a layout without contacts and vias, two shapes belong to one net only if they are
shapes of one conductor, connected by touching places of this conductor. -/
theorem crossing_apart_partial {t : Technology} {s : Script} {P : Process} (hP : ProcessOf t s P)
    {touch : Cell → Cell → Prop} (hsym : ∀ c c', touch c c' → touch c' c) {L : Layout} (hL : Regular s L)
    (hcut : ∀ k ∈ P.cuts, Absent L k) {l m : String} {p q : Cell} (h : SameNet s touch L (l, p) (m, q)) :
    P.part l = P.part m ∧ Path touch (P.Has L (P.part l)) p q := by
  have key : ∀ {x y : String × Cell}, Linked P touch L x y → x.1 = y.1 ∧ Path touch (P.Has L x.1) x.2 y.2 := by
    intro x y h
    induction h with
    | refl => exact ⟨rfl, .refl⟩
    | symm _ ih =>
      obtain ⟨h1, h2⟩ := ih
      rw [h1] at h2
      exact ⟨h1.symm, h2.symm hsym⟩
    | trans _ _ ih1 ih2 =>
      obtain ⟨h1, h2⟩ := ih1
      obtain ⟨h3, h4⟩ := ih2
      rw [← h1] at h4
      exact ⟨h1.trans h3, h2.trans h4⟩
    | within ht hp hq => exact ⟨rfl, .single ⟨ht, hp, hq⟩⟩
    | through hk hb ht hp hq => exact (absent_iff (cuts_ok hP) hk (hcut _ hk) _ hp).elim
  exact key (joins_through_cuts_partial hP hsym hL h)

/-! ### The parts and the technologies -/

/-- The check of `parts_of_technology`. -/
def techPartsOk (t : Technology) (P : Process) : Bool := t.computed.all fun k => t.layers.all fun i =>
  !((k.kind == .regular || k.kind == .deviceCapacitor) && i.name == k.original &&
    [Pdk.Purpose.metal, .via, .contact, .mimCap].contains i.purpose) ||
  P.parts.any fun j => j.layers.contains k.info.name && j.drawn.contains i.drw && P.part k.info.name == j.name

/-- C126: the tables of the parts fit to the technologies: every layer of the LVS result that the technology counts to a drawn
metal, contact, via or plate of a capacitor belongs to a part that is drawn there. -/
theorem parts_of_technology {t : Technology} {s : Script} {P : Process} (hP : ProcessOf t s P) :
    ∀ k ∈ t.computed, ∀ i ∈ t.layers, k.kind = .regular ∨ k.kind = .deviceCapacitor → i.name = k.original →
      i.purpose ∈ [Pdk.Purpose.metal, .via, .contact, .mimCap] →
      ∃ j ∈ P.parts, k.info.name ∈ j.layers ∧ i.drw ∈ j.drawn ∧ P.part k.info.name = j.name := by
  have h : techPartsOk t P = true := by cases hP <;> decide +kernel
  intro k hk i hi hkind hn hp
  have h1 := List.all_eq_true.1 (List.all_eq_true.1 h k hk) i hi
  rw [Bool.or_eq_true, Bool.not_eq_true'] at h1
  have h2 := h1.resolve_left (by
    rw [Bool.not_eq_false]
    simp only [Bool.and_eq_true, Bool.or_eq_true]
    exact ⟨⟨hkind.imp (by rintro h; rw [h]; decide) (by rintro h; rw [h]; decide), by simp [hn]⟩, List.contains_iff_mem.2 hp⟩)
  obtain ⟨j, hj, h3⟩ := List.any_eq_true.1 h2
  simp only [Bool.and_eq_true] at h3
  exact ⟨j, hj, List.contains_iff_mem.1 h3.1.1, List.contains_iff_mem.1 h3.1.2, eq_of_beq h3.2⟩

/-- The check of `cuts_of_technology`. -/
def techCutsOk (t : Technology) (P : Process) : Bool := t.stack.all fun x => match Pdk.carried x with
  | none => true
  | some (c, _) => t.computed.all fun k =>
    !((k.kind == .regular || k.kind == .deviceCapacitor) &&
      (canonical t.read k.info.name == canonical t.read x.name ||
        canonical t.read k.info.name == canonical t.read c.metalAbove)) ||
    P.cuts.any fun j => j.layers.contains c.name && j.ends.contains (P.part k.info.name)

/-- C126: a contact or via of the process stack joins the parts below and above it. -/
theorem cuts_of_technology {t : Technology} {s : Script} {P : Process} (hP : ProcessOf t s P) {n : String} {z th : ℚ}
    {c : Contact} (hc : Carries t n z th c) {l : String} (hl : Piece t n l ∨ Piece t c.metalAbove l) :
    ∃ j ∈ P.cuts, c.name ∈ j.layers ∧ P.part l ∈ j.ends := by
  have h : techCutsOk t P = true := by cases hP <;> decide +kernel
  obtain ⟨x, hx, hn, z', hcar⟩ : ∃ x ∈ t.stack, x.name = n ∧ ∃ z', Pdk.carried x = some (c, z') := by
    rcases hc with hx | ⟨d, r, hx, -, -⟩
    · exact ⟨_, hx, rfl, _, rfl⟩
    · exact ⟨_, hx, rfl, _, rfl⟩
  have hs := List.all_eq_true.1 h x hx
  rw [hcar] at hs
  obtain ⟨k, hk, hkind, hkl, hsame⟩ : ∃ k ∈ t.computed, (k.kind = .regular ∨ k.kind = .deviceCapacitor) ∧
      k.info.name = l ∧ (canonical t.read l = canonical t.read n ∨ canonical t.read l = canonical t.read c.metalAbove) := by
    rcases hl with ⟨k, hk, hkind, hkl, hsame⟩ | ⟨k, hk, hkind, hkl, hsame⟩
    · exact ⟨k, hk, hkind, hkl, .inl (canonical_of hsame).symm⟩
    · exact ⟨k, hk, hkind, hkl, .inr (canonical_of hsame).symm⟩
  have hs := List.all_eq_true.1 hs k hk
  rw [hkl, hn, Bool.or_eq_true] at hs
  rcases hs with hs | hs
  · exfalso
    rw [Bool.not_eq_true', Bool.and_eq_false_iff, Bool.or_eq_false_iff, Bool.or_eq_false_iff] at hs
    rcases hs with hs | hs
    · rcases hkind with hk' | hk' <;> rw [hk'] at hs <;> exact absurd hs (by decide)
    · rcases hsame with hk' | hk' <;> rw [hk'] at hs <;> simp at hs
  · obtain ⟨j, hj, h3⟩ := List.any_eq_true.1 hs
    rw [Bool.and_eq_true] at h3
    exact ⟨j, hj, List.contains_iff_mem.1 h3.1, List.contains_iff_mem.1 h3.2⟩

/-! ### Violations and examples -/

theorem absent_spots {P : Process} {ps qs : List (Nat × Nat)}
    (h : (P.cuts.all fun k => k.drawn.all fun g => !ps.contains g && !qs.contains g) = true) :
    ∀ k ∈ P.cuts, Absent (spots ps qs) k := by
  rintro k hk c ⟨⟨g, hg, hc⟩ | ⟨g, hg, hc⟩, -⟩
  swap
  · exact hc
  have h1 := List.all_eq_true.1 (List.all_eq_true.1 h k hk) g hg
  rw [Bool.and_eq_true, Bool.not_eq_true', Bool.not_eq_true'] at h1
  rcases hc with ⟨-, hc⟩ | ⟨-, hc⟩
  · exact absurd (List.contains_iff_mem.2 hc) (by rw [h1.1]; decide)
  · exact absurd (List.contains_iff_mem.2 hc) (by rw [h1.2]; decide)

/-- **C126, violated.** The pin of an inductor of sg13g2 joins TopMetal1 with TopMetal2 without any contact or via. -/
theorem inductor_pin_shorts : ∃ L : Layout, (∀ k ∈ sg13g2.cuts, Absent L k) ∧
    Sg13g2.script.Lies L "topmetal1_con" (0, 0) ∧ Sg13g2.script.Lies L "topmetal2_con" (0, 0) ∧
    ∀ touch : Cell → Cell → Prop, (∀ c, touch c c) →
      SameNet Sg13g2.script touch L ("topmetal1_con", (0, 0)) ("topmetal2_con", (0, 0)) := by
  have h1 := (lies_spot (s := Sg13g2.script) (ps := [(126, 0), (134, 0), (27, 2)]) (a := "topmetal1_con") (by decide +kernel)).1 []
  have h2 := (lies_spot (s := Sg13g2.script) (ps := [(126, 0), (134, 0), (27, 2)]) (a := "topmetal2_con") (by decide +kernel)).1 []
  have h3 := (lies_spot (s := Sg13g2.script) (ps := [(126, 0), (134, 0), (27, 2)]) (a := "ind_pin") (by decide +kernel)).1 []
  refine ⟨spot [(126, 0), (134, 0), (27, 2)], absent_spots (by decide +kernel), h1, h2, fun touch hrefl => ?_⟩
  exact (SameNet.across (by decide +kernel) (hrefl _) h3 h1).symm.trans (.across (by decide +kernel) (hrefl _) h3 h2)

/-- A MIM capacitor at the place (0, 0) whose Metal5 ends with it, and another Metal5 wire at (2, 0), in reach of the enlarged
lower plate. -/
def mimLayout : Layout where
  drawn l d c := ((l, d) = (67, 0) ∧ (c = (0, 0) ∨ c = (2, 0))) ∨ ((l, d) = (36, 0) ∧ c = (0, 0))
  text _ _ _ := False
  other n c := (n = "mim_btm.covering(cmim_top)" ∨ n = "metal5_con.and(mim_drw).sized(0.6.um)") ∧
    (c = (0, 0) ∨ c = (1, 0) ∨ c = (2, 0))

/-- **C126, violated.** A Metal5 wire beside a MIM capacitor of sg13g2 is joined with its lower plate if the enlarged plate
reaches it, although the shapes do not touch. -/
theorem mim_plate_shorts : ∀ touch : Cell → Cell → Prop, (∀ c, touch c c) → (∀ c c', touch c c' → touch c' c) →
    (∀ c c', touch c c' → |c.1 - c'.1| ≤ 1) → touch (0, 0) (1, 0) → touch (1, 0) (2, 0) →
      SameNet Sg13g2.script touch mimLayout ("metal5_cap", (0, 0)) ("metal5_n_cap", (2, 0)) ∧
      ¬ Path touch (mimLayout.drawn 67 0) (0, 0) (2, 0) := by
  intro touch hrefl hsym hnear h01 h12
  have drawn : ∀ l d c, mimLayout.drawn l d c ↔
      ((l, d) = (67, 0) ∧ (c = (0, 0) ∨ c = (2, 0))) ∨ ((l, d) = (36, 0) ∧ c = (0, 0)) := fun _ _ _ => Iff.rfl
  have other : ∀ n c, mimLayout.other n c ↔ (n = "mim_btm.covering(cmim_top)" ∨
    n = "metal5_con.and(mim_drw).sized(0.6.um)") ∧ (c = (0, 0) ∨ c = (1, 0) ∨ c = (2, 0)) := fun _ _ => Iff.rfl
  have hcap : Sg13g2.script.Lies mimLayout "metal5_cap" (0, 0) := by
    refine ⟨Sg13g2.«metal5_cap», by decide +kernel, ?_⟩
    simp [Sg13g2.metal5_cap, Sg13g2.metal5_drw_2, Sg13g2.metal5_drw, Sg13g2.mim_drw_2, Sg13g2.mim_drw, Sg13g2.nodrc_drw, holds,
      drawn]
  have hncap : Sg13g2.script.Lies mimLayout "metal5_n_cap" (2, 0) := by
    refine ⟨Sg13g2.«metal5_n_cap», by decide +kernel, ?_⟩
    simp [Sg13g2.metal5_n_cap, Sg13g2.metal5_drw_2, Sg13g2.metal5_drw, Sg13g2.mim_drw_2, Sg13g2.mim_drw, Sg13g2.nodrc_drw,
      holds, drawn]
  have hcon : ∀ c : Cell, c = (0, 0) ∨ c = (2, 0) → holds mimLayout Sg13g2.metal5_con c := by
    rintro c (rfl | rfl) <;>
    simp [Sg13g2.metal5_con, Sg13g2.metal5, Sg13g2.metal5_filler_2, Sg13g2.metal5_filler, Sg13g2.metal5_slit_2,
      Sg13g2.metal5_slit, Sg13g2.metal5_res_2, Sg13g2.metal5_res,
      Sg13g2.metal5_drw_2, Sg13g2.metal5_drw, Sg13g2.nodrc_drw, holds, drawn]
  have hlcon : ∀ c : Cell, c = (0, 0) ∨ c = (2, 0) → Sg13g2.script.Lies mimLayout "metal5_con" c :=
    fun c hc => ⟨Sg13g2.metal5_con, by decide +kernel, hcon c hc⟩
  have hbtm : ∀ c : Cell, c = (0, 0) ∨ c = (1, 0) ∨ c = (2, 0) → Sg13g2.script.Lies mimLayout "cmim_btm" c := by
    intro c hc
    refine ⟨Sg13g2.cmim_btm, by decide +kernel, ⟨⟨(other _ _).2 ⟨.inr rfl, hc⟩, (0, 0), hcon _ (.inl rfl), ?_⟩,
      (other _ _).2 ⟨.inl rfl, hc⟩⟩⟩
    simp [Sg13g2.mim_drw_2, Sg13g2.mim_drw, Sg13g2.nodrc_drw, holds, drawn]
  constructor
  · have c1 : SameNet Sg13g2.script touch mimLayout ("metal5_cap", (0, 0)) ("metal5_con", (0, 0)) :=
      .across (by decide +kernel) (hrefl _) hcap (hlcon _ (.inl rfl))
    have c2 : SameNet Sg13g2.script touch mimLayout ("cmim_btm", (0, 0)) ("metal5_con", (0, 0)) :=
      .across (by decide +kernel) (hrefl _) (hbtm _ (.inl rfl)) (hlcon _ (.inl rfl))
    have c3 : SameNet Sg13g2.script touch mimLayout ("cmim_btm", (0, 0)) ("cmim_btm", (1, 0)) :=
      .within h01 (hbtm _ (.inl rfl)) (hbtm _ (.inr (.inl rfl)))
    have c4 : SameNet Sg13g2.script touch mimLayout ("cmim_btm", (1, 0)) ("metal5_con", (2, 0)) :=
      .across (by decide +kernel) h12 (hbtm _ (.inr (.inl rfl))) (hlcon _ (.inr rfl))
    have c5 : SameNet Sg13g2.script touch mimLayout ("metal5_n_cap", (2, 0)) ("metal5_con", (2, 0)) :=
      .across (by decide +kernel) (hrefl _) hncap (hlcon _ (.inr rfl))
    exact c1.trans (c2.symm.trans (c3.trans (c4.trans c5.symm)))
  · intro hp
    have : ∀ c, Path touch (mimLayout.drawn 67 0) (0, 0) c → c = (0, 0) := by
      intro c hc
      induction hc with
      | refl => rfl
      | tail _ h ih =>
        subst ih
        have h2 := (drawn _ _ _).1 h.2.2
        have h3 := hnear _ _ h.1
        rcases h2 with ⟨-, h2 | h2⟩ | ⟨h2, -⟩
        · exact h2
        · rw [h2] at h3
          norm_num at h3
        · exact absurd h2 (by decide)
    exact absurd (this _ hp) (by decide)

/-- C126: the hypotheses are met by Metal 1 that crosses Metal 2 of sky130A without a via; with a via they are linked. -/
theorem crossing_ex :
    (∀ k ∈ sky130A.cuts, Absent (spot [(68, 20), (69, 20)]) k) ∧ Regular Sky130A.script (spot [(68, 20), (69, 20)]) ∧
      Sky130A.script.Lies (spot [(68, 20), (69, 20)]) "met1_con" (0, 0) ∧
      Sky130A.script.Lies (spot [(68, 20), (69, 20)]) "met2_con" (0, 0) ∧
      (∀ touch : Cell → Cell → Prop, (∀ c c', touch c c' → touch c' c) →
        ¬ SameNet Sky130A.script touch (spot [(68, 20), (69, 20)]) ("met1_con", (0, 0)) ("met2_con", (0, 0))) ∧
      SameNet Sky130A.script (· = ·) (spot [(68, 20), (68, 44), (69, 20)]) ("met1_con", (0, 0)) ("met2_con", (0, 0)) ∧
      (sky130A.part "met1_con", sky130A.part "met2_con") = ("met1", "met2") := by
  have hcuts : ∀ k ∈ sky130A.cuts, Absent (spot [(68, 20), (69, 20)]) k := absent_spots (by decide +kernel)
  have hreg : Regular Sky130A.script (spot [(68, 20), (69, 20)]) := fun h => by
    have : Sky130A.script.names.contains "li_con" = Sg13g2.script.names.contains "li_con" := by rw [h]
    exact absurd this (by decide +kernel)
  refine ⟨hcuts, hreg, (lies_spot (by decide +kernel)).1 [], (lies_spot (by decide +kernel)).1 [], fun touch hsym h => ?_,
    vias_join_ex.2.2.2.2.2.2, by decide +kernel⟩
  have := (crossing_apart_partial .sky130A hsym hreg hcuts h).1
  exact absurd this (by decide +kernel)

end Verif.LvsRules
