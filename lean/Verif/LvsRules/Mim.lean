import Verif.LvsRules.Labels

/-!
# The LVS scripts keep the plates of MIM capacitors apart
-/

namespace Verif.LvsRules

open Pdk (Technology)

/-! ### Specification -/

/-- A MIM capacitor: the layers of the LVS result with its lower and upper plate, the drawn layer of the via above it, the
drawn layer of the upper plate, and the markers of other capacitors in which the via joins the two metals. -/
inductive Mim : Script → String → String → Nat × Nat → Nat × Nat → List (Nat × Nat) → Prop
  | capm : Mim Sky130A.script "met3_cap" "capm" (70, 44) (89, 44) [(82, 64)]
  | capm2 : Mim Sky130A.script "met4_cap" "capm2" (71, 44) (97, 44) [(82, 64)]
  | cmim : Mim Sg13g2.script "metal5_cap" "cmim_top" (125, 0) (36, 0) []
  | rfmim : Mim Sg13g2.script "metal5_cap" "rfmim_top" (125, 0) (36, 0) []

/-! ### Proofs -/

/-- The layers that the via separates from the rest of the script. -/
def mimSide : Nat × Nat → List String
  | (70, 44) => ["via3_cap", "capm", "met4_con", "met4_ncap", "met4_cap", "met4_pin_con", "met4_label", "met4_vpp", "via4_ncap",
    "via4_cap", "via4_vpp", "capm2", "met5_con", "met5_vpp", "met5_pin_con", "met5_label"]
  | (71, 44) => ["via4_cap", "capm2", "met5_con", "met5_vpp", "met5_pin_con", "met5_label"]
  | _ => ["cmim_top", "rfmim_top", "mim_via", "topmetal1_con", "topmetal1_pin_con", "topmetal1_text", "topvia2_drw",
    "topmetal2_con", "topmetal2_pin_con", "topmetal2_text", "ind_pin", "ind_text", "ind2_ports", "ind3_ports"]

/-- The layer is empty if the via is drawn only on the plate and the other markers are missing. -/
def mimEmpty (v p : Nat × Nat) (o : List (Nat × Nat)) (e : Expr) : Bool :=
  contradictory ((false, .drawn v.1 v.2) :: (o.map fun g => (false, Expr.drawn g.1 g.2)) ++ present e) &&
    contradictory ((true, .drawn p.1 p.2) :: (o.map fun g => (false, Expr.drawn g.1 g.2)) ++ present e)

/-- No `connect` statement joins the side of the via with the rest. -/
def mimOk (s : Script) (v p : Nat × Nat) (o : List (Nat × Nat)) : Bool :=
  s.connects.all fun c => (mimSide v).contains c.1 == (mimSide v).contains c.2 ||
    s.layers.all (fun l => !(l.1 == c.1) || mimEmpty v p o l.2) || s.layers.all fun l => !(l.1 == c.2) || mimEmpty v p o l.2

set_option maxRecDepth 100000 in
theorem mim_ok {s : Script} {low up : String} {v p : Nat × Nat} {o : List (Nat × Nat)} (h : Mim s low up v p o) :
    mimOk s v p o = true ∧ low ∉ mimSide v ∧ up ∈ mimSide v := by
  cases h <;> decide +kernel

theorem mimEmpty_sound {L : Layout} {v p : Nat × Nat} {o : List (Nat × Nat)}
    (hvia : ∀ c, L.drawn v.1 v.2 c → L.drawn p.1 p.2 c) (ho : ∀ g ∈ o, ∀ c, ¬ L.drawn g.1 g.2 c) {e : Expr}
    (h : mimEmpty v p o e = true) (c : Cell) : ¬ holds L e c := by
  intro hc
  rw [mimEmpty, Bool.and_eq_true] at h
  have hO : Facts.At (o.map fun g => (false, Expr.drawn g.1 g.2)) L c := by
    intro f hf
    obtain ⟨g, hg, rfl⟩ := List.mem_map.1 hf
    exact ho g hg c
  by_cases hv : L.drawn v.1 v.2 c
  · refine contradictory_sound (L := L) (c := c) ?_ h.2
    exact (Facts.At.append (F := [(true, Expr.drawn p.1 p.2)]) (fun f hf => by
      obtain rfl := List.mem_singleton.1 hf
      exact hvia c hv) hO).append (present_sound _ hc)
  · refine contradictory_sound (L := L) (c := c) ?_ h.1
    exact (Facts.At.append (F := [(false, Expr.drawn v.1 v.2)]) (fun f hf => by
      obtain rfl := List.mem_singleton.1 hf
      exact hv) hO).append (present_sound _ hc)

/-- **C127.** A MIM capacitor is not shorted: if the vias between the two metals of the capacitor are all on upper plates, then
its lower and its upper plate are different nets, however the layout continues. -/
theorem mim_plates_apart {s : Script} {low up : String} {v p : Nat × Nat} {o : List (Nat × Nat)} (h : Mim s low up v p o)
    {touch : Cell → Cell → Prop} {L : Layout} (hvia : ∀ c, L.drawn v.1 v.2 c → L.drawn p.1 p.2 c)
    (ho : ∀ g ∈ o, ∀ c, ¬ L.drawn g.1 g.2 c) (a b : Cell) : ¬ SameNet s touch L (low, a) (up, b) := by
  obtain ⟨hok, hlow, hup⟩ := mim_ok h
  have none : ∀ {l : String} {c : Cell}, s.Lies L l c →
      (s.layers.all fun k => !(k.1 == l) || mimEmpty v p o k.2) = true → False := by
    rintro l c ⟨e, he, hc⟩ h
    have h1 := List.all_eq_true.1 h _ he
    rw [beq_self_eq_true, Bool.not_true, Bool.false_or] at h1
    exact mimEmpty_sound hvia ho h1 c hc
  have key : ∀ {x y : String × Cell}, SameNet s touch L x y → (x.1 ∈ mimSide v ↔ y.1 ∈ mimSide v) := by
    intro x y h
    induction h with
    | refl => exact Iff.rfl
    | symm _ ih => exact ih.symm
    | trans _ _ ih1 ih2 => exact ih1.trans ih2
    | within => exact Iff.rfl
    | across hlm ht hc hc' =>
      have h1 := List.all_eq_true.1 hok _ hlm
      simp only [Bool.or_eq_true] at h1
      rcases h1 with (h1 | h1) | h1
      · have h1 := eq_of_beq h1
        rw [← List.contains_iff_mem, ← List.contains_iff_mem, h1]
      · exact (none hc (by simpa using h1)).elim
      · exact (none hc' (by simpa using h1)).elim
  exact fun hs => hlow ((key hs).2 hup)

/-- **C127.** The upper plate is joined with the via on it and the metal above. -/
theorem mim_top_joined {touch : Cell → Cell → Prop} (hrefl : ∀ c, touch c c) (L : Layout) (c : Cell) :
    (Sky130A.script.Lies L "capm" c → Sky130A.script.Lies L "via3_cap" c → Sky130A.script.Lies L "met4_ncap" c →
      SameNet Sky130A.script touch L ("capm", c) ("met4_ncap", c)) ∧
    (Sky130A.script.Lies L "capm2" c → Sky130A.script.Lies L "via4_cap" c → Sky130A.script.Lies L "met5_con" c →
      SameNet Sky130A.script touch L ("capm2", c) ("met5_con", c)) ∧
    (Sg13g2.script.Lies L "cmim_top" c → Sg13g2.script.Lies L "mim_via" c → Sg13g2.script.Lies L "topmetal1_con" c →
      SameNet Sg13g2.script touch L ("cmim_top", c) ("topmetal1_con", c)) := by
  refine ⟨fun h1 h2 h3 => ?_, fun h1 h2 h3 => ?_, fun h1 h2 h3 => ?_⟩ <;>
  exact (SameNet.across (by decide +kernel) (hrefl c) h1 h2).trans (.across (by decide +kernel) (hrefl c) h2 h3)

/-- C127: the hypotheses are met by a MIM capacitor of sky130A between Metal 3 and Metal 4 with a via. -/
theorem mim_ex :
    (∀ c, (spot [(70, 20), (89, 44), (70, 44), (71, 20)]).drawn 70 44 c →
      (spot [(70, 20), (89, 44), (70, 44), (71, 20)]).drawn 89 44 c) ∧
    (∀ c, ¬ (spot [(70, 20), (89, 44), (70, 44), (71, 20)]).drawn 82 64 c) ∧
    Sky130A.script.Lies (spot [(70, 20), (89, 44), (70, 44), (71, 20)]) "met3_cap" (0, 0) ∧
    Sky130A.script.Lies (spot [(70, 20), (89, 44), (70, 44), (71, 20)]) "capm" (0, 0) ∧
    Sky130A.script.Lies (spot [(70, 20), (89, 44), (70, 44), (71, 20)]) "via3_cap" (0, 0) ∧
    Sky130A.script.Lies (spot [(70, 20), (89, 44), (70, 44), (71, 20)]) "met4_ncap" (0, 0) := by
  refine ⟨?_, ?_, (lies_spot (by decide +kernel)).1 [], (lies_spot (by decide +kernel)).1 [],
    (lies_spot (by decide +kernel)).1 [], (lies_spot (by decide +kernel)).1 []⟩ <;> simp [spot, spots]

end Verif.LvsRules
