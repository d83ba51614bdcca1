import Mathlib.Data.List.Sublists
import Verif.LvsRules.Vias

/-!
# The drawn conductors in the layers that are extracted

KPEX extracts the layers of the LVS result that its technology counts as parts of a drawn layer. The question here is where
a drawn shape is in one of these layers, and whether it is in two of them.
-/

namespace Verif.LvsRules

open Pdk (Technology)

/-! ### Specification -/

/-- `l` is a layer of the LVS result that the technology declares to be derived from the drawn layer named `n`: as regular
shapes or as part of a capacitor device. -/
def PartOf (t : Technology) (n l : String) : Prop :=
  ∃ k ∈ t.computed, (k.kind = .regular ∨ k.kind = .deviceCapacitor) ∧ k.info.name = l ∧ k.original = n

/-- The drawn layer with the names `ns` is extracted at the place: a layer of the LVS result that is derived from it has a
shape. -/
def Extracted (t : Technology) (s : Script) (L : Layout) (ns : List String) (c : Cell) : Prop :=
  ∃ n ∈ ns, ∃ l, PartOf t n l ∧ s.Lies L l c

/-- A shape is drawn on one of the layers. -/
def OnOne (L : Layout) (gs : List (Nat × Nat)) (c : Cell) : Prop := ∃ g ∈ gs, L.drawn g.1 g.2 c

/-- The conductors, contacts and vias of the technologies: the names of the drawn layer (the technology of
sky130A calls the first via "via" in one place and "via1" in another), the GDS layers its shapes are drawn
on, and the markers that take shapes away from the conductor (resistors, fuses, inductors, slits, bipolar transistors, no
check), except inside those of the last list (vertical parallel plate capacitors). -/
inductive Shown : Technology → Script → List String → List (Nat × Nat) → List (Nat × Nat) →
    List (Nat × Nat) → Prop
  | poly : Shown Pdk.Sky130A.tech Sky130A.script ["poly"] [(66, 20)] [(66, 13), (82, 20)] [(82, 64)]
  | li1 : Shown Pdk.Sky130A.tech Sky130A.script ["li1"] [(67, 20)] [(67, 13)] [(82, 64)]
  | met1 : Shown Pdk.Sky130A.tech Sky130A.script ["met1"] [(68, 20)] [(68, 13)] [(82, 64)]
  | met2 : Shown Pdk.Sky130A.tech Sky130A.script ["met2"] [(69, 20)] [(69, 13), (69, 17), (82, 24)] [(82, 64)]
  | met3 : Shown Pdk.Sky130A.tech Sky130A.script ["met3"] [(70, 20)] [(70, 13), (70, 17), (82, 24)] [(82, 64)]
  | met4 : Shown Pdk.Sky130A.tech Sky130A.script ["met4"] [(71, 20)] [(71, 13), (71, 17)] [(82, 64)]
  | met5 : Shown Pdk.Sky130A.tech Sky130A.script ["met5"] [(72, 20)] [(72, 13)] [(82, 64)]
  | capm : Shown Pdk.Sky130A.tech Sky130A.script ["capm"] [(89, 44)] [] []
  | capm2 : Shown Pdk.Sky130A.tech Sky130A.script ["capm2"] [(97, 44)] [] []
  | mcon : Shown Pdk.Sky130A.tech Sky130A.script ["mcon"] [(67, 44)] [] []
  | via : Shown Pdk.Sky130A.tech Sky130A.script ["via", "via1"] [(68, 44)] [] []
  | via2 : Shown Pdk.Sky130A.tech Sky130A.script ["via2"] [(69, 44)] [] []
  | via3 : Shown Pdk.Sky130A.tech Sky130A.script ["via3"] [(70, 44)] [] []
  | via4 : Shown Pdk.Sky130A.tech Sky130A.script ["via4"] [(71, 44)] [] []
  | gatPoly : Shown Pdk.Sg13g2.tech Sg13g2.script ["GatPoly"] [(5, 0), (5, 22)] [(128, 0), (24, 0), (62, 0)] []
  | metal1 : Shown Pdk.Sg13g2.tech Sg13g2.script ["Metal1"] [(8, 0), (8, 22)] [(8, 24), (8, 29), (62, 0)] []
  | metal2 : Shown Pdk.Sg13g2.tech Sg13g2.script ["Metal2"] [(10, 0), (10, 22)] [(10, 24), (10, 29), (62, 0)] []
  | metal3 : Shown Pdk.Sg13g2.tech Sg13g2.script ["Metal3"] [(30, 0), (30, 22)] [(30, 24), (30, 29), (62, 0)] []
  | metal4 : Shown Pdk.Sg13g2.tech Sg13g2.script ["Metal4"] [(50, 0), (50, 22)] [(50, 24), (50, 29), (62, 0)] []
  | metal5 : Shown Pdk.Sg13g2.tech Sg13g2.script ["Metal5"] [(67, 0)] [(62, 0)] []
  | topMetal1 : Shown Pdk.Sg13g2.tech Sg13g2.script ["TopMetal1"] [(126, 0), (126, 22)]
      [(126, 24), (126, 29), (27, 0), (62, 0)] []
  | topMetal2 : Shown Pdk.Sg13g2.tech Sg13g2.script ["TopMetal2"] [(134, 0), (134, 22)]
      [(134, 24), (134, 29), (27, 0), (62, 0)] []
  | via1 : Shown Pdk.Sg13g2.tech Sg13g2.script ["Via1"] [(19, 0)] [(62, 0)] []
  | via2' : Shown Pdk.Sg13g2.tech Sg13g2.script ["Via2"] [(29, 0)] [(62, 0)] []
  | via3' : Shown Pdk.Sg13g2.tech Sg13g2.script ["Via3"] [(49, 0)] [(62, 0)] []
  | via4' : Shown Pdk.Sg13g2.tech Sg13g2.script ["Via4"] [(66, 0)] [(62, 0)] []
  | topVia2 : Shown Pdk.Sg13g2.tech Sg13g2.script ["TopVia2"] [(133, 0)] [(62, 0)] []

/-! ### Truth tables -/

/-- The value of a derived layer at a place with shapes on the drawn layers `ps`; nothing for what depends on more than the
drawn shapes at the place. -/
def evalAt (ps : List (Nat × Nat)) : Expr → Option Bool
  | .drawn l d => some (ps.contains (l, d))
  | .and a b => do return (← evalAt ps a) && (← evalAt ps b)
  | .or a b => do return (← evalAt ps a) || (← evalAt ps b)
  | .diff a b => do return (← evalAt ps a) && !(← evalAt ps b)
  | _ => none

/-- The drawn layers a derived layer is made of. -/
def drawnOf : Expr → List (Nat × Nat)
  | .drawn l d => [(l, d)]
  | .and a b | .or a b | .diff a b => drawnOf a ++ drawnOf b
  | _ => []

theorem evalAt_sound {L : Layout} {c : Cell} {ps : List (Nat × Nat)} : ∀ {e : Expr} {b : Bool},
    (∀ g ∈ drawnOf e, L.drawn g.1 g.2 c ↔ g ∈ ps) → evalAt ps e = some b → (holds L e c ↔ b = true)
  | .drawn l d, b, h, he => by
    obtain rfl := Option.some.inj he
    rw [List.contains_iff_mem]
    exact h (l, d) (by simp [drawnOf])
  | .and x y, b, h, he => by
    simp only [evalAt, Option.bind_eq_bind, Option.pure_def, Option.bind_eq_some_iff] at he
    obtain ⟨p, hp, q, hq, hb⟩ := he
    obtain rfl := Option.some.inj hb
    have h1 := evalAt_sound (fun g hg => h g (by simp [drawnOf, hg])) hp
    have h2 := evalAt_sound (fun g hg => h g (by simp [drawnOf, hg])) hq
    rw [holds, h1, h2, Bool.and_eq_true]
  | .or x y, b, h, he => by
    simp only [evalAt, Option.bind_eq_bind, Option.pure_def, Option.bind_eq_some_iff] at he
    obtain ⟨p, hp, q, hq, hb⟩ := he
    obtain rfl := Option.some.inj hb
    have h1 := evalAt_sound (fun g hg => h g (by simp [drawnOf, hg])) hp
    have h2 := evalAt_sound (fun g hg => h g (by simp [drawnOf, hg])) hq
    rw [holds, h1, h2, Bool.or_eq_true]
  | .diff x y, b, h, he => by
    simp only [evalAt, Option.bind_eq_bind, Option.pure_def, Option.bind_eq_some_iff] at he
    obtain ⟨p, hp, q, hq, hb⟩ := he
    obtain rfl := Option.some.inj hb
    have h1 := evalAt_sound (fun g hg => h g (by simp [drawnOf, hg])) hp
    have h2 := evalAt_sound (fun g hg => h g (by simp [drawnOf, hg])) hq
    rw [holds, h1, h2, Bool.and_eq_true, Bool.not_eq_true', Bool.not_eq_true]

/-- The layers of the LVS result that are extracted for the drawn layer, with their expressions. -/
def partsOf (t : Technology) (s : Script) (ns : List String) : List (String × Expr) :=
  (t.computed.filter fun k => ns.contains k.original && (k.kind == .regular || k.kind == .deviceCapacitor)).flatMap fun k =>
    s.layers.filter fun l => l.1 == k.info.name

theorem mem_partsOf {t : Technology} {s : Script} {ns : List String} {l : String} {e : Expr} :
    (l, e) ∈ partsOf t s ns ↔ (l, e) ∈ s.layers ∧ ∃ n ∈ ns, PartOf t n l := by
  simp only [partsOf, PartOf, List.mem_flatMap, List.mem_filter, Bool.and_eq_true, Bool.or_eq_true, beq_iff_eq,
    List.contains_iff_mem]
  constructor
  · rintro ⟨k, ⟨hk, h1, h2⟩, h, h3⟩
    exact ⟨h, _, h1, k, hk, h2, h3.symm, rfl⟩
  · rintro ⟨h, n, hn, k, hk, h1, h2, rfl⟩
    exact ⟨k, ⟨hk, hn, h1⟩, h, h2.symm⟩

/-- The drawn layers that decide about a layer. -/
def atomsOf (parts : List (String × Expr)) (ds ms bs : List (Nat × Nat)) : List (Nat × Nat) :=
  ((parts.flatMap fun l => drawnOf l.2) ++ ds ++ ms ++ bs).dedup

/-- The check of one line of the table: in every case, exactly one extracted layer has a shape where one is expected, and
none elsewhere. -/
def shownOk (parts : List (String × Expr)) (ds ms bs : List (Nat × Nat)) : Bool :=
  (atomsOf parts ds ms bs).sublists.all fun ps =>
    (parts.all fun l => (evalAt ps l.2).isSome) &&
    (parts.countP fun l => evalAt ps l.2 == some true) ==
      if ds.any ps.contains && (bs.any ps.contains || !ms.any ps.contains) then 1 else 0

set_option maxRecDepth 100000 in
theorem shown_ok {t : Technology} {s : Script} {ns : List String} {ds ms bs : List (Nat × Nat)}
    (h : Shown t s ns ds ms bs) : shownOk (partsOf t s ns) ds ms bs = true := by
  suffices ∃ parts, partsOf t s ns = parts ∧ shownOk parts ds ms bs = true by
    obtain ⟨_, rfl, h⟩ := this
    exact h
  cases h with
  | poly => exact ⟨[("poly_con", Sky130A.«poly_con»), ("poly_vpp", Sky130A.«poly_vpp»)],
      by decide +kernel, by decide +kernel⟩
  | li1 => exact ⟨[("li_con", Sky130A.«li_con»), ("li_vpp", Sky130A.«li_vpp»)],
      by decide +kernel, by decide +kernel⟩
  | met1 => exact ⟨[("met1_con", Sky130A.«met1_con»), ("met1_vpp", Sky130A.«met1_vpp»)],
      by decide +kernel, by decide +kernel⟩
  | met2 => exact ⟨[("met2_con", Sky130A.«met2_con»), ("met2_vpp", Sky130A.«met2_vpp»)],
      by decide +kernel, by decide +kernel⟩
  | met3 => exact ⟨[("met3_ncap", Sky130A.«met3_ncap»), ("met3_cap", Sky130A.«met3_cap»), ("met3_vpp", Sky130A.«met3_vpp»)],
      by decide +kernel, by decide +kernel⟩
  | met4 => exact ⟨[("met4_ncap", Sky130A.«met4_ncap»), ("met4_cap", Sky130A.«met4_cap»), ("met4_vpp", Sky130A.«met4_vpp»)],
      by decide +kernel, by decide +kernel⟩
  | met5 => exact ⟨[("met5_con", Sky130A.«met5_con»), ("met5_vpp", Sky130A.«met5_vpp»)],
      by decide +kernel, by decide +kernel⟩
  | capm => exact ⟨[("capm", Sky130A.«capm»)],
      by decide +kernel, by decide +kernel⟩
  | capm2 => exact ⟨[("capm2", Sky130A.«capm2»)],
      by decide +kernel, by decide +kernel⟩
  | mcon => exact ⟨[("mcon_con", Sky130A.«mcon_con»), ("mcon_vpp", Sky130A.«mcon_vpp»)],
      by decide +kernel, by decide +kernel⟩
  | via => exact ⟨[("via1_con", Sky130A.«via1_con»), ("via1_vpp", Sky130A.«via1_vpp»)],
      by decide +kernel, by decide +kernel⟩
  | via2 => exact ⟨[("via2_con", Sky130A.«via2_con»), ("via2_vpp", Sky130A.«via2_vpp»)],
      by decide +kernel, by decide +kernel⟩
  | via3 => exact ⟨[("via3_ncap", Sky130A.«via3_ncap»), ("via3_cap", Sky130A.«via3_cap»), ("via3_vpp", Sky130A.«via3_vpp»)],
      by decide +kernel, by decide +kernel⟩
  | via4 => exact ⟨[("via4_ncap", Sky130A.«via4_ncap»), ("via4_cap", Sky130A.«via4_cap»), ("via4_vpp", Sky130A.«via4_vpp»)],
      by decide +kernel, by decide +kernel⟩
  | gatPoly => exact ⟨[("poly_con", Sg13g2.«poly_con»)],
      by decide +kernel, by decide +kernel⟩
  | metal1 => exact ⟨[("metal1_con", Sg13g2.«metal1_con»)],
      by decide +kernel, by decide +kernel⟩
  | metal2 => exact ⟨[("metal2_con", Sg13g2.«metal2_con»)],
      by decide +kernel, by decide +kernel⟩
  | metal3 => exact ⟨[("metal3_con", Sg13g2.«metal3_con»)],
      by decide +kernel, by decide +kernel⟩
  | metal4 => exact ⟨[("metal4_con", Sg13g2.«metal4_con»)],
      by decide +kernel, by decide +kernel⟩
  | metal5 => exact ⟨[("metal5_n_cap", Sg13g2.«metal5_n_cap»), ("metal5_cap", Sg13g2.«metal5_cap»)],
      by decide +kernel, by decide +kernel⟩
  | topMetal1 => exact ⟨[("topmetal1_con", Sg13g2.«topmetal1_con»)],
      by decide +kernel, by decide +kernel⟩
  | topMetal2 => exact ⟨[("topmetal2_con", Sg13g2.«topmetal2_con»)],
      by decide +kernel, by decide +kernel⟩
  | via1 => exact ⟨[("via1_drw", Sg13g2.«via1_drw_2»)],
      by decide +kernel, by decide +kernel⟩
  | via2' => exact ⟨[("via2_drw", Sg13g2.«via2_drw_2»)],
      by decide +kernel, by decide +kernel⟩
  | via3' => exact ⟨[("via3_drw", Sg13g2.«via3_drw_2»)],
      by decide +kernel, by decide +kernel⟩
  | via4' => exact ⟨[("via4_drw", Sg13g2.«via4_drw_2»)],
      by decide +kernel, by decide +kernel⟩
  | topVia2 => exact ⟨[("topvia2_drw", Sg13g2.«topvia2_drw_2»)],
      by decide +kernel, by decide +kernel⟩

/-- The case of the table at a place. -/
theorem shown_case {t : Technology} {s : Script} {ns : List String} {ds ms bs : List (Nat × Nat)}
    (h : shownOk (partsOf t s ns) ds ms bs = true) (L : Layout) (c : Cell) : ∃ ps : List (Nat × Nat),
      (∀ l ∈ partsOf t s ns, (holds L l.2 c ↔ evalAt ps l.2 = some true)) ∧
      ((partsOf t s ns).countP fun l => evalAt ps l.2 == some true) =
        (if ds.any ps.contains && (bs.any ps.contains || !ms.any ps.contains) then 1 else 0) ∧
      (∀ gs, (gs = ds ∨ gs = ms ∨ gs = bs) → (OnOne L gs c ↔ gs.any ps.contains = true)) := by
  classical
  have hmem : ∀ g ∈ atomsOf (partsOf t s ns) ds ms bs,
      (L.drawn g.1 g.2 c ↔ g ∈ (atomsOf (partsOf t s ns) ds ms bs).filter fun g => decide (L.drawn g.1 g.2 c)) := by
    intro g hg
    simp [hg]
  refine ⟨(atomsOf (partsOf t s ns) ds ms bs).filter fun g => decide (L.drawn g.1 g.2 c), ?_, ?_, ?_⟩
  all_goals generalize hps : (atomsOf (partsOf t s ns) ds ms bs).filter (fun g => decide (L.drawn g.1 g.2 c)) = ps at hmem ⊢
  · intro l hl
    have h1 := List.all_eq_true.1 h ps (List.mem_sublists.2 (hps ▸ List.filter_sublist))
    rw [Bool.and_eq_true] at h1
    obtain ⟨b, hb⟩ := Option.isSome_iff_exists.1 (List.all_eq_true.1 h1.1 l hl)
    have h2 := evalAt_sound (L := L) (c := c) (fun g hg => hmem g (List.mem_dedup.2 (by
      simp only [List.mem_append, List.mem_flatMap]
      exact .inl (.inl (.inl ⟨l, hl, hg⟩))))) hb
    rw [h2, hb, Option.some_inj]
  · have h1 := List.all_eq_true.1 h ps (List.mem_sublists.2 (hps ▸ List.filter_sublist))
    rw [Bool.and_eq_true] at h1
    exact eq_of_beq h1.2
  · intro gs hgs
    simp only [OnOne, List.any_eq_true, List.contains_iff_mem]
    refine exists_congr fun g => and_congr_right fun hg => hmem g (List.mem_dedup.2 ?_)
    simp only [List.mem_append]
    rcases hgs with rfl | rfl | rfl
    · exact .inl (.inl (.inr hg))
    · exact .inl (.inr hg)
    · exact .inr hg

/-- **C128.** What is drawn on a conductor, MIM plate or via is extracted, and nothing else: a layer that KPEX extracts for it
has a shape exactly where there is a drawn shape that no marker takes away. Missing: on Metal5 of sg13g2, fillers are not extracted
and slits and resistors are (`metal5_differs`). -/
theorem drawn_extracted_partial {t : Technology} {s : Script} {ns : List String} {ds ms bs : List (Nat × Nat)}
    (h : Shown t s ns ds ms bs) (L : Layout) (c : Cell) :
    Extracted t s L ns c ↔ OnOne L ds c ∧ (OnOne L bs c ∨ ¬ OnOne L ms c) := by
  obtain ⟨ps, hl, hn, hg⟩ := shown_case (shown_ok h) L c
  rw [hg ds (.inl rfl), hg ms (.inr (.inl rfl)), hg bs (.inr (.inr rfl))]
  have hpos : Extracted t s L ns c ↔ 0 < (partsOf t s ns).countP fun l => evalAt ps l.2 == some true := by
    rw [List.countP_pos_iff]
    constructor
    · rintro ⟨n, hn, l, hp, e, he, hc⟩
      exact ⟨(l, e), mem_partsOf.2 ⟨he, n, hn, hp⟩, by rw [(hl _ (mem_partsOf.2 ⟨he, n, hn, hp⟩)).1 hc]; rfl⟩
    · rintro ⟨⟨l, e⟩, hm, h1⟩
      obtain ⟨he, n, hn, hp⟩ := mem_partsOf.1 hm
      exact ⟨n, hn, l, hp, e, he, (hl _ hm).2 (eq_of_beq h1)⟩
  rw [hpos, hn]
  cases ds.any ps.contains <;> cases bs.any ps.contains <;> cases ms.any ps.contains <;> simp

/-- **C128.** Nothing is extracted twice: at one place at most one of the layers that KPEX extracts for a conductor, MIM plate
or via has a shape. -/
theorem extracted_once {t : Technology} {s : Script} {ns : List String} {ds ms bs : List (Nat × Nat)}
    (h : Shown t s ns ds ms bs) (L : Layout) (c : Cell) {n n' l l' : String} (hn : n ∈ ns) (hn' : n' ∈ ns)
    (hl : PartOf t n l) (hl' : PartOf t n' l') (hc : s.Lies L l c) (hc' : s.Lies L l' c) : l = l' := by
  obtain ⟨ps, hh, hcount, -⟩ := shown_case (shown_ok h) L c
  obtain ⟨e, he, hc⟩ := hc
  obtain ⟨e', he', hc'⟩ := hc'
  have hm := mem_partsOf.2 ⟨he, n, hn, hl⟩
  have hm' := mem_partsOf.2 ⟨he', n', hn', hl'⟩
  by_contra hne
  have hsub : [(l, e), (l', e')].Subperm ((partsOf t s ns).filter fun l => evalAt ps l.2 == some true) := by
    refine List.subperm_of_subset (by simp [hne]) ?_
    intro x hx
    rcases List.mem_cons.1 hx with rfl | hx
    · exact List.mem_filter.2 ⟨hm, by rw [(hh _ hm).1 hc]; rfl⟩
    · obtain rfl := List.mem_singleton.1 hx
      exact List.mem_filter.2 ⟨hm', by rw [(hh _ hm').1 hc']; rfl⟩
  have hlen := hsub.length_le
  rw [← List.countP_eq_length_filter, hcount] at hlen
  split at hlen <;> simp at hlen

theorem extracted_iff {t : Technology} {s : Script} {L : Layout} {ns : List String} {c : Cell} :
    Extracted t s L ns c ↔ ∃ p ∈ partsOf t s ns, holds L p.2 c := by
  constructor
  · rintro ⟨n, hn, l, hp, e, he, hc⟩
    exact ⟨(l, e), mem_partsOf.2 ⟨he, n, hn, hp⟩, hc⟩
  · rintro ⟨⟨l, e⟩, hm, hc⟩
    obtain ⟨he, n, hn, hp⟩ := mem_partsOf.1 hm
    exact ⟨n, hn, l, hp, e, he, hc⟩

set_option maxRecDepth 100000 in
/-- **C128.** The vias between Metal5 and TopMetal1 of sg13g2, including those drawn as MIM capacitor vias (129/0), which count
on a MIM capacitor (36/0) only. -/
theorem topvia1_extracted (L : Layout) (c : Cell) :
    Extracted Pdk.Sg13g2.tech Sg13g2.script L ["TopVia1"] c ↔
      (L.drawn 125 0 c ∨ (L.drawn 129 0 c ∧ L.drawn 36 0 c)) ∧ ¬ L.drawn 62 0 c := by
  rw [extracted_iff, show partsOf Pdk.Sg13g2.tech Sg13g2.script ["TopVia1"] =
    [("topvia1_n_cap", Sg13g2.«topvia1_n_cap»), ("mim_via", Sg13g2.«mim_via»)] from by decide +kernel]
  simp only [List.mem_cons, List.not_mem_nil, or_false, exists_eq_or_imp, exists_eq_left, holds, Sg13g2.«topvia1_n_cap»,
    Sg13g2.«mim_via», Sg13g2.«topvia1_drw_2», Sg13g2.«vmim_drw_2», Sg13g2.«mim_drw_2», Sg13g2.«topvia1_drw»,
    Sg13g2.«vmim_drw», Sg13g2.«mim_drw», Sg13g2.«nodrc_drw»]
  tauto

theorem lies_of_unique {s : Script} {L : Layout} {c : Cell} {l : String} {e : Expr}
    (h : (s.layers.filter fun k => k.1 == l) = [(l, e)]) : s.Lies L l c ↔ holds L e c := by
  constructor
  · rintro ⟨e', he, hc⟩
    have hm : (l, e') ∈ s.layers.filter fun k => k.1 == l := List.mem_filter.2 ⟨he, beq_self_eq_true l⟩
    rw [h] at hm
    cases List.mem_singleton.1 hm
    exact hc
  · intro hc
    have hm : (l, e) ∈ s.layers.filter fun k => k.1 == l := by rw [h]; exact List.mem_singleton.2 rfl
    exact ⟨e, (List.mem_filter.1 hm).1, hc⟩

theorem not_extracted {t : Technology} {s : Script} {ns : List String} {ps : List (Nat × Nat)}
    (h : ((partsOf t s ns).all fun p => !spotHas ps p.2) = true) : ¬ Extracted t s (spot ps) ns (0, 0) := by
  rw [extracted_iff]
  rintro ⟨p, hp, hc⟩
  have h1 := List.all_eq_true.1 h p hp
  rw [(spotHas_iff ps [] p.2).1.1 hc] at h1
  cases h1

set_option maxRecDepth 100000 in
/-- C128 is not what LVS does on Metal5 of sg13g2: LVS counts a filler (67/22) as metal, as on the other metals, but it is not
extracted, and LVS does not count a slit (67/24) as metal, but it is extracted. -/
theorem metal5_differs :
    (∃ L c, Sg13g2.script.Lies L "metal5_con" c ∧ ¬ Extracted Pdk.Sg13g2.tech Sg13g2.script L ["Metal5"] c) ∧
    ∃ L c, ¬ Sg13g2.script.Lies L "metal5_con" c ∧ Extracted Pdk.Sg13g2.tech Sg13g2.script L ["Metal5"] c := by
  refine ⟨⟨spot [(67, 22)], (0, 0), (lies_spot (by decide +kernel)).1 [], not_extracted (by decide +kernel)⟩,
    spot [(67, 0), (67, 24)], (0, 0), ?_, ?_⟩
  · rw [lies_of_unique (e := Sg13g2.«metal5_con») (by decide +kernel)]
    exact fun h => absurd ((spotHas_iff _ [] _).1.1 h) (by decide +kernel)
  · rw [drawn_extracted_partial .metal5]
    exact ⟨⟨(67, 0), by simp, .inl ⟨rfl, by simp⟩⟩, .inr (by simp [OnOne, spot, spots])⟩

set_option maxRecDepth 100000 in
/-- C128: the hypotheses are met by met3 of sky130A: a MIM capacitor plate is extracted, a resistor is not, and inside a
vertical parallel plate capacitor it is. -/
theorem extracted_ex :
    Shown Pdk.Sky130A.tech Sky130A.script ["met3"] [(70, 20)] [(70, 13), (70, 17), (82, 24)] [(82, 64)] ∧
    Extracted Pdk.Sky130A.tech Sky130A.script (spot [(70, 20), (89, 44)]) ["met3"] (0, 0) ∧
    ¬ Extracted Pdk.Sky130A.tech Sky130A.script (spot [(70, 20), (70, 13)]) ["met3"] (0, 0) ∧
    Extracted Pdk.Sky130A.tech Sky130A.script (spot [(70, 20), (70, 13), (82, 64)]) ["met3"] (0, 0) := by
  refine ⟨.met3, ?_, not_extracted (by decide +kernel), ?_⟩ <;> rw [drawn_extracted_partial .met3] <;>
    simp [OnOne, spot, spots]

/-! ### Contacts -/

set_option maxRecDepth 100000 in
/-- **C129.** A contact of sky130A is extracted exactly if it is on the source or drain of a transistor, on poly, or inside a
vertical parallel plate capacitor. Missing: the contacts on taps and other diffusions (`tap_contacts_lost`). -/
theorem licon_extracted_partial (L : Layout) (c : Cell) :
    Extracted Pdk.Sky130A.tech Sky130A.script L ["licon1"] c ↔ L.drawn 66 44 c ∧
      (Sky130A.script.Lies L "nsd" c ∨ Sky130A.script.Lies L "psd" c ∨ L.drawn 66 20 c ∨ L.drawn 82 64 c) := by
  rw [lies_of_unique (l := "nsd") (e := Sky130A.«nsd») (by decide +kernel),
    lies_of_unique (l := "psd") (e := Sky130A.«psd») (by decide +kernel), extracted_iff,
    show partsOf Pdk.Sky130A.tech Sky130A.script ["licon1"] = [("licon_nsd_con", Sky130A.«licon_nsd_con»),
      ("licon_psd_con", Sky130A.«licon_psd_con»), ("licon_poly_con", Sky130A.«licon_poly_con»),
      ("licon_vpp", Sky130A.«licon_vpp»)] from by decide +kernel]
  simp only [List.mem_cons, List.not_mem_nil, or_false, exists_eq_or_imp, exists_eq_left, Sky130A.«licon_nsd_con»,
    Sky130A.«licon_psd_con», Sky130A.«licon_poly_con», Sky130A.«licon_vpp», holds.eq_4, Sky130A.«licon», Sky130A.«poly»,
    Sky130A.«vpp», holds.eq_1]
  tauto

set_option maxRecDepth 100000 in
/-- **C129.** A contact of sg13g2 is extracted exactly if it is on the source or drain of a transistor or on poly, and not
inside the no-check marker (62/0). Missing: the contacts on taps and other diffusions (`tap_contacts_lost`). -/
theorem cont_extracted_partial (L : Layout) (c : Cell) :
    Extracted Pdk.Sg13g2.tech Sg13g2.script L ["Cont"] c ↔ L.drawn 6 0 c ∧ ¬ L.drawn 62 0 c ∧
      (Sg13g2.script.Lies L "nsd_fet" c ∨ Sg13g2.script.Lies L "psd_fet" c ∨ Sg13g2.script.Lies L "poly_con" c) := by
  rw [lies_of_unique (l := "nsd_fet") (e := Sg13g2.«nsd_fet») (by decide +kernel),
    lies_of_unique (l := "psd_fet") (e := Sg13g2.«psd_fet») (by decide +kernel),
    lies_of_unique (l := "poly_con") (e := Sg13g2.«poly_con») (by decide +kernel), extracted_iff,
    show partsOf Pdk.Sg13g2.tech Sg13g2.script ["Cont"] = [("cont_nsd_con", Sg13g2.«cont_nsd_con»),
      ("cont_psd_con", Sg13g2.«cont_psd_con»), ("cont_poly_con", Sg13g2.«cont_poly_con»)] from by decide +kernel]
  simp only [List.mem_cons, List.not_mem_nil, or_false, exists_eq_or_imp, exists_eq_left, Sg13g2.«cont_nsd_con»,
    Sg13g2.«cont_psd_con», Sg13g2.«cont_poly_con», holds.eq_4, Sg13g2.«cont_drw_2», holds.eq_6, Sg13g2.«cont_drw»,
    Sg13g2.«nodrc_drw», holds.eq_1]
  tauto

set_option maxRecDepth 100000 in
/-- C129 is false for contacts on taps: on both technologies, a contact that connects an n-well tap to the wire above it is in no
layer that is extracted for contacts. -/
theorem tap_contacts_lost {touch : Cell → Cell → Prop} (hrefl : ∀ c, touch c c) :
    (∃ L c, L.drawn 66 44 c ∧ SameNet Sky130A.script touch L ("ntap_conn", c) ("li_con", c) ∧
      ¬ Extracted Pdk.Sky130A.tech Sky130A.script L ["licon1"] c) ∧
    ∃ L c, L.drawn 6 0 c ∧ SameNet Sg13g2.script touch L ("ntap", c) ("metal1_con", c) ∧
      ¬ Extracted Pdk.Sg13g2.tech Sg13g2.script L ["Cont"] c := by
  refine ⟨⟨spot [(65, 44), (93, 44), (64, 20), (66, 44), (67, 20)], (0, 0), .inl ⟨rfl, by simp⟩, ?_,
    not_extracted (by decide +kernel)⟩, spot [(1, 0), (31, 0), (6, 0), (8, 0)], (0, 0), .inl ⟨rfl, by simp⟩, ?_,
    not_extracted (by decide +kernel)⟩
  · have h1 := (lies_spot (s := Sky130A.script) (a := "ntap_conn")
      (ps := [(65, 44), (93, 44), (64, 20), (66, 44), (67, 20)]) (by decide +kernel)).1 []
    have h2 := (lies_spot (s := Sky130A.script) (a := "licon")
      (ps := [(65, 44), (93, 44), (64, 20), (66, 44), (67, 20)]) (by decide +kernel)).1 []
    have h3 := (lies_spot (s := Sky130A.script) (a := "li_con")
      (ps := [(65, 44), (93, 44), (64, 20), (66, 44), (67, 20)]) (by decide +kernel)).1 []
    exact (SameNet.across (by decide +kernel) (hrefl _) h1 h2).trans (.across (by decide +kernel) (hrefl _) h2 h3)
  · have h1 := (lies_spot (s := Sg13g2.script) (a := "ntap") (ps := [(1, 0), (31, 0), (6, 0), (8, 0)])
      (by decide +kernel)).1 []
    have h2 := (lies_spot (s := Sg13g2.script) (a := "cont_drw") (ps := [(1, 0), (31, 0), (6, 0), (8, 0)])
      (by decide +kernel)).1 []
    have h3 := (lies_spot (s := Sg13g2.script) (a := "metal1_con") (ps := [(1, 0), (31, 0), (6, 0), (8, 0)])
      (by decide +kernel)).1 []
    exact (SameNet.across (by decide +kernel) (hrefl _) h1 h2).trans (.across (by decide +kernel) (hrefl _) h2 h3)

set_option maxRecDepth 100000 in
/-- C129, contacts counted twice: a contact of sky130A on poly inside a vertical parallel plate capacitor is in two layers that
are extracted. -/
theorem contact_twice : ∃ L c, Sky130A.script.Lies L "licon_poly_con" c ∧ Sky130A.script.Lies L "licon_vpp" c ∧
    PartOf Pdk.Sky130A.tech "licon1" "licon_poly_con" ∧ PartOf Pdk.Sky130A.tech "licon1" "licon_vpp" := by
  have hp : ∀ l, ((partsOf Pdk.Sky130A.tech Sky130A.script ["licon1"]).any fun p => p.1 == l) = true →
      PartOf Pdk.Sky130A.tech "licon1" l := by
    intro l h
    obtain ⟨⟨l', e⟩, hm, h⟩ := List.any_eq_true.1 h
    obtain rfl : l' = l := eq_of_beq h
    obtain ⟨-, n, hn, hp⟩ := mem_partsOf.1 hm
    exact List.mem_singleton.1 hn ▸ hp
  exact ⟨spot [(66, 20), (66, 44), (82, 64)], (0, 0), (lies_spot (by decide +kernel)).1 [],
    (lies_spot (by decide +kernel)).1 [], hp _ (by decide +kernel), hp _ (by decide +kernel)⟩

set_option maxRecDepth 100000 in
/-- C129: a contact on a gate is extracted on both technologies. -/
theorem contact_ex :
    Extracted Pdk.Sky130A.tech Sky130A.script (spot [(66, 20), (66, 44)]) ["licon1"] (0, 0) ∧
    Extracted Pdk.Sg13g2.tech Sg13g2.script (spot [(5, 0), (6, 0)]) ["Cont"] (0, 0) := by
  rw [licon_extracted_partial, cont_extracted_partial]
  exact ⟨⟨by simp [spot, spots], .inr (.inr (.inl (by simp [spot, spots])))⟩, by simp [spot, spots], by simp [spot, spots],
    .inr (.inr ((lies_spot (by decide +kernel)).1 []))⟩

end Verif.LvsRules
