import Verif.Decks.Measure
import Mathlib.Data.List.FinRange
import Mathlib.Logic.Relation

/-!
# How LVS of sg13g2 extracts MIM capacitors and measures varactors

Models `MIMCAPExtractor.get_connectivity`, `extract_devices` and `define_terminals`
(pdk/ihp_sg13g2/libs.tech/kpex/rule_decks/custom_mim_extractor.lvs), the bottom plates of cap_derivations.lvs 32 and 38 for rectangular
capacitors on Metal5, and `calc_varicap_params` of custom_extractor.lvs.
-/

namespace Verif.Decks

/-! ### MIM capacitors -/

/-- A capacitor with what its terminals are joined with; `none` for an open terminal. -/
structure MimDevice (S : Type) where
  top : Option S
  btm : Option S
  sub : Option S
deriving DecidableEq

/-- `extract_devices` and `define_terminals` for a cluster with the shapes of each layer and the number of merged markers;
custom_mim_extractor.lvs 117–135, 200–225. `rf` for `rfcmim`: without a substrate marker the terminals are not defined. -/
def extractMim {S : Type} (rf : Bool) (markers : Nat) (tops btms subs : List S) : List (MimDevice S) :=
  (List.range markers).flatMap fun _ =>
    if tops.length ≠ 1 then []
    else if btms.length ≠ 1 then []
    else if rf then
      match subs.head? with
      | none => [⟨none, none, none⟩]
      | some s => [⟨tops.head?, btms.head?, some s⟩]
    else [⟨tops.head?, btms.head?, none⟩]

/-- `sized` of a rectangle; cap_derivations.lvs 32. -/
def Rectangle.sized (r : Rectangle) (n : Int) : Rectangle := ⟨r.x0 - n, r.y0 - n, r.x1 + n, r.y1 + n⟩

/-- Two rectangles overlap or touch. -/
def Rectangle.meets (a b : Rectangle) : Prop := a.x0 ≤ b.x1 ∧ b.x0 ≤ a.x1 ∧ a.y0 ≤ b.y1 ∧ b.y0 ≤ a.y1

/-- Capacitors with a common bottom plate: `covering` merges plates that touch each other (cap_derivations.lvs 32, 38). -/
def CommonPlate (n : Int) (caps : List Rectangle) : Fin caps.length → Fin caps.length → Prop :=
  Relation.EqvGen fun i j => ((caps[i]).sized n).meets ((caps[j]).sized n)

open Classical in
/-- The capacitors `cap_cmim` extracted from the cluster of the `i`-th one. The cluster follows the bottom plate to all markers on
it (`get_connectivity`, custom_mim_extractor.lvs 86–115). A top plate is named by its capacitor, a bottom plate by the capacitors on it. -/
noncomputable def cmimDevices (n : Int) (caps : List Rectangle) (i : Fin caps.length) :
    List (MimDevice (List (Fin caps.length))) :=
  let cluster := (List.finRange caps.length).filter fun j => CommonPlate n caps i j
  extractMim false cluster.length (cluster.map fun j => [j]) [cluster] []

/-! ### Varactors -/

/-- `calc_varicap_params`: width and length; custom_extractor.lvs 186–196. -/
def varicap (dev meas : List Seg) : Int × Int :=
  let ls := lengths (dev.filter fun s => !meas.any s.touches)
  (ls.max?.getD 0, ls.min?.getD 0)

/-! ### Specification -/

/-- Between the rectangles there is more than `d`, in one of the directions. -/
def Apart (d : Int) (a b : Rectangle) : Prop := d < b.x0 - a.x1 ∨ d < a.x0 - b.x1 ∨ d < b.y0 - a.y1 ∨ d < a.y0 - b.y1

/-! ### Proofs -/

/-- A cluster with one top plate and one bottom plate gives one device per marker, between these plates. -/
theorem mim_plates {S : Type} {rf : Bool} {top btm : S} {subs : List S} (h : rf = true → subs ≠ []) (markers : Nat) :
    extractMim rf markers [top] [btm] subs =
      List.replicate markers ⟨some top, some btm, if rf then subs.head? else none⟩ := by
  have : ∀ l : List Nat, (l.flatMap fun _ => if [top].length ≠ 1 then []
      else if [btm].length ≠ 1 then []
      else if rf then
        match subs.head? with
        | none => [(⟨none, none, none⟩ : MimDevice S)]
        | some s => [⟨[top].head?, [btm].head?, some s⟩]
      else [⟨[top].head?, [btm].head?, none⟩]) = List.replicate l.length ⟨some top, some btm, if rf then subs.head? else none⟩ := by
    intro l
    induction l with
    | nil => rfl
    | cons a l ih =>
      rw [List.flatMap_cons, ih, show (a :: l).length = l.length + 1 from rfl, List.replicate_succ]
      cases rf with
      | false => simp
      | true =>
        cases subs with
        | nil => exact absurd rfl (h rfl)
        | cons s subs => simp
  rw [extractMim, this, List.length_range]

/-- With another number of plates of one kind no capacitor is extracted. -/
theorem mim_count {S : Type} (rf : Bool) (markers : Nat) {tops btms : List S} (subs : List S)
    (h : tops.length ≠ 1 ∨ btms.length ≠ 1) : extractMim rf markers tops btms subs = [] := by
  rw [extractMim, List.flatMap_eq_nil_iff]
  intro _ _
  by_cases h' : tops.length = 1
  · rw [if_neg (by simp [h']), if_pos (h.resolve_left (by simp [h']))]
  · rw [if_pos h']

/-- Violation: an `rfcmim` without a substrate marker is extracted with open terminals. -/
theorem rfmim_open {S : Type} (top btm : S) : extractMim true 1 [top] [btm] [] = [⟨none, none, none⟩] := rfl

theorem meets_sized {n : Int} {a b : Rectangle} : ¬ (a.sized n).meets (b.sized n) ↔ Apart (2 * n) a b := by
  simp only [Rectangle.meets, Rectangle.sized, Apart]
  omega

theorem commonPlate_alone {n : Int} {caps : List Rectangle} {i : Fin caps.length} (h : ∀ j, j ≠ i → Apart (2 * n) caps[i] caps[j]) :
    ∀ {j k}, CommonPlate n caps j k → (j = i ↔ k = i) := by
  intro j k hjk
  induction hjk with
  | rel j k hm =>
    constructor
    · rintro rfl
      by_contra hk
      exact meets_sized.2 (h k hk) hm
    · rintro rfl
      by_contra hj
      refine meets_sized.2 (h j hj) ?_
      obtain ⟨h1, h2, h3, h4⟩ := hm
      exact ⟨h2, h1, h4, h3⟩
  | refl j => rfl
  | symm _ _ _ ih => exact ih.symm
  | trans _ _ _ _ _ ih ih' => exact ih.trans ih'

/-- A MIM capacitor is extracted, between its own plates, if all others are more than twice the enlargement of the bottom plate away
(1.2 µm); otherwise neither it nor the other ones are. -/
theorem cmim_extracted_partial (n : Int) (caps : List Rectangle) (i : Fin caps.length) :
    ((∀ j, j ≠ i → Apart (2 * n) caps[i] caps[j]) → cmimDevices n caps i = [⟨some [i], some [i], none⟩]) ∧
    (¬ (∀ j, j ≠ i → Apart (2 * n) caps[i] caps[j]) → cmimDevices n caps i = []) := by
  classical
  constructor
  · intro h
    have hc : ((List.finRange caps.length).filter fun j => CommonPlate n caps i j) = [i] := by
      have : ((List.finRange caps.length).filter fun j => CommonPlate n caps i j) =
          (List.finRange caps.length).filter fun j => j = i := by
        refine List.filter_congr fun j _ => ?_
        have := @commonPlate_alone n caps i h i j
        by_cases hj : j = i
        · subst hj
          simp [CommonPlate, Relation.EqvGen.refl]
        · have : ¬ CommonPlate n caps i j := fun hp => hj ((this hp).1 rfl)
          simp [this, hj]
      rw [this]
      have hn := (List.nodup_finRange caps.length).filter fun j => decide (j = i)
      have hm : i ∈ (List.finRange caps.length).filter fun j => decide (j = i) := by simp
      have ha : ∀ j ∈ (List.finRange caps.length).filter fun j => decide (j = i), j = i := by simp
      revert hn hm ha
      generalize (List.finRange caps.length).filter (fun j => decide (j = i)) = l
      intro hn hm ha
      rcases l with _ | ⟨a, _ | ⟨b, l⟩⟩
      · simp at hm
      · rw [ha a (.head _)]
      · have h1 := ha a (.head _)
        have h2 := ha b (.tail _ (.head _))
        simp [h1, h2] at hn
    rw [cmimDevices]
    simp only [hc]
    rfl
  · intro h
    push Not at h
    obtain ⟨j, hj, hn⟩ := h
    rw [cmimDevices]
    refine mim_count _ _ _ (.inl ?_)
    rw [List.length_map]
    have hi : i ∈ (List.finRange caps.length).filter fun j => CommonPlate n caps i j := by
      simp [CommonPlate, Relation.EqvGen.refl]
    have hj' : j ∈ (List.finRange caps.length).filter fun j => CommonPlate n caps i j := by
      have : ((caps[i]).sized n).meets ((caps[j]).sized n) := by
        by_contra hm
        exact hn (meets_sized.1 hm)
      simp only [List.mem_filter, List.mem_finRange, true_and, decide_eq_true_eq]
      exact .rel _ _ this
    have hsub : [i, j] ⊆ (List.finRange caps.length).filter fun j => CommonPlate n caps i j := by
      intro k hk
      simp only [List.mem_cons, List.not_mem_nil, or_false] at hk
      rcases hk with rfl | rfl
      · exact hi
      · exact hj'
    have hnd : [i, j].Nodup := by simp [hj.symm]
    have := (hnd.subperm hsub).length_le
    simp only [List.length_cons, List.length_nil] at this
    omega

/-- Violation: two capacitors 1 µm apart (in nanometres) are both lost, 1.3 µm apart both are extracted. -/
theorem cmim_ex : (∀ i, cmimDevices 600 [⟨0, 0, 5000, 5000⟩, ⟨6000, 0, 11000, 5000⟩] i = []) ∧
    ∀ i, cmimDevices 600 [⟨0, 0, 5000, 5000⟩, ⟨6300, 0, 11300, 5000⟩] i = [⟨some [i], some [i], none⟩] := by
  constructor
  · intro i
    refine (cmim_extracted_partial 600 _ i).2 fun h => ?_
    match i, h with
    | ⟨0, _⟩, h => exact absurd (h ⟨1, by decide⟩ (by simp)) (by simp [Apart])
    | ⟨1, _⟩, h => exact absurd (h ⟨0, by decide⟩ (by simp)) (by simp [Apart])
  · intro i
    refine (cmim_extracted_partial 600 _ i).1 fun j hj => ?_
    match i, j, hj with
    | ⟨0, _⟩, ⟨0, _⟩, hj => exact absurd rfl hj
    | ⟨0, _⟩, ⟨1, _⟩, _ => simp [Apart]
    | ⟨1, _⟩, ⟨0, _⟩, _ => simp [Apart]
    | ⟨1, _⟩, ⟨1, _⟩, hj => exact absurd rfl hj

/-- A varactor whose gate lies inside of the active area: the width is the longer side, the length the shorter one. -/
theorem varicap_inside_partial {d a : Rectangle} (hx : d.x0 < d.x1) (hy : d.y0 < d.y1) (h1 : a.x0 < d.x0) (h2 : d.x1 < a.x1)
    (h3 : a.y0 < d.y0) (h4 : d.y1 < a.y1) :
    varicap d.edges a.edges = (max (d.x1 - d.x0) (d.y1 - d.y0), min (d.x1 - d.x0) (d.y1 - d.y0)) := by
  have : (d.edges.filter fun s => !a.edges.any s.touches) = d.edges := by
    refine List.filter_eq_self.2 fun s hs => ?_
    simp only [Rectangle.edges, List.mem_cons, List.not_mem_nil, or_false] at hs
    rcases hs with rfl | rfl | rfl | rfl <;>
      simp [Rectangle.edges, Seg.touches] <;> omega
  rw [varicap, this]
  simp [lengths, Rectangle.edges, List.max?_cons, List.min?_cons]

/-- Violation: a varactor whose gate crosses the active area is measured as 0 by 0: each of its edges touches an edge of the active
area. -/
theorem varicap_crossing {d a : Rectangle} (hx : d.x0 < d.x1) (hy : d.y0 < d.y1) (h1 : a.x0 ≤ d.x0) (h2 : d.x1 ≤ a.x1)
    (h3 : a.y0 = d.y0) (h4 : a.y1 = d.y1) : varicap d.edges a.edges = (0, 0) := by
  have : (d.edges.filter fun s => !a.edges.any s.touches) = [] := by
    refine List.filter_eq_nil_iff.2 fun s hs => ?_
    simp only [Rectangle.edges, List.mem_cons, List.not_mem_nil, or_false] at hs
    rcases hs with rfl | rfl | rfl | rfl <;>
      simp only [Rectangle.edges, List.any_cons, List.any_nil, Seg.touches, Bool.not_eq_true', Bool.or_eq_false_iff, if_true,
        Bool.true_eq_false, Bool.false_eq_true, if_false, Bool.and_eq_false_iff, beq_eq_false_iff_ne, decide_eq_false_iff_not] <;>
      omega
  rw [varicap, this]
  rfl

end Verif.Decks
