import Verif.TechInfo.Lemmas
import Mathlib.Tactic.FieldSimp
import Mathlib.Tactic.Ring
import Mathlib.Tactic.Linarith

/-!
# Properties of the technology lookups (C42, C43, C44)
-/

namespace Verif.TechInfo

/-- The specification that the technology file contains for an overlap of `a` above `b`: the last entry listed for the
pair; if there is none and `b` is the substrate, the area capacitance of the last substrate entry of layer `a`. -/
def OverlapIs (p : Parasitics) (a b : String) (v : OverlapSpec) : Prop :=
  IsLast (fun o => o.top = a ∧ o.bot = b) p.overlaps v ∨
  (∀ o ∈ p.overlaps, ¬(o.top = a ∧ o.bot = b)) ∧ b = "VSUBS" ∧
    ∃ s, IsLast (fun s => s.layer = a) p.substrates s ∧ v = ⟨a, "VSUBS", s.area⟩

/-- The same for side overlaps: edge of layer `a`, neighbour on layer `b`. -/
def SideOverlapIs (p : Parasitics) (a b : String) (v : SideOverlapSpec) : Prop :=
  IsLast (fun o => o.inLayer = a ∧ o.outLayer = b) p.sideoverlaps v ∨
  (∀ o ∈ p.sideoverlaps, ¬(o.inLayer = a ∧ o.outLayer = b)) ∧ b = "VSUBS" ∧
    ∃ s, IsLast (fun s => s.layer = a) p.substrates s ∧ v = ⟨a, "VSUBS", s.perimeter⟩

theorem lookup_or {V S : Type} (k1 k2 : V → String) (l : List V) (layer : S → String) (conv : S → V) (ss : List S)
    (a b : String) (v : V) :
    ((l.reverse.find? (fun o => decide (k1 o = a ∧ k2 o = b))).or
      (if b = substrateName then (ss.reverse.find? fun s => decide (layer s = a)).map conv else none) = some v) ↔
    (IsLast (fun o => k1 o = a ∧ k2 o = b) l v ∨
      (∀ o ∈ l, ¬(k1 o = a ∧ k2 o = b)) ∧ b = "VSUBS" ∧ ∃ s, IsLast (fun s => layer s = a) ss s ∧ v = conv s) := by
  rw [Option.or_eq_some_iff, find_last, find_last_none]
  have e1 : IsLast (fun y => decide (k1 y = a ∧ k2 y = b) = true) l v ↔ IsLast (fun o => k1 o = a ∧ k2 o = b) l v :=
    IsLast.congr (by simp)
  rw [e1]
  refine or_congr Iff.rfl (and_congr (by simp) ?_)
  by_cases hb : b = substrateName
  · rw [if_pos hb, Option.map_eq_some_iff]
    have : b = "VSUBS" := hb
    simp only [this, true_and]
    refine exists_congr fun s => ?_
    rw [find_last]
    refine and_congr (IsLast.congr (by simp)) eq_comm
  · rw [if_neg hb]
    have : ¬ b = "VSUBS" := hb
    simp [this]

/-- **C42, overlaps.** For every technology file and every pair of layer names, the overlap lookup (top layer, then
bottom layer) gives a specification exactly if the file contains one, and gives that one. -/
theorem overlap_lookup (p : Parasitics) (a b : String) (v : OverlapSpec) :
    (∃ e, (overlapTable p).get? a = some e ∧ e.get? b = some v) ↔ OverlapIs p a b v := by
  have h : lookup2 (overlapTable p) a b = some v ↔ OverlapIs p a b v := by
    rw [overlapTable_eq, lookup2_mergeAll _ _ (nodup_pairsG _ _ _).1 (nodup_pairsG _ _ _).2, lookup2_pairsG,
      overlapBase, substrateByLayer, base_lookup, lookup_or]
    refine or_congr Iff.rfl (and_congr Iff.rfl (and_congr Iff.rfl (exists_congr fun s => ?_)))
    constructor
    · rintro ⟨hs, rfl⟩; exact ⟨hs, by rw [← hs.prop]; rfl⟩
    · rintro ⟨hs, rfl⟩; exact ⟨hs, by rw [← hs.prop]; rfl⟩
  rw [← h, lookup2, Option.bind_eq_some_iff]

/-- **C42, side overlaps (loading).** The side overlap table is built exactly if every inside layer of the listed pairs
has a substrate entry; otherwise the first access raises a `KeyError`. -/
theorem side_table_loads (p : Parasitics) :
    ((∃ d, sideTable p = .ok d) ↔ ∀ o ∈ p.sideoverlaps, ∃ s ∈ p.substrates, s.layer = o.inLayer) ∧
    ((¬ ∃ d, sideTable p = .ok d) → sideTable p = .error "KeyError") := by
  have key : ∀ a, a ∈ (sideBase p).keys ↔ ∃ s ∈ p.substrates, s.layer = a := fun a => keys_base _ _ _ _
  by_cases h : ∀ o ∈ p.sideoverlaps, ∃ s ∈ p.substrates, s.layer = o.inLayer
  · have : sideTable p = .ok (mergeAll (sideBase p) (pairsG (·.inLayer) (·.outLayer) p.sideoverlaps)) := by
      rw [sideTable_eq]
      refine outer_ok _ _ (fun e he => ?_)
      have : e.1 ∈ (pairsG (·.inLayer) (·.outLayer) p.sideoverlaps).keys := List.mem_map_of_mem he
      rw [keys_pairsG] at this
      obtain ⟨o, ho, hk⟩ := this
      rw [key, ← hk]; exact h o ho
    exact ⟨⟨fun _ => h, fun _ => ⟨_, this⟩⟩, fun hn => absurd ⟨_, this⟩ hn⟩
  · have : sideTable p = .error "KeyError" := by
      rw [sideTable_eq]
      refine outer_err _ _ (ne_nil_pairsG _ _ _) ?_
      simp only [not_forall] at h
      obtain ⟨o, ho, hn⟩ := h
      have hk : o.inLayer ∈ (pairsG (fun x : SideOverlapSpec => x.inLayer) (·.outLayer) p.sideoverlaps).keys :=
        (keys_pairsG _ _ _ _).2 ⟨o, ho, rfl⟩
      obtain ⟨v, hv⟩ := (Dict.mem_keys _ _).1 hk
      exact ⟨_, hv, fun hin => hn ((key _).1 hin)⟩
    refine ⟨⟨?_, fun h' => absurd h' h⟩, fun _ => this⟩
    rintro ⟨d, hd⟩
    rw [this] at hd; cases hd

/-- **C42, side overlaps.** Whenever the table is built, the lookup (inside layer, then outside layer) gives a
specification exactly if the file contains one, and gives that one.  Partial: loading fails for some files
(`side_table_loads`). -/
theorem side_overlap_lookup_partial (p : Parasitics) (d : Dict String (Dict String SideOverlapSpec))
    (hd : sideTable p = .ok d) (a b : String) (v : SideOverlapSpec) :
    (∃ e, d.get? a = some e ∧ e.get? b = some v) ↔ SideOverlapIs p a b v := by
  have hk := (side_table_loads p).1.1 ⟨d, hd⟩
  have key : ∀ a, a ∈ (sideBase p).keys ↔ ∃ s ∈ p.substrates, s.layer = a := fun a => keys_base _ _ _ _
  have hd' : d = mergeAll (sideBase p) (pairsG (·.inLayer) (·.outLayer) p.sideoverlaps) := by
    have : sideTable p = .ok (mergeAll (sideBase p) (pairsG (·.inLayer) (·.outLayer) p.sideoverlaps)) := by
      rw [sideTable_eq]
      refine outer_ok _ _ (fun e he => ?_)
      have : e.1 ∈ (pairsG (·.inLayer) (·.outLayer) p.sideoverlaps).keys := List.mem_map_of_mem he
      rw [keys_pairsG] at this
      obtain ⟨o, ho, hk'⟩ := this
      rw [key, ← hk']; exact hk o ho
    rw [hd] at this
    exact Except.ok.inj this
  have h : lookup2 d a b = some v ↔ SideOverlapIs p a b v := by
    rw [hd', lookup2_mergeAll _ _ (nodup_pairsG _ _ _).1 (nodup_pairsG _ _ _).2, lookup2_pairsG,
      sideBase, substrateByLayer, base_lookup, lookup_or]
    refine or_congr Iff.rfl (and_congr Iff.rfl (and_congr Iff.rfl (exists_congr fun s => ?_)))
    constructor
    · rintro ⟨hs, rfl⟩; exact ⟨hs, by rw [← hs.prop]; rfl⟩
    · rintro ⟨hs, rfl⟩; exact ⟨hs, by rw [← hs.prop]; rfl⟩
  rw [← h, lookup2, Option.bind_eq_some_iff]

/-- **C42 is false for side overlaps**: a file that lists a side overlap of a layer without a substrate entry makes the
lookup fail for all pairs. -/
theorem side_overlap_lookup_fails :
    ∃ p : Parasitics, (∃ v, SideOverlapIs p "met1" "met2" v) ∧ ∀ d, sideTable p ≠ .ok d := by
  refine ⟨{ sideoverlaps := [⟨"met1", "met2", 5⟩] }, ⟨⟨"met1", "met2", 5⟩, Or.inl ⟨[], [], rfl, ⟨rfl, rfl⟩, by simp⟩⟩, ?_⟩
  intro d hd
  have := (side_table_loads _).1.1 ⟨d, hd⟩ ⟨"met1", "met2", 5⟩ (by simp)
  simp at this

/-- Whether the file has an overlap entry decides whether the lookup finds one: no lookup of an unlisted pair succeeds
(the "exactly" of C42 in its negative form). -/
theorem overlap_lookup_none (p : Parasitics) (a b : String) :
    ((overlapTable p).get? a).bind (fun e => e.get? b) = none ↔
      (∀ o ∈ p.overlaps, ¬(o.top = a ∧ o.bot = b)) ∧ (b = "VSUBS" → ∀ s ∈ p.substrates, s.layer ≠ a) := by
  have h := lookup2_mergeAll (pairsG (·.top) (·.bot) p.overlaps) (overlapBase p) (nodup_pairsG _ _ _).1
    (nodup_pairsG _ _ _).2 a b
  rw [← overlapTable_eq, lookup2_pairsG, overlapBase, substrateByLayer, base_lookup] at h
  change lookup2 (overlapTable p) a b = none ↔ _
  rw [h, Option.or_eq_none_iff, find_last_none]
  refine and_congr (by simp) ?_
  by_cases hb : b = substrateName
  · rw [if_pos hb, Option.map_eq_none_iff, find_last_none]
    have : b = "VSUBS" := hb
    simp [this]
  · rw [if_neg hb]
    have : ¬ b = "VSUBS" := hb
    simp [this]

/-! ### Layer lookup -/

/-- **C43.** The GDS pair of a layer name is the one of the last computed layer of that name if there is one, otherwise
the one of the last original layer of that name, otherwise nothing. -/
theorem gds_pair_precedence (t : Tech) (n : String) :
    (∀ g, gdsPair t n = some g ↔
      (∃ c, IsLast (fun c => c.info.name = n) t.computed c ∧ c.info.drw = g) ∨
      ((∀ c ∈ t.computed, c.info.name ≠ n) ∧ ∃ l, IsLast (fun l => l.name = n) t.layers l ∧ l.drw = g)) ∧
    (gdsPair t n = none ↔ (∀ c ∈ t.computed, c.info.name ≠ n) ∧ ∀ l ∈ t.layers, l.name ≠ n) := by
  have e : gdsPair t n = ((gdsPairForComputed t).get? n).or ((gdsPairForLayer t).get? n) := by
    unfold gdsPair
    cases (gdsPairForComputed t).get? n with
    | some p => rfl
    | none => cases (gdsPairForLayer t).get? n <;> rfl
  rw [e]
  constructor
  · intro g
    rw [Option.or_eq_some_iff, gdsPairForComputed, gdsPairForLayer, ofList_map_some, ofList_map_some, ofList_map_none]
  · rw [Option.or_eq_none_iff, gdsPairForComputed, gdsPairForLayer, ofList_map_none, ofList_map_none]

/-- **C43, lookups by one key.** The computed layer of a name, the computed layer and the canonical name of a GDS pair,
the layer of a GDS pair, the sidewall and substrate entries of a layer and the resistances are the last entries. -/
theorem single_lookups (t : Tech) :
    (∀ n c, (computedByName t).get? n = some c ↔ IsLast (fun c => c.info.name = n) t.computed c) ∧
    (∀ g c, (computedByPair t).get? g = some c ↔ IsLast (fun c => c.info.drw = g) t.computed c) ∧
    (∀ g s, (canonicalByPair t).get? g = some s ↔
      ∃ c, IsLast (fun c => c.info.drw = g) t.computed c ∧ c.original = s) ∧
    (∀ g l, (layerByPair t).get? g = some l ↔ IsLast (fun l => l.drw = g) t.layers l) ∧
    (∀ n s, (sidewallTable t.parasitics).get? n = some s ↔ IsLast (fun s => s.layer = n) t.parasitics.sidewalls s) ∧
    (∀ n s, (substrateByLayer t.parasitics).get? n = some s ↔ IsLast (fun s => s.layer = n) t.parasitics.substrates s) ∧
    (∀ n r, (layerResistance t).get? n = some r ↔ IsLast (fun r => r.layer = n) t.parasitics.layerResistances r) ∧
    (∀ n r, (contactResistance t).get? n = some r ↔
      IsLast (fun r => r.deviceLayer = n) t.parasitics.contactResistances r) ∧
    (∀ n r, (viaResistance t).get? n = some r ↔ IsLast (fun r => r.viaName = n) t.parasitics.viaResistances r) := by
  have k : ∀ {α κ : Type} [DecidableEq κ] (key : α → κ) (l : List α) (n : κ) (v : α),
      (Dict.ofList (l.map fun x => (key x, x))).get? n = some v ↔ IsLast (fun y => key y = n) l v := by
    intro α κ _ key l n v
    rw [ofList_map_some key (fun x => x)]
    constructor
    · rintro ⟨x, hx, rfl⟩; exact hx
    · intro h; exact ⟨v, h, rfl⟩
  exact ⟨fun _ _ => k _ _ _ _, fun _ _ => k _ _ _ _, fun _ _ => ofList_map_some _ _ _ _ _, fun _ _ => k _ _ _ _,
    fun _ _ => k _ _ _ _, fun _ _ => k _ _ _ _, fun _ _ => k _ _ _ _, fun _ _ => k _ _ _ _, fun _ _ => k _ _ _ _⟩

/-! ### Units -/

/-- **C44, sheet resistances.** Milliohms become ohms: 1000 times the result is the value, different values stay
different, sums and multiples are kept. -/
theorem milliohm_exact (x y k : ℚ) :
    1000 * milliohmToOhm x = x ∧ (milliohmToOhm x = milliohmToOhm y ↔ x = y) ∧
    milliohmToOhm (x + y) = milliohmToOhm x + milliohmToOhm y ∧ milliohmToOhm (k * x) = k * milliohmToOhm x := by
  unfold milliohmToOhm
  refine ⟨by ring, ⟨fun h => by linarith, fun h => by rw [h]⟩, by ring, by ring⟩

/-- **C44, contacts and vias.** The extraction divides the specific resistance by the area of a via.  For an area that
holds `n` contacts of the technology's contact width, the conductance is `n` times the conductance of one contact, whose
resistance is the milliohm value of the technology file over 1000. -/
theorem contact_conductance (c : Contact) (cr : ContactResistance) (vr : ViaResistance) (n : ℕ) (hw : 0 < c.width) :
    (n * c.width ^ 2) / contactOhmBySquare c cr = n * (1 / (cr.resistance / 1000)) ∧
    (n * c.width ^ 2) / viaOhmBySquare c vr = n * (1 / (vr.resistance / 1000)) ∧
    contactOhmBySquare c cr / c.width ^ 2 = cr.resistance / 1000 ∧
    viaOhmBySquare c vr / c.width ^ 2 = vr.resistance / 1000 := by
  have hw' : c.width ≠ 0 := ne_of_gt hw
  have hw2 : c.width ^ 2 ≠ 0 := pow_ne_zero _ hw'
  have g : ∀ r : ℚ, (n * c.width ^ 2) / (r / 1000 * c.width ^ 2) = n * (1 / (r / 1000)) := by
    intro r
    rw [mul_div_mul_right _ _ hw2]; ring
  refine ⟨g _, g _, ?_, ?_⟩
  · rw [contactOhmBySquare, mul_div_assoc, div_self hw2, mul_one]
  · rw [viaOhmBySquare, mul_div_assoc, div_self hw2, mul_one]

/-! ### Examples -/

/-- Two entries for one pair, a substrate entry for each layer. -/
def exPar : Parasitics :=
  { substrates := [⟨"met1", 25, 40⟩, ⟨"met2", 17, 37⟩]
    overlaps := [⟨"met2", "met1", 130⟩, ⟨"met2", "met1", 133⟩]
    sideoverlaps := [⟨"met1", "met2", 61⟩, ⟨"met2", "met1", 48⟩] }

example : OverlapIs exPar "met2" "met1" ⟨"met2", "met1", 133⟩ :=
  Or.inl ⟨[⟨"met2", "met1", 130⟩], [], rfl, ⟨rfl, rfl⟩, by simp⟩

example : OverlapIs exPar "met2" "VSUBS" ⟨"met2", "VSUBS", 17⟩ :=
  Or.inr ⟨by simp [exPar], rfl, ⟨"met2", 17, 37⟩, ⟨[⟨"met1", 25, 40⟩], [], rfl, rfl, by simp⟩, rfl⟩

example : ∃ d, sideTable exPar = .ok d := (side_table_loads exPar).1.2 (by simp [exPar])

example : lookup2 (overlapTable exPar) "met2" "met1" = some ⟨"met2", "met1", 133⟩ := by decide +kernel

/-- A layer that is both computed and original. -/
def exTech : Tech :=
  { layers := [⟨.metal, "poly", (66, 20), (66, 16), (66, 5)⟩]
    computed := [⟨.regular, ⟨.metal, "poly_con", (66, 20), (0, 0), (0, 0)⟩, "poly"⟩] }

example : gdsPair exTech "poly_con" = some (66, 20) ∧ gdsPair exTech "poly" = some (66, 20) ∧
    gdsPair exTech "met9" = none := by decide +kernel

example : contactOhmBySquare ⟨"licon", "poly", "li1", 17/100⟩ ⟨"licon", "poly", 152000⟩ = 4.3928 := by
  norm_num [contactOhmBySquare]

end Verif.TechInfo
