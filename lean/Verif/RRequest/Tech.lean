import Verif.RRequest.Results

/-!
# The technology given to the resistor extractor (C62) and the layers of its ports (C64)
-/

namespace Verif.RRequest

open TechInfo (Tech GDSPair Kind Purpose ComputedLayer Contact StackLayer computedByPair canonicalByPair layerResistance
  contactByName contactResistance viaResistance bottomTopByVia gdsPair IsLast single_lookups gds_pair_precedence)
open Shapes (Polygon Pt)
open Lvs
open Exc

/-! ### Specification -/

/-- The contact that a layer of the process stack describes; a metal without contact counts as one without name. -/
def stackContact (l : StackLayer) : Option Contact :=
  match l.kind with
  | .nwell c => some c
  | .diffusion c => some c
  | .metal (some c) => some c
  | .metal none => some ⟨"", "", "", 0⟩
  | .other => none

/-- The contact that a metal layer of the process stack describes. -/
def metalContact (l : StackLayer) : Option Contact :=
  match l.kind with
  | .metal c => c
  | _ => none

/-- `k` is the contact with this name in the process stack (the last one). -/
def ContactNamed (t : Tech) (n : String) (k : Contact) : Prop := IsLast (fun k => k.name = n) (t.stack.filterMap stackContact) k

/-- `k` is the contact above a metal with this name in the process stack (the last one). -/
def ViaNamed (t : Tech) (n : String) (k : Contact) : Prop := IsLast (fun k => k.name = n) (t.stack.filterMap metalContact) k

/-- `g` is the GDS pair of a name: of the computed layer with that name, or else of the layer. -/
def PairNamed (t : Tech) (n : String) (g : GDSPair) : Prop :=
  (∃ c, IsLast (fun c => c.info.name = n) t.computed c ∧ c.info.drw = g) ∨
  ((∀ c ∈ t.computed, c.info.name ≠ n) ∧ ∃ l, IsLast (fun l => l.name = n) t.layers l ∧ l.drw = g)

/-- The resistance of contacts on the layer below contact `k` is known. -/
def ContactOhms (t : Tech) (k : Contact) (r : ℚ) : Prop :=
  ∃ cr, IsLast (fun r => r.deviceLayer = k.layerBelow) t.parasitics.contactResistances cr ∧ r = cr.resistance

/-- The resistance of vias with this canonical name is known. -/
def ViaOhms (t : Tech) (canonical : String) (r : ℚ) : Prop :=
  ∃ vr, IsLast (fun r => r.viaName = canonical) t.parasitics.viaResistances vr ∧ r = vr.resistance

/-- LVS layers that are conductors: implants and metals, except pin layers. -/
def IsConductor (t : Tech) (s : ExtractedLayer) : Prop :=
  ∃ c, KnownPair t s.pair c ∧ c.kind ≠ .pin ∧
    (c.info.purpose = .nImplant ∨ c.info.purpose = .pImplant ∨ c.info.purpose = .metal)

/-- The conductor for an LVS layer: an implant has no resistance, a metal the sheet resistance of the technology in Ohm. -/
def ConductorFor (t : Tech) (v : Env) (cfg : Config) (s : ExtractedLayer) (k : Conductor) : Prop :=
  ∃ c, KnownPair t s.pair c ∧ k.layer = ⟨v.layerOf s.pair, c.original, s.name⟩ ∧ k.minB = cfg.delaunayB ∧
    k.maxArea = cfg.delaunayAmax ∧
    (c.info.purpose = .nImplant ∨ c.info.purpose = .pImplant → k.algorithm = cfg.substrateAlgorithm ∧ k.resistance = 0) ∧
    (c.info.purpose = .metal →
      (k.algorithm = if c.original = "VSUBS" then cfg.substrateAlgorithm else cfg.wireAlgorithm) ∧
      ∃ r, IsLast (fun r => r.layer = c.original) t.parasitics.layerResistances r ∧ k.resistance = r.resistance / 1000)

/-- LVS layers that are vias: contacts that the process stack describes and whose resistance is known, and vias whose
resistance is known. -/
def IsVia (t : Tech) (s : ExtractedLayer) : Prop :=
  ∃ c, KnownPair t s.pair c ∧ c.kind ≠ .pin ∧
    ((c.info.purpose = .contact ∧ ∃ k r, ContactNamed t s.name k ∧ ContactOhms t k r) ∨
     (c.info.purpose = .via ∧ ∃ r, ViaOhms t c.original r))

/-- The via for an LVS layer and contact `k`: between the layers below and above the contact, with the resistance `mOhm`
of one contact in Ohm times the area of one contact. -/
def ViaEntry (t : Tech) (v : Env) (cfg : Config) (s : ExtractedLayer) (canonical : String) (below above : String)
    (width mOhm : ℚ) (u : Via) : Prop :=
  ∃ b a, PairNamed t below b ∧ PairNamed t above a ∧
    u = ⟨⟨v.layerOf s.pair, canonical, s.name⟩, v.layerOf b, v.layerOf a, mOhm / 1000 * (width * width), cfg.viaMergeDistance⟩

/-- The via for an LVS layer.  The entry of a via layer without contact in the process stack is empty. -/
def ViaFor (t : Tech) (v : Env) (cfg : Config) (s : ExtractedLayer) (u : Via) : Prop :=
  ∃ c, KnownPair t s.pair c ∧
    (c.info.purpose = .contact → ∃ k r, ContactNamed t s.name k ∧ ContactOhms t k r ∧
      ViaEntry t v cfg s c.original k.layerBelow k.metalAbove k.width r u) ∧
    (c.info.purpose = .via →
      (∃ k w r, ViaNamed t s.name k ∧ ContactNamed t s.name w ∧ ViaOhms t c.original r ∧
        ViaEntry t v cfg s c.original k.layerBelow k.metalAbove w.width r u) ∨
      ((∀ l ∈ t.stack, ∀ k, metalContact l = some k → k.name ≠ s.name) ∧ u = ⟨⟨0, "", ""⟩, 0, 0, 0, 0⟩))

/-! ### Lookups -/

theorem contactByName_eq (t : Tech) :
    contactByName t = Dict.ofList ((t.stack.filterMap stackContact).map fun c => (c.name, c)) := by
  unfold contactByName Dict.ofList
  rw [List.foldl_map]
  generalize ([] : Dict String Contact) = d
  generalize t.stack = st
  induction st generalizing d with
  | nil => rfl
  | cons l st ih =>
    rw [List.foldl_cons, ih]
    rcases hk : l.kind with c | c | c | _
    · rw [List.filterMap_cons_some (b := c) (by simp [stackContact, hk])]; rfl
    · rw [List.filterMap_cons_some (b := c) (by simp [stackContact, hk])]; rfl
    · rcases c with _ | c
      · rw [List.filterMap_cons_some (b := ⟨"", "", "", 0⟩) (by simp [stackContact, hk])]; rfl
      · rw [List.filterMap_cons_some (b := c) (by simp [stackContact, hk])]; rfl
    · rw [List.filterMap_cons_none (by simp [stackContact, hk])]

theorem contactByName_iff (t : Tech) (n : String) (k : Contact) :
    (contactByName t).get? n = some k ↔ ContactNamed t n k := by
  rw [contactByName_eq, TechInfo.ofList_map_some]
  constructor
  · rintro ⟨x, h, rfl⟩; exact h
  · intro h; exact ⟨k, h, rfl⟩

theorem bottomTop_eq (t : Tech) :
    bottomTopByVia t = Dict.ofList ((t.stack.filterMap metalContact).map fun c => (c.name, (c.layerBelow, c.metalAbove))) := by
  unfold bottomTopByVia Dict.ofList
  rw [List.foldl_map]
  generalize ([] : Dict String (String × String)) = d
  generalize t.stack = st
  induction st generalizing d with
  | nil => rfl
  | cons l st ih =>
    rw [List.foldl_cons, ih]
    rcases hk : l.kind with c | c | c | _
    · rw [List.filterMap_cons_none (by simp [metalContact, hk])]
    · rw [List.filterMap_cons_none (by simp [metalContact, hk])]
    · rcases c with _ | c
      · rw [List.filterMap_cons_none (by simp [metalContact, hk])]
      · rw [List.filterMap_cons_some (b := c) (by simp [metalContact, hk])]; rfl
    · rw [List.filterMap_cons_none (by simp [metalContact, hk])]

theorem contactRes_iff (t : Tech) (n : String) (r : TechInfo.ContactResistance) :
    (contactResistance t).get? n = some r ↔ IsLast (fun r => r.deviceLayer = n) t.parasitics.contactResistances r :=
  (single_lookups t).2.2.2.2.2.2.2.1 n r

theorem viaRes_iff (t : Tech) (n : String) (r : TechInfo.ViaResistance) :
    (viaResistance t).get? n = some r ↔ IsLast (fun r => r.viaName = n) t.parasitics.viaResistances r :=
  (single_lookups t).2.2.2.2.2.2.2.2 n r

/-! ### Conductors -/

def condB (t : Tech) (pair : GDSPair) : Bool :=
  ((computedByPair t).get? pair).elim false fun c => decide (c.kind ≠ .pin) &&
    (decide (c.info.purpose = .nImplant) || decide (c.info.purpose = .pImplant) || decide (c.info.purpose = .metal))

theorem condB_iff (t : Tech) (s : ExtractedLayer) : condB t s.pair = true ↔ IsConductor t s := by
  unfold condB IsConductor
  cases h : (computedByPair t).get? s.pair with
  | none =>
    refine ⟨fun h => by simp at h, ?_⟩
    rintro ⟨c, hc, _⟩
    rw [(pair_known t s.pair c).2 hc] at h; cases h
  | some c =>
    have hk := (pair_known t s.pair c).1 h
    simp only [Option.elim_some, Bool.and_eq_true, Bool.or_eq_true, decide_eq_true_eq]
    constructor
    · rintro ⟨a, b⟩; exact ⟨c, hk, a, by tauto⟩
    · rintro ⟨c', hc', a, b⟩
      rw [isLast_unique hc' hk] at a b
      exact ⟨a, by tauto⟩

def viaB (t : Tech) (s : ExtractedLayer) : Bool :=
  ((computedByPair t).get? s.pair).elim false fun c => decide (c.kind ≠ .pin) &&
    ((decide (c.info.purpose = .contact) &&
      ((contactByName t).get? s.name).elim false fun k => ((contactResistance t).get? k.layerBelow).isSome) ||
     (decide (c.info.purpose = .via) && ((viaResistance t).get? c.original).isSome))

theorem contactB_iff (t : Tech) (n : String) :
    (((contactByName t).get? n).elim false fun k => ((contactResistance t).get? k.layerBelow).isSome) = true ↔
      ∃ k r, ContactNamed t n k ∧ ContactOhms t k r := by
  cases h : (contactByName t).get? n with
  | none =>
    refine ⟨fun h => by simp at h, ?_⟩
    rintro ⟨k, r, hk, _⟩
    rw [(contactByName_iff t n k).2 hk] at h; cases h
  | some k =>
    have hk := (contactByName_iff t n k).1 h
    simp only [Option.elim_some, Option.isSome_iff_exists]
    constructor
    · rintro ⟨cr, hcr⟩; exact ⟨k, cr.resistance, hk, cr, (contactRes_iff t _ _).1 hcr, rfl⟩
    · rintro ⟨k', r, hk', cr, hcr, _⟩
      rw [isLast_unique hk' hk] at hcr
      exact ⟨cr, (contactRes_iff t _ _).2 hcr⟩

theorem viaB_iff (t : Tech) (s : ExtractedLayer) : viaB t s = true ↔ IsVia t s := by
  unfold viaB IsVia
  cases h : (computedByPair t).get? s.pair with
  | none =>
    refine ⟨fun h => by simp at h, ?_⟩
    rintro ⟨c, hc, _⟩
    rw [(pair_known t s.pair c).2 hc] at h; cases h
  | some c =>
    have hk := (pair_known t s.pair c).1 h
    have hv : ((viaResistance t).get? c.original).isSome = true ↔ ∃ r, ViaOhms t c.original r := by
      rw [Option.isSome_iff_exists]
      constructor
      · rintro ⟨r, hr⟩; exact ⟨r.resistance, r, (viaRes_iff t _ _).1 hr, rfl⟩
      · rintro ⟨_, r, hr, _⟩; exact ⟨r, (viaRes_iff t _ _).2 hr⟩
    simp only [Option.elim_some, Bool.and_eq_true, Bool.or_eq_true, decide_eq_true_eq, contactB_iff, hv]
    constructor
    · rintro ⟨a, b⟩; exact ⟨c, hk, a, b⟩
    · rintro ⟨c', hc', a, b⟩
      rw [isLast_unique hc' hk] at a b
      exact ⟨a, b⟩

theorem metalConductor_ok (t : Tech) (v : Env) (cfg : Config) (s : ExtractedLayer) (c : ComputedLayer)
    (hc : KnownPair t s.pair c) (hm : c.info.purpose = .metal) (k : Conductor)
    (h : metalConductor t v cfg c.original s = .ok k) : ConductorFor t v cfg s k := by
  unfold metalConductor at h
  rw [bind_ok] at h
  obtain ⟨r, hr, h⟩ := h
  rw [elim_ok] at hr
  rw [pure_ok] at h
  subst h
  refine ⟨c, hc, rfl, rfl, rfl, ?_, fun _ => ⟨rfl, r, ((single_lookups t).2.2.2.2.2.2.1 _ _).1 hr, rfl⟩⟩
  rw [hm]; rintro (h | h) <;> cases h

theorem implantConductor_ok (t : Tech) (v : Env) (cfg : Config) (s : ExtractedLayer) (c : ComputedLayer)
    (hc : KnownPair t s.pair c) (hm : c.info.purpose = .nImplant ∨ c.info.purpose = .pImplant) :
    ConductorFor t v cfg s (implantConductor v cfg c.original s) := by
  refine ⟨c, hc, rfl, rfl, rfl, fun _ => ⟨rfl, rfl⟩, fun h => ?_⟩
  rw [h] at hm; rcases hm with h | h <;> cases h

theorem pairNamed_of (t : Tech) (n : String) (g : GDSPair) (h : gdsPair t n = some g) : PairNamed t n g :=
  ((gds_pair_precedence t n).1 g).1 h

theorem contactVia_ok (t : Tech) (v : Env) (cfg : Config) (s : ExtractedLayer) (c : ComputedLayer)
    (hc : KnownPair t s.pair c) (hm : c.info.purpose = .contact) (us : List Via)
    (h : contactVia t v cfg c.original s = .ok us) :
    List.Forall₂ (ViaFor t v cfg) ([s].filter fun s =>
      ((contactByName t).get? s.name).elim false fun k => ((contactResistance t).get? k.layerBelow).isSome) us := by
  unfold contactVia at h
  cases hk : (contactByName t).get? s.name with
  | none => rw [hk] at h; cases h; simp [hk]
  | some k =>
    rw [hk] at h
    simp only at h
    cases hr : (contactResistance t).get? k.layerBelow with
    | none => rw [hr] at h; cases h; simp [hk, hr]
    | some cr =>
      rw [hr] at h
      simp only at h
      rw [bind_ok] at h
      obtain ⟨b, hb, h⟩ := h
      rw [bind_ok] at h
      obtain ⟨a, ha, h⟩ := h
      rw [elim_ok] at hb ha
      rw [pure_ok] at h
      subst h
      rw [List.filter_cons_of_pos (by simp [hk, hr]), List.filter_nil]
      refine .cons ⟨c, hc, fun _ => ?_, fun h => by rw [hm] at h; cases h⟩ .nil
      refine ⟨k, cr.resistance, (contactByName_iff t _ _).1 hk, ⟨cr, (contactRes_iff t _ _).1 hr, rfl⟩, b, a,
        pairNamed_of t _ _ hb, pairNamed_of t _ _ ha, ?_⟩
      unfold TechInfo.contactOhmBySquare
      rw [pow_two]

theorem viaVia_ok (t : Tech) (v : Env) (cfg : Config) (s : ExtractedLayer) (c : ComputedLayer)
    (hc : KnownPair t s.pair c) (hm : c.info.purpose = .via) (r : TechInfo.ViaResistance)
    (hr : (viaResistance t).get? c.original = some r) (u : Via)
    (h : viaVia t v cfg c.original r s = .ok u) : ViaFor t v cfg s u := by
  unfold viaVia at h
  refine ⟨c, hc, (fun h => by rw [hm] at h; cases h), fun _ => ?_⟩
  cases hbt : (bottomTopByVia t).get? s.name with
  | none =>
    rw [hbt] at h
    cases h
    rw [bottomTop_eq, TechInfo.ofList_map_none] at hbt
    refine .inr ⟨fun l hl k hk => hbt k (List.mem_filterMap.2 ⟨l, hl, hk⟩), rfl⟩
  | some bt =>
    rw [hbt] at h
    simp only at h
    rw [bind_ok] at h
    obtain ⟨b, hb, h⟩ := h
    rw [bind_ok] at h
    obtain ⟨a, ha, h⟩ := h
    rw [bind_ok] at h
    obtain ⟨w, hw, h⟩ := h
    rw [elim_ok] at hb ha hw
    rw [pure_ok] at h
    subst h
    rw [bottomTop_eq, TechInfo.ofList_map_some] at hbt
    obtain ⟨k, hk, rfl⟩ := hbt
    refine .inl ⟨k, w, r.resistance, hk, (contactByName_iff t _ _).1 hw, ⟨r, (viaRes_iff t _ _).1 hr, rfl⟩, b, a,
      pairNamed_of t _ _ hb, pairNamed_of t _ _ ha, ?_⟩
    unfold TechInfo.viaOhmBySquare
    rw [pow_two]

theorem forall₂_map_self {α β : Type} (R : α → β → Prop) (f : α → β) (l : List α) (h : ∀ a ∈ l, R a (f a)) :
    List.Forall₂ R l (l.map f) := by
  induction l with
  | nil => exact .nil
  | cons a l ih => exact .cons (h a List.mem_cons_self) (ih fun a ha => h a (List.mem_cons_of_mem _ ha))

theorem forall₂_imp_mem {α β : Type} {R S : α → β → Prop} {l : List α} {m : List β} (h : List.Forall₂ R l m)
    (hi : ∀ a ∈ l, ∀ b, R a b → S a b) : List.Forall₂ S l m := by
  induction h with
  | nil => exact .nil
  | cons h _ ih =>
    exact .cons (hi _ List.mem_cons_self _ h) (ih fun a ha b hb => hi a (List.mem_cons_of_mem _ ha) b hb)

theorem forall₂_flat {α β γ : Type} {R : β → γ → Prop} {Q : α → List γ → Prop} {l : List α} {m : List (List γ)}
    (f : α → List β) (h : List.Forall₂ Q l m) (hi : ∀ a ∈ l, ∀ b, Q a b → List.Forall₂ R (f a) b) :
    List.Forall₂ R (l.flatMap f) m.flatten := by
  induction h with
  | nil => exact .nil
  | cons h _ ih =>
    rw [List.flatMap_cons, List.flatten_cons]
    exact List.rel_append (hi _ List.mem_cons_self _ h) (ih fun a ha b hb => hi a (List.mem_cons_of_mem _ ha) b hb)

theorem filter_flat {α : Type} (p : α → Bool) (l : List α) : l.filter p = l.flatMap fun a => [a].filter p := by
  induction l with
  | nil => rfl
  | cons a l ih =>
    rw [List.flatMap_cons, ← ih]
    by_cases h : p a <;> simp [h]

theorem layerEntries_ok (t : Tech) (v : Env) (cfg : Config) (pair : GDSPair) (m : Merged)
    (hs : ∀ s ∈ m.sources, s.pair = pair) (T : RTech) (h : layerEntries t v cfg (pair, m) = .ok T) :
    List.Forall₂ (ConductorFor t v cfg) (m.sources.filter fun s => condB t s.pair) T.conductors ∧
    List.Forall₂ (ViaFor t v cfg) (m.sources.filter fun s => viaB t s) T.vias := by
  unfold layerEntries at h
  simp only at h
  have none_c : (∀ s ∈ m.sources, condB t s.pair = false) → m.sources.filter (fun s => condB t s.pair) = [] := by
    intro h'; rw [List.filter_eq_nil_iff]; intro s hs'; simp [h' s hs']
  have none_v : (∀ s ∈ m.sources, viaB t s = false) → m.sources.filter (fun s => viaB t s) = [] := by
    intro h'; rw [List.filter_eq_nil_iff]; intro s hs'; simp [h' s hs']
  cases hc : (computedByPair t).get? pair with
  | none =>
    rw [hc] at h
    cases h
    rw [none_c, none_v]
    · exact ⟨.nil, .nil⟩
    · intro s hs'; unfold viaB; rw [hs s hs', hc]; rfl
    · intro s hs'; unfold condB; rw [hs s hs', hc]; rfl
  | some c =>
    rw [hc] at h
    simp only at h
    have hk := (pair_known t pair c).1 hc
    have hks : ∀ s ∈ m.sources, KnownPair t s.pair c := fun s hs' => by rw [hs s hs']; exact hk
    have hcond : ∀ s ∈ m.sources, condB t s.pair = (decide (c.kind ≠ .pin) &&
        (decide (c.info.purpose = .nImplant) || decide (c.info.purpose = .pImplant) ||
          decide (c.info.purpose = .metal))) := by
      intro s hs'; unfold condB; rw [hs s hs', hc]; rfl
    have hvia : ∀ s ∈ m.sources, viaB t s = (decide (c.kind ≠ .pin) &&
        ((decide (c.info.purpose = .contact) &&
          ((contactByName t).get? s.name).elim false fun k => ((contactResistance t).get? k.layerBelow).isSome) ||
         (decide (c.info.purpose = .via) && ((viaResistance t).get? c.original).isSome))) := by
      intro s hs'; unfold viaB; rw [hs s hs', hc]; rfl
    rw [bind_ok] at h
    obtain ⟨can, hcan, h⟩ := h
    rw [elim_ok, (canonical_known t pair c.original).2 ⟨c, hk, rfl⟩] at hcan
    cases hcan
    by_cases hpin : c.kind = .pin
    · rw [if_pos hpin, pure_ok] at h
      subst h
      rw [none_c, none_v]
      · exact ⟨.nil, .nil⟩
      · intro s hs'; rw [hvia s hs']; simp [hpin]
      · intro s hs'; rw [hcond s hs']; simp [hpin]
    · rw [if_neg hpin] at h
      unfold purposeEntries at h
      have all_c : (∀ s ∈ m.sources, condB t s.pair = true) → m.sources.filter (fun s => condB t s.pair) = m.sources :=
        fun h' => List.filter_eq_self.2 h'
      rcases hp : c.info.purpose with _ | _ | _ | _ | _ | _ | _
      · rw [hp] at h; cases h
        rw [none_c, none_v]
        · exact ⟨.nil, .nil⟩
        · intro s hs'; rw [hvia s hs']; simp [hp]
        · intro s hs'; rw [hcond s hs']; simp [hp]
      · rw [hp] at h; cases h
        rw [all_c, none_v]
        · exact ⟨forall₂_map_self _ _ _ fun s hs' => implantConductor_ok t v cfg s c (hks s hs') (.inl hp), .nil⟩
        · intro s hs'; rw [hvia s hs']; simp [hp]
        · intro s hs'; rw [hcond s hs']; simp [hp, hpin]
      · rw [hp] at h; cases h
        rw [all_c, none_v]
        · exact ⟨forall₂_map_self _ _ _ fun s hs' => implantConductor_ok t v cfg s c (hks s hs') (.inr hp), .nil⟩
        · intro s hs'; rw [hvia s hs']; simp [hp]
        · intro s hs'; rw [hcond s hs']; simp [hp, hpin]
      · rw [hp] at h
        simp only at h
        rw [bind_ok] at h
        obtain ⟨us, hus, h⟩ := h
        rw [pure_ok] at h
        subst h
        rw [mapM_ok] at hus
        rw [none_c]
        · refine ⟨.nil, ?_⟩
          simp only
          have e : m.sources.filter (fun s => viaB t s) = m.sources.flatMap fun s => [s].filter fun s =>
              ((contactByName t).get? s.name).elim false fun k => ((contactResistance t).get? k.layerBelow).isSome := by
            rw [← filter_flat]
            refine List.filter_congr fun s hs' => ?_
            rw [hvia s hs']; simp [hp, hpin]
          rw [e]
          exact forall₂_flat _ hus fun s hs' b hb => contactVia_ok t v cfg s c (hks s hs') hp b hb
        · intro s hs'; rw [hcond s hs']; simp [hp]
      · rw [hp] at h
        simp only at h
        rw [bind_ok] at h
        obtain ⟨us, hus, h⟩ := h
        rw [pure_ok] at h
        subst h
        rw [mapM_ok] at hus
        rw [all_c, none_v]
        · exact ⟨forall₂_imp_mem hus fun s hs' b hb => metalConductor_ok t v cfg s c (hks s hs') hp b hb, .nil⟩
        · intro s hs'; rw [hvia s hs']; simp [hp]
        · intro s hs'; rw [hcond s hs']; simp [hp, hpin]
      · rw [hp] at h
        simp only at h
        rw [none_c]
        · refine ⟨?_, ?_⟩
          · cases hr : (viaResistance t).get? c.original with
            | none => rw [hr] at h; cases h; exact .nil
            | some r =>
              rw [hr] at h
              simp only at h
              rw [bind_ok] at h
              obtain ⟨us, hus, h⟩ := h
              rw [pure_ok] at h
              subst h; exact .nil
          · cases hr : (viaResistance t).get? c.original with
            | none =>
              rw [hr] at h; cases h
              rw [none_v]
              · exact .nil
              · intro s hs'; rw [hvia s hs']; simp [hp, hr]
            | some r =>
              rw [hr] at h
              simp only at h
              rw [bind_ok] at h
              obtain ⟨us, hus, h⟩ := h
              rw [pure_ok] at h
              subst h
              rw [mapM_ok] at hus
              have e : m.sources.filter (fun s => viaB t s) = m.sources := by
                rw [List.filter_eq_self]
                intro s hs'; rw [hvia s hs']; simp [hp, hr, hpin]
              rw [e]
              exact forall₂_imp_mem hus fun s hs' b hb => viaVia_ok t v cfg s c (hks s hs') hp r hr b hb
        · intro s hs'; rw [hcond s hs']; simp [hp]
      · rw [hp] at h; cases h
        rw [none_c, none_v]
        · exact ⟨.nil, .nil⟩
        · intro s hs'; rw [hvia s hs']; simp [hp]
        · intro s hs'; rw [hcond s hs']; simp [hp]

/-- **C62.** The technology for the resistor extractor has exactly one conductor for every LVS layer of an implant or metal
and exactly one via for every LVS layer of a contact or via whose resistance is known; the values are those of the
technology file in Ohm and the layers those of the process stack. -/
theorem tech_exact_partial (t : Tech) (bb : Bool) (db : List DbLayer) (hd : (db.map (·.index)).Nodup) (v : Env) (cfg : Config)
    (T : RTech) (h : prepareTech (prepare t bb db) v cfg = .ok T) :
    T.skipSimplify = cfg.skipSimplify ∧
    (∃ srcs, (∀ s, s ∈ srcs ↔ Source t bb db s ∧ IsConductor t s) ∧ srcs.Nodup ∧
      List.Forall₂ (ConductorFor t v cfg) srcs T.conductors) ∧
    (∃ srcs, (∀ s, s ∈ srcs ↔ Source t bb db s ∧ IsVia t s) ∧ srcs.Nodup ∧
      List.Forall₂ (ViaFor t v cfg) srcs T.vias) := by
  unfold prepareTech at h
  rw [bind_ok] at h
  obtain ⟨parts, hparts, h⟩ := h
  rw [pure_ok] at h
  subst h
  rw [mapM_ok] at hparts
  obtain ⟨h1, h2⟩ := allSources_spec t bb db hd
  have hmem : ∀ e ∈ (prepare t bb db).layers.extracted, ∀ s ∈ e.2.sources, s.pair = e.1 := by
    rintro ⟨pair, m⟩ he s hs
    exact (((layers_exact t bb db hd).2.1 pair m he).2.2.1 s |>.1 hs).2
  have hmap : ∀ {γ : Type} (g : RTech → List γ), List.Forall₂ (fun e (us : List γ) => ∃ T,
      layerEntries (prepare t bb db).tech v cfg e = .ok T ∧ us = g T)
      (prepare t bb db).layers.extracted (parts.map g) := by
    intro γ g
    rw [List.forall₂_map_right_iff]
    exact hparts.imp fun e T hT => ⟨T, hT, rfl⟩
  refine ⟨rfl, ⟨(allSources (prepare t bb db)).filter fun s => condB t s.pair, ?_, h2.filter _, ?_⟩,
    ⟨(allSources (prepare t bb db)).filter fun s => viaB t s, ?_, h2.filter _, ?_⟩⟩
  · intro s; rw [List.mem_filter, h1, condB_iff]
  · unfold allSources
    rw [List.filter_flatMap]
    change List.Forall₂ _ _ ((parts.map fun T => T.conductors).flatten)
    refine forall₂_flat _ (hmap _) ?_
    rintro ⟨pair, m⟩ he us ⟨T, hT, rfl⟩
    exact (layerEntries_ok t v cfg pair m (hmem _ he) T hT).1
  · intro s; rw [List.mem_filter, h1, viaB_iff]
  · unfold allSources
    rw [List.filter_flatMap]
    change List.Forall₂ _ _ ((parts.map fun T => T.vias).flatten)
    refine forall₂_flat _ (hmap _) ?_
    rintro ⟨pair, m⟩ he us ⟨T, hT, rfl⟩
    exact (layerEntries_ok t v cfg pair m (hmem _ he) T hT).2

/-! ### C64 -/

/-- The LVS layer `l` becomes a layer of the annotated layout with GDS pair `p`. -/
def MapsTo (t : Tech) (bb : Bool) (l : DbLayer) (p : GDSPair) : Prop :=
  (∃ c, Known t l.name c ∧ ¬ LeftOut bb c ∧ p = c.info.drw) ∨ ((∀ c ∈ t.computed, c.info.name ≠ l.name) ∧ l.info = some p)

theorem pairFor_iff (t : Tech) (bb : Bool) (l : DbLayer) (p : GDSPair) : pairFor t bb l = some p ↔ MapsTo t bb l p := by
  unfold pairFor MapsTo
  rw [pair_of_name]
  cases h : (TechInfo.computedByName t).get? l.name with
  | none =>
    have h' := (known_none t l.name).1 h
    simp only [Option.elim_none, Bool.false_eq_true, if_false, Option.map_none, Option.none_or]
    constructor
    · intro e; exact .inr ⟨h', e⟩
    · rintro (⟨c, hc, _⟩ | ⟨_, e⟩)
      · rw [(known_iff t l.name c).2 hc] at h; cases h
      · exact e
  | some c =>
    have hc := (known_iff t l.name c).1 h
    by_cases hl : LeftOut bb c
    · have hb : ((some c).elim false fun c => bb && isDevice c.kind) = true := (leftOut_iff bb c).2 hl
      rw [if_pos hb]
      refine ⟨(fun h => by cases h), ?_⟩
      rintro (⟨c', hc', hl', _⟩ | ⟨hn, _⟩)
      · rw [isLast_unique hc' hc] at hl'; exact absurd hl hl'
      · exact absurd (IsLast.prop hc) (hn c (IsLast.mem hc))
    · have hb : ¬ ((some c).elim false fun c => bb && isDevice c.kind) = true := fun e => hl ((leftOut_iff bb c).1 e)
      rw [if_neg hb, Option.map_some, Option.some_or]
      constructor
      · intro e; exact .inl ⟨c, hc, hl, (Option.some.inj e).symm⟩
      · rintro (⟨c', hc', _, e⟩ | ⟨hn, _⟩)
        · rw [isLast_unique hc' hc] at e; rw [e]
        · exact absurd (IsLast.prop hc) (hn c (IsLast.mem hc))

/-- What KLayout guarantees for `layout.layer(layer, datatype)`: it returns a layer with this GDS pair. -/
def FindsLayer (x : Context) (v : Env) : Prop := ∀ p ∈ x.layerMap.infos, x.layerMap.infos[v.layerOf p]? = some p

theorem terminalRegion_id (t : Tech) (bb : Bool) (db : List DbLayer) (hd : (db.map (·.index)).Nodup) (l : DbLayer)
    (hl : l ∈ db) (p : GDSPair) (hp : MapsTo t bb l p) (P : List Polygon) (r : LayerRegion)
    (h : terminalRegion (prepare t bb db) (l.index, P) = .ok r) :
    (prepare t bb db).layerMap.map.get? l.index = some r.layer.id ∧
    (prepare t bb db).layerMap.infos[r.layer.id]? = some p ∧ ∃ c, KnownPair t p c ∧ r.layer.canonical = c.original := by
  obtain ⟨n, pair, c, h1, h2, h3, h4, _⟩ := terminalRegion_ok _ _ _ h
  obtain ⟨m, g1, g2, _⟩ := (mapOK t bb db hd).hit l hl p ((pairFor_iff t bb l p).2 hp)
  have e : m = n := Option.some.inj (g1.symm.trans h1)
  subst e
  have e : p = pair := Option.some.inj (g2.symm.trans h2)
  subst e
  rw [h4]
  exact ⟨h1, h2, c, h3, rfl⟩

theorem source_info (t : Tech) (bb : Bool) (db : List DbLayer) (hd : (db.map (·.index)).Nodup) (s : ExtractedLayer)
    (hs : Source t bb db s) : s.pair ∈ (prepare t bb db).layerMap.infos := by
  obtain ⟨l, c, h1, _, h3, h4, h5⟩ := hs
  obtain ⟨n, _, g, _⟩ := (mapOK t bb db hd).hit l (List.mem_of_getElem? h1) c.info.drw
    ((pairFor_iff t bb l _).2 (.inl ⟨c, h3, h4, rfl⟩))
  have : s.pair = c.info.drw := by rw [h5]
  rw [this]
  exact List.mem_of_getElem? g

theorem conductor_ids (t : Tech) (bb : Bool) (db : List DbLayer) (hd : (db.map (·.index)).Nodup) (v : Env)
    (cfg : Config) (T : RTech) (h : prepareTech (prepare t bb db) v cfg = .ok T) :
    (∀ k ∈ T.conductors, ∃ s, Source t bb db s ∧ ConductorFor t v cfg s k) ∧
    (∀ s, Source t bb db s → IsConductor t s → ∃ k ∈ T.conductors, ConductorFor t v cfg s k) := by
  obtain ⟨_, ⟨srcs, h1, _, h3⟩, _⟩ := tech_exact_partial t bb db hd v cfg T h
  have hlen := h3.length_eq
  constructor
  · intro k hk
    obtain ⟨i, hi, e⟩ := List.getElem_of_mem hk
    have := (List.forall₂_iff_get.1 h3).2 i (by omega) hi
    exact ⟨srcs[i]'(by omega), ((h1 _).1 (List.getElem_mem _)).1, by simpa [e] using this⟩
  · intro s hs hc
    obtain ⟨i, hi, e⟩ := List.getElem_of_mem ((h1 s).2 ⟨hs, hc⟩)
    have := (List.forall₂_iff_get.1 h3).2 i hi (by omega)
    exact ⟨T.conductors[i]'(by omega), List.getElem_mem _, by simpa [e] using this⟩

theorem infos_from (t : Tech) (bb : Bool) (db : List DbLayer) (hd : (db.map (·.index)).Nodup) (n : Nat) (p : GDSPair)
    (hn : (prepare t bb db).layerMap.infos[n]? = some p) :
    ∃ l ∈ db, MapsTo t bb l p ∧ (prepare t bb db).layerMap.map.get? l.index = some n := by
  have key : ∀ db : List DbLayer, (db.map (·.index)).Nodup → ∀ n p, (buildLayerMap t bb db).infos[n]? = some p →
      ∃ l ∈ db, pairFor t bb l = some p ∧ (buildLayerMap t bb db).map.get? l.index = some n := by
    intro db
    induction db using List.reverseRecOn with
    | nil => intro _ n p h; exact absurd h (by simp [buildLayerMap])
    | append_singleton db l ih =>
      intro hd n p h
      have hd' : (db.map (·.index)).Nodup := by rw [List.map_append] at hd; exact (List.nodup_append.1 hd).1
      have hfresh : ∀ l' ∈ db, l'.index ≠ l.index := by
        rw [List.map_append, List.nodup_append] at hd
        intro l' hl' e
        exact hd.2.2 _ (List.mem_map_of_mem hl') _ (List.mem_singleton.2 rfl) e
      have ih := ih hd'
      unfold buildLayerMap at *
      rw [List.foldl_append, List.foldl_cons, List.foldl_nil, layerMapStep_eq] at *
      generalize db.foldl (layerMapStep t bb) {} = m at *
      rcases hp : pairFor t bb l with _ | p'
      · rw [hp] at h
        simp only [Option.elim_none] at h ⊢
        obtain ⟨l', hl', a, b⟩ := ih n p h
        exact ⟨l', List.mem_append_left _ hl', a, b⟩
      · rw [hp] at h
        simp only [Option.elim_some] at h ⊢
        by_cases hn : n < m.infos.length
        · rw [List.getElem?_append_left hn] at h
          obtain ⟨l', hl', a, b⟩ := ih n p h
          refine ⟨l', List.mem_append_left _ hl', a, ?_⟩
          rw [Dict.get?_set, if_neg (fun e => hfresh l' hl' e.symm)]; exact b
        · rw [List.getElem?_append_right (by omega)] at h
          have e : n = m.infos.length := by
            by_contra hne
            rw [List.getElem?_eq_none (by simp; omega)] at h; cases h
          subst e
          simp only [Nat.sub_self, List.getElem?_cons_zero, Option.some.injEq] at h
          subst h
          exact ⟨l, by simp, hp, Dict.get?_set_self _ _ _⟩
  obtain ⟨l, hl, a, b⟩ := key db hd n p hn
  exact ⟨l, hl, (pairFor_iff t bb l p).1 a, b⟩

theorem layer_from (t : Tech) (bb : Bool) (db : List DbLayer) (hd : (db.map (·.index)).Nodup) (l : DbLayer)
    (hl : l ∈ db) (p : GDSPair) (hone : ∀ l' ∈ db, MapsTo t bb l' p → l' = l) (n m : Nat)
    (hn : (prepare t bb db).layerMap.infos[n]? = some p) (hm : (prepare t bb db).layerMap.map.get? l.index = some m) :
    n = m := by
  obtain ⟨l', hl', hp, hg⟩ := infos_from t bb db hd n p hn
  have e := hone l' hl' hp
  subst e
  rw [hg] at hm
  exact Option.some.inj hm

theorem PinFor_layer {t : Tech} {v : Env} {P : List Polygon} {s : ExtractedLayer} {label : String × Pt} {p : Pin}
    (h : PinFor t v P s label p) : p.layer.id = v.layerOf s.pair := by
  obtain ⟨_, _, ⟨c, _, e⟩, _⟩ := h
  rw [e]

/-- **C64 (partial).** If no other LVS layer becomes a layer with the same GDS pair, the shapes of a terminal on a
conductor layer are on the layer of the conductor that the technology declares for it. -/
theorem terminal_ports_declared_partial (t : Tech) (bb : Bool) (db : List DbLayer) (hd : (db.map (·.index)).Nodup)
    (v : Env) (hv : FindsLayer (prepare t bb db) v) (cfg : Config) (T : RTech)
    (h : prepareTech (prepare t bb db) v cfg = .ok T) (s : ExtractedLayer) (hs : Source t bb db s)
    (hc : IsConductor t s) (l : DbLayer) (hl : db[s.idx]? = some l)
    (hone : ∀ l' ∈ db, MapsTo t bb l' s.pair → l' = l) (P : List Polygon) (r : LayerRegion)
    (hr : terminalRegion (prepare t bb db) (l.index, P) = .ok r) :
    ∃ k ∈ T.conductors, ConductorFor t v cfg s k ∧ k.layer.id = r.layer.id ∧ k.layer.canonical = r.layer.canonical := by
  have hmem := List.mem_of_getElem? hl
  have hmap : MapsTo t bb l s.pair := by
    obtain ⟨l', c, h1, _, h3, h4, h5⟩ := hs
    rw [hl] at h1; cases h1
    exact .inl ⟨c, h3, h4, by rw [h5]⟩
  obtain ⟨g1, g2, c, g3, g4⟩ := terminalRegion_id t bb db hd l hmem s.pair hmap P r hr
  obtain ⟨k, hk, hkc⟩ := (conductor_ids t bb db hd v cfg T h).2 s hs hc
  refine ⟨k, hk, hkc, ?_, ?_⟩
  · obtain ⟨_, _, e, _⟩ := hkc
    rw [e]
    simp only
    -- the layer found for the pair comes from an LVS layer, which is `l`
    have hf := hv _ (source_info t bb db hd s hs)
    exact layer_from t bb db hd l hmem s.pair hone _ _ hf g1
  · obtain ⟨c', h1, e, _⟩ := hkc
    rw [e, g4, isLast_unique h1 g3]

/-- **C64, pins.** A pin is on the layer of the conductor that the technology declares for its LVS layer. -/
theorem pin_ports_declared (t : Tech) (bb : Bool) (db : List DbLayer) (hd : (db.map (·.index)).Nodup) (v : Env)
    (cfg : Config) (T : RTech) (h : prepareTech (prepare t bb db) v cfg = .ok T) (d : Dict GDSPair (List Pin))
    (hp : pinsByLayer (prepare t bb db) v = .ok d) (gp : GDSPair) (lay : TechInfo.LayerInfo)
    (hl : IsLast (fun l => l.drw = gp) t.layers lay) (p : Pin) (hm : p ∈ d.getD gp []) :
    ∃ s, Source t bb db s ∧ DrawnAs t s.pair gp ∧
      (IsConductor t s → ∃ k ∈ T.conductors, ConductorFor t v cfg s k ∧ k.layer.id = p.layer.id) := by
  obtain ⟨srcs, blocks, h1, _, h3, h4⟩ := pins_exact t bb db hd v d hp gp lay hl
  rw [h3, List.mem_flatten] at hm
  obtain ⟨b, hb, hpb⟩ := hm
  have hlen := h4.length_eq
  obtain ⟨i, hi, e⟩ := List.getElem_of_mem hb
  obtain ⟨Pn, _, hf⟩ := (List.forall₂_iff_get.1 h4).2 i (by omega) hi
  have hsm : srcs[i]'(by omega) ∈ srcs := List.getElem_mem _
  refine ⟨srcs[i]'(by omega), ((h1 _).1 hsm).1, ((h1 _).1 hsm).2, fun hc => ?_⟩
  obtain ⟨k, hk, hkc⟩ := (conductor_ids t bb db hd v cfg T h).2 _ ((h1 _).1 hsm).1 hc
  refine ⟨k, hk, hkc, ?_⟩
  have hpb' : p ∈ blocks[i] := by rw [e]; exact hpb
  obtain ⟨j, hj, ej⟩ := List.getElem_of_mem hpb'
  have hlen' := hf.length_eq
  have hq := (List.forall₂_iff_get.1 hf).2 j (by rw [hlen']; exact hj) hj
  obtain ⟨_, _, e', _⟩ := hkc
  have hid : p.layer.id = v.layerOf (srcs[i]'(by omega)).pair := by
    have := PinFor_layer hq
    rw [← ej]; exact this
  rw [e', hid]

/-- **C64 fails for layers that LVS splits**: if two LVS layers become layers with the same GDS pair, then for at least
one of them the shapes of terminals are on a layer that is not a conductor of the technology, whatever the rest. -/
theorem terminal_ports_undeclared (t : Tech) (bb : Bool) (db : List DbLayer) (hd : (db.map (·.index)).Nodup)
    (v : Env) (hv : FindsLayer (prepare t bb db) v) (cfg : Config) (T : RTech)
    (h : prepareTech (prepare t bb db) v cfg = .ok T) (l₁ l₂ : DbLayer) (h₁ : l₁ ∈ db) (h₂ : l₂ ∈ db) (hne : l₁ ≠ l₂)
    (p : GDSPair) (hp₁ : MapsTo t bb l₁ p) (hp₂ : MapsTo t bb l₂ p) (P₁ P₂ : List Polygon) (r₁ r₂ : LayerRegion)
    (hr₁ : terminalRegion (prepare t bb db) (l₁.index, P₁) = .ok r₁)
    (hr₂ : terminalRegion (prepare t bb db) (l₂.index, P₂) = .ok r₂) :
    (∀ k ∈ T.conductors, k.layer.id ≠ r₁.layer.id) ∨ (∀ k ∈ T.conductors, k.layer.id ≠ r₂.layer.id) := by
  obtain ⟨a1, a2, _⟩ := terminalRegion_id t bb db hd l₁ h₁ p hp₁ P₁ r₁ hr₁
  obtain ⟨b1, b2, _⟩ := terminalRegion_id t bb db hd l₂ h₂ p hp₂ P₂ r₂ hr₂
  have hids : ∀ n, (prepare t bb db).layerMap.infos[n]? = some p → ∀ k ∈ T.conductors, k.layer.id = n → n = v.layerOf p := by
    intro n hn k hk e
    obtain ⟨s, hs, c, _, e', _⟩ := (conductor_ids t bb db hd v cfg T h).1 k hk
    have e'' : v.layerOf s.pair = n := by rw [e'] at e; exact e
    have := hv _ (source_info t bb db hd s hs)
    rw [e'', hn] at this
    rw [Option.some.inj this, e'']
  by_contra hcon
  push Not at hcon
  obtain ⟨⟨k1, hk1, e1⟩, ⟨k2, hk2, e2⟩⟩ := hcon
  have x1 := hids _ a2 k1 hk1 e1
  have x2 := hids _ b2 k2 hk2 e2
  rw [x1] at a1
  rw [x2] at b1
  have hidx := (mapOK t bb db hd).inj _ _ _ a1 b1
  exact hne (List.inj_on_of_nodup_map hd h₁ h₂ hidx)

end Verif.RRequest
