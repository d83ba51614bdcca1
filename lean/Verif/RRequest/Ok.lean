import Verif.RRequest.Tech

/-!
# When the technology for the resistor extractor can be prepared (C88)
-/

namespace Verif.RRequest

open TechInfo (Tech GDSPair Kind Purpose ComputedLayer Contact StackLayer computedByPair canonicalByPair layerResistance
  contactByName contactResistance viaResistance bottomTopByVia gdsPair IsLast single_lookups gds_pair_precedence)
open Lvs
open Exc

/-! ### Specification -/

/-- The technology knows what it needs about the LVS layer `s`: the sheet resistance of a metal, and the layers below and
above a contact or via of the process stack with known resistance. -/
def Described (t : Tech) (s : ExtractedLayer) : Prop :=
  ∀ c, KnownPair t s.pair c → c.kind ≠ .pin →
    (c.info.purpose = .metal → ∃ r, IsLast (fun r => r.layer = c.original) t.parasitics.layerResistances r) ∧
    (c.info.purpose = .contact → ∀ k r, ContactNamed t s.name k → ContactOhms t k r →
      (∃ b, PairNamed t k.layerBelow b) ∧ ∃ a, PairNamed t k.metalAbove a) ∧
    (c.info.purpose = .via → ∀ k r, ViaNamed t s.name k → ViaOhms t c.original r →
      (∃ b, PairNamed t k.layerBelow b) ∧ ∃ a, PairNamed t k.metalAbove a)

/-! ### Proofs -/

theorem mapM_ok_iff {α β : Type} (f : α → Except String β) (l : List α) :
    (∃ r, l.mapM f = .ok r) ↔ ∀ a ∈ l, ∃ b, f a = .ok b := by
  constructor
  · rintro ⟨r, hr⟩ a ha
    cases h : f a with
    | ok b => exact ⟨b, rfl⟩
    | error m => exact absurd hr (mapM_error f l a ha m h r)
  · intro h
    induction l with
    | nil => exact ⟨[], rfl⟩
    | cons a l ih =>
      obtain ⟨b, hb⟩ := h a List.mem_cons_self
      obtain ⟨r, hr⟩ := ih fun a ha => h a (List.mem_cons_of_mem _ ha)
      exact ⟨b :: r, (mapM_ok _ _ _).2 (.cons hb ((mapM_ok _ _ _).1 hr))⟩

theorem bind_ok_iff {α β : Type} (e : Except String α) (f : α → Except String β) :
    (∃ b, (e >>= f) = .ok b) ↔ ∃ a, e = .ok a ∧ ∃ b, f a = .ok b := by
  constructor
  · rintro ⟨b, h⟩
    obtain ⟨a, ha, hb⟩ := (bind_ok _ _ _).1 h
    exact ⟨a, ha, b, hb⟩
  · rintro ⟨a, ha, b, hb⟩
    exact ⟨b, (bind_ok _ _ _).2 ⟨a, ha, hb⟩⟩

theorem pairNamed_iff (t : Tech) (n : String) (g : GDSPair) : gdsPair t n = some g ↔ PairNamed t n g :=
  (gds_pair_precedence t n).1 g

theorem pairs_iff (t : Tech) (b a : String) {α : Type} (f : GDSPair → GDSPair → Except String α)
    (hf : ∀ x y, ∃ v, f x y = .ok v) :
    (∃ v, ((gdsPair t b).elim (.error "TypeError" : Except String GDSPair) .ok >>= fun x =>
      (gdsPair t a).elim (.error "TypeError" : Except String GDSPair) .ok >>= fun y => f x y) = .ok v) ↔ (∃ x, PairNamed t b x) ∧ ∃ y, PairNamed t a y := by
  rw [bind_ok_iff]
  constructor
  · rintro ⟨x, hx, h⟩
    obtain ⟨y, hy, _⟩ := (bind_ok_iff _ _).1 h
    rw [elim_ok] at hx hy
    exact ⟨⟨x, (pairNamed_iff _ _ _).1 hx⟩, y, (pairNamed_iff _ _ _).1 hy⟩
  · rintro ⟨⟨x, hx⟩, y, hy⟩
    refine ⟨x, (elim_ok _ _ _).2 ((pairNamed_iff _ _ _).2 hx), (bind_ok_iff _ _).2 ⟨y, (elim_ok _ _ _).2
      ((pairNamed_iff _ _ _).2 hy), hf x y⟩⟩

theorem metalConductor_ok_iff (t : Tech) (v : Env) (cfg : Config) (canonical : String) (s : ExtractedLayer) :
    (∃ k, metalConductor t v cfg canonical s = .ok k) ↔
      ∃ r, IsLast (fun r => r.layer = canonical) t.parasitics.layerResistances r := by
  unfold metalConductor
  rw [bind_ok_iff]
  constructor
  · rintro ⟨r, hr, _⟩
    rw [elim_ok] at hr
    exact ⟨r, ((single_lookups t).2.2.2.2.2.2.1 _ _).1 hr⟩
  · rintro ⟨r, hr⟩
    exact ⟨r, (elim_ok _ _ _).2 (((single_lookups t).2.2.2.2.2.2.1 _ _).2 hr), _, rfl⟩

theorem contactVia_ok_iff (t : Tech) (v : Env) (cfg : Config) (canonical : String) (s : ExtractedLayer) :
    (∃ k, contactVia t v cfg canonical s = .ok k) ↔ ∀ k r, ContactNamed t s.name k → ContactOhms t k r →
      (∃ b, PairNamed t k.layerBelow b) ∧ ∃ a, PairNamed t k.metalAbove a := by
  unfold contactVia
  cases hk : (contactByName t).get? s.name with
  | none =>
    refine iff_of_true ⟨_, rfl⟩ fun k r h => ?_
    rw [(contactByName_iff t _ _).2 h] at hk
    cases hk
  | some k =>
    have hkn := (contactByName_iff t _ _).1 hk
    cases hr : (contactResistance t).get? k.layerBelow with
    | none =>
      simp only [hr]
      refine iff_of_true ⟨_, rfl⟩ ?_
      rintro k' r h ⟨cr, hcr, _⟩
      rw [isLast_unique h hkn] at hcr
      rw [(contactRes_iff t _ _).2 hcr] at hr
      cases hr
    | some cr =>
      simp only [hr]
      rw [pairs_iff t k.layerBelow k.metalAbove]
      swap
      · exact fun x y => ⟨_, rfl⟩
      constructor
      · rintro h k' r hk' _
        rw [isLast_unique hk' hkn]
        exact h
      · intro h
        exact h k _ hkn ⟨cr, (contactRes_iff t _ _).1 hr, rfl⟩

theorem ViaNamed.contactNamed {t : Tech} {n : String} {k : Contact} (h : ViaNamed t n k) : ∃ w, ContactNamed t n w := by
  have : (contactByName t).get? n ≠ none := by
    intro hn
    rw [contactByName_eq, TechInfo.ofList_map_none] at hn
    obtain ⟨l, hl, e⟩ := List.mem_filterMap.1 h.mem
    refine hn k (List.mem_filterMap.2 ⟨l, hl, ?_⟩) h.prop
    unfold metalContact at e
    unfold stackContact
    split at e <;> simp_all
  obtain ⟨w, hw⟩ := Option.ne_none_iff_exists'.1 this
  exact ⟨w, (contactByName_iff t _ _).1 hw⟩

theorem viaVia_ok_iff (t : Tech) (v : Env) (cfg : Config) (canonical : String) (r : TechInfo.ViaResistance)
    (s : ExtractedLayer) : (∃ u, viaVia t v cfg canonical r s = .ok u) ↔ ∀ k, ViaNamed t s.name k →
      (∃ b, PairNamed t k.layerBelow b) ∧ ∃ a, PairNamed t k.metalAbove a := by
  unfold viaVia
  cases hbt : (bottomTopByVia t).get? s.name with
  | none =>
    refine iff_of_true ⟨_, rfl⟩ fun k h => ?_
    rw [bottomTop_eq, TechInfo.ofList_map_none] at hbt
    exact absurd h.prop (hbt k h.mem)
  | some bt =>
    rw [bottomTop_eq, TechInfo.ofList_map_some] at hbt
    obtain ⟨k, hk, rfl⟩ := hbt
    obtain ⟨w, hw⟩ := ViaNamed.contactNamed hk
    rw [pairs_iff t k.layerBelow k.metalAbove]
    · constructor
      · intro h k' hk'
        rw [isLast_unique hk' hk]
        exact h
      · intro h
        exact h k hk
    · intro x y
      exact (bind_ok_iff _ _).2 ⟨w, (elim_ok _ _ _).2 ((contactByName_iff t _ _).2 hw), _, rfl⟩

theorem layerEntries_ok_iff (t : Tech) (v : Env) (cfg : Config) (pair : GDSPair) (m : Merged)
    (hs : ∀ s ∈ m.sources, s.pair = pair) :
    (∃ T, layerEntries t v cfg (pair, m) = .ok T) ↔ ∀ s ∈ m.sources, Described t s := by
  unfold layerEntries
  simp only
  cases hc : (computedByPair t).get? pair with
  | none =>
    refine iff_of_true ⟨_, rfl⟩ fun s h c hk => ?_
    rw [hs s h, ← pair_known, hc] at hk
    cases hk
  | some c =>
    have hk := (pair_known t pair c).1 hc
    have hcan : (canonicalByPair t).get? pair = some c.original := ((single_lookups t).2.2.1 _ _).2 ⟨c, hk, rfl⟩
    have hdesc : ∀ s ∈ m.sources, Described t s ↔ (c.kind ≠ .pin →
        (c.info.purpose = .metal → ∃ r, IsLast (fun r => r.layer = c.original) t.parasitics.layerResistances r) ∧
        (c.info.purpose = .contact → ∀ k r, ContactNamed t s.name k → ContactOhms t k r →
          (∃ b, PairNamed t k.layerBelow b) ∧ ∃ a, PairNamed t k.metalAbove a) ∧
        (c.info.purpose = .via → ∀ k r, ViaNamed t s.name k → ViaOhms t c.original r →
          (∃ b, PairNamed t k.layerBelow b) ∧ ∃ a, PairNamed t k.metalAbove a)) := by
      intro s h
      have hks : KnownPair t s.pair c := by rw [hs s h]; exact hk
      constructor
      · intro hd; exact hd c hks
      · intro hd c' hc'
        rw [isLast_unique hc' hks]
        exact hd
    rw [bind_ok_iff]
    have e1 : (∃ a, ((canonicalByPair t).get? pair).elim (.error "KeyError" : Except String String) .ok = .ok a ∧
        ∃ T, (if c.kind = .pin then pure {} else purposeEntries t v cfg c.info.purpose a m.sources :
          Except String RTech) = .ok T) ↔
        ∃ T, (if c.kind = .pin then pure {} else purposeEntries t v cfg c.info.purpose c.original m.sources :
          Except String RTech) = .ok T := by
      rw [hcan]
      constructor
      · rintro ⟨a, ha, h⟩
        rw [elim_ok] at ha
        cases ha
        exact h
      · exact fun h => ⟨_, rfl, h⟩
    rw [e1]
    by_cases hp : c.kind = .pin
    · rw [if_pos hp]
      refine iff_of_true ⟨_, rfl⟩ fun s h => (hdesc s h).2 fun h => absurd hp h
    · rw [if_neg hp]
      have hall : (∀ s ∈ m.sources, Described t s) ↔ ∀ s ∈ m.sources,
          (c.info.purpose = .metal → ∃ r, IsLast (fun r => r.layer = c.original) t.parasitics.layerResistances r) ∧
          (c.info.purpose = .contact → ∀ k r, ContactNamed t s.name k → ContactOhms t k r →
            (∃ b, PairNamed t k.layerBelow b) ∧ ∃ a, PairNamed t k.metalAbove a) ∧
          (c.info.purpose = .via → ∀ k r, ViaNamed t s.name k → ViaOhms t c.original r →
            (∃ b, PairNamed t k.layerBelow b) ∧ ∃ a, PairNamed t k.metalAbove a) :=
        forall_congr' fun s => forall_congr' fun h => (hdesc s h).trans ⟨fun h => h hp, fun h _ => h⟩
      rw [hall]
      have wrap : ∀ {α : Type} (f : ExtractedLayer → Except String α) (g : List α → RTech),
          (∃ T, (m.sources.mapM f >>= fun us => pure (g us)) = .ok T) ↔ ∀ s ∈ m.sources, ∃ u, f s = .ok u := by
        intro α f g
        rw [bind_ok_iff, ← mapM_ok_iff]
        exact ⟨fun ⟨a, ha, _⟩ => ⟨a, ha⟩, fun ⟨a, ha⟩ => ⟨a, ha, _, rfl⟩⟩
      cases hpu : c.info.purpose with
      | metal =>
        refine (wrap (metalConductor t v cfg c.original) fun ks => { conductors := ks }).trans
          (forall_congr' fun s => forall_congr' fun _ => ?_)
        rw [metalConductor_ok_iff]
        simp
      | contact =>
        refine (wrap (contactVia t v cfg c.original) fun us => { vias := us.flatten }).trans
          (forall_congr' fun s => forall_congr' fun _ => ?_)
        rw [contactVia_ok_iff]
        simp
      | via =>
        simp only [purposeEntries]
        cases hr : (viaResistance t).get? c.original with
        | none =>
          refine iff_of_true ⟨_, rfl⟩ fun s _ => ⟨nofun, nofun, ?_⟩
          rintro _ k r _ ⟨vr, hvr, _⟩
          rw [(viaRes_iff t _ _).2 hvr] at hr
          cases hr
        | some r =>
          refine (wrap (viaVia t v cfg c.original r) fun us => { vias := us }).trans
            (forall_congr' fun s => forall_congr' fun _ => ?_)
          rw [viaVia_ok_iff]
          have hv : ViaOhms t c.original r.resistance := ⟨r, (viaRes_iff t _ _).1 hr, rfl⟩
          exact ⟨fun h => ⟨nofun, nofun, fun _ k _ hk _ => h k hk⟩, fun h k hk => h.2.2 (by trivial) k _ hk hv⟩
      | _ => exact iff_of_true ⟨_, rfl⟩ fun s _ => ⟨nofun, nofun, nofun⟩

/-- **C88, in general.** The technology for the resistor extractor can be prepared exactly if the technology describes all
LVS layers of the layout. -/
theorem tech_ok_iff (t : Tech) (bb : Bool) (db : List DbLayer) (hd : (db.map (·.index)).Nodup) (v : Env) (cfg : Config) :
    (∃ T, prepareTech (prepare t bb db) v cfg = .ok T) ↔ ∀ s, Source t bb db s → Described t s := by
  unfold prepareTech
  rw [bind_ok_iff]
  have e : (∃ a, (prepare t bb db).layers.extracted.mapM (layerEntries (prepare t bb db).tech v cfg) = .ok a ∧
      ∃ T, (pure { skipSimplify := cfg.skipSimplify, conductors := a.flatMap (·.conductors), vias := a.flatMap (·.vias) } :
        Except String RTech) = .ok T) ↔
      ∃ a, (prepare t bb db).layers.extracted.mapM (layerEntries (prepare t bb db).tech v cfg) = .ok a :=
    ⟨fun ⟨a, ha, _⟩ => ⟨a, ha⟩, fun ⟨a, ha⟩ => ⟨a, ha, _, rfl⟩⟩
  rw [e, mapM_ok_iff]
  have hmem : ∀ e ∈ (prepare t bb db).layers.extracted, ∀ s, s ∈ e.2.sources ↔ Source t bb db s ∧ s.pair = e.1 := by
    rintro ⟨pair, m⟩ he s
    exact ((layers_exact t bb db hd).2.1 pair m he).2.2.1 s
  constructor
  · intro h s hs
    have := (layers_exact t bb db hd).2.2.1 s hs
    obtain ⟨⟨pair, m⟩, he, hp⟩ := List.mem_map.1 this
    exact (layerEntries_ok_iff t v cfg pair m fun s hs => ((hmem _ he s).1 hs).2).1 (h _ he) s ((hmem _ he s).2 ⟨hs, hp.symm⟩)
  · rintro h ⟨pair, m⟩ he
    exact (layerEntries_ok_iff t v cfg pair m fun s hs => ((hmem _ he s).1 hs).2).2 fun s hs => h s ((hmem _ he s).1 hs).1

end Verif.RRequest
