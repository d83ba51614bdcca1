import Verif.RRequest.Props

/-!
# The technology as KLayout's resistor extractor gets it (C62): `klayout_pex/klayout/rex_core.py`
-/

namespace Verif.RRequest
open TechInfo (Tech IsLast)
open Lvs (Env ExtractedLayer DbLayer prepare Source KnownPair)

/-! ### Model -/

/-- `klp.RExtractorTechConductor`: a layer index and values. -/
structure KConductor where
  layer : Nat
  algorithm : Algorithm
  minB : ℚ
  maxArea : ℚ
  resistance : ℚ
deriving DecidableEq

/-- `klp.RExtractorTechVia`. -/
structure KVia where
  cutLayer : Nat
  bottomConductor : Nat
  topConductor : Nat
  resistance : ℚ
  mergeDistance : ℚ
deriving DecidableEq

/-- `klp.RExtractorTech`. -/
structure KTech where
  skipSimplify : Bool := false
  conductors : List KConductor := []
  vias : List KVia := []
deriving DecidableEq

/-- rex_core.py 34–46. `match` without a case for an unspecified algorithm would keep KLayout's default; `Config` has none such. -/
def addConductor (k : KTech) (c : Conductor) : KTech :=
  { k with conductors := k.conductors ++ [
      { layer := c.layer.id
        algorithm := match c.algorithm with
          | .squareCounting => .squareCounting
          | .tesselation => .tesselation
        minB := c.minB, maxArea := c.maxArea, resistance := c.resistance }] }

/-- rex_core.py 48–55. -/
def addVia (k : KTech) (u : Via) : KTech :=
  { k with vias := k.vias ++ [
      { cutLayer := u.layer.id, bottomConductor := u.bottom, topConductor := u.top, resistance := u.resistance
        mergeDistance := u.mergeDistance }] }

/-- `klayout_r_extractor_tech`; rex_core.py 30–57. -/
def klayoutTech (t : RTech) : KTech :=
  t.vias.foldl addVia (t.conductors.foldl addConductor { skipSimplify := t.skipSimplify })

/-! ### Specification -/

/-- KLayout's conductor for an LVS layer: its layer of the annotated layout, the algorithm chosen for substrate or wires, the parameters of
the triangulation, and the sheet resistance of the technology file in Ohm (none for an implant). -/
def KConductorFor (t : Tech) (v : Env) (cfg : Config) (s : ExtractedLayer) (k : KConductor) : Prop :=
  ∃ c, KnownPair t s.pair c ∧ k.layer = v.layerOf s.pair ∧ k.minB = cfg.delaunayB ∧ k.maxArea = cfg.delaunayAmax ∧
    (c.info.purpose = .nImplant ∨ c.info.purpose = .pImplant → k.algorithm = cfg.substrateAlgorithm ∧ k.resistance = 0) ∧
    (c.info.purpose = .metal →
      (k.algorithm = if c.original = "VSUBS" then cfg.substrateAlgorithm else cfg.wireAlgorithm) ∧
      ∃ r, IsLast (fun r => r.layer = c.original) t.parasitics.layerResistances r ∧ k.resistance = r.resistance / 1000)

/-- KLayout's via between two layers of the technology. -/
def KViaBetween (t : Tech) (v : Env) (cfg : Config) (s : ExtractedLayer) (below above : String) (width mOhm : ℚ) (u : KVia) : Prop :=
  ∃ b a, PairNamed t below b ∧ PairNamed t above a ∧
    u = ⟨v.layerOf s.pair, v.layerOf b, v.layerOf a, mOhm / 1000 * (width * width), cfg.viaMergeDistance⟩

/-- KLayout's via for an LVS layer, with the defect of `empty_via_entry`. -/
def KViaFor (t : Tech) (v : Env) (cfg : Config) (s : ExtractedLayer) (u : KVia) : Prop :=
  ∃ c, KnownPair t s.pair c ∧
    (c.info.purpose = .contact → ∃ k r, ContactNamed t s.name k ∧ ContactOhms t k r ∧
      KViaBetween t v cfg s k.layerBelow k.metalAbove k.width r u) ∧
    (c.info.purpose = .via →
      (∃ k w r, ViaNamed t s.name k ∧ ContactNamed t s.name w ∧ ViaOhms t c.original r ∧
        KViaBetween t v cfg s k.layerBelow k.metalAbove w.width r u) ∨
      ((∀ l ∈ t.stack, ∀ k, metalContact l = some k → k.name ≠ s.name) ∧ u = ⟨0, 0, 0, 0, 0⟩))

/-! ### Theorems -/

theorem foldl_addConductor (l : List Conductor) (k : KTech) :
    l.foldl addConductor k = { k with conductors := k.conductors ++ l.map fun c => ⟨c.layer.id, c.algorithm, c.minB, c.maxArea, c.resistance⟩ } := by
  induction l generalizing k with
  | nil => simp
  | cons c l ih =>
    rw [List.foldl_cons, ih]
    unfold addConductor
    cases h : c.algorithm <;> simp [h]

theorem foldl_addVia (l : List Via) (k : KTech) :
    l.foldl addVia k = { k with vias := k.vias ++ l.map fun u => ⟨u.layer.id, u.bottom, u.top, u.resistance, u.mergeDistance⟩ } := by
  induction l generalizing k with
  | nil => simp
  | cons u l ih => rw [List.foldl_cons, ih]; simp [addVia]

theorem klayoutTech_eq (t : RTech) : klayoutTech t =
    ⟨t.skipSimplify, t.conductors.map fun c => ⟨c.layer.id, c.algorithm, c.minB, c.maxArea, c.resistance⟩,
      t.vias.map fun u => ⟨u.layer.id, u.bottom, u.top, u.resistance, u.mergeDistance⟩⟩ := by
  unfold klayoutTech
  rw [foldl_addConductor, foldl_addVia]
  simp

/-- **C62, what KLayout gets.** The resistor extractor gets one conductor per LVS layer of an implant or metal and one via per LVS layer
of a contact or via whose resistance is known, on the layers of the annotated layout and with the values of the technology file. -/
theorem klayout_tech_exact (t : Tech) (bb : Bool) (db : List DbLayer) (hd : (db.map (·.index)).Nodup) (v : Env) (cfg : Config)
    (T : RTech) (h : prepareTech (prepare t bb db) v cfg = .ok T) :
    (klayoutTech T).skipSimplify = cfg.skipSimplify ∧
    (∃ srcs, (∀ s, s ∈ srcs ↔ Source t bb db s ∧ IsConductor t s) ∧ srcs.Nodup ∧
      List.Forall₂ (KConductorFor t v cfg) srcs (klayoutTech T).conductors) ∧
    (∃ srcs, (∀ s, s ∈ srcs ↔ Source t bb db s ∧ IsVia t s) ∧ srcs.Nodup ∧
      List.Forall₂ (KViaFor t v cfg) srcs (klayoutTech T).vias) := by
  obtain ⟨h1, ⟨cs, c1, c2, c3⟩, ⟨vs, v1, v2, v3⟩⟩ := tech_exact_partial t bb db hd v cfg T h
  rw [klayoutTech_eq]
  refine ⟨h1, ⟨cs, c1, c2, ?_⟩, ⟨vs, v1, v2, ?_⟩⟩
  · rw [List.forall₂_map_right_iff]
    refine c3.imp ?_
    rintro s k ⟨c, hc, hl, rest⟩
    exact ⟨c, hc, by rw [hl], rest⟩
  · rw [List.forall₂_map_right_iff]
    refine v3.imp ?_
    rintro s u ⟨c, hc, hcon, hvia⟩
    refine ⟨c, hc, fun hp => ?_, fun hp => ?_⟩
    · obtain ⟨k, r, k1, k2, b, a, hb, ha, rfl⟩ := hcon hp
      exact ⟨k, r, k1, k2, b, a, hb, ha, rfl⟩
    · rcases hvia hp with ⟨k, w, r, k1, k2, k3, b, a, hb, ha, rfl⟩ | ⟨hno, rfl⟩
      · exact Or.inl ⟨k, w, r, k1, k2, k3, b, a, hb, ha, rfl⟩
      · exact Or.inr ⟨hno, rfl⟩

/-- The hypotheses hold for the example of C62, and KLayout gets conductors and a via. -/
example : ∃ T, prepareTech (prepare stackTech true stackDb) stackEnv exCfg = .ok T ∧ (klayoutTech T).conductors ≠ [] ∧
    (klayoutTech T).vias ≠ [] := ⟨_, rfl, by decide +kernel, by decide +kernel⟩

end Verif.RRequest
