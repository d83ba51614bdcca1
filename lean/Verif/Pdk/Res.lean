import Verif.Pdk.Stack
import Verif.Reporter.Rex
import Verif.RRequest.Ok

/-!
# The resistor extraction with the shipped technologies (C88, C89)
-/

namespace Verif.Pdk

open TechInfo (Tech GDSPair computedByName computedByPair contactByName contactResistance viaResistance bottomTopByVia
  layerResistance gdsPair IsLast)
open Lvs (DbLayer Env ExtractedLayer Source Known KnownPair LeftOut prepare)
open RRequest

set_option maxRecDepth 4000

/-! ### Specification -/

/-- A conductor: LVS layer, layer of the technology and sheet resistance in Ohm. -/
structure ConductorRow where
  name : String
  canonical : String
  resistance : ℚ
deriving DecidableEq

/-- A contact or via: LVS layer, layer of the technology, the GDS pairs of the layers it joins, and the resistance of one
contact in Ohm times its area in µm². -/
structure ViaRow where
  name : String
  canonical : String
  below : GDSPair
  above : GDSPair
  resistance : ℚ
deriving DecidableEq

/-- What the resistor extractor is told about the LVS layers of a technology; for the layers `empty` it gets an entry without
content. -/
structure Table where
  conductors : List ConductorRow
  vias : List ViaRow
  empty : List String

/-- sky130A. There is no entry for `via1_con`. -/
def skyTable : Table where
  conductors := [⟨"nsd", "nsdm", 0⟩, ⟨"psd", "psdm", 0⟩, ⟨"poly_con", "poly", 48.2⟩, ⟨"li_con", "li1", 12.8⟩,
    ⟨"met1_con", "met1", 0.125⟩, ⟨"met2_con", "met2", 0.125⟩, ⟨"met3_ncap", "met3", 0.047⟩, ⟨"met4_ncap", "met4", 0.047⟩,
    ⟨"met5_con", "met5", 0.029⟩, ⟨"met3_cap", "met3", 0.047⟩, ⟨"met4_cap", "met4", 0.047⟩, ⟨"poly_vpp", "poly", 48.2⟩,
    ⟨"li_vpp", "li1", 12.8⟩, ⟨"met1_vpp", "met1", 0.125⟩, ⟨"met2_vpp", "met2", 0.125⟩, ⟨"met3_vpp", "met3", 0.047⟩,
    ⟨"met4_vpp", "met4", 0.047⟩, ⟨"met5_vpp", "met5", 0.029⟩]
  vias := [⟨"licon_nsd_con", "licon1", (93, 44), (67, 20), 185 * (0.17 * 0.17)⟩,
    ⟨"licon_psd_con", "licon1", (94, 20), (67, 20), 585 * (0.17 * 0.17)⟩,
    ⟨"licon_poly_con", "licon1", (66, 20), (67, 20), 152 * (0.17 * 0.17)⟩,
    ⟨"mcon_con", "mcon", (67, 20), (68, 20), 9.3 * (0.17 * 0.17)⟩,
    ⟨"via2_con", "via2", (69, 20), (70, 20), 3.41 * (0.2 * 0.2)⟩,
    ⟨"via3_ncap", "via3", (70, 20), (71, 20), 3.41 * (0.2 * 0.2)⟩,
    ⟨"via3_cap", "via3", (70, 20), (71, 20), 3.41 * (0.2 * 0.2)⟩,
    ⟨"via4_ncap", "via4", (71, 20), (72, 20), 0.38 * (0.8 * 0.8)⟩,
    ⟨"via4_cap", "via4", (71, 20), (72, 20), 0.38 * (0.8 * 0.8)⟩]
  empty := ["mcon_vpp", "via1_vpp", "via2_vpp", "via3_vpp", "via4_vpp"]

/-- ihp_sg13g2. -/
def sgTable : Table where
  conductors := [⟨"nsd_fet", "nSD", 0⟩, ⟨"psd_fet", "pSD", 0⟩, ⟨"poly_con", "GatPoly", 7⟩, ⟨"metal1_con", "Metal1", 0.11⟩,
    ⟨"metal2_con", "Metal2", 0.088⟩, ⟨"metal3_con", "Metal3", 0.088⟩, ⟨"metal4_con", "Metal4", 0.088⟩,
    ⟨"metal5_n_cap", "Metal5", 0.088⟩, ⟨"topmetal1_con", "TopMetal1", 0.018⟩, ⟨"topmetal2_con", "TopMetal2", 0.011⟩]
  vias := [⟨"cont_nsd_con", "Cont", (7, 0), (8, 0), 17 * (0.16 * 0.16)⟩,
    ⟨"cont_psd_con", "Cont", (14, 0), (8, 0), 17 * (0.16 * 0.16)⟩,
    ⟨"cont_poly_con", "Cont", (5, 0), (8, 0), 15 * (0.16 * 0.16)⟩,
    ⟨"via1_drw", "Via1", (8, 0), (10, 0), 9 * (0.19 * 0.19)⟩,
    ⟨"via2_drw", "Via2", (10, 0), (30, 0), 9 * (0.19 * 0.19)⟩,
    ⟨"via3_drw", "Via3", (30, 0), (50, 0), 9 * (0.19 * 0.19)⟩,
    ⟨"via4_drw", "Via4", (50, 0), (67, 200), 9 * (0.19 * 0.19)⟩,
    ⟨"topvia1_n_cap", "TopVia1", (67, 200), (126, 0), 2.2 * (0.42 * 0.42)⟩,
    ⟨"mim_via", "TopVia1", (36, 0), (126, 0), 2.2 * (0.42 * 0.42)⟩,
    ⟨"topvia2_drw", "TopVia2", (126, 0), (134, 0), 1.1 * (0.9 * 0.9)⟩]
  empty := []

/-- The table of a shipped technology. -/
def TableOf (t : Technology) (tab : Table) : Prop :=
  (t = Sky130A.tech ∧ tab = skyTable) ∨ (t = Sg13g2.tech ∧ tab = sgTable)

/-- A name that the technology gives last to a label layer. -/
def NamesLabel (t : Technology) (n : String) : Prop := ∃ c, Known t.read n c ∧ c.kind = .label

/-! ### Lookups as data -/

/-- The data of a conductor. -/
def conductorRow (t : Tech) (name : String) (pair : GDSPair) : Option ConductorRow :=
  ((computedByPair t).get? pair).bind fun c =>
    if c.kind = .pin then none
    else match c.info.purpose with
    | .nImplant | .pImplant => some ⟨name, c.original, 0⟩
    | .metal => ((layerResistance t).get? c.original).map fun r => ⟨name, c.original, r.resistance / 1000⟩
    | _ => none

/-- The data of a contact or via. -/
def viaRow (t : Tech) (name : String) (pair : GDSPair) : Option (Option ViaRow) :=
  ((computedByPair t).get? pair).bind fun c =>
    if c.kind = .pin then none
    else match c.info.purpose with
    | .contact => ((contactByName t).get? name).bind fun k => ((contactResistance t).get? k.layerBelow).bind fun cr =>
        (gdsPair t k.layerBelow).bind fun b => (gdsPair t k.metalAbove).map fun a =>
          some ⟨name, c.original, b, a, cr.resistance / 1000 * (k.width * k.width)⟩
    | .via => ((viaResistance t).get? c.original).bind fun r =>
        match (bottomTopByVia t).get? name with
        | none => some none
        | some bt => ((contactByName t).get? name).bind fun w =>
            (gdsPair t bt.1).bind fun b => (gdsPair t bt.2).map fun a =>
              some ⟨name, c.original, b, a, r.resistance / 1000 * (w.width * w.width)⟩
    | _ => none

theorem conductorRow_of {t : Tech} {v : Env} {cfg : Config} {s : ExtractedLayer} {k : Conductor} (hi : IsConductor t s)
    (h : ConductorFor t v cfg s k) : ∃ r, conductorRow t s.name s.pair = some r ∧
      k.layer = ⟨v.layerOf s.pair, r.canonical, s.name⟩ ∧ k.resistance = r.resistance := by
  obtain ⟨c, hc, hp, hpu⟩ := hi
  obtain ⟨c', hc', h1, _, _, h2, h3⟩ := h
  obtain rfl := Lvs.isLast_unique hc hc'
  unfold conductorRow
  rw [(Lvs.pair_known t s.pair c).2 hc, Option.bind_some, if_neg hp]
  rcases hpu with hpu | hpu | hpu
  · rw [hpu]; exact ⟨_, rfl, h1, (h2 (Or.inl hpu)).2⟩
  · rw [hpu]; exact ⟨_, rfl, h1, (h2 (Or.inr hpu)).2⟩
  · obtain ⟨_, r, hr, e⟩ := h3 hpu
    rw [hpu]
    simp only [((TechInfo.single_lookups t).2.2.2.2.2.2.1 _ _).2 hr, Option.map_some]
    exact ⟨_, rfl, h1, e⟩

theorem viaRow_of {t : Tech} {v : Env} {cfg : Config} {s : ExtractedLayer} {u : Via} (hi : IsVia t s)
    (h : ViaFor t v cfg s u) : (viaRow t s.name s.pair = some none ∧ u = ⟨⟨0, "", ""⟩, 0, 0, 0, 0⟩) ∨
      ∃ r, viaRow t s.name s.pair = some (some r) ∧ u = ⟨⟨v.layerOf s.pair, r.canonical, s.name⟩, v.layerOf r.below,
        v.layerOf r.above, r.resistance, cfg.viaMergeDistance⟩ := by
  obtain ⟨c, hc, hp, hpu⟩ := hi
  obtain ⟨c', hc', h1, h2⟩ := h
  obtain rfl := Lvs.isLast_unique hc hc'
  unfold viaRow
  rw [(Lvs.pair_known t s.pair c).2 hc, Option.bind_some, if_neg hp]
  rcases hpu with ⟨hpu, _⟩ | ⟨hpu, _, vr, hvr, _⟩
  · obtain ⟨k, r, hk, ⟨cr, hcr, rfl⟩, b, a, hb, ha, e⟩ := h1 hpu
    rw [hpu]
    simp only [(contactByName_iff t _ _).2 hk, (contactRes_iff t _ _).2 hcr, (pairNamed_iff t _ _).2 hb,
      (pairNamed_iff t _ _).2 ha, Option.bind_some, Option.map_some]
    exact Or.inr ⟨_, rfl, e⟩
  · rw [hpu]
    rcases h2 hpu with ⟨k, w, r, hk, hw, ⟨vr', hvr', rfl⟩, b, a, hb, ha, e⟩ | ⟨hno, e⟩
    · have hbt : (bottomTopByVia t).get? s.name = some (k.layerBelow, k.metalAbove) := by
        rw [bottomTop_eq, TechInfo.ofList_map_some]
        exact ⟨k, hk, rfl⟩
      simp only [(viaRes_iff t _ _).2 hvr', hbt, (contactByName_iff t _ _).2 hw, (pairNamed_iff t _ _).2 hb,
        (pairNamed_iff t _ _).2 ha, Option.bind_some, Option.map_some]
      exact Or.inr ⟨_, rfl, e⟩
    · have hbt : (bottomTopByVia t).get? s.name = none := by
        rw [bottomTop_eq, TechInfo.ofList_map_none]
        intro k hk
        obtain ⟨l, hl, hlk⟩ := List.mem_filterMap.1 hk
        exact hno l hl k hlk
      simp only [(viaRes_iff t _ _).2 hvr, hbt, Option.bind_some]
      exact Or.inl ⟨trivial, e⟩

/-- Whether the technology knows what it needs about an LVS layer. -/
def describedB (t : Tech) (name : String) (pair : GDSPair) : Bool :=
  ((computedByPair t).get? pair).elim true fun c =>
    decide (c.kind = .pin) || match c.info.purpose with
    | .metal => ((layerResistance t).get? c.original).isSome
    | .contact => ((contactByName t).get? name).elim true fun k => ((contactResistance t).get? k.layerBelow).elim true fun _ =>
        (gdsPair t k.layerBelow).isSome && (gdsPair t k.metalAbove).isSome
    | .via => ((viaResistance t).get? c.original).elim true fun _ => ((bottomTopByVia t).get? name).elim true fun bt =>
        (gdsPair t bt.1).isSome && (gdsPair t bt.2).isSome
    | _ => true

theorem pairs_isSome (t : Tech) (b a : String) : ((gdsPair t b).isSome && (gdsPair t a).isSome) = true ↔
    (∃ x, PairNamed t b x) ∧ ∃ y, PairNamed t a y := by
  simp only [Bool.and_eq_true, Option.isSome_iff_exists, pairNamed_iff]

theorem described_iff (t : Tech) (s : ExtractedLayer) : describedB t s.name s.pair = true ↔ Described t s := by
  unfold describedB
  cases hc : (computedByPair t).get? s.pair with
  | none =>
    refine iff_of_true rfl fun c hk => ?_
    rw [← Lvs.pair_known, hc] at hk
    cases hk
  | some c =>
    have hk := (Lvs.pair_known t _ _).1 hc
    have hd : Described t s ↔ (c.kind ≠ .pin →
        (c.info.purpose = .metal → ∃ r, IsLast (fun r => r.layer = c.original) t.parasitics.layerResistances r) ∧
        (c.info.purpose = .contact → ∀ k r, ContactNamed t s.name k → ContactOhms t k r →
          (∃ b, PairNamed t k.layerBelow b) ∧ ∃ a, PairNamed t k.metalAbove a) ∧
        (c.info.purpose = .via → ∀ k r, ViaNamed t s.name k → ViaOhms t c.original r →
          (∃ b, PairNamed t k.layerBelow b) ∧ ∃ a, PairNamed t k.metalAbove a)) :=
      ⟨fun h => h c hk, fun h c' hc' => by rw [Lvs.isLast_unique hc' hk]; exact h⟩
    rw [hd, Option.elim_some, Bool.or_eq_true, decide_eq_true_eq]
    by_cases hp : c.kind = .pin
    · exact iff_of_true (Or.inl hp) fun h => absurd hp h
    simp only [hp, false_or, ne_eq, not_false_eq_true, true_implies]
    cases hpu : c.info.purpose with
    | metal =>
      simp only [reduceCtorEq, true_implies, false_implies, and_true, Option.isSome_iff_exists]
      exact exists_congr fun r => (TechInfo.single_lookups t).2.2.2.2.2.2.1 _ _
    | contact =>
      simp only [reduceCtorEq, true_implies, false_implies, and_true, true_and]
      cases hn : (contactByName t).get? s.name with
      | none =>
        refine iff_of_true rfl fun k r h => ?_
        rw [(contactByName_iff t _ _).2 h] at hn
        cases hn
      | some k =>
        have hkn := (contactByName_iff t _ _).1 hn
        rw [Option.elim_some]
        cases hr : (contactResistance t).get? k.layerBelow with
        | none =>
          refine iff_of_true rfl ?_
          rintro k' r h ⟨cr, hcr, _⟩
          rw [Lvs.isLast_unique h hkn] at hcr
          rw [(contactRes_iff t _ _).2 hcr] at hr
          cases hr
        | some cr =>
          rw [Option.elim_some, pairs_isSome]
          exact ⟨fun h k' r hk' _ => by rw [Lvs.isLast_unique hk' hkn]; exact h,
            fun h => h k _ hkn ⟨cr, (contactRes_iff t _ _).1 hr, rfl⟩⟩
    | via =>
      simp only [reduceCtorEq, true_implies, false_implies, true_and]
      cases hr : (viaResistance t).get? c.original with
      | none =>
        refine iff_of_true rfl ?_
        rintro k r _ ⟨vr, hvr, _⟩
        rw [(viaRes_iff t _ _).2 hvr] at hr
        cases hr
      | some vr =>
        have hv : ViaOhms t c.original vr.resistance := ⟨vr, (viaRes_iff t _ _).1 hr, rfl⟩
        rw [Option.elim_some]
        cases hbt : (bottomTopByVia t).get? s.name with
        | none =>
          rw [bottomTop_eq, TechInfo.ofList_map_none] at hbt
          exact iff_of_true rfl fun k r h _ => absurd h.prop (hbt k h.mem)
        | some bt =>
          rw [bottomTop_eq, TechInfo.ofList_map_some] at hbt
          obtain ⟨k, hkv, rfl⟩ := hbt
          rw [Option.elim_some, pairs_isSome]
          exact ⟨fun h k' r hk' _ => by rw [Lvs.isLast_unique hk' hkv]; exact h, fun h => h k _ hkv hv⟩
    | _ => simp

/-! ### Conditions -/

/-- The pair of the LVS layers with a name. -/
def pairOf (t : Tech) (n : String) : GDSPair := (((computedByName t).get? n).map fun c => c.info.drw).getD (0, 0)

theorem source_pair {t : Tech} {bb : Bool} {db : List DbLayer} {s : ExtractedLayer} (h : Source t bb db s) :
    ∃ c, Known t s.name c ∧ s.pair = c.info.drw ∧ pairOf t s.name = s.pair := by
  obtain ⟨l, c, _, _, hk, _, e⟩ := h
  have e1 : s.name = l.name := congrArg ExtractedLayer.name e
  have e2 : s.pair = c.info.drw := congrArg ExtractedLayer.pair e
  rw [← e1] at hk
  refine ⟨c, hk, e2, ?_⟩
  unfold pairOf
  rw [(Lvs.known_iff t _ _).2 hk, e2]
  rfl

/-- A layer without shapes that has a name and the pair of the name. -/
def blank (t : Tech) (n : String) : ExtractedLayer := ⟨0, n, pairOf t n, []⟩

theorem rows_ok {t : Technology} {tab : Table} (h : TableOf t tab) : ∀ c ∈ t.read.computed,
    condB t.read (pairOf t.read c.info.name) = decide (c.info.name ∈ tab.conductors.map ConductorRow.name ∨
      ((computedByName t.read).get? c.info.name).map (fun c => c.kind) = some .label) ∧
    conductorRow t.read c.info.name (pairOf t.read c.info.name) = tab.conductors.find? (fun r => r.name = c.info.name) ∧
    viaB t.read (blank t.read c.info.name) = decide (c.info.name ∈ tab.vias.map ViaRow.name ∨ c.info.name ∈ tab.empty) ∧
    viaRow t.read c.info.name (pairOf t.read c.info.name) = if c.info.name ∈ tab.empty then some none
      else (tab.vias.find? (fun r => r.name = c.info.name)).map some := by
  rcases h with ⟨rfl, rfl⟩ | ⟨rfl, rfl⟩ <;> decide +kernel

theorem described_ok {t : Technology} (h : Shipped t) : ∀ c ∈ t.read.computed,
    describedB t.read c.info.name (pairOf t.read c.info.name) =
      decide (((computedByName t.read).get? c.info.name).map (fun c => c.kind) ≠ some .label) := by
  rcases h with rfl | rfl <;> decide +kernel

theorem namesLabel_iff (t : Technology) (n : String) :
    NamesLabel t n ↔ ((computedByName t.read).get? n).map (fun c => c.kind) = some .label := by
  rw [Option.map_eq_some_iff]
  exact exists_congr fun c => and_congr (Lvs.known_iff _ _ _).symm Iff.rfl

/-! ### C88 -/

/-- **C88, exactly.** With a shipped technology the resistor extraction can be prepared exactly if no layer of the LVS
database with shapes has a name that the technology gives to a label layer. -/
theorem shipped_resistors_iff {t : Technology} (ht : Shipped t) (bb : Bool) (db : List DbLayer)
    (hd : (db.map (·.index)).Nodup) (v : Env) (cfg : Config) :
    (∃ T, prepareTech (prepare t.read bb db) v cfg = .ok T) ↔ ∀ l ∈ db, l.shapes ≠ [] → ¬ NamesLabel t l.name := by
  rw [tech_ok_iff _ _ _ hd]
  have key : ∀ s c, Known t.read s.name c → pairOf t.read s.name = s.pair → (Described t.read s ↔ ¬ NamesLabel t s.name) := by
    intro s c hk hp
    have := described_ok ht c hk.mem
    rw [hk.prop, hp] at this
    rw [← described_iff, this, namesLabel_iff, decide_eq_true_eq]
  constructor
  · intro h l hl hsh hlab
    obtain ⟨i, hi⟩ := List.mem_iff_getElem?.1 hl
    obtain ⟨c, hk, hkind⟩ := hlab
    have hs : Source t.read bb db ⟨i, l.name, c.info.drw, l.shapes⟩ :=
      ⟨l, c, hi, hsh, hk, (by rintro ⟨_, h | h⟩ <;> rw [hkind] at h <;> cases h), rfl⟩
    obtain ⟨c', hk', _, hp⟩ := source_pair hs
    exact (key _ c' hk' hp).1 (h _ hs) ⟨c, hk, hkind⟩
  · intro h s hs
    obtain ⟨c, hk, _, hp⟩ := source_pair hs
    refine (key s c hk hp).2 ?_
    obtain ⟨l, c', hi, hsh, _, _, e⟩ := hs
    rw [show s.name = l.name from congrArg ExtractedLayer.name e]
    exact h l (List.mem_of_getElem? hi) hsh

/-- **C88 (partial).** With ihp_sg13g2 the resistor extraction can be prepared for every LVS database whose text layers have
no shapes other than texts. Missing: sky130A, for which the claim is false as soon as there are pins on a metal above `li1`
(`sky_pins_fail`). -/
theorem sg_resistors_partial (bb : Bool) (db : List DbLayer) (hd : (db.map (·.index)).Nodup) (v : Env) (cfg : Config)
    (htext : ∀ l ∈ db, l.name ∈ ["poly_text", "metal1_text", "metal2_text", "metal3_text", "metal4_text", "metal5_text",
      "topmetal1_text", "topmetal2_text"] → l.shapes = []) :
    ∃ T, prepareTech (prepare Sg13g2.tech.read bb db) v cfg = .ok T := by
  rw [shipped_resistors_iff (Or.inr rfl) bb db hd]
  rintro l hl hsh ⟨c, hk, hkind⟩
  have : ∀ c ∈ Sg13g2.tech.read.computed, c.kind = .label → c.info.name ∈ ["poly_text", "metal1_text", "metal2_text",
      "metal3_text", "metal4_text", "metal5_text", "topmetal1_text", "topmetal2_text"] := by decide +kernel
  have h := this c hk.mem hkind
  rw [hk.prop] at h
  exact hsh (htext l hl h)

/-- **C88 fails for sky130A.** If the LVS database has a pin shape on one of the metals met1 to met5, the resistor extraction
ends with an error: the technology gives the names of these pin layers also to label layers. -/
theorem sky_pins_fail {bb : Bool} {db : List DbLayer} (hd : (db.map (·.index)).Nodup) {l : DbLayer} (hl : l ∈ db)
    (hn : l.name ∈ ["met1_pin_con", "met2_pin_con", "met3_pin_con", "met4_pin_con", "met5_pin_con"]) (hs : l.shapes ≠ [])
    (v : Env) (cfg : Config) (skipEmpty : Bool) (ds : List Lvs.DbDevice) (nets : Option (List String)) :
    ∃ m, prepareRequest (prepare Sky130A.tech.read bb db) v cfg skipEmpty ds nets = .error m := by
  have hlab : NamesLabel Sky130A.tech l.name := by
    rw [namesLabel_iff]
    have : ∀ n ∈ ["met1_pin_con", "met2_pin_con", "met3_pin_con", "met4_pin_con", "met5_pin_con"],
        ((computedByName Sky130A.tech.read).get? n).map (fun c => c.kind) = some .label := by decide +kernel
    exact this _ hn
  have hno : ¬ ∃ T, prepareTech (prepare Sky130A.tech.read bb db) v cfg = .ok T := by
    rw [shipped_resistors_iff (Or.inl rfl) bb db hd]
    exact fun h => h l hl hs hlab
  cases e : prepareTech (prepare Sky130A.tech.read bb db) v cfg with
  | ok T => exact absurd ⟨T, e⟩ hno
  | error m =>
    refine ⟨m, ?_⟩
    unfold prepareRequest
    rw [e]
    rfl

/-! ### C89 -/

/-- The conductor of a row for the LVS layer `s`. -/
def IsConductorOf (v : Env) (tab : Table) (s : ExtractedLayer) (k : Conductor) : Prop :=
  ∃ r ∈ tab.conductors, r.name = s.name ∧ k.layer = ⟨v.layerOf s.pair, r.canonical, s.name⟩ ∧ k.resistance = r.resistance

/-- The contact or via of a row for the LVS layer `s`, or an entry without content. -/
def IsViaOf (v : Env) (cfg : Config) (tab : Table) (s : ExtractedLayer) (u : Via) : Prop :=
  (∃ r ∈ tab.vias, r.name = s.name ∧ u = ⟨⟨v.layerOf s.pair, r.canonical, s.name⟩, v.layerOf r.below, v.layerOf r.above,
    r.resistance, cfg.viaMergeDistance⟩) ∨
  (s.name ∈ tab.empty ∧ u = ⟨⟨0, "", ""⟩, 0, 0, 0, 0⟩)

theorem viaB_blank {t : Tech} {s : ExtractedLayer} (h : pairOf t s.name = s.pair) : viaB t (blank t s.name) = viaB t s := by
  unfold viaB blank
  rw [h]

/-- **C89, exactly.** With a shipped technology the resistor extractor is told exactly the conductors, contacts and vias of
the table, for the LVS layers of the layout, in some order. -/
theorem shipped_resistors_exact {t : Technology} {tab : Table} (ht : TableOf t tab) (bb : Bool) (db : List DbLayer)
    (hd : (db.map (·.index)).Nodup) (v : Env) (cfg : Config) (T : RTech)
    (h : prepareTech (prepare t.read bb db) v cfg = .ok T) :
    (∃ srcs, (∀ s, s ∈ srcs ↔ Source t.read bb db s ∧ s.name ∈ tab.conductors.map ConductorRow.name) ∧ srcs.Nodup ∧
      List.Forall₂ (IsConductorOf v tab) srcs T.conductors) ∧
    (∃ srcs, (∀ s, s ∈ srcs ↔ Source t.read bb db s ∧ (s.name ∈ tab.vias.map ViaRow.name ∨ s.name ∈ tab.empty)) ∧
      srcs.Nodup ∧ List.Forall₂ (IsViaOf v cfg tab) srcs T.vias) := by
  have hship : Shipped t := ht.imp And.left And.left
  have hlab := (shipped_resistors_iff hship bb db hd v cfg).1 ⟨T, h⟩
  obtain ⟨_, ⟨cs, hc1, hc2, hc3⟩, us, hu1, hu2, hu3⟩ := tech_exact_partial _ bb db hd v cfg T h
  refine ⟨⟨cs, fun s => ?_, hc2, ?_⟩, us, fun s => ?_, hu2, ?_⟩
  · rw [hc1]
    refine and_congr_right fun hs => ?_
    obtain ⟨c, hk, _, hp⟩ := source_pair hs
    have hrow := (rows_ok ht c hk.mem).1
    rw [hk.prop, hp] at hrow
    rw [← condB_iff, hrow, decide_eq_true_eq, ← namesLabel_iff]
    refine or_iff_left ?_
    obtain ⟨l, c', hi, hsh, _, _, e⟩ := hs
    rw [show s.name = l.name from congrArg ExtractedLayer.name e]
    exact hlab l (List.mem_of_getElem? hi) hsh
  · refine forall₂_imp_mem hc3 fun s hs k hk => ?_
    obtain ⟨hsrc, hi⟩ := (hc1 s).1 hs
    obtain ⟨r, hr, h1, h2⟩ := conductorRow_of hi hk
    obtain ⟨c, hkn, _, hp⟩ := source_pair hsrc
    have hrow := (rows_ok ht c hkn.mem).2.1
    rw [hkn.prop, hp, hr] at hrow
    exact ⟨r, List.mem_of_find?_eq_some hrow.symm, by simpa using List.find?_some hrow.symm, h1, h2⟩
  · rw [hu1]
    refine and_congr_right fun hs => ?_
    obtain ⟨c, hk, _, hp⟩ := source_pair hs
    have hrow := (rows_ok ht c hk.mem).2.2.1
    rw [hk.prop, viaB_blank hp] at hrow
    rw [← viaB_iff, hrow, decide_eq_true_eq]
  · refine forall₂_imp_mem hu3 fun s hs u hu => ?_
    obtain ⟨hsrc, hi⟩ := (hu1 s).1 hs
    obtain ⟨c, hkn, _, hp⟩ := source_pair hsrc
    have hrow := (rows_ok ht c hkn.mem).2.2.2
    rw [hkn.prop, hp] at hrow
    rcases viaRow_of hi hu with ⟨hr, e⟩ | ⟨r, hr, e⟩
    · rw [hr] at hrow
      by_cases hem : s.name ∈ tab.empty
      · exact Or.inr ⟨hem, e⟩
      · rw [if_neg hem] at hrow
        cases hf : tab.vias.find? (fun r => r.name = s.name) with
        | none => rw [hf] at hrow; cases hrow
        | some r => rw [hf] at hrow; cases hrow
    · rw [hr] at hrow
      by_cases hem : s.name ∈ tab.empty
      · rw [if_pos hem] at hrow; cases hrow
      · rw [if_neg hem] at hrow
        cases hf : tab.vias.find? (fun r => r.name = s.name) with
        | none => rw [hf] at hrow; cases hrow
        | some r' =>
          rw [hf] at hrow
          cases hrow
          exact Or.inl ⟨r, List.mem_of_find?_eq_some hf, by simpa using List.find?_some hf, e⟩

theorem forall₂_left {α β : Type*} {R : α → β → Prop} {l : List α} {m : List β} (h : List.Forall₂ R l m) {x : α}
    (hx : x ∈ l) : ∃ y ∈ m, R x y := by
  induction h with
  | nil => cases hx
  | cons h1 _ ih =>
    rcases List.mem_cons.1 hx with rfl | hx
    · exact ⟨_, List.mem_cons_self, h1⟩
    · obtain ⟨u, hu, hsu⟩ := ih hx
      exact ⟨u, List.mem_cons_of_mem _ hu, hsu⟩

/-- The contacts and vias that the resistor extractor is not told correctly: that between met1 and met2 of sky130A, and those
on the plates of its MIM capacitors. -/
def Mistold (n : String) : Prop := n = "via1_con" ∨ n = "via3_cap" ∨ n = "via4_cap"

instance : DecidablePred Mistold := fun n => inferInstanceAs (Decidable (n = "via1_con" ∨ n = "via3_cap" ∨ n = "via4_cap"))

theorem joins_ok {t : Technology} {tab : Table} (h : TableOf t tab) : ∀ l ∈ t.stack, (match carried l with
    | some (c, _) => decide (Mistold c.name) || match tab.vias.find? (fun r => r.name = c.name) with
      | some r => decide (c.name ∉ tab.empty ∧ gdsPair t.read l.name = some r.below ∧
          gdsPair t.read c.metalAbove = some r.above) &&
          (tab.vias.all fun r' => decide (r'.name = c.name → r' = r))
      | none => false
    | none => true) = true := by
  rcases h with ⟨rfl, rfl⟩ | ⟨rfl, rfl⟩ <;> decide +kernel

/-- **C89 (partial).** With a shipped technology, a contact or via of the process stack whose LVS layer is in the layout has
an entry that joins the layer that carries it with the metal above it. Missing: the via between met1 and met2 of sky130A and
the vias on its MIM capacitors, for which the claim is false (`sky_via1_missing`, `sky_mim_via`). -/
theorem shipped_vias_joined_partial {t : Technology} {tab : Table} (ht : TableOf t tab) {bb : Bool} {db : List DbLayer}
    (hd : (db.map (·.index)).Nodup) {v : Env} {cfg : Config} {T : RTech}
    (h : prepareTech (prepare t.read bb db) v cfg = .ok T) {n : String} {z th : ℚ} {c : Contact} (hc : Carries t n z th c)
    (hm : ¬ Mistold c.name) {s : ExtractedLayer} (hs : Source t.read bb db s) (hn : s.name = c.name) :
    ∃ u ∈ T.vias, ∃ b a, PairNamed t.read n b ∧ PairNamed t.read c.metalAbove a ∧ u.layer.id = v.layerOf s.pair ∧
      u.layer.lvsName = c.name ∧ u.bottom = v.layerOf b ∧ u.top = v.layerOf a := by
  obtain ⟨l, hl, hln, z', hcar⟩ : ∃ l ∈ t.stack, l.name = n ∧ ∃ z', carried l = some (c, z') := by
    rcases hc with hc | ⟨d, r, hc, _⟩
    · exact ⟨_, hc, rfl, _, rfl⟩
    · exact ⟨_, hc, rfl, _, rfl⟩
  have hj := joins_ok ht l hl
  rw [hcar] at hj
  simp only [hm, decide_false, Bool.false_or] at hj
  cases hf : tab.vias.find? (fun r => r.name = c.name) with
  | none => rw [hf] at hj; cases hj
  | some r =>
    rw [hf] at hj
    simp only [Bool.and_eq_true, decide_eq_true_eq, List.all_eq_true] at hj
    obtain ⟨⟨hem, hb, ha⟩, huniq⟩ := hj
    obtain ⟨us, hu1, _, hu3⟩ := (shipped_resistors_exact ht bb db hd v cfg T h).2
    have hrn : r.name = c.name := by simpa using List.find?_some hf
    have hmem : s ∈ us := (hu1 s).2 ⟨hs, Or.inl (List.mem_map.2 ⟨r, List.mem_of_find?_eq_some hf, hrn.trans hn.symm⟩)⟩
    obtain ⟨u, hu, hsu⟩ : ∃ u ∈ T.vias, IsViaOf v cfg tab s u := by
      exact forall₂_left hu3 hmem
    rcases hsu with ⟨r', hr', hname, rfl⟩ | ⟨he, _⟩
    · obtain rfl := huniq r' hr' (hname.trans hn)
      subst hln
      exact ⟨_, hu, _, _, (pairNamed_iff _ _ _).1 hb, (pairNamed_iff _ _ _).1 ha, rfl, hn, rfl, rfl⟩
    · exact absurd (hn ▸ he) hem

theorem forall₂_right {α β : Type*} {R : α → β → Prop} {l : List α} {m : List β} (h : List.Forall₂ R l m) {y : β}
    (hy : y ∈ m) : ∃ x ∈ l, R x y := by
  obtain ⟨x, hx, hr⟩ := forall₂_left h.flip hy
  exact ⟨x, hx, hr⟩

/-- **C89 fails for sky130A.** Whatever the layout, no contact or via of which the resistor extractor is told joins met1 and
met2, although the process stack has the via `via1_con` between them: the technology calls its resistance `via`, not
`via1`. Nets that change between met1 and met2 fall into unconnected parts. -/
theorem sky_via1_missing {bb : Bool} {db : List DbLayer} (hd : (db.map (·.index)).Nodup) {v : Env}
    (hv : Function.Injective v.layerOf) {cfg : Config} {T : RTech}
    (h : prepareTech (prepare Sky130A.tech.read bb db) v cfg = .ok T) :
    (∃ z th c, Carries Sky130A.tech "met1" z th c ∧ c.name = "via1_con" ∧ c.metalAbove = "met2") ∧
    PairNamed Sky130A.tech.read "met1" (68, 20) ∧ PairNamed Sky130A.tech.read "met2" (69, 20) ∧
    ∀ u ∈ T.vias, ¬ (u.bottom = v.layerOf (68, 20) ∧ u.top = v.layerOf (69, 20)) ∧ u.layer.lvsName ≠ "via1_con" := by
  refine ⟨?_, (pairNamed_iff _ _ _).1 (by decide +kernel), (pairNamed_iff _ _ _).1 (by decide +kernel), fun u hu => ?_⟩
  · exact ⟨1.3761, 0.36, ⟨"via1_con", "met1", "met2", 0.27, 0.15, 0.17, 0.055⟩, Or.inl (by decide +kernel), rfl, rfl⟩
  · obtain ⟨us, _, _, hu3⟩ := (shipped_resistors_exact (Or.inl ⟨rfl, rfl⟩) bb db hd v cfg T h).2
    obtain ⟨s, _, hs⟩ := forall₂_right hu3 hu
    rcases hs with ⟨r, hr, hn, rfl⟩ | ⟨_, rfl⟩
    · have : ∀ r ∈ skyTable.vias, ¬ (r.below = (68, 20) ∧ r.above = (69, 20)) ∧ r.name ≠ "via1_con" := by decide +kernel
      obtain ⟨h1, h2⟩ := this r hr
      refine ⟨fun ⟨hb, ha⟩ => h1 ⟨hv hb, hv ha⟩, fun e => h2 (hn.trans e)⟩
    · refine ⟨fun ⟨hb, ha⟩ => ?_, by decide⟩
      have := hv (hb.symm.trans ha)
      revert this
      decide

/-- The MIM capacitors of sky130A: the plate, the layer below it, the metal above and the via on the plate. -/
def skyMim : List (String × GDSPair × GDSPair × GDSPair × String) :=
  [("capm", (89, 44), (70, 20), (71, 20), "via3_cap"), ("capm2", (97, 44), (71, 20), (72, 20), "via4_cap")]

/-- **C89 fails for the MIM capacitors of sky130A.** The process stack puts the vias `via3_cap` and `via4_cap` on the upper
plates, but the resistor extractor is told that they join the lower plate with the metal above. -/
theorem sky_mim_via {n : String} {plate lower above : GDSPair} {via : String} (hmim : (n, plate, lower, above, via) ∈ skyMim)
    {bb : Bool} {db : List DbLayer} (hd : (db.map (·.index)).Nodup) {v : Env} {cfg : Config} {T : RTech}
    (h : prepareTech (prepare Sky130A.tech.read bb db) v cfg = .ok T) {s : ExtractedLayer}
    (hs : Source Sky130A.tech.read bb db s) (hn : s.name = via) :
    (∃ z th c, Carries Sky130A.tech n z th c ∧ c.name = via) ∧ PairNamed Sky130A.tech.read n plate ∧ plate ≠ lower ∧
    ∃ u ∈ T.vias, u.layer.lvsName = via ∧ u.bottom = v.layerOf lower ∧ u.top = v.layerOf above := by
  have hstack : ∀ m ∈ skyMim, (∃ l ∈ Sky130A.tech.stack, l.name = m.1 ∧ (carried l).map (fun c => c.1.name) = some m.2.2.2.2) ∧
      gdsPair Sky130A.tech.read m.1 = some m.2.1 ∧ m.2.1 ≠ m.2.2.1 ∧ m.2.2.2.2 ∉ skyTable.empty ∧
      m.2.2.2.2 ∈ skyTable.vias.map ViaRow.name ∧
      ∀ r ∈ skyTable.vias, r.name = m.2.2.2.2 → r.below = m.2.2.1 ∧ r.above = m.2.2.2.1 := by decide +kernel
  obtain ⟨⟨l, hl, hln, hc⟩, hp, hne, hem, hvm, hrow⟩ := hstack _ hmim
  refine ⟨?_, (pairNamed_iff _ _ _).1 hp, hne, ?_⟩
  · obtain ⟨ln, k⟩ := l
    obtain rfl : ln = n := hln
    match k, hc with
    | .metal z th (some c), hc => exact ⟨z, th, c, Or.inl hl, Option.some.inj hc⟩
    | .diffusion d r (some c), hc => exact ⟨0, 1 / 10, c, Or.inr ⟨d, r, hl, rfl, rfl⟩, Option.some.inj hc⟩
  · obtain ⟨us, hu1, _, hu3⟩ := (shipped_resistors_exact (Or.inl ⟨rfl, rfl⟩) bb db hd v cfg T h).2
    obtain ⟨u, hu, ⟨r, hr, hrn, rfl⟩ | ⟨he, _⟩⟩ := forall₂_left hu3 ((hu1 s).2 ⟨hs, Or.inl (hn ▸ hvm)⟩)
    · obtain ⟨hb, ha⟩ := hrow r hr (hrn.trans hn)
      exact ⟨_, hu, hn, congrArg v.layerOf hb, congrArg v.layerOf ha⟩
    · exact absurd (hn ▸ he) hem

/-- **C81 fails for the MIM capacitors of ihp_sg13g2.** The upper plate is no conductor for the resistor extractor: when there
is a via on it, the run ends with an error while the request is reported. -/
theorem sg_mim_report_fails {bb : Bool} {db : List DbLayer} (hd : (db.map (·.index)).Nodup) {v : Env}
    (hv : Function.Injective v.layerOf) {cfg : Config} {q : Request}
    (h : prepareTech (prepare Sg13g2.tech.read bb db) v cfg = .ok q.tech) {s : ExtractedLayer}
    (hs : Source Sg13g2.tech.read bb db s) (hn : s.name = "mim_via") {σ : Type} (x : Reporter.Text)
    (norm : List Shapes.Pt → List Shapes.Pt) (r : Reporter.Report σ) :
    ¬ ∃ r', Reporter.outputRequest x norm r q = .ok r' := by
  rw [Reporter.request_reported_iff]
  intro hall
  obtain ⟨⟨cs, hc1, _, hc3⟩, us, hu1, _, hu3⟩ := shipped_resistors_exact (Or.inr ⟨rfl, rfl⟩) bb db hd v cfg q.tech h
  have hvm : "mim_via" ∈ sgTable.vias.map ViaRow.name := by decide +kernel
  obtain ⟨u, hu, ⟨w, hw, hwn, rfl⟩ | ⟨he, _⟩⟩ := forall₂_left hu3 ((hu1 s).2 ⟨hs, Or.inl (hn ▸ hvm)⟩)
  · obtain ⟨⟨k, hk, e⟩, _⟩ := hall _ hu
    have hb : ∀ r ∈ sgTable.vias, r.name = "mim_via" → r.below = (36, 0) := by decide +kernel
    rw [show (_ : Via).bottom = v.layerOf (36, 0) from congrArg v.layerOf (hb w hw (hwn.trans hn))] at e
    obtain ⟨s', hs', r', hr', hrn, hl, _⟩ := forall₂_right hc3 hk
    rw [hl] at e
    have hp := hv e
    obtain ⟨c, hkn, _, hpp⟩ := source_pair ((hc1 s').1 hs').1
    have hno : ∀ n ∈ sgTable.conductors.map ConductorRow.name, pairOf Sg13g2.tech.read n ≠ (36, 0) := by decide +kernel
    exact hno _ ((hc1 s').1 hs').2 (hpp.trans hp)
  · have : "mim_via" ∉ sgTable.empty := by decide
    exact this (hn ▸ he)

/-! ### Examples -/

/-- sky130A: a net from li1 over met1 and met2 to met3 and a MIM capacitor; a pin layer without shapes. -/
def exSkyDb : List DbLayer :=
  [⟨0, "li_con", none, [Lvs.box 0 0 100 100 (some "A")]⟩, ⟨1, "mcon_con", none, [Lvs.box 0 0 17 17 (some "A")]⟩,
   ⟨2, "met1_con", none, [Lvs.box 0 0 500 100 (some "A")]⟩, ⟨3, "via1_con", none, [Lvs.box 400 0 415 15 (some "A")]⟩,
   ⟨4, "met2_con", none, [Lvs.box 400 0 450 900 (some "A")]⟩, ⟨5, "via2_con", none, [Lvs.box 400 800 420 820 (some "A")]⟩,
   ⟨6, "met3_ncap", none, [Lvs.box 400 800 450 900 (some "A")]⟩, ⟨7, "via3_cap", none, [Lvs.box 700 800 720 820 (some "B")]⟩,
   ⟨9, "met5_pin_con", none, []⟩]

/-- The same with a pin shape. -/
def exSkyPinDb : List DbLayer := exSkyDb ++ [⟨10, "met1_pin_con", none, [Lvs.box 0 0 50 50 (some "A")]⟩]

/-- ihp_sg13g2: a net on the metal below a MIM capacitor and one above with a via on the upper plate. -/
def exSgDb : List DbLayer :=
  [⟨0, "metal5_n_cap", none, [Lvs.box 0 0 900 900 (some "A")]⟩, ⟨1, "mim_via", none, [Lvs.box 100 100 142 142 (some "B")]⟩,
   ⟨2, "topmetal1_con", none, [Lvs.box 100 100 900 900 (some "B")]⟩, ⟨3, "via4_drw", none, [Lvs.box 10 10 29 29 (some "A")]⟩,
   ⟨4, "metal4_con", none, [Lvs.box 0 0 300 300 (some "A")]⟩, ⟨5, "metal4_pin", none, [Lvs.box 0 0 30 30 (some "A")]⟩]

/-- Numbers for the layers. -/
def exLayers : Env := ⟨Encodable.encode, fun _ => [], fun _ _ => false⟩

theorem exLayers_injective : Function.Injective exLayers.layerOf := Encodable.encode_injective

theorem exSky_resistors : (exSkyDb.map (·.index)).Nodup ∧
    ∃ T, prepareTech (prepare Sky130A.tech.read false exSkyDb) exLayers RRequest.exCfg = .ok T ∧
      T.conductors.map (fun k => (k.layer.lvsName, k.resistance)) =
        [("li_con", 12.8), ("met1_con", 0.125), ("met2_con", 0.125), ("met3_ncap", 0.047)] ∧
      T.vias.map (fun u => (u.layer.lvsName, u.bottom, u.top)) =
        [("mcon_con", exLayers.layerOf (67, 20), exLayers.layerOf (68, 20)),
         ("via2_con", exLayers.layerOf (69, 20), exLayers.layerOf (70, 20)),
         ("via3_cap", exLayers.layerOf (70, 20), exLayers.layerOf (71, 20))] := by
  refine ⟨by decide, ?_⟩
  cases h : prepareTech (prepare Sky130A.tech.read false exSkyDb) exLayers RRequest.exCfg with
  | error m =>
    have : (prepareTech (prepare Sky130A.tech.read false exSkyDb) exLayers RRequest.exCfg).toOption.isSome = true := by
      decide +kernel
    rw [h] at this
    cases this
  | ok T =>
    refine ⟨T, rfl, ?_, ?_⟩
    · have : (prepareTech (prepare Sky130A.tech.read false exSkyDb) exLayers RRequest.exCfg).toOption.map
        (fun T => T.conductors.map (fun k => (k.layer.lvsName, k.resistance))) =
          some [("li_con", 12.8), ("met1_con", 0.125), ("met2_con", 0.125), ("met3_ncap", 0.047)] := by decide +kernel
      rw [h] at this
      exact Option.some.inj this
    · have : (prepareTech (prepare Sky130A.tech.read false exSkyDb) exLayers RRequest.exCfg).toOption.map
        (fun T => T.vias.map (fun u => (u.layer.lvsName, u.bottom, u.top))) =
        some [("mcon_con", exLayers.layerOf (67, 20), exLayers.layerOf (68, 20)),
         ("via2_con", exLayers.layerOf (69, 20), exLayers.layerOf (70, 20)),
         ("via3_cap", exLayers.layerOf (70, 20), exLayers.layerOf (71, 20))] := by decide +kernel
      rw [h] at this
      exact Option.some.inj this

example : ∃ s, Source Sky130A.tech.read false exSkyDb s ∧ s.name = "via3_cap" := by
  refine ⟨⟨7, "via3_cap", _, _⟩, ⟨_, _, rfl, by decide, ((TechInfo.single_lookups _).1 _ _).1 rfl, fun h => Bool.noConfusion h.1, rfl⟩, rfl⟩

example : ∃ s, Source Sky130A.tech.read false exSkyDb s ∧ s.name = "mcon_con" ∧ ¬ Mistold "mcon_con" ∧
    Carries Sky130A.tech "li1" 0.9361 0.1 ⟨"mcon_con", "li1", "met1", 1.3761 - (0.9361 + 0.1), 0.17, 0.19, 0⟩ := by
  refine ⟨⟨1, "mcon_con", _, _⟩, ⟨_, _, rfl, by decide, ((TechInfo.single_lookups _).1 _ _).1 rfl, fun h => Bool.noConfusion h.1, rfl⟩, rfl, by decide,
    Or.inl (by decide +kernel)⟩

example : (exSkyPinDb.map (·.index)).Nodup ∧ ∃ l ∈ exSkyPinDb, l.name ∈ ["met1_pin_con", "met2_pin_con", "met3_pin_con",
    "met4_pin_con", "met5_pin_con"] ∧ l.shapes ≠ [] := by decide

example : (exSgDb.map (·.index)).Nodup ∧ (∀ l ∈ exSgDb, l.name ∈ ["poly_text", "metal1_text", "metal2_text", "metal3_text",
    "metal4_text", "metal5_text", "topmetal1_text", "topmetal2_text"] → l.shapes = []) ∧
    ∃ s, Source Sg13g2.tech.read false exSgDb s ∧ s.name = "mim_via" := by
  refine ⟨by decide, by decide, ⟨1, "mim_via", _, _⟩, ⟨_, _, rfl, by decide, ((TechInfo.single_lookups _).1 _ _).1 rfl, fun h => Bool.noConfusion h.1, rfl⟩, rfl⟩

end Verif.Pdk
