import Verif.Pdk.Request

/-!
# The pins of the shipped technologies (C94)
-/

namespace Verif.Pdk

open TechInfo (Tech GDSPair computedByPair computedByName IsLast)
open Lvs (DbLayer Env ExtractedLayer Source Known KnownPair LeftOut prepare DrawnAs PinFor PinShapes pinsByLayer Pin)
open Shapes (Polygon)

set_option maxRecDepth 4000

/-! ### Specification -/

/-- Drawing layer of a conductor, LVS layer with its pin shapes, layer with its labels. -/
structure PinRow where
  drawn : GDSPair
  pins : String
  labels : GDSPair
deriving DecidableEq

/-- sky130A: poly and li1. -/
def skyPins : List PinRow := [⟨(66, 20), "poly_pin_con", (66, 5)⟩, ⟨(67, 20), "li_pin_con", (67, 5)⟩]

/-- ihp_sg13g2: GatPoly, Metal1 to Metal5, TopMetal1 and TopMetal2. -/
def sgPins : List PinRow := [⟨(5, 0), "poly_pin_con", (5, 25)⟩, ⟨(8, 0), "metal1_pin_con", (8, 25)⟩,
  ⟨(10, 0), "metal2_pin_con", (10, 25)⟩, ⟨(30, 0), "metal3_pin_con", (30, 25)⟩, ⟨(50, 0), "metal4_pin_con", (50, 25)⟩,
  ⟨(67, 0), "metal5_pin_con", (67, 25)⟩, ⟨(126, 0), "topmetal1_pin_con", (126, 25)⟩, ⟨(134, 0), "topmetal2_pin_con", (134, 25)⟩]

def PinTable (t : Technology) (rows : List PinRow) : Prop :=
  (t = Sky130A.tech ∧ rows = skyPins) ∨ (t = Sg13g2.tech ∧ rows = sgPins)

/-- The shapes of the LVS layers with a name. -/
def shapesNamed (db : List DbLayer) (n : String) : List Polygon := (db.filter fun l => l.name = n).flatMap (·.shapes)

/-! ### Proofs -/

/-- What has to be known about a row: the layer of the technology, and the one LVS layer for its pins. -/
def rowOk (t : Tech) (r : PinRow) : Bool :=
  match t.layers.reverse.find? (fun l => l.drw = r.drawn) with
  | none => false
  | some lay => decide (lay.label = r.labels) && t.computed.all (fun c =>
      decide (((computedByName t).get? c.info.name).map (fun c => c.info.drw) = some lay.pin ↔ c.info.name = r.pins)) &&
      decide (((computedByName t).get? r.pins).map (fun c => c.kind) = some .pin)

theorem rows_pins {t : Technology} {rows : List PinRow} (h : PinTable t rows) : ∀ r ∈ rows, rowOk t.read r = true := by
  rcases h with ⟨rfl, rfl⟩ | ⟨rfl, rfl⟩ <;> decide +kernel

theorem isLast_find {α : Type} {p : α → Prop} [DecidablePred p] {l : List α} {x : α} :
    l.reverse.find? (fun y => decide (p y)) = some x ↔ IsLast p l x := by
  rw [TechInfo.find_last]
  exact TechInfo.IsLast.congr (by simp)

theorem rowOk_spec {t : Tech} {r : PinRow} (h : rowOk t r = true) : ∃ lay, IsLast (fun l => l.drw = r.drawn) t.layers lay ∧
    lay.label = r.labels ∧ (∀ n c, Known t n c → (c.info.drw = lay.pin ↔ n = r.pins)) ∧
    ∃ c, Known t r.pins c ∧ c.kind = .pin := by
  unfold rowOk at h
  split at h
  · cases h
  · rename_i lay hf
    simp only [Bool.and_eq_true, decide_eq_true_eq, List.all_eq_true] at h
    obtain ⟨⟨h1, h2⟩, h3⟩ := h
    refine ⟨lay, isLast_find.1 hf, h1, fun n c hk => ?_, ?_⟩
    · have h4 := h2 c hk.mem
      rw [hk.prop, (Lvs.known_iff t n c).2 hk] at h4
      simpa using h4
    · obtain ⟨c, hc, hk⟩ := Option.map_eq_some_iff.1 h3
      exact ⟨c, (Lvs.known_iff t _ _).1 hc, hk⟩

theorem filter_named {db : List DbLayer} (hn : (db.map (·.name)).Nodup) {l : DbLayer} (hl : l ∈ db) :
    shapesNamed db l.name = l.shapes := by
  induction db with
  | nil => cases hl
  | cons a db ih =>
    rw [List.map_cons, List.nodup_cons] at hn
    have hrest : ∀ n, (∀ b ∈ db, b.name ≠ n) → shapesNamed db n = [] := by
      intro n h
      unfold shapesNamed
      rw [List.filter_eq_nil_iff.2 (fun b hb => by simpa using h b hb)]
      rfl
    rcases List.mem_cons.1 hl with rfl | hl
    · have := hrest l.name (fun b hb e => hn.1 (List.mem_map.2 ⟨b, hb, e⟩))
      unfold shapesNamed at this ⊢
      rw [List.filter_cons_of_pos (by simp), List.flatMap_cons, this, List.append_nil]
    · have hne : a.name ≠ l.name := fun e => hn.1 (e ▸ List.mem_map_of_mem hl)
      unfold shapesNamed at ih ⊢
      rw [List.filter_cons_of_neg (by simpa using hne)]
      exact ih hn.2 hl

theorem pinShapes_named {t : Tech} {bb : Bool} {db : List DbLayer} (hn : (db.map (·.name)).Nodup) {pin : GDSPair} {n : String}
    (hk : ∀ m c, Known t m c → (c.info.drw = pin ↔ m = n)) (hkind : ∃ c, Known t n c ∧ c.kind = .pin) {P : List Polygon}
    (h : PinShapes t bb db pin P) : P = shapesNamed db n := by
  obtain ⟨c0, hk0, hkind⟩ := hkind
  have hlo : ¬ LeftOut bb c0 := by rintro ⟨_, h | h⟩ <;> rw [hkind] at h <;> cases h
  rcases h with ⟨hno, rfl⟩ | ⟨s, ⟨l, c, hi, hsh, hkn, hl, e⟩, hp, _, rfl⟩
  · unfold shapesNamed
    symm
    rw [List.flatMap_eq_nil_iff]
    intro l hl
    rw [List.mem_filter, decide_eq_true_eq] at hl
    obtain ⟨hl, rfl⟩ := hl
    by_contra hsh
    obtain ⟨i, hi⟩ := List.mem_iff_getElem?.1 hl
    exact hno ⟨i, l.name, c0.info.drw, l.shapes⟩ ⟨l, c0, hi, hsh, hk0, hlo, rfl⟩ ((hk _ _ hk0).2 rfl)
  · have h1 : c.info.drw = pin := (congrArg ExtractedLayer.pair e).symm.trans hp
    have h2 : s.shapes = l.shapes := congrArg ExtractedLayer.shapes e
    rw [h2, ← (hk _ _ hkn).1 h1, filter_named hn (List.mem_of_getElem? hi)]

/-- **C94 (partial).** With ihp_sg13g2, and with sky130A on poly and li1: if the pins can be read and the LVS layers have different
names, the pins of a conductor are, for each LVS layer that is a part of it, those of the labels on its label layer that lie on a
shape of its pin layer, in order, each with the net of the first such shape.

Missing from the full property: met1 to met5 of sky130A (`sky_no_pins`). -/
theorem shipped_pins_partial {t : Technology} {rows : List PinRow} (ht : PinTable t rows) (bb : Bool) (db : List DbLayer)
    (hd : (db.map (·.index)).Nodup) (hn : (db.map (·.name)).Nodup) (v : Env) (d : Dict GDSPair (List Pin))
    (h : pinsByLayer (prepare t.read bb db) v = .ok d) (r : PinRow) (hr : r ∈ rows) :
    ∃ srcs blocks, (∀ s, s ∈ srcs ↔ Source t.read bb db s ∧ DrawnAs t.read s.pair r.drawn) ∧ srcs.Nodup ∧
      d.getD r.drawn [] = blocks.flatten ∧
      List.Forall₂ (fun s block => List.Forall₂ (PinFor t.read v (shapesNamed db r.pins) s)
        ((v.texts r.labels).filter fun l => (shapesNamed db r.pins).any fun p => v.inside p l.2) block) srcs blocks := by
  obtain ⟨lay, hlay, hlab, hk, hkind⟩ := rowOk_spec (rows_pins ht r hr)
  obtain ⟨srcs, blocks, h1, h2, h3, h4⟩ := Lvs.pins_exact t.read bb db hd v d h r.drawn lay hlay
  refine ⟨srcs, blocks, h1, h2, h3, h4.imp ?_⟩
  rintro s block ⟨P, hP, hb⟩
  rw [pinShapes_named hn hk hkind hP, hlab] at hb
  exact hb

/-- **C94 fails for met1 to met5 of sky130A.** Whatever the layout, they have no pins. -/
theorem sky_no_pins (bb : Bool) (db : List DbLayer) (hd : (db.map (·.index)).Nodup) (v : Env) (d : Dict GDSPair (List Pin))
    (h : pinsByLayer (prepare Sky130A.tech.read bb db) v = .ok d) (gp : GDSPair)
    (hg : gp ∈ ([(68, 20), (69, 20), (70, 20), (71, 20), (72, 20)] : List GDSPair)) : d.getD gp [] = [] := by
  have key : ∀ gp ∈ ([(68, 20), (69, 20), (70, 20), (71, 20), (72, 20)] : List GDSPair),
      (match Sky130A.tech.read.layers.reverse.find? (fun l => l.drw = gp) with
      | none => false
      | some lay => Sky130A.tech.read.computed.all (fun c =>
        decide (((computedByName Sky130A.tech.read).get? c.info.name).map (fun c => c.info.drw) ≠ some lay.pin))) = true := by
    decide +kernel
  have hk := key gp hg
  split at hk
  · cases hk
  · rename_i lay hf
    obtain ⟨srcs, blocks, h1, h2, h3, h4⟩ := Lvs.pins_exact _ bb db hd v d h gp lay (isLast_find.1 hf)
    rw [h3, List.flatten_eq_nil_iff]
    intro block hb
    obtain ⟨s, _, P, hP, hPin⟩ := forall₂_right h4 hb
    have hP : P = [] := by
      rcases hP with ⟨_, rfl⟩ | ⟨s', hs', hp, _, _⟩
      · rfl
      · obtain ⟨c, hkn, e, _⟩ := source_pair hs'
        simp only [List.all_eq_true, decide_eq_true_eq] at hk
        have := hk c hkn.mem
        rw [hkn.prop, (Lvs.known_iff _ _ _).2 hkn] at this
        exact absurd (congrArg some (e.symm.trans hp)) this
    subst hP
    have : (v.texts lay.label).filter (fun l => ([] : List Polygon).any fun p => v.inside p l.2) = [] := by simp
    rw [this, List.forall₂_nil_left_iff] at hPin
    exact hPin

/-! ### Examples -/

/-- A wire on Metal1 of ihp_sg13g2 with a pin. -/
def exPinDb : List DbLayer := [⟨0, "metal1_con", none, [Lvs.box 0 0 900 90 (some "A")]⟩,
  ⟨1, "metal1_pin_con", none, [Lvs.box 0 0 90 90 (some "A")]⟩]

/-- One label on the pin and one beside it. -/
def exPinEnv : Env := ⟨Encodable.encode, fun g => if g = (8, 25) then [("IN", (10, 10)), ("X", (500, 10))] else [],
  fun _ q => q.1 ≤ 90⟩

example : (exPinDb.map (·.index)).Nodup ∧ (exPinDb.map (·.name)).Nodup ∧
    pinsByLayer (prepare Sg13g2.tech.read true exPinDb) exPinEnv =
      .ok [((8, 0), [⟨"IN", "A", ⟨exPinEnv.layerOf (8, 0), "Metal1", "metal1_con"⟩, (10, 10)⟩])] := by
  refine ⟨by decide, by decide, ?_⟩
  rfl

/-- A wire on met1 of sky130A with a pin and a label, but no pins. -/
def exNoPinDb : List DbLayer := [⟨0, "met1_con", none, [Lvs.box 0 0 900 90 (some "A")]⟩,
  ⟨1, "met1_pin_con", none, [Lvs.box 0 0 90 90 (some "A")]⟩]

def exNoPinEnv : Env := ⟨Encodable.encode, fun g => if g = (68, 5) then [("IN", (10, 10))] else [], fun _ _ => true⟩

example : ((pinsByLayer (prepare Sky130A.tech.read true exNoPinDb) exNoPinEnv).toOption.map fun d => d.getD (68, 20) []) =
    some [] := by decide +kernel

end Verif.Pdk
