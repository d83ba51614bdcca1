import Verif.Lvs.Pins

/-!
# Extraction context: examples and counterexamples

The theorems on C45 are in `Layers.lean`, those on C60 and C61 in `Pins.lean`.
-/

namespace Verif.Lvs

open TechInfo (Tech GDSPair Kind ComputedLayer LayerInfo IsLast)
open Shapes (Polygon Pt)

/-! ### A technology with one metal layer, drawn with (68, 20) -/

def met1 : LayerInfo := { purpose := .metal, name := "met1", drw := (68, 20), pin := (68, 16), label := (68, 5) }

def computed (name : String) (pair : GDSPair) (kind : Kind) (original : String) : ComputedLayer :=
  { kind := kind, info := { name := name, drw := pair }, original := original }

/-- Two LVS layers with the pair of the metal, a pin layer and a resistor layer. -/
def exTech : Tech :=
  { layers := [met1]
    computed := [computed "met1_con" (68, 20) .regular "met1", computed "met1_cap" (68, 20) .regular "met1",
      computed "met1_pin" (68, 16) .pin "met1.pin", computed "res_m1" (70, 1) .deviceResistor "res"] }

def box (x1 y1 x2 y2 : ℤ) (net : Option String) : Polygon := ⟨[(x1, y1), (x1, y2), (x2, y2), (x2, y1)], [], net⟩

/-- An LVS database with all kinds of layers; `exDb1` has only one layer with the pair of the metal. -/
def exDb : List DbLayer :=
  [⟨3, "met1_con", none, [box 0 0 10 10 (some "A"), box 20 0 30 10 (some "B")]⟩,
   ⟨5, "met1_pin", none, [box 0 0 2 2 (some "A")]⟩,
   ⟨6, "met1_cap", none, [box 40 0 50 10 (some "A")]⟩,
   ⟨7, "other", some (81, 4), [box 0 0 1 1 none]⟩,
   ⟨9, "strange", none, [box 0 0 1 1 none]⟩,
   ⟨10, "res_m1", none, [box 0 0 1 1 none]⟩,
   ⟨11, "met1_cap2", some (1, 1), []⟩]

def exDb1 : List DbLayer := exDb.take 2

def exEnv : Env :=
  { layerOf := fun p => if p = (68, 20) then 0 else 1
    texts := fun p => if p = (68, 5) then [("IN", (1, 1)), ("FLOATING", (100, 100))] else []
    inside := fun p q => p.hull.any fun a => p.hull.any fun b => a.1 ≤ q.1 && q.1 ≤ b.1 && a.2 ≤ q.2 && q.2 ≤ b.2 }

/-- The groups of the example: with blackboxing the resistor layer is left out; `strange` has no GDS numbers, `met1_cap2`
is empty. -/
example : (exDb.map (·.index)).Nodup ∧
    (prepare exTech true exDb).layers.extracted.map (fun e => (e.1, e.2.sources.map (·.idx))) =
      [((68, 20), [0, 2]), ((68, 16), [1])] ∧
    (prepare exTech true exDb).layers.unnamed.map (fun s => (s.idx, s.pair)) = [(3, (1003, 20))] ∧
    (prepare exTech false exDb).layers.extracted.map (fun e => (e.1, e.2.sources.map (·.idx))) =
      [((68, 20), [0, 2]), ((68, 16), [1]), ((70, 1), [5])] := by decide

example : ∃ s, Source exTech true exDb s ∧ s.pair = (68, 20) := by
  refine ⟨⟨0, "met1_con", (68, 20), [box 0 0 10 10 (some "A"), box 20 0 30 10 (some "B")]⟩,
    ⟨exDb[0], computed "met1_con" (68, 20) .regular "met1", by decide, by decide, ?_, ?_, rfl⟩, rfl⟩
  · exact ⟨[], _, rfl, rfl, by decide⟩
  · unfold LeftOut; decide

example : shapesOfNet (prepare exTech true exDb) (68, 20) "A" =
    .ok (some [box 0 0 10 10 none, box 40 0 50 10 none]) := by decide

/-! ### Pins -/

/-- One LVS layer for the metal: the label on the pin shape becomes one pin. -/
theorem pins_example :
    pinsByLayer (prepare exTech true exDb1) exEnv =
      .ok [((68, 20), [⟨"IN", "A", ⟨0, "met1", "met1_cap"⟩, (1, 1)⟩])] := by decide +kernel

/-- **C60 fails for a layer that LVS splits**: with two LVS layers for the metal the only label on a pin shape becomes two
pins. -/
theorem pins_duplicated :
    pinsByLayer (prepare exTech true exDb) exEnv =
      .ok [((68, 20), [⟨"IN", "A", ⟨0, "met1", "met1_cap"⟩, (1, 1)⟩, ⟨"IN", "A", ⟨0, "met1", "met1_cap"⟩, (1, 1)⟩])] := by
  decide +kernel

/-- The hypotheses of `pins_exact` and `pins_once_partial` are met. -/
example : (exDb1.map (·.index)).Nodup ∧ IsLast (fun l => l.drw = (68, 20)) exTech.layers met1 ∧
    (∃ s, Source exTech true exDb1 s ∧ DrawnAs exTech s.pair (68, 20)) ∧
    DrawnAs exTech (68, 20) (68, 20) ∧ ¬ DrawnAs exTech (68, 16) (68, 20) := by
  have k : KnownPair exTech (68, 20) (computed "met1_cap" (68, 20) .regular "met1") :=
    ⟨[_], [_, _], rfl, rfl, by decide⟩
  have k' : KnownPair exTech (68, 16) (computed "met1_pin" (68, 16) .pin "met1.pin") :=
    ⟨[_, _], [_], rfl, rfl, by decide⟩
  have hl : IsLast (fun l => l.name = (computed "met1_cap" (68, 20) .regular "met1").original) exTech.layers met1 :=
    ⟨[], [], rfl, rfl, by simp⟩
  refine ⟨by decide, ⟨[], [], rfl, rfl, by simp⟩, ?_, ⟨_, met1, k, hl, rfl⟩, ?_⟩
  · refine ⟨⟨0, "met1_con", (68, 20), [box 0 0 10 10 (some "A"), box 20 0 30 10 (some "B")]⟩,
      ⟨exDb1[0], computed "met1_con" (68, 20) .regular "met1", by decide, by decide, ?_, ?_, rfl⟩,
      ⟨_, met1, k, hl, rfl⟩⟩
    · exact ⟨[], _, rfl, rfl, by decide⟩
    · unfold LeftOut; decide
  · rintro ⟨c, l, h1, h2, _⟩
    have := isLast_unique h1 k'
    subst this
    have hm := h2.mem
    have hp := h2.prop
    have : l = met1 := by simpa [exTech] using hm
    subst this
    exact absurd hp (by decide)

/-! ### Devices -/

def exNet : Net := ⟨"A", [⟨"M1", 0, [(3, [box 0 0 1 1 none])]⟩, ⟨"M2", 0, []⟩, ⟨"M1", 1, [(6, [])]⟩]⟩

/-- A device with two terminals on net `A`. -/
def exDevice : DbDevice :=
  { id := 1, name := "M1", className := "nfet", abstractName := "D$nfet", params := [(0, "W", 1)]
    terminals := [(0, "S"), (1, "D")], netFor := fun _ => some exNet }

example : Consistent exDevice := by
  intro td htd n hn
  cases hn
  simp only [exDevice, List.mem_cons, List.not_mem_nil, or_false] at htd
  rcases htd with rfl | rfl
  · exact ⟨⟨"M1", 0, [(3, [box 0 0 1 1 none])]⟩, rfl⟩
  · exact ⟨⟨"M1", 1, [(6, [])]⟩, rfl⟩

example : ∃ dd, devicesByName (prepare exTech true exDb) [exDevice] = .ok dd := ⟨_, rfl⟩

end Verif.Lvs
