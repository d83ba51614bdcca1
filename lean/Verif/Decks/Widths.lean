import Verif.Decks.Measure

/-!
# Which models LVS of sky130A gives to precision poly resistors

Models `poly_high_*` and `poly_xhigh_*` of pdk/sky130A/libs.tech/kpex/sky130.lvs 1247–1260 and the device statements 2143–2179, for one merged
polygon of `poly_res_300` or `poly_res_2k` that no other one touches. Lengths are in nanometres.
-/

namespace Verif.Decks

/-- The model names of `res_high_po` and `res_xhigh_po` with the least length of the selected edges and the first length above;
sky130.lvs 1247–1251, 1256–1260. -/
def widthClasses : List (String × Int × Int) :=
  [("0p35", 340, 360), ("0p69", 680, 700), ("1p41", 1400, 1420), ("2p85", 2840, 2860), ("5p73", 5720, 5740)]

/-- `with_length(lo, hi)` of KLayout: the upper limit does not belong to the range. -/
def withLength (lo hi : Int) (es : List (Vertex × Vertex)) : List (Vertex × Vertex) :=
  es.filter fun e => decide (lo ≤ edgeLength e) && decide (edgeLength e < hi)

/-- The models of a resistor body: one device for each layer that has the polygon; sky130.lvs 1247–1260, 2143–2179. -/
def resistorModels (body : List Vertex) : List String :=
  (widthClasses.filter fun c => !(withLength c.2.1 c.2.2 (hullEdges body)).isEmpty).map (·.1)

/-! ### Specification -/

/-- The names of the models with the widths they are for. -/
def Nominal (model : String) (width : Int) : Prop :=
  (model, width) ∈ [("0p35", (350 : Int)), ("0p69", 690), ("1p41", 1410), ("2p85", 2850), ("5p73", 5730)]

/-- A length is that of the model, up to 10 nm. -/
def OfModel (model : String) (l : Int) : Prop := ∃ w, Nominal model w ∧ w - 10 ≤ l ∧ l < w + 10

/-- A rectangle, clockwise from the lower left corner. -/
def rectAt (x y w h : Int) : List Vertex := [(x, y), (x, y + h), (x + w, y + h), (x + w, y)]

/-! ### Proofs -/

theorem mem_models {body : List Vertex} {model : String} :
    model ∈ resistorModels body ↔ ∃ lo hi, (model, lo, hi) ∈ widthClasses ∧ ∃ e ∈ hullEdges body, lo ≤ edgeLength e ∧ edgeLength e < hi := by
  unfold resistorModels
  simp only [List.mem_map, List.mem_filter, Bool.not_eq_true', List.isEmpty_eq_false_iff]
  constructor
  · rintro ⟨⟨m, lo, hi⟩, ⟨hc, hne⟩, rfl⟩
    obtain ⟨e, he⟩ := List.exists_mem_of_ne_nil _ hne
    simp only [withLength, List.mem_filter, Bool.and_eq_true, decide_eq_true_eq] at he
    exact ⟨lo, hi, hc, e, he.1, he.2⟩
  · rintro ⟨lo, hi, hc, e, he, h1, h2⟩
    refine ⟨(model, lo, hi), ⟨hc, ?_⟩, rfl⟩
    apply List.ne_nil_of_mem (a := e)
    simp [withLength, he, h1, h2]

/-- A body gets a model exactly if one of its edges has the width of the model. -/
theorem models_edges {body : List Vertex} {model : String} :
    model ∈ resistorModels body ↔ ∃ e ∈ hullEdges body, OfModel model (edgeLength e) := by
  rw [mem_models]
  constructor
  · rintro ⟨lo, hi, hc, e, he, h1, h2⟩
    refine ⟨e, he, ?_⟩
    simp only [widthClasses, List.mem_cons, List.not_mem_nil, or_false, Prod.mk.injEq] at hc
    rcases hc with ⟨rfl, rfl, rfl⟩ | ⟨rfl, rfl, rfl⟩ | ⟨rfl, rfl, rfl⟩ | ⟨rfl, rfl, rfl⟩ | ⟨rfl, rfl, rfl⟩
    · exact ⟨350, by simp [Nominal], by omega, by omega⟩
    · exact ⟨690, by simp [Nominal], by omega, by omega⟩
    · exact ⟨1410, by simp [Nominal], by omega, by omega⟩
    · exact ⟨2850, by simp [Nominal], by omega, by omega⟩
    · exact ⟨5730, by simp [Nominal], by omega, by omega⟩
  · rintro ⟨e, he, w, hw, h1, h2⟩
    refine ⟨w - 10, w + 10, ?_, e, he, h1, h2⟩
    simp only [Nominal, List.mem_cons, List.not_mem_nil, or_false, Prod.mk.injEq] at hw
    rcases hw with ⟨rfl, rfl⟩ | ⟨rfl, rfl⟩ | ⟨rfl, rfl⟩ | ⟨rfl, rfl⟩ | ⟨rfl, rfl⟩ <;> simp [widthClasses]

/-- A straight resistor gets a model exactly if its width or its length is that of the model. -/
theorem models_straight {x y w l : Int} (hw : 0 < w) (hl : 0 < l) {model : String} :
    model ∈ resistorModels (rectAt x y w l) ↔ OfModel model w ∨ OfModel model l := by
  have e1 : |x + w - x| = w := by rw [show x + w - x = w by ring]; exact abs_of_pos hw
  have e2 : |x - (x + w)| = w := by rw [abs_sub_comm]; exact e1
  have e3 : |y + l - y| = l := by rw [show y + l - y = l by ring]; exact abs_of_pos hl
  have e4 : |y - (y + l)| = l := by rw [abs_sub_comm]; exact e3
  rw [models_edges]
  simp only [rectAt, hullEdges, edgesFrom, List.mem_cons, List.not_mem_nil, or_false, exists_eq_or_imp, exists_eq_left, edgeLength,
    sub_self, abs_zero, add_zero, zero_add, e1, e2, e3, e4]
  constructor
  · rintro (h | h | h | h) <;> simp [h]
  · rintro (h | h) <;> simp [h]

theorem ofModel_inj {m m' : String} {w : Int} (h : OfModel m w) (h' : OfModel m' w) : m = m' := by
  obtain ⟨a, ha, h1, h2⟩ := h
  obtain ⟨b, hb, h3, h4⟩ := h'
  simp only [Nominal, List.mem_cons, List.not_mem_nil, or_false, Prod.mk.injEq] at ha hb
  rcases ha with ⟨rfl, rfl⟩ | ⟨rfl, rfl⟩ | ⟨rfl, rfl⟩ | ⟨rfl, rfl⟩ | ⟨rfl, rfl⟩ <;>
    rcases hb with ⟨rfl, rfl⟩ | ⟨rfl, rfl⟩ | ⟨rfl, rfl⟩ | ⟨rfl, rfl⟩ | ⟨rfl, rfl⟩ <;> first | rfl | omega

theorem models_nodup (body : List Vertex) : (resistorModels body).Nodup := by
  have : (widthClasses.map (·.1)).Nodup := by decide
  exact List.Nodup.sublist (List.Sublist.map _ List.filter_sublist) this

/-- A straight resistor of the width of a model is one device of this model, if its length is not the width of another one. -/
theorem models_right_partial {x y w l : Int} (hw : 0 < w) (hl : 0 < l) {model : String} (h : OfModel model w)
    (hno : ∀ m, OfModel m l → m = model) : resistorModels (rectAt x y w l) = [model] := by
  have hm : ∀ m, m ∈ resistorModels (rectAt x y w l) ↔ m = model := by
    intro m
    rw [models_straight hw hl]
    constructor
    · rintro (h' | h')
      · exact ofModel_inj h' h
      · exact hno m h'
    · rintro rfl
      exact .inl h
  have hn := models_nodup (rectAt x y w l)
  generalize resistorModels (rectAt x y w l) = r at *
  rcases r with _ | ⟨a, _ | ⟨b, r⟩⟩
  · exact absurd ((hm model).2 rfl) (by simp)
  · rw [(hm a).1 (.head _)]
  · have h1 := (hm a).1 (.head _)
    have h2 := (hm b).1 (.tail _ (.head _))
    simp [h1, h2] at hn

/-- Violation: if width and length are those of different models, one resistor is extracted as two devices. -/
theorem models_twice {x y w l : Int} (hw : 0 < w) (hl : 0 < l) {m m' : String} (h : OfModel m w) (h' : OfModel m' l) (hne : m ≠ m') :
    m ∈ resistorModels (rectAt x y w l) ∧ m' ∈ resistorModels (rectAt x y w l) ∧ 2 ≤ (resistorModels (rectAt x y w l)).length := by
  have a := (models_straight (x := x) (y := y) hw hl).2 (.inl h)
  have b := (models_straight (x := x) (y := y) hw hl).2 (.inr h')
  refine ⟨a, b, ?_⟩
  have hs : [m, m'] ⊆ resistorModels (rectAt x y w l) := by
    intro k hk
    simp only [List.mem_cons, List.not_mem_nil, or_false] at hk
    rcases hk with rfl | rfl
    · exact a
    · exact b
  exact ((by simp [hne] : [m, m'].Nodup).subperm hs).length_le

/-- Violation: a resistor of another width is lost, unless its length is the width of a model. -/
theorem models_none {x y w l : Int} (hw : 0 < w) (hl : 0 < l) :
    resistorModels (rectAt x y w l) = [] ↔ (∀ m, ¬ OfModel m w) ∧ ∀ m, ¬ OfModel m l := by
  rw [List.eq_nil_iff_forall_not_mem]
  simp only [models_straight hw hl, not_or]
  exact ⟨fun h => ⟨fun m => (h m).1, fun m => (h m).2⟩, fun h m => ⟨h.1 m, h.2 m⟩⟩

/-- A resistor of 0.35 µm by 5 µm; one of 0.35 µm by 0.69 µm is two devices, one of 1 µm by 5 µm none, and one of 1 µm by 0.35 µm gets a
model for its length. -/
theorem models_ex : resistorModels (rectAt 0 0 350 5000) = ["0p35"] ∧ resistorModels (rectAt 0 0 350 690) = ["0p35", "0p69"] ∧
    resistorModels (rectAt 0 0 1000 5000) = [] ∧ resistorModels (rectAt 0 0 1000 350) = ["0p35"] := by
  decide

end Verif.Decks
