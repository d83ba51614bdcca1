import Verif.TechInfo.Props
import Mathlib.Data.List.Induction

/-!
# The remaining look-ups of `klayout_pex/tech_info.py` (C118)

These attributes are part of the public interface of `TechInfo`, the rest of the program does not read them.
-/

namespace Verif.TechInfo

/-! ### Model -/

/-- `layer_info_by_name`, tech_info.py 89–91. -/
def layerByName (t : Tech) : Dict String LayerInfo :=
  Dict.ofList (t.layers.map fun l => (l.name, l))

/-- `process_stack_layer_by_name`, tech_info.py 108–110. -/
def stackByName (t : Tech) : Dict String StackLayer :=
  Dict.ofList (t.stack.map fun l => (l.name, l))

/-- `contact_by_device_lvs_layer_name`, tech_info.py 225–235. -/
def contactByDevice (t : Tech) : Dict String Contact :=
  t.stack.foldl (fun d l =>
    match l.kind with
    | .nwell c => d.set l.name c
    | .diffusion c => d.set l.name c
    | _ => d) []

/-- `process_stack_layer_by_gds_pair`, tech_info.py 112–117: reads the field `drw_gds_pair` of each layer of the stack,
which `ProcessStackInfo.LayerInfo` (process_stack.proto) does not have. -/
def stackByPair (t : Tech) : Except String (Dict GDSPair StackLayer) :=
  t.stack.foldlM (fun _ _ => .error "AttributeError: drw_gds_pair") []

/-- `contact_above_metal_layer_name`, tech_info.py 215–223: asks `gds_pair` (tech_info.py 253–255) for the contact
message, not for its name; messages cannot be keys of a dictionary, so the look-up there raises. -/
def contactAboveMetal (t : Tech) : Except String (Dict String String) :=
  t.stack.foldlM (fun d l =>
    match l.kind with
    | .metal _ => .error "TypeError: unhashable object"
    | _ => .ok d) []

/-! ### Properties -/

/-- The contact of a stack layer that belongs to a device: an n-well or a diffusion. -/
inductive DeviceContact : StackLayer → Contact → Prop
  | nwell (n : String) (c : Contact) : DeviceContact ⟨n, .nwell c⟩ c
  | diffusion (n : String) (c : Contact) : DeviceContact ⟨n, .diffusion c⟩ c

/-- **C118, layers by name.** The layer of a name and the layer of the process stack of a name are the last ones listed
under that name; a name that is not listed is not found.  Missing: the look-ups of `broken_lookups`. -/
theorem layers_by_name_partial (t : Tech) (n : String) :
    (∀ l, (layerByName t).get? n = some l ↔ IsLast (fun l => l.name = n) t.layers l) ∧
    ((layerByName t).get? n = none ↔ ∀ l ∈ t.layers, l.name ≠ n) ∧
    (∀ l, (stackByName t).get? n = some l ↔ IsLast (fun l => l.name = n) t.stack l) ∧
    ((stackByName t).get? n = none ↔ ∀ l ∈ t.stack, l.name ≠ n) := by
  refine ⟨fun l => ?_, ofList_map_none _ _ _ _, fun l => ?_, ofList_map_none _ _ _ _⟩ <;>
  · first | rw [layerByName, ofList_map_some] | rw [stackByName, ofList_map_some]
    constructor
    · rintro ⟨x, hx, rfl⟩; exact hx
    · intro h; exact ⟨_, h, rfl⟩

private theorem contactByDevice_snoc (s : List StackLayer) (x : StackLayer) (t : Tech) :
    contactByDevice { t with stack := s ++ [x] } =
      match x.kind with
      | .nwell c => (contactByDevice { t with stack := s }).set x.name c
      | .diffusion c => (contactByDevice { t with stack := s }).set x.name c
      | _ => contactByDevice { t with stack := s } := by
  unfold contactByDevice; rw [List.foldl_append]; rfl

/-- **C118, contacts of devices.** The contact found for a layer name is the one of the last n-well or diffusion listed
in the process stack under that name; other layers of the stack are not looked at. -/
theorem contact_of_device (t : Tech) (n : String) (c : Contact) :
    (contactByDevice t).get? n = some c ↔
      ∃ l, IsLast (fun l => l.name = n ∧ ∃ c, DeviceContact l c) t.stack l ∧ DeviceContact l c := by
  obtain ⟨ly, co, st, pa⟩ := t
  induction st using List.reverseRecOn with
  | nil =>
    constructor
    · intro h; exact absurd h (by simp [contactByDevice])
    · rintro ⟨l, h, -⟩; exact absurd h.mem (by simp)
  | append_singleton s x ih =>
    have snoc : ∀ p : StackLayer → Prop, ∀ l, IsLast p (s ++ [x]) l ↔ (p x ∧ l = x) ∨ (¬ p x ∧ IsLast p s l) := by
      intro p l
      constructor
      · rintro ⟨l₁, l₂, h, hp, hn⟩
        rcases List.eq_nil_or_concat l₂ with rfl | ⟨l₂', y, rfl⟩
        · have := List.append_inj' h (by simp)
          have e : x = l := by simpa using this.2
          exact Or.inl ⟨e ▸ hp, e.symm⟩
        · have h' : s ++ [x] = (l₁ ++ l :: l₂') ++ [y] := by simpa using h
          have := List.append_inj' h' (by simp)
          have e : x = y := by simpa using this.2
          subst e
          exact Or.inr ⟨hn x (by simp), l₁, l₂', this.1, hp, fun z hz => hn z (by simp [hz])⟩
      · rintro (⟨hp, rfl⟩ | ⟨hn, l₁, l₂, rfl, hp, hl⟩)
        · exact ⟨s, [], rfl, hp, by simp⟩
        · exact ⟨l₁, l₂ ++ [x], by simp, hp, by
            intro y hy; rcases List.mem_append.1 hy with hy | hy
            · exact hl y hy
            · rw [List.mem_singleton.1 hy]; exact hn⟩
    have hs := contactByDevice_snoc s x ⟨ly, co, s, pa⟩
    simp only at hs
    rw [hs]
    simp only [snoc]
    obtain ⟨xn, k⟩ := x
    cases k with
    | nwell d =>
      simp only [Dict.get?_set]
      by_cases e : xn = n
      · subst e
        simp only [if_true, Option.some.injEq]
        constructor
        · rintro rfl; exact ⟨_, Or.inl ⟨⟨trivial, _, .nwell _ _⟩, rfl⟩, .nwell _ _⟩
        · rintro ⟨l, ⟨-, rfl⟩ | ⟨h, -⟩, hc⟩
          · cases hc; rfl
          · exact absurd ⟨trivial, _, .nwell _ _⟩ h
      · rw [if_neg e, ih]
        exact exists_congr fun l => and_congr_left fun _ =>
          ⟨fun h => Or.inr ⟨fun h' => e h'.1, h⟩, fun h => h.elim (fun h => absurd h.1.1 e) (·.2)⟩
    | diffusion d =>
      simp only [Dict.get?_set]
      by_cases e : xn = n
      · subst e
        simp only [if_true, Option.some.injEq]
        constructor
        · rintro rfl; exact ⟨_, Or.inl ⟨⟨trivial, _, .diffusion _ _⟩, rfl⟩, .diffusion _ _⟩
        · rintro ⟨l, ⟨-, rfl⟩ | ⟨h, -⟩, hc⟩
          · cases hc; rfl
          · exact absurd ⟨trivial, _, .diffusion _ _⟩ h
      · rw [if_neg e, ih]
        exact exists_congr fun l => and_congr_left fun _ =>
          ⟨fun h => Or.inr ⟨fun h' => e h'.1, h⟩, fun h => h.elim (fun h => absurd h.1.1 e) (·.2)⟩
    | metal d =>
      simp only
      rw [ih]
      have hn : ∀ c, ¬ DeviceContact ⟨xn, .metal d⟩ c := by rintro c ⟨⟩
      exact exists_congr fun l => and_congr_left fun _ =>
        ⟨fun h => Or.inr ⟨fun h' => h'.2.elim fun c hc => hn c hc, h⟩,
          fun h => h.elim (fun h => (h.1.2.elim fun c hc => absurd hc (hn c))) (·.2)⟩
    | other =>
      simp only
      rw [ih]
      have hn : ∀ c, ¬ DeviceContact ⟨xn, .other⟩ c := by rintro c ⟨⟩
      exact exists_congr fun l => and_congr_left fun _ =>
        ⟨fun h => Or.inr ⟨fun h' => h'.2.elim fun c hc => hn c hc, h⟩,
          fun h => h.elim (fun h => (h.1.2.elim fun c hc => absurd hc (hn c))) (·.2)⟩

/-- **C118, where the property fails.** The look-up of stack layers by GDS pair answers only for an empty process stack,
the look-up of the contact above a metal only for a stack without metals; the answer is then empty. -/
theorem broken_lookups (t : Tech) :
    ((∃ d, stackByPair t = .ok d) ↔ t.stack = []) ∧
    ((∃ d, contactAboveMetal t = .ok d) ↔ ∀ l ∈ t.stack, ∀ c, l.kind ≠ .metal c) ∧
    (∀ d, stackByPair t = .ok d → d = []) ∧ (∀ d, contactAboveMetal t = .ok d → d = []) := by
  have a : ∀ d, stackByPair t = .ok d ↔ t.stack = [] ∧ d = [] := by
    intro d
    unfold stackByPair
    cases t.stack with
    | nil => simp [List.foldlM, pure, Except.pure, eq_comm]
    | cons x l => simp [List.foldlM, bind, Except.bind]
  have b : ∀ (s : List StackLayer) (d0 d : Dict String String),
      s.foldlM (fun d l => match l.kind with
        | .metal _ => (.error "TypeError: unhashable object" : Except String (Dict String String))
        | _ => .ok d) d0 = .ok d ↔ (∀ l ∈ s, ∀ c, l.kind ≠ .metal c) ∧ d = d0 := by
    intro s
    induction s with
    | nil => intro d0 d; simp [List.foldlM, pure, Except.pure, eq_comm]
    | cons x l ih =>
      intro d0 d
      rw [List.foldlM_cons]
      obtain ⟨n, k⟩ := x
      cases k <;> simp [bind, Except.bind, ih]
  have b' := b t.stack []
  change ∀ d, contactAboveMetal t = .ok d ↔ _ at b'
  refine ⟨by simp [a], ?_, fun d h => ((a d).1 h).2, fun d h => ((b' d).1 h).2⟩
  constructor
  · rintro ⟨d, h⟩; exact ((b' d).1 h).1
  · intro h; exact ⟨[], (b' []).2 ⟨h, rfl⟩⟩

/-- A stack as in the shipped technologies: the look-ups by name answer, the two others do not. -/
def sampleStack : Tech :=
  { layers := [{ name := "met1", drw := (68, 20) }]
    stack := [⟨"nwell", .nwell ⟨"licon_nwell", "nwell", "li1", 1⟩⟩, ⟨"ndiff", .diffusion ⟨"licon_n", "ndiff", "li1", 1⟩⟩,
      ⟨"met1", .metal (some ⟨"via", "met1", "met2", 1⟩)⟩] }

example : (contactByDevice sampleStack).get? "ndiff" = some ⟨"licon_n", "ndiff", "li1", 1⟩ ∧
    (contactByDevice sampleStack).get? "met1" = none ∧ (∀ d, contactAboveMetal sampleStack ≠ .ok d) ∧
    (∀ d, stackByPair sampleStack ≠ .ok d) := by
  refine ⟨by decide +kernel, by decide +kernel, fun d h => ?_, fun d h => ?_⟩
  · exact ((broken_lookups sampleStack).2.1.1 ⟨d, h⟩) ⟨"met1", .metal (some ⟨"via", "met1", "met2", 1⟩)⟩
      (by simp [sampleStack]) _ rfl
  · have := (broken_lookups sampleStack).1.1 ⟨d, h⟩
    simp [sampleStack] at this

end Verif.TechInfo
