import Verif.Decks.ReaderProps

/-!
# Parameters of schematics of sg13g2 are read in the units of the layout (C132)
-/

namespace Verif.Decks

/-! ### Specification -/

/-- The value of a parameter that is `d` if the element does not state it. -/
inductive Num (p : Params) (x : String) (d : ℚ) : ℚ → Prop
  | given {v} : p x = some v → Num p x d v
  | default : p x = none → Num p x d d

/-- The area as stated, otherwise that of a rectangle. -/
inductive Area (p : Params) (a w l : String) : ℚ → Prop
  | given {v} : p a = some v → Area p a w l v
  | rect {x y} : p a = none → Num p w 0 x → Num p l 0 y → Area p a w l (x * y)

/-- The perimeter under one of the names as stated, otherwise that of a rectangle. -/
inductive Perimeter (p : Params) (w l : String) : List String → ℚ → Prop
  | given {q qs v} : p q = some v → Perimeter p w l (q :: qs) v
  | next {q qs v} : p q = none → Perimeter p w l qs v → Perimeter p w l (q :: qs) v
  | rect {x y} : Num p w 0 x → Num p l 0 y → Perimeter p w l [] (2 * (x + y))

/-- The first of two parameters that is stated. -/
inductive Either (p : Params) (x y : String) (d : ℚ) : ℚ → Prop
  | first {v} : p x = some v → Either p x y d v
  | second {v} : p x = none → Num p y d v → Either p x y d v

/-- A diode that protects against discharges, or a Schottky diode. -/
def Special (m : Str) : Prop := Has m "diodev" ∨ Has m "schottky" ∨ Has m "nmoscl"

/-- The values of an element: lengths in micrometres and areas in square micrometres from metres in the schematic, numbers
as they are. -/
inductive Value (p : Params) (m : Str) : Ele → String → ℚ → Prop
  | mosW {w k} : Num p "W" 0 w → Num p "M" 1 k → Value p m .M "W" (w * k * 1000000)
  | mosL {l} : Num p "L" 0 l → Value p m .M "L" (l * 1000000)
  | npnArea {a} : ¬ Has m "pnp" → Area p "AE" "WE" "LE" a → Value p m .Q "AE" (a * 1000000 * 1000000)
  | npnPerimeter {q} : ¬ Has m "pnp" → Perimeter p "WE" "LE" ["PE"] q → Value p m .Q "PE" (q * 1000000)
  | pnpArea {a} : Has m "pnp" → Area p "A" "W" "L" a → Value p m .Q "AE" (a * 1000000 * 1000000)
  | pnpPerimeter {q} : Has m "pnp" → Perimeter p "W" "L" ["P"] q → Value p m .Q "PE" (q * 1000000)
  | emitters {k} : Either p "M" "NE" 1 k → Value p m .Q "NE" k
  | bjtCount {k} : Either p "M" "NE" 1 k → Value p m .Q "m" k
  | diodeArea {a} : ¬ Special m → Area p "A" "W" "L" a → Value p m .D "A" (a * 1000000 * 1000000)
  | diodePerimeter {q} : ¬ Special m → Perimeter p "W" "L" ["P"] q → Value p m .D "P" (q * 1000000)
  | diodeCount {k} : Num p "M" 1 k → Value p m .D "m" k
  | capW {w} : Num p "W" 0 w → Value p m .C "w" (w * 1000000)
  | capL {l} : Num p "L" 0 l → Value p m .C "l" (l * 1000000)
  | capCount {k} : Has m "cap_cmim" → Either p "M" "MF" 1 k → Value p m .C "m" k
  | mimArea {a} : Has m "mim" → Area p "A" "W" "L" a → Value p m .C "A" (a * 1000000 * 1000000)
  | mimPerimeter {q} : Has m "mim" → Perimeter p "W" "L" ["P"] q → Value p m .C "P" (q * 1000000)
  | feed {w} : Has m "rfcmim" → Num p "WFEED" 0 w → Value p m .C "wfeed" (w * 1000000)
  | tapArea {a} : Has m "tap" → Area p "A" "W" "L" a → Value p m .R "A" (a * 1000000 * 1000000)
  | tapPerimeter {q} : Has m "tap" → Perimeter p "W" "L" ["P", "PERIM"] q → Value p m .R "P" (q * 1000000)
  | polyW {w} : PolyRes m → Num p "W" 0 w → Value p m .R "w" (w * 1000000)
  | polyL {l} : PolyRes m → Num p "L" 0 l → Value p m .R "l" (l * 1000000)
  | polySpace {s} : PolyRes m → Num p "PS" 0 s → Value p m .R "ps" (s * 1000000)
  | polyBends {b} : PolyRes m → Num p "B" 0 b → Value p m .R "b" b
  | polyCount {k} : PolyRes m → Num p "M" 1 k → Value p m .R "m" k
  | resW {w k} : ¬ PolyRes m → ¬ Has m "tap" → Either p "W" "WIDTH" 0 w → Num p "M" 1 k → Value p m .R "W" (w * k * 1000000)
  | resL {l k} : ¬ PolyRes m → ¬ Has m "tap" → Either p "L" "LENGTH" 0 l → Num p "S" 1 k → Value p m .R "L" (l * k * 1000000)
  | resR {r s k} : ¬ PolyRes m → ¬ Has m "tap" → Num p "R" 0 r → Num p "S" 1 s → Num p "M" 1 k → Value p m .R "R" (r * s / k)
  | indW {w} : Num p "W" 0 w → Value p m .L "w" (w * 1000000)
  | indS {s} : Num p "S" 0 s → Value p m .L "s" (s * 1000000)
  | indD {d} : Num p "D" 0 d → Value p m .L "d" (d * 1000000)
  | indTurns {n} : Num p "NR_R" 0 n → Value p m .L "nr_r" n

/-! ### Proofs -/

variable {p : Params} {m : Str}

theorem num_iff {x : String} {d v : ℚ} : Num p x d v ↔ v = orElse p x d := by
  unfold orElse
  constructor
  · rintro (h | h) <;> simp [h]
  · rintro rfl
    cases h : p x with
    | none => exact .default h
    | some v => exact .given h

theorem area_iff {a w l : String} {v : ℚ} : Area p a w l v ↔ v = areaOf p a w l := by
  unfold areaOf
  constructor
  · rintro (h | ⟨h, h1, h2⟩)
    · simp [h]
    · rw [num_iff] at h1 h2
      simp [h, h1, h2]
  · rintro rfl
    cases h : p a with
    | none => exact .rect h (num_iff.2 rfl) (num_iff.2 rfl)
    | some v => exact .given h

theorem perimeter_nil {w l : String} {v : ℚ} : Perimeter p w l [] v ↔ v = (orElse p w 0 + orElse p l 0) * 2 := by
  constructor
  · rintro ⟨⟩
    rename_i h1 h2
    rw [num_iff] at h1 h2
    rw [h1, h2, mul_comm]
  · rintro rfl
    rw [mul_comm]
    exact .rect (num_iff.2 rfl) (num_iff.2 rfl)

theorem perimeter_cons {q w l : String} {qs : List String} {v : ℚ} : Perimeter p w l (q :: qs) v ↔
    p q = some v ∨ p q = none ∧ Perimeter p w l qs v := by
  constructor
  · rintro ⟨⟩
    · exact .inl ‹_›
    · exact .inr ⟨‹_›, ‹_›⟩
  · rintro (h | ⟨h, h'⟩)
    · exact .given h
    · exact .next h h'

theorem getD_iff {o : Option ℚ} {v d : ℚ} : o = some v ∨ o = none ∧ v = d ↔ v = o.getD d := by
  cases o with
  | none => simp
  | some x => simp [eq_comm]

theorem perimeter_iff {q w l : String} {v : ℚ} : Perimeter p w l [q] v ↔ v = perimeterOf p q w l := by
  rw [perimeter_cons, perimeter_nil, getD_iff]
  rfl

theorem perimeter_iff' {q r w l : String} {v : ℚ} : Perimeter p w l [q, r] v ↔
    v = (p q).getD ((p r).getD ((orElse p w 0 + orElse p l 0) * 2)) := by
  rw [perimeter_cons, perimeter_cons, perimeter_nil, getD_iff, getD_iff]

theorem either_iff {x y : String} {d v : ℚ} : Either p x y d v ↔ v = (p x).getD (orElse p y d) := by
  rw [← getD_iff]
  constructor
  · rintro (h | ⟨h, h'⟩)
    · exact .inl h
    · exact .inr ⟨h, num_iff.1 h'⟩
  · rintro (h | ⟨h, h'⟩)
    · exact .first h
    · exact .second h (num_iff.2 h')

theorem special_iff : (has m "diodev" || has m "schottky" || has m "nmoscl") = true ↔ Special m := by
  simp [Special, has_iff, or_assoc]

theorem area_scale (a : ℚ) : a * 10 ^ 12 = a * 1000000 * 1000000 := by norm_num; ring

theorem length_scale : (10 : ℚ) ^ 6 = 1000000 := by norm_num

/-- The values that the reader computes. -/
theorem mapParams_iff {ele : Ele} (hr : ele = .R → ¬ (PolyRes m ∧ Has m "tap")) (k : String) (v : ℚ) :
    (k, v) ∈ mapParams ele m p ↔ Value p m ele k v := by
  constructor
  · intro h
    cases ele with
    | M =>
      simp only [mapParams, mosParams, length_scale, List.mem_cons, Prod.mk.injEq, List.not_mem_nil, or_false] at h
      rcases h with ⟨rfl, rfl⟩ | ⟨rfl, rfl⟩
      · exact .mosW (num_iff.2 rfl) (num_iff.2 rfl)
      · exact .mosL (num_iff.2 rfl)
    | Q =>
      simp only [mapParams, bjtParams, area_scale, length_scale, List.mem_append, List.mem_cons, Prod.mk.injEq, List.not_mem_nil, or_false] at h
      rcases h with h | ⟨rfl, rfl⟩ | ⟨rfl, rfl⟩
      · split_ifs at h with hp
        · rw [has_iff] at hp
          simp only [List.mem_cons, Prod.mk.injEq, List.not_mem_nil, or_false] at h
          rcases h with ⟨rfl, rfl⟩ | ⟨rfl, rfl⟩
          · exact .pnpArea hp (area_iff.2 rfl)
          · exact .pnpPerimeter hp (perimeter_iff.2 rfl)
        · rw [has_iff] at hp
          simp only [List.mem_cons, Prod.mk.injEq, List.not_mem_nil, or_false] at h
          rcases h with ⟨rfl, rfl⟩ | ⟨rfl, rfl⟩
          · exact .npnArea hp (area_iff.2 rfl)
          · exact .npnPerimeter hp (perimeter_iff.2 rfl)
      · exact .emitters (either_iff.2 rfl)
      · exact .bjtCount (either_iff.2 rfl)
    | D =>
      simp only [mapParams, diodeParams, area_scale, length_scale, List.mem_append, List.mem_cons, Prod.mk.injEq, List.not_mem_nil, or_false] at h
      rcases h with h | ⟨rfl, rfl⟩
      · split_ifs at h with hp
        · cases h
        · rw [special_iff] at hp
          simp only [List.mem_cons, Prod.mk.injEq, List.not_mem_nil, or_false] at h
          rcases h with ⟨rfl, rfl⟩ | ⟨rfl, rfl⟩
          · exact .diodeArea hp (area_iff.2 rfl)
          · exact .diodePerimeter hp (perimeter_iff.2 rfl)
      · exact .diodeCount (num_iff.2 rfl)
    | C =>
      simp only [mapParams, capacitorParams, area_scale, length_scale, List.mem_append, List.mem_cons, Prod.mk.injEq, List.not_mem_nil, or_false] at h
      rcases h with (((⟨rfl, rfl⟩ | ⟨rfl, rfl⟩) | h) | h) | h
      · exact .capW (num_iff.2 rfl)
      · exact .capL (num_iff.2 rfl)
      · split_ifs at h with hp
        · rw [has_iff] at hp
          simp only [List.mem_cons, Prod.mk.injEq, List.not_mem_nil, or_false] at h
          obtain ⟨rfl, rfl⟩ := h
          exact .capCount hp (either_iff.2 rfl)
        · cases h
      · split_ifs at h with hp
        · rw [has_iff] at hp
          simp only [List.mem_cons, Prod.mk.injEq, List.not_mem_nil, or_false] at h
          rcases h with ⟨rfl, rfl⟩ | ⟨rfl, rfl⟩
          · exact .mimArea hp (area_iff.2 rfl)
          · exact .mimPerimeter hp (perimeter_iff.2 rfl)
        · cases h
      · split_ifs at h with hp
        · rw [has_iff] at hp
          simp only [List.mem_cons, Prod.mk.injEq, List.not_mem_nil, or_false] at h
          obtain ⟨rfl, rfl⟩ := h
          exact .feed hp (num_iff.2 rfl)
        · cases h
    | R =>
      simp only [mapParams, resistorParams, area_scale, length_scale] at h
      split_ifs at h with hp hq
      · rw [has_iff] at hp
        simp only [List.mem_cons, Prod.mk.injEq, List.not_mem_nil, or_false] at h
        rcases h with ⟨rfl, rfl⟩ | ⟨rfl, rfl⟩
        · exact .tapArea hp (area_iff.2 rfl)
        · exact .tapPerimeter hp (perimeter_iff'.2 rfl)
      · rw [isRes_iff] at hq
        simp only [List.mem_cons, Prod.mk.injEq, List.not_mem_nil, or_false] at h
        rcases h with ⟨rfl, rfl⟩ | ⟨rfl, rfl⟩ | ⟨rfl, rfl⟩ | ⟨rfl, rfl⟩ | ⟨rfl, rfl⟩
        · exact .polyW hq (num_iff.2 rfl)
        · exact .polyL hq (num_iff.2 rfl)
        · exact .polySpace hq (num_iff.2 rfl)
        · exact .polyBends hq (num_iff.2 rfl)
        · exact .polyCount hq (num_iff.2 rfl)
      · rw [isRes_iff] at hq
        rw [has_iff] at hp
        simp only [List.mem_cons, Prod.mk.injEq, List.not_mem_nil, or_false] at h
        rcases h with ⟨rfl, rfl⟩ | ⟨rfl, rfl⟩ | ⟨rfl, rfl⟩
        · exact .resW hq hp (either_iff.2 rfl) (num_iff.2 rfl)
        · exact .resL hq hp (either_iff.2 rfl) (num_iff.2 rfl)
        · exact .resR hq hp (num_iff.2 rfl) (num_iff.2 rfl) (num_iff.2 rfl)
    | L =>
      simp only [mapParams, inductorParams, length_scale, List.mem_cons, Prod.mk.injEq, List.not_mem_nil, or_false] at h
      rcases h with ⟨rfl, rfl⟩ | ⟨rfl, rfl⟩ | ⟨rfl, rfl⟩ | ⟨rfl, rfl⟩
      · exact .indW (num_iff.2 rfl)
      · exact .indS (num_iff.2 rfl)
      · exact .indD (num_iff.2 rfl)
      · exact .indTurns (num_iff.2 rfl)
  · intro h
    have not_has {x : String} (hx : ¬ Has m x) : has m x = false := has_false.2 hx
    cases h <;>
    · simp only [num_iff, area_iff, perimeter_iff, perimeter_iff', either_iff, ← has_iff, ← isRes_iff, ← special_iff,
        Bool.not_eq_true] at *
      simp_all [mapParams, mosParams, bjtParams, diodeParams, capacitorParams, resistorParams, inductorParams, area_scale,
        length_scale]

/-! ### C132 -/

/-- **C132.** The devices of a schematic have exactly the values of their elements, in micrometres and square micrometres. -/
theorem values_read (es : List Element) (hv : ∀ e ∈ es, Valid e)
    (same : ∀ e ∈ es, ∀ e' ∈ es, e.model = e'.model → e.ele = e'.ele ∧ e.nets.length = e'.nets.length) :
    ∃ cs ds, readAll [] es = .ok (cs, ds) ∧ List.Forall₂ (fun e d => d.name = e.name ∧
      ∀ k v, (k, v) ∈ d.params ↔ Value e.params e.model e.ele k v) es ds := by
  obtain ⟨cs, ds, h, hf⟩ := readAll_ok same es [] (fun _ h => absurd h List.not_mem_nil) fun e he => ⟨he, hv e he⟩
  refine ⟨cs, ds, h, ?_⟩
  rw [List.forall₂_iff_get] at hf ⊢
  refine ⟨hf.1, fun i h1 h2 => ?_⟩
  obtain ⟨hr, hp⟩ := hf.2 i h1 h2
  refine ⟨hr.1, fun k v => ?_⟩
  rw [hp]
  refine mapParams_iff ?_ k v
  obtain ⟨pins, hpins, _⟩ := hv _ (List.get_mem es ⟨i, h1⟩)
  intro he
  generalize (es.get ⟨i, h1⟩).ele = ele at *
  generalize (es.get ⟨i, h1⟩).model = m at *
  subst he
  rintro ⟨q1, q2⟩
  cases hpins with
  | polyRes _ h => exact h q2
  | tap h _ => exact h q1
  | res h _ => exact h q1
  | resBulk h _ => exact h q1

/-- An element states a value at most once. -/
theorem value_unique {e : Ele} {k : String} {v v' : ℚ} (hr : e = .R → ¬ (PolyRes m ∧ Has m "tap"))
    (h : Value p m e k v) (h' : Value p m e k v') : v = v' := by
  rw [← mapParams_iff hr] at h h'
  cases e <;> simp only [mapParams, mosParams, bjtParams, diodeParams, capacitorParams, resistorParams, inductorParams] at h h' <;>
    (try split_ifs at h h') <;> simp at h h' <;> aesop

/-- C132: a MIM capacitor of 10 µm by 20 µm has 200 µm² and a perimeter of 60 µm. -/
theorem values_ex : let p : Params := fun x => if x = "W" then some (1 / 100000) else if x = "L" then some (1 / 50000) else none
    let m := "cap_cmim".toList
    Value p m .C "w" 10 ∧ Value p m .C "l" 20 ∧ Value p m .C "A" 200 ∧ Value p m .C "P" 60 ∧ Value p m .C "m" 1 := by
  intro p m
  have hr : Ele.C = .R → ¬ (PolyRes m ∧ Has m "tap") := nofun
  simp only [← mapParams_iff hr, mapParams, capacitorParams]
  have h1 : has m "cap_cmim" = true := by decide
  have h2 : has m "mim" = true := by decide
  simp only [h1, h2, if_true]
  simp [orElse, areaOf, perimeterOf, p]
  norm_num

end Verif.Decks
