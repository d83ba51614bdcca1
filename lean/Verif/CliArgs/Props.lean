import Verif.CliArgs.Model
import Verif.Common.Stem

/-!
# Command line checks (C37)
-/

namespace Verif.CliArgs

/-! ### Specification -/

/-- An optional text that is given and not empty. -/
def Given (o : Option Str) (s : Str) : Prop := o = some s ∧ s ≠ []

/-- The cell of a layout file that is to be extracted: the one asked for, or the only top cell. -/
def CellOf (w : World) (a : Args) (g c : Str) : Prop :=
  (Given a.cell c ∧ c ∈ w.cells g) ∨ ((∀ s, ¬Given a.cell s) ∧ w.tops g = [c])

/-- What a user has to give. -/
structure Acceptable (w : World) (a : Args) : Prop where
  klayout : w.isFile a.exe = true ∨ w.which a.exe = true
  tech : w.isFile a.tech = true
  script : w.isFile a.script = true
  engine : a.runMagic = true ∨ a.runFastcap = true ∨ a.runFastercap = true ∨ a.run25d = true
  magic : a.runMagic = true → a.gds ≠ none
  input : a.gds ≠ none ∨ a.lvsdb ≠ none
  layout : ∀ g, a.gds = some g → w.isFile g = true ∧ ∃ c, CellOf w a g c
  database : a.gds = none → ∀ l, a.lvsdb = some l → w.isFile l = true ∧ w.lvsTop l ≠ none
  schematic : ∀ s, a.gds ≠ none → Given a.schematic s → w.isFile s = true
  level : a.logLevel.map Char.toUpper ∈ ["ALL".toList, "DEBUG".toList, "SUBPROCESS".toList, "VERBOSE".toList, "INFO".toList,
    "WARNING".toList, "ERROR".toList, "CRITICAL".toList, "DEFAULT".toList]
  filter : ∃ p, Options.parse a.diel = .ok p

/-- A layout file contains its top cells. -/
def World.Sane (w : World) : Prop := ∀ g, ∀ c ∈ w.tops g, c ∈ w.cells g

/-! ### Lemmas -/

theorem truthy_some {o : Option Str} {s : Str} : truthy o = some s ↔ Given o s := by
  unfold Given
  match o with
  | none => simp [truthy]
  | some [] => simp only [truthy, reduceCtorEq, Option.some.injEq, false_iff]; rintro ⟨rfl, h⟩; exact h rfl
  | some (c :: t) =>
    simp only [truthy, Option.some.injEq]
    exact ⟨fun h => ⟨h, by rw [← h]; simp⟩, fun h => h.1⟩

theorem truthy_none {o : Option Str} : truthy o = none ↔ ∀ s, ¬Given o s := by
  rw [← not_iff_not]
  push Not
  rw [← Option.ne_none_iff_exists'.trans (exists_congr fun s => truthy_some)]

theorem toolErrors_nil (w : World) (a : Args) : toolErrors w a = [] ↔
    (w.isFile a.exe = true ∨ w.which a.exe = true) ∧ w.isFile a.tech = true ∧ w.isFile a.script = true := by
  unfold toolErrors
  cases w.isFile a.exe <;> cases w.which a.exe <;> cases w.isFile a.tech <;> cases w.isFile a.script <;> simp

theorem engineErrors_nil (a : Args) : engineErrors a = [] ↔
    (a.runMagic = true ∨ a.runFastcap = true ∨ a.runFastercap = true ∨ a.run25d = true) ∧ (a.runMagic = true → a.gds ≠ none) ∧
      (a.gds ≠ none ∨ a.lvsdb ≠ none) := by
  unfold engineErrors
  cases a.runMagic <;> cases a.runFastcap <;> cases a.runFastercap <;> cases a.run25d <;> cases a.gds <;> cases a.lvsdb <;> simp

theorem logErrors_nil (a : Args) : logErrors a = [] ↔ a.logLevel.map Char.toUpper ∈ ["ALL".toList, "DEBUG".toList,
    "SUBPROCESS".toList, "VERBOSE".toList, "INFO".toList, "WARNING".toList, "ERROR".toList, "CRITICAL".toList, "DEFAULT".toList] := by
  unfold logErrors logLevels
  by_cases h : a.logLevel.map Char.toUpper ∈ ["ALL".toList, "DEBUG".toList, "SUBPROCESS".toList, "VERBOSE".toList, "INFO".toList,
    "WARNING".toList, "ERROR".toList, "CRITICAL".toList, "DEFAULT".toList]
  · rw [if_pos h]; exact ⟨fun _ => h, fun _ => rfl⟩
  · rw [if_neg h]; exact ⟨fun hh => (by cases hh), fun hh => absurd hh h⟩

/-- The input part for a layout file. -/
theorem input_gds {w : World} (hs : w.Sane) {a : Args} {g : Str} (hg : Given a.gds g) :
    (w.isFile g = false ∧ input w a = some ([.noGdsFile], some .gds, none, none)) ∨
    (w.isFile g = true ∧ (∃ c, Given a.cell c ∧ c ∉ w.cells g) ∧ input w a = none) ∨
    (w.isFile g = true ∧ (∀ c, ¬CellOf w a g c) ∧ (∀ c, ¬Given a.cell c) ∧
      input w a = some ([.noTopCell], some .gds, some "TOP".toList, some (g, false))) ∨
    (w.isFile g = true ∧ ∃ c b, CellOf w a g c ∧ (b = false ↔ w.tops g = [c]) ∧
      input w a = some ([], some .gds, some c, some (g, b))) := by
  unfold input
  rw [truthy_some.2 hg]
  dsimp only
  cases hf : w.isFile g with
  | false => exact Or.inl ⟨rfl, by simp⟩
  | true =>
    refine Or.inr ?_
    simp only [if_true, true_and]
    cases hc : truthy a.cell with
    | some c =>
      have hgc := truthy_some.1 hc
      dsimp only
      by_cases ht : w.tops g = [c]
      · have hin : c ∈ w.cells g := hs g c (by rw [ht]; simp)
        rw [if_pos ht, if_pos hin]
        exact Or.inr (Or.inr ⟨c, false, Or.inl ⟨hgc, hin⟩, by simp [ht], rfl⟩)
      · rw [if_neg ht]
        by_cases hin : c ∈ w.cells g
        · rw [if_pos hin]
          exact Or.inr (Or.inr ⟨c, true, Or.inl ⟨hgc, hin⟩, by simp [ht], rfl⟩)
        · rw [if_neg hin]
          exact Or.inl ⟨⟨c, hgc, hin⟩, rfl⟩
    | none =>
      have hgc := truthy_none.1 hc
      dsimp only
      split
      · next t ht => exact Or.inr (Or.inr ⟨t, false, Or.inr ⟨hgc, ht⟩, by simp [ht], rfl⟩)
      · next hne =>
        refine Or.inr (Or.inl ⟨?_, hgc, rfl⟩)
        rintro c (⟨h, -⟩ | ⟨-, h⟩)
        · exact hgc c h
        · exact hne c h

/-- The input part without a layout file. -/
theorem input_lvsdb {w : World} {a : Args} (hg : ∀ g, ¬Given a.gds g) : input w a = match a.lvsdb with
    | some l => if w.isFile l then (w.lvsTop l).map fun t => ([], some .lvsdb, some t, none)
      else some ([.noLvsdbFile], some .lvsdb, none, none)
    | none => some ([], none, none, none) := by
  unfold input
  rw [truthy_none.2 hg]
  rfl

theorem validate_accepted {w : World} {a : Args} {c : Config} : validate w a = .accepted c ↔
    ∃ mode cell gds, input w a = some ([], mode, cell, gds) ∧ toolErrors w a = [] ∧ engineErrors a = [] ∧
      (schematic w a mode cell).1 = [] ∧ logErrors a = [] ∧ (∃ p, Options.parse a.diel = .ok p) ∧
      c = ⟨mode, cell, gds, outPath a mode cell, (schematic w a mode cell).2,
        a.cacheDir.getD (a.outDir ++ "/.kpex_cache".toList), (Options.parse a.diel).toOption⟩ := by
  unfold validate
  cases hi : input w a with
  | none => simp
  | some v =>
    obtain ⟨es, mode, cell, gds⟩ := v
    dsimp only
    cases hp : Options.parse a.diel with
    | error e => simp
    | ok p =>
    dsimp only
    by_cases h : toolErrors w a ++ engineErrors a ++ es ++ (schematic w a mode cell).1 ++ logErrors a = []
    · rw [if_pos h]
      simp only [List.append_eq_nil_iff] at h
      obtain ⟨⟨⟨⟨h1, h2⟩, h3⟩, h4⟩, h5⟩ := h
      constructor
      · intro hc
        injection hc with hc
        exact ⟨mode, cell, gds, by rw [h3], h1, h2, h4, h5, ⟨p, rfl⟩, hc.symm⟩
      · rintro ⟨m', c', g', he, -, -, -, -, -, hc⟩
        injection he with he
        rw [Prod.mk.injEq, Prod.mk.injEq, Prod.mk.injEq] at he
        obtain ⟨-, rfl, rfl, rfl⟩ := he
        rw [hc]
        rfl
    · rw [if_neg h]
      constructor
      · intro hc; cases hc
      · rintro ⟨m', c', g', he, h1, h2, h4, h5, -, -⟩
        injection he with he
        rw [Prod.mk.injEq, Prod.mk.injEq, Prod.mk.injEq] at he
        obtain ⟨rfl, rfl, rfl, rfl⟩ := he
        exact absurd (by rw [h1, h2, h4, h5]; rfl) h

theorem schematic_nil {w : World} {a : Args} {c : Str} : (schematic w a (some .gds) (some c)).1 = [] ↔
    ∀ s, Given a.schematic s → w.isFile s = true := by
  unfold schematic
  dsimp only
  cases hs : truthy a.schematic with
  | none =>
    have := truthy_none.1 hs
    exact ⟨fun _ s h => absurd h (this s), fun _ => rfl⟩
  | some s =>
    have h1 := truthy_some.1 hs
    dsimp only
    constructor
    · intro h s' hs'
      have : s' = s := by have := hs'.1.symm.trans h1.1; injection this
      rw [this]
      by_contra hf
      rw [if_neg hf] at h
      cases h
    · intro h; rw [if_pos (h s h1)]

theorem mem_tool (w : World) (a : Args) (e : Err) : e ∈ toolErrors w a ↔
    (e = .noKlayout ∧ ¬(w.isFile a.exe = true ∨ w.which a.exe = true)) ∨ (e = .noTech ∧ w.isFile a.tech = false) ∨
      (e = .noScript ∧ w.isFile a.script = false) := by
  unfold toolErrors
  cases w.isFile a.exe <;> cases w.which a.exe <;> cases w.isFile a.tech <;> cases w.isFile a.script <;> simp

theorem mem_engine (a : Args) (e : Err) : e ∈ engineErrors a ↔
    (e = .magicNeedsGds ∧ a.runMagic = true ∧ a.gds = none) ∨
    (e = .noEngine ∧ a.runMagic = false ∧ a.runFastcap = false ∧ a.runFastercap = false ∧ a.run25d = false) ∨
    (e = .noInput ∧ a.runMagic = false ∧ (a.runFastcap = true ∨ a.runFastercap = true ∨ a.run25d = true) ∧ a.gds = none ∧
      a.lvsdb = none) := by
  unfold engineErrors
  cases a.runMagic <;> cases a.runFastcap <;> cases a.runFastercap <;> cases a.run25d <;> cases a.gds <;> cases a.lvsdb <;> simp

theorem mem_log (a : Args) (e : Err) : e ∈ logErrors a ↔ e = .badLogLevel ∧ a.logLevel.map Char.toUpper ∉ ["ALL".toList,
    "DEBUG".toList, "SUBPROCESS".toList, "VERBOSE".toList, "INFO".toList, "WARNING".toList, "ERROR".toList, "CRITICAL".toList,
    "DEFAULT".toList] := by
  rw [← logErrors_nil]
  unfold logErrors
  by_cases h : a.logLevel.map Char.toUpper ∈ logLevels
  · rw [if_pos h]; simp
  · rw [if_neg h]; simp

theorem mem_schematic (w : World) (a : Args) (mode : Option Mode) (cell : Option Str) (e : Err) :
    e ∈ (schematic w a mode cell).1 ↔ e = .noSchematic ∧ mode = some .gds ∧ cell ≠ none ∧
      ∃ s, Given a.schematic s ∧ w.isFile s = false := by
  unfold schematic
  match mode, cell with
  | none, none => simp
  | none, some c => simp
  | some .lvsdb, none => simp
  | some .lvsdb, some c => simp
  | some .gds, none => simp
  | some .gds, some c =>
    dsimp only
    cases hs : truthy a.schematic with
    | none =>
      have := truthy_none.1 hs
      dsimp only
      refine ⟨fun h => (by cases h), ?_⟩
      rintro ⟨-, -, -, s, h, -⟩
      exact absurd h (this s)
    | some s =>
      have h1 := truthy_some.1 hs
      dsimp only
      constructor
      · intro h
        cases hf : w.isFile s with
        | true => rw [hf] at h; cases h
        | false =>
          rw [hf] at h
          exact ⟨by simpa using h, rfl, by simp, s, h1, hf⟩
      · rintro ⟨rfl, -, -, s', hs', hf⟩
        have : s' = s := by have := hs'.1.symm.trans h1.1; injection this
        rw [← this, hf]
        simp

theorem mem_input {w : World} (hs : w.Sane) {a : Args} {es : List Err} {mode : Option Mode} {cell : Option Str}
    {gds : Option (Str × Bool)} (h : input w a = some (es, mode, cell, gds)) :
    (∀ e, e ∈ es ↔ (e = .noGdsFile ∧ ∃ g, Given a.gds g ∧ w.isFile g = false) ∨
      (e = .noTopCell ∧ ∃ g, Given a.gds g ∧ w.isFile g = true ∧ (∀ c, ¬Given a.cell c) ∧ ∀ c, w.tops g ≠ [c]) ∨
      (e = .noLvsdbFile ∧ (∀ g, ¬Given a.gds g) ∧ ∃ l, a.lvsdb = some l ∧ w.isFile l = false)) ∧
    ((mode = some .gds ∧ cell ≠ none) ↔ ∃ g, Given a.gds g ∧ w.isFile g = true) := by
  by_cases hgi : ∃ g, Given a.gds g
  · obtain ⟨g, hg⟩ := hgi
    have hu : ∀ g', Given a.gds g' ↔ g' = g :=
      fun g' => ⟨fun h => by have := h.1.symm.trans hg.1; injection this, fun h => h ▸ hg⟩
    simp only [hu, exists_eq_left]
    rcases input_gds hs hg with ⟨hf, hi⟩ | ⟨hf, ⟨c, hc⟩, hi⟩ | ⟨hf, hno', hno, hi⟩ | ⟨hf, c, b, hc, hb, hi⟩ <;> rw [hi] at h
    · injection h with h
      rw [Prod.mk.injEq, Prod.mk.injEq, Prod.mk.injEq] at h
      obtain ⟨rfl, rfl, rfl, rfl⟩ := h
      simp [hf]
    · cases h
    · injection h with h
      rw [Prod.mk.injEq, Prod.mk.injEq, Prod.mk.injEq] at h
      obtain ⟨rfl, rfl, rfl, rfl⟩ := h
      have : ∀ c, w.tops g ≠ [c] := fun c hc => hno' c (Or.inr ⟨hno, hc⟩)
      simp [hf, hno, this]
    · injection h with h
      rw [Prod.mk.injEq, Prod.mk.injEq, Prod.mk.injEq] at h
      obtain ⟨rfl, rfl, rfl, rfl⟩ := h
      refine ⟨fun e => ⟨fun h => (by cases h), ?_⟩, by simp [hf]⟩
      rintro (⟨-, h⟩ | ⟨-, -, h, h'⟩ | ⟨-, h, -⟩)
      · rw [hf] at h; cases h
      · rcases hc with ⟨hc, -⟩ | ⟨-, hc⟩
        · exact absurd hc (h c)
        · exact absurd hc (h' c)
      · exact absurd rfl (h g)
  · push Not at hgi
    rw [input_lvsdb hgi] at h
    simp only [hgi, not_false_iff, implies_true, true_and]
    cases hl : a.lvsdb with
    | none =>
      rw [hl] at h
      injection h with h
      rw [Prod.mk.injEq, Prod.mk.injEq, Prod.mk.injEq] at h
      obtain ⟨rfl, rfl, rfl, rfl⟩ := h
      simp
    | some l =>
      rw [hl] at h
      dsimp only at h
      cases hf : w.isFile l with
      | false =>
        rw [hf, if_neg (by simp)] at h
        injection h with h
        rw [Prod.mk.injEq, Prod.mk.injEq, Prod.mk.injEq] at h
        obtain ⟨rfl, rfl, rfl, rfl⟩ := h
        simp [hf]
      | true =>
        rw [hf, if_pos rfl] at h
        cases ht : w.lvsTop l with
        | none => rw [ht] at h; cases h
        | some t =>
          rw [ht] at h
          injection h with h
          rw [Prod.mk.injEq, Prod.mk.injEq, Prod.mk.injEq] at h
          obtain ⟨rfl, rfl, rfl, rfl⟩ := h
          simp [hf]

/-! ### Theorems -/

/-- **C37 (partial).** For all files and all arguments, the arguments are accepted if and only if: KLayout, the technology file
and the LVS script are found; at least one engine is requested; there is a layout or an LVS database, and a layout if MAGIC is
requested; the layout is a file which has the cell asked for, or else a single top cell; without a layout, the database is a file
with a top cell; the schematic given with a layout is a file; log level and filter can be parsed.

Missing from the full property: `--gds ""` (see `empty_gds`). -/
theorem accept_iff_partial (w : World) (hs : w.Sane) (a : Args) (hne : a.gds ≠ some []) :
    (∃ c, validate w a = .accepted c) ↔ Acceptable w a := by
  constructor
  · rintro ⟨c, h⟩
    obtain ⟨mode, cell, gds, hi, h1, h2, h4, h5, h6, -⟩ := validate_accepted.1 h
    obtain ⟨ht1, ht2, ht3⟩ := (toolErrors_nil w a).1 h1
    obtain ⟨he1, he2, he3⟩ := (engineErrors_nil a).1 h2
    have key : ∀ g, a.gds = some g → (w.isFile g = true ∧ ∃ c, CellOf w a g c) ∧ ∀ s, Given a.schematic s → w.isFile s = true := by
      intro g hg
      have hgi : Given a.gds g := ⟨hg, fun h => hne (by rw [hg, h])⟩
      rcases input_gds hs hgi with ⟨-, h⟩ | ⟨-, -, h⟩ | ⟨-, -, -, h⟩ | ⟨hf, c, b, hc, -, h⟩ <;> rw [hi] at h
      · simp at h
      · simp at h
      · simp at h
      · injection h with h
        rw [Prod.mk.injEq, Prod.mk.injEq, Prod.mk.injEq] at h
        obtain ⟨-, rfl, rfl, rfl⟩ := h
        exact ⟨⟨hf, c, hc⟩, schematic_nil.1 h4⟩
    refine ⟨ht1, ht2, ht3, he1, he2, he3, fun g hg => (key g hg).1, ?_, ?_, (logErrors_nil a).1 h5, h6⟩
    · intro hg l hl
      rw [input_lvsdb (fun g h => by rw [hg] at h; cases h.1), hl] at hi
      dsimp only at hi
      cases hf : w.isFile l with
      | false => rw [hf] at hi; simp at hi
      | true =>
        rw [hf, if_pos rfl] at hi
        refine ⟨rfl, fun hn => ?_⟩
        rw [hn] at hi
        cases hi
    · intro s hg hsc
      obtain ⟨g, hg⟩ := Option.ne_none_iff_exists'.1 hg
      exact (key g hg).2 s hsc
  · intro h
    have h1 := (toolErrors_nil w a).2 ⟨h.klayout, h.tech, h.script⟩
    have h2 := (engineErrors_nil a).2 ⟨h.engine, h.magic, h.input⟩
    have h5 := (logErrors_nil a).2 h.level
    have h6 := h.filter
    cases hg : a.gds with
    | some g =>
      have hgi : Given a.gds g := ⟨hg, fun h => hne (by rw [hg, h])⟩
      obtain ⟨hf, c, hc⟩ := h.layout g hg
      rcases input_gds hs hgi with ⟨hf', -⟩ | ⟨-, ⟨c', hc1, hc2⟩, -⟩ | ⟨-, hno, -, -⟩ | ⟨-, c', b, -, -, hi⟩
      · rw [hf] at hf'; cases hf'
      · rcases hc with ⟨hcg, hcin⟩ | ⟨hno, -⟩
        · have : c = c' := by have := hcg.1.symm.trans hc1.1; injection this
          exact absurd (this ▸ hcin) hc2
        · exact absurd hc1 (hno c')
      · exact absurd hc (hno c)
      · exact ⟨_, validate_accepted.2 ⟨_, _, _, hi, h1, h2,
          schematic_nil.2 (fun s => h.schematic s (by rw [hg]; simp)), h5, h6, rfl⟩⟩
    | none =>
      have hi := input_lvsdb (w := w) (a := a) (fun g h => by rw [hg] at h; cases h.1)
      obtain ⟨l, hl⟩ := Option.ne_none_iff_exists'.1 (h.input.resolve_left (fun hh => hh hg))
      obtain ⟨hf, ht⟩ := h.database hg l hl
      obtain ⟨t, ht⟩ := Option.ne_none_iff_exists'.1 ht
      rw [hl] at hi
      dsimp only at hi
      rw [if_pos hf, ht] at hi
      exact ⟨_, validate_accepted.2 ⟨_, _, _, hi, h1, h2, rfl, h5, h6, rfl⟩⟩

/-- **C37.** What an accepted command line with a layout works on: the cell is the one asked for or the single top cell, the
results go to a directory named after layout and cell, and the layout handed to LVS has the cell as its only top cell — either
the file given, or a file to which the cell is exported. -/
theorem accepted_layout (w : World) (hs : w.Sane) (a : Args) (c : Config) (h : validate w a = .accepted c) (g : Str)
    (hg : Given a.gds g) : ∃ cell st, StemOf g st ∧ CellOf w a g cell ∧ c.mode = some .gds ∧ c.cell = some cell ∧
      (c.gds = some (g, true) ∨ (c.gds = some (g, false) ∧ w.tops g = [cell])) ∧
      c.outPath = some (a.outDir ++ '/' :: (st ++ "__".toList ++ cell)) ∧
      (∀ s, Given a.schematic s → c.schematic = some s) := by
  obtain ⟨mode, cell, gds, hi, h1, h2, h4, h5, h6, rfl⟩ := validate_accepted.1 h
  rcases input_gds hs hg with ⟨-, h⟩ | ⟨-, -, h⟩ | ⟨-, -, -, h⟩ | ⟨hf, c, b, hc, hb, h⟩ <;> rw [hi] at h
  · simp at h
  · simp at h
  · simp at h
  · injection h with h
    rw [Prod.mk.injEq, Prod.mk.injEq, Prod.mk.injEq] at h
    obtain ⟨-, rfl, rfl, rfl⟩ := h
    refine ⟨c, stem g, stemOf_split g, hc, rfl, rfl, ?_, ?_, ?_⟩
    · cases b with
      | true => exact Or.inl rfl
      | false => exact Or.inr ⟨rfl, hb.1 rfl⟩
    · dsimp only [outPath]
      rw [hg.1]
      rfl
    · intro s hsg
      dsimp only [schematic]
      rw [truthy_some.2 hsg]

/-- **C37.** An accepted command line without a layout works on the top cell of the database. -/
theorem accepted_database (w : World) (a : Args) (c : Config) (h : validate w a = .accepted c) (l : Str)
    (hg : a.gds = none) (hl : a.lvsdb = some l) : ∃ cell st, StemOf l st ∧ w.lvsTop l = some cell ∧ c.mode = some .lvsdb ∧ c.cell = some cell ∧
      c.outPath = some (a.outDir ++ '/' :: (st ++ "__".toList ++ cell)) := by
  obtain ⟨mode, cell, gds, hi, h1, h2, h4, h5, h6, rfl⟩ := validate_accepted.1 h
  rw [input_lvsdb (fun g h => by rw [hg] at h; cases h.1), hl] at hi
  dsimp only at hi
  cases hf : w.isFile l with
  | false => rw [hf] at hi; simp at hi
  | true =>
    rw [hf, if_pos rfl] at hi
    cases ht : w.lvsTop l with
    | none => rw [ht] at hi; cases hi
    | some t =>
      rw [ht] at hi
      injection hi with hi
      rw [Prod.mk.injEq, Prod.mk.injEq, Prod.mk.injEq] at hi
      obtain ⟨-, rfl, rfl, rfl⟩ := hi
      refine ⟨t, stem l, stemOf_split l, rfl, rfl, rfl, ?_⟩
      dsimp only [outPath]
      rw [hl]
      rfl

/-- **C37.** The program crashes in the check (instead of reporting errors) if and only if the layout can be read and does not
have the cell asked for, or there is only a database and that has no top cell, or the filter cannot be parsed. -/
theorem crash_iff (w : World) (hs : w.Sane) (a : Args) : validate w a = .crash ↔
    (∃ g c, Given a.gds g ∧ w.isFile g = true ∧ Given a.cell c ∧ c ∉ w.cells g) ∨
    ((∀ g, ¬Given a.gds g) ∧ ∃ l, a.lvsdb = some l ∧ w.isFile l = true ∧ w.lvsTop l = none) ∨
    ∀ p, Options.parse a.diel ≠ .ok p := by
  have hv : validate w a = .crash ↔ input w a = none ∨ ∀ p, Options.parse a.diel ≠ .ok p := by
    unfold validate
    cases input w a with
    | none => simp
    | some v =>
      obtain ⟨es, mode, cell, gds⟩ := v
      dsimp only
      cases Options.parse a.diel with
      | error e => simp
      | ok p => dsimp only; split <;> simp
  rw [hv, ← or_assoc]
  refine or_congr ?_ Iff.rfl
  by_cases hgi : ∃ g, Given a.gds g
  · obtain ⟨g, hg⟩ := hgi
    have hu : ∀ g', Given a.gds g' → g' = g := fun g' h => by have := h.1.symm.trans hg.1; injection this
    rcases input_gds hs hg with ⟨hf, h⟩ | ⟨hf, ⟨c, hc⟩, h⟩ | ⟨hf, -, hno, h⟩ | ⟨hf, c, b, hc, hb, h⟩ <;> rw [h]
    · refine ⟨fun hh => (by cases hh), ?_⟩
      rintro (⟨g', c, h1, h2, -⟩ | ⟨h1, -⟩)
      · rw [hu g' h1, hf] at h2; cases h2
      · exact absurd hg (h1 g)
    · exact ⟨fun _ => Or.inl ⟨g, c, hg, hf, hc⟩, fun _ => rfl⟩
    · refine ⟨fun hh => (by cases hh), ?_⟩
      rintro (⟨g', c, h1, h2, h3, -⟩ | ⟨h1, -⟩)
      · exact absurd h3 (hno c)
      · exact absurd hg (h1 g)
    · refine ⟨fun hh => (by cases hh), ?_⟩
      rintro (⟨g', c', h1, h2, h3, h4⟩ | ⟨h1, -⟩)
      · rw [hu g' h1] at h4
        rcases hc with ⟨hc1, hc2⟩ | ⟨hno, -⟩
        · have : c = c' := by have := hc1.1.symm.trans h3.1; injection this
          exact absurd (this ▸ hc2) h4
        · exact absurd h3 (hno c')
      · exact absurd hg (h1 g)
  · push Not at hgi
    rw [input_lvsdb hgi]
    cases hl : a.lvsdb with
    | none =>
      dsimp only
      refine ⟨fun hh => (by cases hh), ?_⟩
      rintro (⟨g, c, h1, -⟩ | ⟨-, l, h, -⟩)
      · exact absurd h1 (hgi g)
      · cases h
    | some l =>
      dsimp only
      cases hf : w.isFile l with
      | false =>
        rw [if_neg (by simp)]
        refine ⟨fun hh => (by cases hh), ?_⟩
        rintro (⟨g, c, h1, -⟩ | ⟨-, l', h, h2, -⟩)
        · exact absurd h1 (hgi g)
        · injection h with h; rw [← h, hf] at h2; cases h2
      | true =>
        rw [if_pos rfl]
        constructor
        · intro h
          refine Or.inr ⟨hgi, l, rfl, hf, ?_⟩
          cases ht : w.lvsTop l with
          | none => rfl
          | some t => rw [ht] at h; cases h
        · rintro (⟨g, c, h1, -⟩ | ⟨-, l', h, -, h3⟩)
          · exact absurd h1 (hgi g)
          · injection h with h; rw [← h] at h3; rw [h3]; rfl

/-- **C37.** What is reported: each error exactly if its condition holds. -/
theorem errors_exact (w : World) (hs : w.Sane) (a : Args) (es : List Err) (h : validate w a = .rejected es) :
    (Err.noKlayout ∈ es ↔ ¬(w.isFile a.exe = true ∨ w.which a.exe = true)) ∧
    (Err.noTech ∈ es ↔ w.isFile a.tech = false) ∧
    (Err.noScript ∈ es ↔ w.isFile a.script = false) ∧
    (Err.magicNeedsGds ∈ es ↔ a.runMagic = true ∧ a.gds = none) ∧
    (Err.noEngine ∈ es ↔ a.runMagic = false ∧ a.runFastcap = false ∧ a.runFastercap = false ∧ a.run25d = false) ∧
    (Err.noInput ∈ es ↔ a.runMagic = false ∧ (a.runFastcap = true ∨ a.runFastercap = true ∨ a.run25d = true) ∧ a.gds = none ∧
      a.lvsdb = none) ∧
    (Err.noGdsFile ∈ es ↔ ∃ g, Given a.gds g ∧ w.isFile g = false) ∧
    (Err.noTopCell ∈ es ↔ ∃ g, Given a.gds g ∧ w.isFile g = true ∧ (∀ c, ¬Given a.cell c) ∧ ∀ c, w.tops g ≠ [c]) ∧
    (Err.noLvsdbFile ∈ es ↔ (∀ g, ¬Given a.gds g) ∧ ∃ l, a.lvsdb = some l ∧ w.isFile l = false) ∧
    (Err.noSchematic ∈ es ↔ ∃ g s, Given a.gds g ∧ w.isFile g = true ∧ Given a.schematic s ∧ w.isFile s = false) ∧
    (Err.badLogLevel ∈ es ↔ a.logLevel.map Char.toUpper ∉ ["ALL".toList, "DEBUG".toList, "SUBPROCESS".toList, "VERBOSE".toList,
      "INFO".toList, "WARNING".toList, "ERROR".toList, "CRITICAL".toList, "DEFAULT".toList]) := by
  unfold validate at h
  cases hi : input w a with
  | none => rw [hi] at h; cases h
  | some v =>
    obtain ⟨es', mode, cell, gds⟩ := v
    rw [hi] at h
    dsimp only at h
    cases hp : Options.parse a.diel with
    | error e => rw [hp] at h; cases h
    | ok p =>
    rw [hp] at h
    dsimp only at h
    split at h
    · cases h
    · injection h with h
      obtain ⟨h1, h2⟩ := mem_input hs hi
      have hsch : (mode = some .gds ∧ cell ≠ none ∧ ∃ s, Given a.schematic s ∧ w.isFile s = false) ↔
          ∃ g s, Given a.gds g ∧ w.isFile g = true ∧ Given a.schematic s ∧ w.isFile s = false := by
        rw [← and_assoc, h2]
        constructor
        · rintro ⟨⟨g, hg, hf⟩, s, hh⟩; exact ⟨g, s, hg, hf, hh⟩
        · rintro ⟨g, s, hg, hf, hh⟩; exact ⟨⟨g, hg, hf⟩, s, hh⟩
      have hm : ∀ e, e ∈ es ↔ ((((e ∈ toolErrors w a ∨ e ∈ engineErrors a) ∨ e ∈ es') ∨ e ∈ (schematic w a mode cell).1) ∨
          e ∈ logErrors a) := by
        intro e; rw [← h]; simp only [List.mem_append]
      simp only [hm, h1, mem_tool, mem_engine, mem_log, mem_schematic, hsch, reduceCtorEq, false_and, true_and,
        false_or, or_false]

/-- **C37 is false** for an empty path: `--gds ""` alone is accepted, but there is no cell and no output directory (the program
fails later with an `AttributeError`). -/
theorem empty_gds (w : World) (a : Args) (hg : a.gds = some []) (hl : a.lvsdb = none)
    (ht : (w.isFile a.exe = true ∨ w.which a.exe = true) ∧ w.isFile a.tech = true ∧ w.isFile a.script = true)
    (he : a.runMagic = true ∨ a.runFastcap = true ∨ a.runFastercap = true ∨ a.run25d = true)
    (hlog : a.logLevel.map Char.toUpper ∈ ["ALL".toList, "DEBUG".toList, "SUBPROCESS".toList, "VERBOSE".toList,
      "INFO".toList, "WARNING".toList, "ERROR".toList, "CRITICAL".toList, "DEFAULT".toList])
    (hf : ∃ p, Options.parse a.diel = .ok p) :
    ∃ c, validate w a = .accepted c ∧ c.mode = none ∧ c.cell = none ∧ c.outPath = none := by
  have hno : ∀ g, ¬Given a.gds g := by
    rintro g ⟨h, hne⟩
    rw [hg] at h
    injection h with h
    exact hne h.symm
  have hi := input_lvsdb (w := w) hno
  rw [hl] at hi
  exact ⟨_, validate_accepted.2 ⟨_, _, _, hi, (toolErrors_nil w a).2 ht,
    (engineErrors_nil a).2 ⟨he, fun _ => by rw [hg]; simp, Or.inl (by rw [hg]; simp)⟩, rfl, (logErrors_nil a).2 hlog,
    hf, rfl⟩, rfl, rfl, rfl⟩

/-- **C37.** The engines that run are exactly those requested, each once, MAGIC first, FasterCap and FastCap on input that is built
once, after the LVS database was made; with MAGIC alone no LVS takes place; without extracted layers nothing but MAGIC runs. -/
theorem engines_exact (a : Args) :
    (mainSteps a true).Sublist [.magic, .lvsdb, .solverInput, .fastercap, .fastcap, .k25d] ∧
    (∀ layers, .magic ∈ mainSteps a layers ↔ a.runMagic = true) ∧
    (.fastercap ∈ mainSteps a true ↔ a.runFastercap = true) ∧
    (.fastcap ∈ mainSteps a true ↔ a.runFastcap = true) ∧
    (.k25d ∈ mainSteps a true ↔ a.run25d = true) ∧
    (.solverInput ∈ mainSteps a true ↔ a.runFastercap = true ∨ a.runFastcap = true) ∧
    (∀ layers, .lvsdb ∈ mainSteps a layers ↔ a.runFastercap = true ∨ a.runFastcap = true ∨ a.run25d = true) ∧
    (.noLayers ∈ mainSteps a false ↔ .lvsdb ∈ mainSteps a false) ∧
    (∀ s ∈ mainSteps a false, s = .magic ∨ s = .lvsdb ∨ s = .noLayers) := by
  unfold mainSteps
  cases a.runMagic <;> cases a.runFastcap <;> cases a.runFastercap <;> cases a.run25d <;> decide

/-! ### Non-vacuity -/

/-- A file system for the examples. -/
def exWorld : World where
  isFile p := p ∈ ["klayout".toList, "tech.json".toList, "lvs.rb".toList, "a/chip.gds.gz".toList]
  which _ := false
  cells p := if p = "a/chip.gds.gz".toList then ["chip".toList, "inv".toList] else []
  tops p := if p = "a/chip.gds.gz".toList then ["chip".toList] else []
  lvsTop _ := none

def exArgs : Args := ⟨"klayout".toList, "tech.json".toList, "lvs.rb".toList, true, false, false, true, some "a/chip.gds.gz".toList,
  none, some "inv".toList, none, "verbose".toList, "all,-nild5".toList, "out".toList, none⟩

theorem exWorld_sane : exWorld.Sane := by
  intro g c hc
  unfold exWorld at hc ⊢
  dsimp only at hc ⊢
  split at hc
  · next h => rw [if_pos h]; simp at hc; simp [hc]
  · simp at hc

example : exWorld.Sane ∧ exArgs.gds ≠ some [] ∧ ∃ c, validate exWorld exArgs = .accepted c ∧ c.cell = some "inv".toList ∧
    c.gds = some ("a/chip.gds.gz".toList, true) ∧ c.outPath = some "out/chip__inv".toList :=
  ⟨exWorld_sane, by decide, _, rfl, by decide +kernel, by decide +kernel, by decide +kernel⟩

example : validate exWorld { exArgs with cell := some "buf".toList } = .crash := by decide +kernel

example : validate exWorld { exArgs with diel := "all,none".toList } = .crash := by decide +kernel

example : validate exWorld { exArgs with gds := none, logLevel := "loud".toList } = .rejected [.magicNeedsGds, .badLogLevel] := by
  decide +kernel

example : ∃ c, validate exWorld { exArgs with gds := some [] } = .accepted c := ⟨_, rfl⟩

example : mainSteps exArgs true = [.magic, .lvsdb, .k25d] := rfl

end Verif.CliArgs
