import Verif.LayerMap.Lemmas

/-!
# Converting layouts between PDKs (C49)
-/

namespace Verif.LayerMap

/-! ### Specification -/

/-- The name of a layer: `layer.purpose`, or `layer` without purpose. -/
def HasName (l : Layer) (n : Str) : Prop :=
  ((l.purpose = none ∨ l.purpose = some []) ∧ n = l.layer) ∨ ∃ p, p ≠ [] ∧ l.purpose = some p ∧ n = l.layer ++ '.' :: p

/-- The layer of that name in a technology (the last one, if there are several). -/
def Named (ls : List Layer) (n : Str) (l : Layer) : Prop :=
  ∃ pre post, ls = pre ++ l :: post ∧ HasName l n ∧ ∀ x ∈ post, ¬HasName x n

/-- The table gives the targets `ts` for the layer with the numbers `g`. -/
def Row (table : List (Str × List Str)) (src dest : List Layer) (g : Pair) (ts : List Pair) : Prop :=
  ∃ row ∈ table, ∃ l, Named src row.1 l ∧ l.pair = g ∧ List.Forall₂ (fun n t => ∃ d, Named dest n d ∧ d.pair = t) row.2 ts

/-- The targets of a layer: those of the table, or a dummy layer. -/
def Target (table : List (Str × List Str)) (src dest : List Layer) (g : Pair) (ts : List Pair) : Prop :=
  Row table src dest g ts ∨ ((∀ ts', ¬Row table src dest g ts') ∧ ts = [(1000 + g.1, g.2)])

/-- The output layout consists of the shapes of the input, each on every target of its layer. -/
def Converted {σ : Type} (table : List (Str × List Str)) (src dest : List Layer) (lay out : Layout σ) : Prop :=
  ∃ T : Pair → List Pair, (∀ g, Target table src dest g (T g)) ∧
    ∀ q, (shapesOn out q).Perm (lay.flatMap fun e => (T e.1).flatMap fun t => if t = q then e.2 else [])

/-- Number of layers of a layout that a technology knows. -/
def known (pairs : List Pair) (tech : List Layer) : Nat := pairs.countP fun p => decide (∃ l ∈ tech, l.pair = p)

/-- The table read from right to left. -/
def Inverse (d inv : List (Str × List Str)) : Prop :=
  (inv.map Prod.fst).Nodup ∧
  ∀ k vs, (k, vs) ∈ inv ↔ vs ≠ [] ∧ vs = d.flatMap fun row => List.replicate (row.2.count k) row.1

/-! ### Lemmas -/

theorem hasName_iff (l : Layer) (n : Str) : HasName l n ↔ l.lpp = n := by
  unfold HasName Layer.lpp
  match l.purpose with
  | none => simp [eq_comm]
  | some [] => simp [eq_comm]
  | some (c :: p) =>
    simp only [reduceCtorEq, Option.some.injEq, or_self, false_and, false_or]
    constructor
    · rintro ⟨q, -, rfl, rfl⟩; rfl
    · rintro rfl; exact ⟨c :: p, by simp, rfl, rfl⟩

theorem named_iff (ls : List Layer) (n : Str) (l : Layer) : Named ls n l ↔ (byLpp ls).get? n = some l := by
  rw [get?_byLpp]
  unfold Named
  simp only [hasName_iff]

theorem unnamed_iff (ls : List Layer) (n : Str) : (∀ l, ¬Named ls n l) ↔ (byLpp ls).get? n = none := by
  simp only [named_iff]
  rw [Option.eq_none_iff_forall_ne_some]

theorem named_unique {ls : List Layer} {n : Str} {l l' : Layer} (h : Named ls n l) (h' : Named ls n l') : l = l' := by
  rw [named_iff] at h h'
  rw [h] at h'
  injection h'

theorem named_mem {ls : List Layer} {n : Str} {l : Layer} (h : Named ls n l) : l ∈ ls := by
  obtain ⟨pre, post, rfl, -⟩ := h
  simp

theorem named_name {ls : List Layer} {n : Str} {l : Layer} (h : Named ls n l) : l.lpp = n := by
  obtain ⟨pre, post, -, h, -⟩ := h
  exact (hasName_iff l n).1 h

theorem pair_inj {ls : List Layer} (hn : (ls.map Layer.pair).Nodup) {l l' : Layer} (h : l ∈ ls) (h' : l' ∈ ls)
    (he : l.pair = l'.pair) : l = l' := List.inj_on_of_nodup_map hn h h' he

theorem missing_iff (table : List (Str × List Str)) (src dest : List Layer) :
    (∃ row ∈ table, (byLpp src).get? row.1 = none ∨ (destLayers dest row.2).2 = true) ↔
      ¬∀ row ∈ table, (∃ l, Named src row.1 l) ∧ ∀ n ∈ row.2, ∃ d, Named dest n d := by
  push Not
  refine exists_congr fun row => and_congr_right fun _ => ?_
  rw [destLayers_missing]
  simp only [← unnamed_iff]
  constructor
  · rintro (h | ⟨n, hn, h⟩)
    · exact fun ⟨l, hl⟩ => absurd hl (h l)
    · exact fun _ => ⟨n, hn, h⟩
  · intro h
    by_cases hc : ∃ l, Named src row.1 l
    · exact Or.inr (h hc)
    · push Not at hc; exact Or.inl hc

theorem forall2_rows {table : List (Str × List Str)} {src dest : List Layer} {rows : List (Layer × List Layer)}
    (h : List.Forall₂ (fun row r => (byLpp src).get? row.1 = some r.1 ∧ r.2 = (destLayers dest row.2).1) table rows)
    (hm : ∀ row ∈ table, (destLayers dest row.2).2 = false) :
    List.Forall₂ (fun row r => Named src row.1 r.1 ∧ List.Forall₂ (Named dest) row.2 r.2) table rows := by
  induction h with
  | nil => exact .nil
  | cons hr _ ih =>
    refine .cons ⟨(named_iff _ _ _).2 hr.1, ?_⟩ (ih fun row hrow => hm row (List.mem_cons_of_mem _ hrow))
    rw [hr.2]
    exact (destLayers_found dest _ (hm _ List.mem_cons_self)).imp fun n d h => (named_iff _ _ _).2 h

/-- The rows of the table as layers. -/
theorem layerMapping_rows {table : Dict Str (List Str)} {src dest : List Layer} {m : Dict Layer (List Layer)}
    (h : layerMapping table src dest = .ok m) : ∃ rows : List (Layer × List Layer),
      List.Forall₂ (fun row r => Named src row.1 r.1 ∧ List.Forall₂ (Named dest) row.2 r.2) table rows ∧ m = Dict.ofList rows := by
  unfold layerMapping at h
  dsimp only at h
  obtain ⟨h1, h2⟩ := layerMapping_go table src dest [] false
  split at h
  · cases h
  · next hb =>
    injection h with h
    rw [h1] at hb
    have hall : ∀ row ∈ table, (byLpp src).get? row.1 ≠ none ∧ (destLayers dest row.2).2 = false := by
      intro row hrow
      push Not at hb
      have := hb.2 row hrow
      exact ⟨this.1, by simpa using this.2⟩
    obtain ⟨rows, hr, he⟩ := h2 hall
    exact ⟨rows, forall2_rows hr (fun row hrow => (hall row hrow).2), by rw [← h, he]; rfl⟩

theorem rows_nodup {table : List (Str × List Str)} {src dest : List Layer} {rows : List (Layer × List Layer)}
    (h : List.Forall₂ (fun row r => Named src row.1 r.1 ∧ List.Forall₂ (Named dest) row.2 r.2) table rows)
    (ht : (table.map Prod.fst).Nodup) (hp : (src.map Layer.pair).Nodup) : (rows.map fun r => r.1.pair).Nodup := by
  induction h with
  | nil => exact List.nodup_nil
  | @cons row r table rows hr hrest ih =>
    rw [List.map_cons, List.nodup_cons] at ht ⊢
    refine ⟨?_, ih ht.2⟩
    intro hmem
    obtain ⟨r', hr', he⟩ := List.mem_map.1 hmem
    obtain ⟨row', hrow', hn⟩ : ∃ row' ∈ table, Named src row'.1 r'.1 := by
      clear ih ht hmem
      induction hrest with
      | nil => cases hr'
      | cons hx _ ih' =>
        rcases List.mem_cons.1 hr' with rfl | hr'
        · exact ⟨_, List.mem_cons_self, hx.1⟩
        · obtain ⟨row', h1, h2⟩ := ih' hr'
          exact ⟨row', List.mem_cons_of_mem _ h1, h2⟩
    have := pair_inj hp (named_mem hn) (named_mem hr.1) he
    have hname := (named_name hn).symm.trans ((congrArg Layer.lpp this).trans (named_name hr.1))
    exact ht.1 (hname ▸ List.mem_map_of_mem hrow')

theorem bySourcePair_eq {table : Dict Str (List Str)} {src dest : List Layer} {rows : List (Layer × List Layer)}
    (h : List.Forall₂ (fun row r => Named src row.1 r.1 ∧ List.Forall₂ (Named dest) row.2 r.2) table rows)
    (ht : (table.map Prod.fst).Nodup) (hp : (src.map Layer.pair).Nodup) :
    bySourcePair (Dict.ofList rows) = rows.map fun r => (r.1.pair, r.2) := by
  have hn := rows_nodup h ht hp
  have hn1 : (rows.map Prod.fst).Nodup := by
    have : rows.map (fun r => r.1.pair) = (rows.map Prod.fst).map Layer.pair := by rw [List.map_map]; rfl
    rw [this] at hn
    exact hn.of_map
  unfold bySourcePair
  rw [NetJson.ofList_nodup rows hn1, NetJson.ofList_nodup]
  rw [List.map_map]
  exact hn

theorem forall2_map_pair {dest : List Layer} {ns : List Str} {ls : List Layer} (h : List.Forall₂ (Named dest) ns ls) :
    List.Forall₂ (fun n t => ∃ d, Named dest n d ∧ d.pair = t) ns (ls.map Layer.pair) := by
  induction h with
  | nil => exact .nil
  | cons h _ ih => exact .cons ⟨_, h, rfl⟩ ih

/-- The dictionary of the targets is the table. -/
theorem lookup_row {table : Dict Str (List Str)} {src dest : List Layer} {m : Dict Layer (List Layer)}
    (h : layerMapping table src dest = .ok m) (ht : (table.map Prod.fst).Nodup) (hp : (src.map Layer.pair).Nodup) (g : Pair) :
    (∀ ls, (bySourcePair m).get? g = some ls → Row table src dest g (ls.map Layer.pair)) ∧
    ((bySourcePair m).get? g = none → ∀ ts, ¬Row table src dest g ts) := by
  obtain ⟨rows, hr, rfl⟩ := layerMapping_rows h
  rw [bySourcePair_eq hr ht hp]
  constructor
  · intro ls hg
    have hmem := Dict.mem_of_get? hg
    obtain ⟨r, hrm, he⟩ := List.mem_map.1 hmem
    rw [Prod.mk.injEq] at he
    obtain ⟨rfl, rfl⟩ := he
    clear hg hmem ht h
    induction hr with
    | nil => cases hrm
    | @cons row r' table rows hx _ ih =>
      rcases List.mem_cons.1 hrm with rfl | hrm
      · exact ⟨row, List.mem_cons_self, _, hx.1, rfl, forall2_map_pair hx.2⟩
      · obtain ⟨row', h1, h2⟩ := ih hrm
        exact ⟨row', List.mem_cons_of_mem _ h1, h2⟩
  · rintro hg ts ⟨row, hrow, l, hl, rfl, -⟩
    rw [Dict.get?_eq_none] at hg
    apply hg
    clear hg ht h
    induction hr with
    | nil => cases hrow
    | @cons row0 r table rows hx _ ih =>
      unfold Dict.keys at ih ⊢
      rw [List.map_cons, List.map_cons]
      rcases List.mem_cons.1 hrow with rfl | hrow
      · rw [named_unique hl hx.1]; exact List.mem_cons_self
      · exact List.mem_cons_of_mem _ (ih hrow)

/-! ### Theorems -/

/-- **C49.** The conversion is refused exactly if a name of the table is unknown in its technology. -/
theorem mapping_ok_iff (table : Dict Str (List Str)) (src dest : List Layer) : (∃ m, layerMapping table src dest = .ok m) ↔
    ∀ row ∈ table, (∃ l, Named src row.1 l) ∧ ∀ n ∈ row.2, ∃ d, Named dest n d := by
  obtain ⟨h1, -⟩ := layerMapping_go table src dest [] false
  rw [missing_iff] at h1
  unfold layerMapping
  dsimp only
  split
  · next hb =>
    have := h1.1 hb
    simp only [Bool.false_eq_true, false_or] at this
    exact ⟨fun ⟨m, h⟩ => (by cases h), fun h => absurd h this⟩
  · next hb =>
    rw [h1] at hb
    push Not at hb
    exact ⟨fun _ => hb.2, fun _ => ⟨_, rfl⟩⟩

/-- **C49.** The targets of a layer are unique: those of the one row of the table for its numbers, or else the dummy layer. -/
theorem target_unique (table : List (Str × List Str)) (src dest : List Layer) (ht : (table.map Prod.fst).Nodup)
    (hp : (src.map Layer.pair).Nodup) (g : Pair) (ts ts' : List Pair) (h : Target table src dest g ts)
    (h' : Target table src dest g ts') : ts = ts' := by
  rcases h with h | ⟨hno, h⟩ <;> rcases h' with h' | ⟨hno', h'⟩
  · obtain ⟨row, hrow, l, hl, hg, hf⟩ := h
    obtain ⟨row', hrow', l', hl', hg', hf'⟩ := h'
    have hll := pair_inj hp (named_mem hl) (named_mem hl') (hg.trans hg'.symm)
    have hname : row.1 = row'.1 := (named_name hl).symm.trans ((congrArg Layer.lpp hll).trans (named_name hl'))
    have hrr : row = row' := List.inj_on_of_nodup_map ht hrow hrow' hname
    subst hrr
    clear hrow hrow' hl hl'
    generalize row.2 = ns at hf hf'
    induction hf generalizing ts' with
    | nil => cases hf'; rfl
    | cons hx _ ih =>
      cases hf' with
      | cons hy hr =>
        obtain ⟨d, hd, rfl⟩ := hx
        obtain ⟨d', hd', rfl⟩ := hy
        rw [named_unique hd hd', ih _ hr]
  · exact absurd h (hno' _)
  · exact absurd h' (hno _)
  · rw [h, h']

/-- **C49.** For all tables, technologies and layouts: if the conversion is not refused, then every shape is put on exactly the
targets of its layer (as often as they are listed), and no other shapes are in the output. -/
theorem converted_exact {σ : Type} (table : Dict Str (List Str)) (src dest : List Layer) (m : Dict Layer (List Layer))
    (h : layerMapping table src dest = .ok m) (ht : (table.map Prod.fst).Nodup) (hne : ∀ row ∈ table, row.2 ≠ [])
    (hp : (src.map Layer.pair).Nodup) (lay : Layout σ) (hl : (lay.map Prod.fst).Nodup) :
    Converted table src dest lay (mapLayers (bySourcePair m) lay) := by
  refine ⟨targets (bySourcePair m), ?_, ?_⟩
  · intro g
    obtain ⟨h1, h2⟩ := lookup_row h ht hp g
    unfold targets
    cases hg : (bySourcePair m).get? g with
    | some ls => exact Or.inl (h1 ls hg)
    | none => exact Or.inr ⟨h2 hg, rfl⟩
  · intro q
    rw [mapLayers_eq _ _ hl]
    refine shapes_perm _ lay ?_ q
    intro e _
    obtain ⟨h1, h2⟩ := lookup_row h ht hp e.1
    unfold targets
    cases hg : (bySourcePair m).get? e.1 with
    | none => simp
    | some ls =>
      obtain ⟨row, hrow, l, -, -, hf⟩ := h1 ls hg
      dsimp only
      intro hnil
      rw [hnil] at hf
      exact hne row hrow (by cases hr : row.2 with | nil => rfl | cons a b => rw [hr] at hf; cases hf)

/-- **C49.** The layers reported as not mapped are exactly the layers of the layout for which the table has no row. -/
theorem reported_exact {σ : Type} (table : Dict Str (List Str)) (src dest : List Layer) (m : Dict Layer (List Layer))
    (h : layerMapping table src dest = .ok m) (ht : (table.map Prod.fst).Nodup) (hp : (src.map Layer.pair).Nodup)
    (lay : Layout σ) : (reported (bySourcePair m) lay).Sublist (lay.map Prod.fst) ∧
      ∀ g, g ∈ reported (bySourcePair m) lay ↔ g ∈ lay.map Prod.fst ∧ ∀ ts, ¬Row table src dest g ts := by
  unfold reported
  refine ⟨List.filter_sublist.map _, ?_⟩
  intro g
  obtain ⟨h1, h2⟩ := lookup_row h ht hp g
  have hiff : ((bySourcePair m).get? g).isNone = true ↔ ∀ ts, ¬Row table src dest g ts := by
    cases hg : (bySourcePair m).get? g with
    | none => exact ⟨fun _ => h2 hg, fun _ => rfl⟩
    | some ls => exact ⟨fun hh => (by cases hh), fun hh => absurd (h1 ls hg) (hh _)⟩
  rw [← hiff]
  simp only [List.mem_map, List.mem_filter]
  constructor
  · rintro ⟨e, ⟨he, hn⟩, rfl⟩; exact ⟨⟨e, he, rfl⟩, hn⟩
  · rintro ⟨⟨e, he, rfl⟩, hn⟩; exact ⟨e, ⟨he, hn⟩, rfl⟩

/-- **C49.** If all layer numbers of the target technology are below 1000, a layer which is not mapped shares its layer in the
output with no other layer. -/
theorem dummy_separate (table : List (Str × List Str)) (src dest : List Layer) (hd : ∀ d ∈ dest, d.pair.1 < 1000)
    (g g' : Pair) (hne : g ≠ g') (ts ts' : List Pair) (h : Target table src dest g ts) (h' : Target table src dest g' ts')
    (hno : ∀ ts, ¬Row table src dest g ts) : ∀ t ∈ ts, t ∉ ts' := by
  rcases h with h | ⟨-, rfl⟩
  · exact absurd h (hno ts)
  · intro t htm
    rw [List.mem_singleton] at htm
    subst htm
    rcases h' with ⟨row, -, l, -, -, hf⟩ | ⟨-, rfl⟩
    · intro hmem
      obtain ⟨n, d, hd', hp⟩ : ∃ n d, Named dest n d ∧ d.pair = (1000 + g.1, g.2) := by
        generalize row.2 = ns at hf
        induction hf with
        | nil => cases hmem
        | cons hx _ ih =>
          rcases List.mem_cons.1 hmem with he | hmem
          · obtain ⟨d, h1, h2⟩ := hx
            exact ⟨_, d, h1, h2.trans he.symm⟩
          · exact ih hmem
      have := hd d (named_mem hd')
      rw [hp] at this
      dsimp only at this
      omega
    · rw [List.mem_singleton, Prod.mk.injEq]
      rintro ⟨h1, h2⟩
      exact hne (Prod.ext (by omega) h2)

/-- **C49.** The technology of a layout is the first one that knows the most of its layers. -/
theorem guess_exact (pairs : List Pair) (techs : List (List Layer)) (h : techs ≠ []) :
    ∃ tech, techs[guess pairs techs]? = some tech ∧ (∀ t ∈ techs, known pairs t ≤ known pairs tech) ∧
      ∀ (j : Nat) (t : List Layer), j < guess pairs techs → techs[j]? = some t → known pairs t < known pairs tech := by
  have hk : ∀ t, rank pairs t = known pairs t := by
    intro t
    unfold rank known
    rw [List.countP_eq_length_filter]
    congr 2
    funext p
    simp
  have hmap : techs.map (rank pairs) = techs.map (known pairs) := List.map_congr_left fun t _ => hk t
  unfold guess
  rw [hmap]
  obtain ⟨v, h1, h2, h3⟩ := argmax_spec (techs.map (known pairs)) (by simpa using h)
  rw [List.getElem?_map, Option.map_eq_some_iff] at h1
  obtain ⟨tech, ht, rfl⟩ := h1
  refine ⟨tech, ht, fun t htm => h2 _ (List.mem_map_of_mem htm), fun j t hj htj => ?_⟩
  exact h3 j _ hj (by rw [List.getElem?_map, htj]; rfl)

/-- **C49.** The table for the other direction is the table read from right to left. -/
theorem invert_exact (d : Dict Str (List Str)) : Inverse d (invert d) := by
  have hn : (invert d).keys.Nodup := invert_nodup d [] (by simp [Dict.keys])
  refine ⟨hn, ?_⟩
  intro k vs
  rw [Dict.mem_iff_get? hn]
  unfold invert
  rw [invert_go]
  by_cases h : (d.flatMap fun row => List.replicate (row.2.count k) row.1) = []
  · rw [if_pos h]
    constructor
    · intro hh; cases hh
    · rintro ⟨h1, h2⟩; exact absurd (h2.trans h) h1
  · rw [if_neg h]
    constructor
    · intro hh
      injection hh with hh
      have hh : (d.flatMap fun row => List.replicate (row.2.count k) row.1) = vs := hh
      rw [← hh]
      exact ⟨h, rfl⟩
    · rintro ⟨h1, rfl⟩; rfl

/-- **C49 (partial).** The whole conversion: a layout of which the first technology knows at least as many layers is converted by
the table, any other by the table read from right to left.

Missing from the full property: different layers are put on the same target (`layers_merged`). -/
theorem convert_exact_partial {σ : Type} (tech0 tech1 : List Layer) (h0 : (tech0.map Layer.pair).Nodup)
    (h1 : (tech1.map Layer.pair).Nodup) (lay out : Layout σ) (hl : (lay.map Prod.fst).Nodup) (h : convert tech0 tech1 lay = .ok out) :
    (known (lay.map Prod.fst) tech1 ≤ known (lay.map Prod.fst) tech0 → Converted sky130ToSg13g2 tech0 tech1 lay out) ∧
    (known (lay.map Prod.fst) tech0 < known (lay.map Prod.fst) tech1 →
      ∃ inv, Inverse sky130ToSg13g2 inv ∧ Converted inv tech1 tech0 lay out) := by
  have hnd : (sky130ToSg13g2.map Prod.fst).Nodup := by decide +kernel
  have hne : ∀ row ∈ sky130ToSg13g2, row.2 ≠ [] := by decide +kernel
  obtain ⟨tech, hg1, hg2, hg3⟩ := guess_exact (lay.map Prod.fst) [tech0, tech1] (by simp)
  unfold convert at h
  split at h
  · next hg =>
    rw [hg] at hg1 hg3
    have he : tech = tech1 := by simpa using hg1.symm
    have hlt := hg3 0 tech0 (by omega) rfl
    rw [he] at hlt
    refine ⟨fun hh => absurd hh (by omega), fun _ => ⟨invert sky130ToSg13g2, invert_exact _, ?_⟩⟩
    cases hm : layerMapping (invert sky130ToSg13g2) tech1 tech0 with
    | error e => rw [hm] at h; cases h
    | ok m =>
      rw [hm] at h
      injection h with h
      rw [← h]
      have hinv := invert_exact sky130ToSg13g2
      exact converted_exact _ _ _ m hm hinv.1 (fun row hrow => ((hinv.2 row.1 row.2).1 hrow).1) h1 lay hl
  · next hg =>
    have hz : guess (lay.map Prod.fst) [tech0, tech1] = 0 := by
      have hlt := (List.getElem?_eq_some_iff.1 hg1).1
      simp only [List.length_cons, List.length_nil] at hlt
      omega
    rw [hz] at hg1
    have he : tech = tech0 := by simpa using hg1.symm
    have hle := hg2 tech1 (by simp)
    rw [he] at hle
    refine ⟨fun _ => ?_, fun hh => absurd hh (by omega)⟩
    cases hm : layerMapping sky130ToSg13g2 tech0 tech1 with
    | error e => rw [hm] at h; cases h
    | ok m =>
      rw [hm] at h
      injection h with h
      rw [← h]
      exact converted_exact _ _ _ m hm hnd hne h0 lay hl

/-- **C49 is false** in its last part: `tap.drawing` and `diff.drawing` have the same target, in every pair of technologies that
have the layers of the table. -/
theorem layers_merged (tech0 tech1 : List Layer) (tap diff act : Layer) (ht : Named tech0 "tap.drawing".toList tap)
    (hd : Named tech0 "diff.drawing".toList diff) (ha : Named tech1 "Activ.drawing".toList act) :
    Target sky130ToSg13g2 tech0 tech1 tap.pair [act.pair] ∧ Target sky130ToSg13g2 tech0 tech1 diff.pair [act.pair] :=
  ⟨Or.inl ⟨("tap.drawing".toList, ["Activ.drawing".toList]), by decide +kernel, tap, ht, rfl, .cons ⟨act, ha, rfl⟩ .nil⟩,
   Or.inl ⟨("diff.drawing".toList, ["Activ.drawing".toList]), by decide +kernel, diff, hd, rfl, .cons ⟨act, ha, rfl⟩ .nil⟩⟩

/-! ### Layer files -/

theorem takeWhile_all {p : Char → Bool} {a : Str} (ha : ∀ c ∈ a, p c = true) {b : Str} (hb : ∀ c, b.head? = some c → p c = false) :
    (a ++ b).takeWhile p = a ∧ (a ++ b).dropWhile p = b := by
  induction a with
  | nil =>
    cases b with
    | nil => exact ⟨rfl, rfl⟩
    | cons c b => simp [hb c rfl]
  | cons x a ih =>
    have := ih (fun c hc => ha c (List.mem_cons_of_mem _ hc))
    simp [ha x List.mem_cons_self, this]

theorem isWord_ws {c : Char} (h : isWs c = true) : isWord c = false := by
  unfold isWs at h
  simp only [Bool.or_eq_true, beq_iff_eq] at h
  rcases h with ((((rfl | rfl) | rfl) | rfl) | rfl) | rfl <;> decide

/-- **C49.** Entries of a layer file are read correctly: `layer.purpose` with a comment that is separated by white space, and
`number/number` followed by anything but a digit. -/
theorem layer_parsed (layer : Str) (purpose : Option Str) (comment : Str) (l d : Nat) (rest : Str)
    (h1 : layer ≠ []) (h2 : ∀ c ∈ layer, c.isAlphanum = true ∨ c = '_')
    (h3 : ∀ p, purpose = some p → p ≠ [] ∧ ∀ c ∈ p, c.isAlphanum = true ∨ c = '_')
    (h4 : ∀ c, comment.head? = some c → isWs c = true) (h5 : ∀ c, rest.head? = some c → c.isDigit = false) :
    parseLayer (layer ++ (purpose.elim [] fun p => '.' :: p) ++ comment)
      ((toString l).toList ++ '/' :: ((toString d).toList ++ rest)) = ⟨layer, purpose, (l, d)⟩ := by
  have hword : ∀ c : Char, (c.isAlphanum = true ∨ c = '_') → isWord c = true := by
    intro c h; unfold isWord; simpa using h
  replace h2 : ∀ c ∈ layer, isWord c = true := fun c hc => hword c (h2 c hc)
  replace h3 : ∀ p, purpose = some p → p ≠ [] ∧ ∀ c ∈ p, isWord c = true :=
    fun p hp => ⟨(h3 p hp).1, fun c hc => hword c ((h3 p hp).2 c hc)⟩
  have hnum : ∀ n : Nat, number (toString n).toList = n := by
    intro n
    have : (toString n).toList = Nat.toDigits 10 n := Nat.toList_repr
    unfold number
    rw [this, Nat.ofDigitChars_ten_toDigits]
  have hcw : ∀ c, comment.head? = some c → isWord c = false := fun c hc => isWord_ws (h4 c hc)
  have hn : parseName (layer ++ (purpose.elim [] fun p => '.' :: p) ++ comment) = some (layer, purpose) := by
    unfold parseName
    cases purpose with
    | none =>
      obtain ⟨ht, hd⟩ := takeWhile_all h2 hcw
      simp only [Option.elim_none, List.append_nil]
      rw [ht, hd, if_neg h1]
      cases comment with
      | nil => rfl
      | cons c comment => simp [h4 c rfl]
    | some p =>
      obtain ⟨hp1, hp2⟩ := h3 p rfl
      simp only [Option.elim_some, List.append_assoc, List.cons_append]
      obtain ⟨ht, hd⟩ := takeWhile_all (b := '.' :: (p ++ comment)) h2 (by intro c hc; injection hc with hc; rw [← hc]; decide)
      obtain ⟨ht', hd'⟩ := takeWhile_all hp2 hcw
      rw [ht, hd, if_neg h1]
      dsimp only
      rw [if_neg (by decide), if_pos rfl, ht', hd', if_neg hp1]
      cases comment with
      | nil => rfl
      | cons c comment => simp [h4 c rfl]
  have hs : parseSource ((toString l).toList ++ '/' :: ((toString d).toList ++ rest)) = some (l, d) := by
    unfold parseSource
    obtain ⟨ht, hd⟩ := takeWhile_all (p := Char.isDigit) (a := (toString l).toList) (b := '/' :: ((toString d).toList ++ rest))
      (fun c hc => dec_digits hc) (by intro c hc; injection hc with hc; rw [← hc]; decide)
    obtain ⟨ht', -⟩ := takeWhile_all (p := Char.isDigit) (a := (toString d).toList) (b := rest) (fun c hc => dec_digits hc) h5
    rw [ht, hd, if_neg (dec_ne_nil l)]
    simp only [ht']
    rw [if_neg (dec_ne_nil d), hnum, hnum]
  unfold parseLayer
  rw [hn, hs]
  rfl

/-! ### Non-vacuity -/

def exTable : Dict Str (List Str) :=
  [("tap.drawing".toList, ["Activ.drawing".toList]), ("li1.label".toList, ["Metal1.pin".toList, "Metal1.text".toList])]

def exSrc : List Layer := [⟨"tap".toList, some "drawing".toList, (65, 44)⟩, ⟨"li1".toList, some "label".toList, (67, 5)⟩,
  ⟨"areaid".toList, none, (81, 0)⟩]

def exDest : List Layer := [⟨"Activ".toList, some "drawing".toList, (1, 0)⟩, ⟨"Metal1".toList, some "pin".toList, (8, 2)⟩,
  ⟨"Metal1".toList, some "text".toList, (8, 25)⟩]

def exLayout : Layout Nat := [((81, 0), [1]), ((67, 5), [2, 3]), ((65, 44), [4])]

example : ∃ m, layerMapping exTable exSrc exDest = .ok m ∧ (exTable.map Prod.fst).Nodup ∧ (exSrc.map Layer.pair).Nodup ∧
    (exLayout.map Prod.fst).Nodup ∧ reported (bySourcePair m) exLayout = [(81, 0)] ∧
    shapesOn (mapLayers (bySourcePair m) exLayout) (8, 25) = [2, 3] ∧ shapesOn (mapLayers (bySourcePair m) exLayout) (1081, 0) = [1] :=
  ⟨_, rfl, by decide +kernel, by decide +kernel, by decide +kernel, by decide +kernel, by decide +kernel, by decide +kernel⟩

example : guess [(65, 44), (1, 0), (8, 2)] [exSrc, exDest] = 1 := by decide +kernel

example : parseLayer "met1.drawing - 68/20".toList "68/20@1".toList = ⟨"met1".toList, some "drawing".toList, (68, 20)⟩ := by
  decide +kernel

example : (invert exTable).get? "Metal1.text".toList = some ["li1.label".toList] := by decide +kernel

end Verif.LayerMap
