import Verif.LayerMap.Props
import Verif.LayerMap.Files

/-!
# Converting layouts with the layer files of the repository (C95)
-/

namespace Verif.LayerMap

set_option maxRecDepth 20000

/-! ### Specification -/

/-- The layers of the two technologies, convert_layout_pdk.py 316–327. -/
noncomputable def sky : List Layer := parseLayers skyFile
noncomputable def sg : List Layer := parseLayers sgFile

/-- The targets, by numbers, for layouts of sky130A. -/
def skyRows : List (Pair × List Pair) := [
  ((235, 250), [(189, 4)]), ((235, 4), [(189, 4)]), ((65, 44), [(1, 0)]), ((65, 20), [(1, 0)]), ((64, 20), [(31, 0)]),
  ((64, 5), [(31, 2), (31, 1)]), ((64, 44), [(46, 0)]), ((64, 59), [(46, 2), (46, 1)]), ((122, 16), [(46, 2)]),
  ((93, 44), [(7, 0)]), ((94, 20), [(14, 0)]), ((66, 20), [(5, 0)]), ((66, 44), [(6, 0)]), ((67, 20), [(8, 0)]),
  ((67, 16), [(8, 2)]), ((67, 5), [(8, 2), (8, 25)]), ((67, 44), [(19, 0)]), ((68, 20), [(10, 0)]), ((68, 16), [(10, 2)]),
  ((68, 5), [(10, 2), (10, 25)]), ((68, 44), [(29, 0)]), ((69, 20), [(30, 0)]), ((69, 16), [(30, 2)]),
  ((69, 5), [(30, 2), (30, 25)]), ((69, 44), [(49, 0)]), ((70, 20), [(50, 0)]), ((70, 16), [(50, 2)]),
  ((70, 5), [(50, 2), (50, 25)]), ((70, 44), [(66, 0)]), ((71, 20), [(67, 0)]), ((71, 16), [(67, 2)]),
  ((71, 5), [(67, 2), (67, 25)]), ((71, 44), [(125, 0)]), ((72, 20), [(126, 0)]), ((72, 16), [(126, 2)]),
  ((72, 5), [(126, 2), (126, 25)]), ((82, 64), [(99, 39)]), ((97, 44), [(36, 0)])]

/-- The targets, by numbers, for layouts of sg13g2. -/
def sgRows : List (Pair × List Pair) := [
  ((189, 4), [(235, 250), (235, 4)]), ((1, 0), [(65, 44), (65, 20)]), ((31, 0), [(64, 20)]), ((31, 2), [(64, 5)]),
  ((31, 1), [(64, 5)]), ((46, 0), [(64, 44)]), ((46, 2), [(64, 59), (122, 16)]), ((46, 1), [(64, 59)]),
  ((7, 0), [(93, 44)]), ((14, 0), [(94, 20)]), ((5, 0), [(66, 20)]), ((6, 0), [(66, 44)]), ((8, 0), [(67, 20)]),
  ((8, 2), [(67, 16), (67, 5)]), ((8, 25), [(67, 5)]), ((19, 0), [(67, 44)]), ((10, 0), [(68, 20)]),
  ((10, 2), [(68, 16), (68, 5)]), ((10, 25), [(68, 5)]), ((29, 0), [(68, 44)]), ((30, 0), [(69, 20)]),
  ((30, 2), [(69, 16), (69, 5)]), ((30, 25), [(69, 5)]), ((49, 0), [(69, 44)]), ((50, 0), [(70, 20)]),
  ((50, 2), [(70, 16), (70, 5)]), ((50, 25), [(70, 5)]), ((66, 0), [(70, 44)]), ((67, 0), [(71, 20)]),
  ((67, 2), [(71, 16), (71, 5)]), ((67, 25), [(71, 5)]), ((125, 0), [(71, 44)]), ((126, 0), [(72, 20)]),
  ((126, 2), [(72, 16), (72, 5)]), ((126, 25), [(72, 5)]), ((99, 39), [(82, 64)]), ((36, 0), [(97, 44)])]

/-- The layers of sg13g2 whose numbers are also numbers of sky130A. -/
def shared : List Pair := [(20, 0), (23, 0), (25, 0), (27, 0), (28, 0), (30, 0), (32, 0), (35, 0), (36, 0), (39, 0), (40, 0),
  (41, 0), (44, 0), (46, 0), (48, 0), (49, 0), (50, 0), (51, 0), (66, 4), (67, 4), (67, 20), (67, 23), (67, 25), (88, 0), (93, 0),
  (97, 0), (98, 0), (99, 0), (101, 0), (110, 22)]

/-- The targets of a layer, dummy layers included. -/
def targetsOf (rows : List (Pair × List Pair)) (g : Pair) : List Pair := (rows.lookup g).getD [(1000 + g.1, g.2)]

/-- The layout read from the file to which a layout was written: the same shapes on the same layers, layers with the same numbers
are one, and there are no layers without shapes. -/
def Reread {σ : Type} (lay lay' : Layout σ) : Prop :=
  (lay'.map Prod.fst).Nodup ∧ (∀ e ∈ lay', e.2 ≠ []) ∧ ∀ q, (shapesOn lay' q).Perm (shapesOn lay q)

/-- The layers for which there is one target, which is the target of no other layer, and back. -/
def SingleTarget (rows back : List (Pair × List Pair)) (g : Pair) : Prop :=
  ∃ t, (g, [t]) ∈ rows ∧ (t, [g]) ∈ back ∧ (∀ r ∈ rows, t ∈ r.2 → r.1 = g) ∧ ∀ r ∈ back, g ∈ r.2 → r.1 = t

/-! ### Rows -/

def findLast (ls : List Layer) (n : Str) : Option Layer := ls.reverse.find? fun l => l.lpp = n

theorem findLast_iff (ls : List Layer) (n : Str) (l : Layer) : findLast ls n = some l ↔ Named ls n l := by
  unfold findLast Named
  rw [List.find?_eq_some_iff_append]
  simp only [decide_eq_true_eq, hasName_iff, Bool.not_eq_true', decide_eq_false_iff_not]
  constructor
  · rintro ⟨h, as, bs, e, h'⟩
    refine ⟨bs.reverse, as.reverse, ?_, h, fun x hx => h' x (List.mem_reverse.1 hx)⟩
    have := congrArg List.reverse e
    simpa using this
  · rintro ⟨pre, post, rfl, h, h'⟩
    exact ⟨h, post.reverse, pre.reverse, by simp, fun x hx => h' x (List.mem_reverse.1 hx)⟩

def rowOf (src dest : List Layer) (row : Str × List Str) : Option (Pair × List Pair) := do
  let l ← findLast src row.1
  let ds ← row.2.mapM (findLast dest)
  pure (l.pair, ds.map Layer.pair)

theorem mapM_some {α β : Type} {f : α → Option β} {l : List α} {r : List β} :
    l.mapM f = some r ↔ List.Forall₂ (fun a b => f a = some b) l r := by
  induction l generalizing r with
  | nil =>
    rw [List.mapM_nil, List.forall₂_nil_left_iff]
    exact ⟨fun h => (Option.some.inj h).symm, fun h => by rw [h]; rfl⟩
  | cons a l ih =>
    rw [List.mapM_cons]
    constructor
    · intro h
      cases ha : f a with
      | none => rw [ha] at h; cases h
      | some b =>
        cases hl : l.mapM f with
        | none => rw [ha, hl] at h; cases h
        | some bs =>
          rw [ha, hl] at h
          obtain rfl := (Option.some.inj h).symm
          exact .cons ha (ih.1 hl)
    · intro h
      cases h with
      | cons ha hl => rw [ha, ih.2 hl]; rfl

theorem rowOf_iff (src dest : List Layer) (row : Str × List Str) (r : Pair × List Pair) :
    rowOf src dest row = some r ↔ (∃ l, Named src row.1 l ∧ l.pair = r.1) ∧
      List.Forall₂ (fun n t => ∃ d, Named dest n d ∧ d.pair = t) row.2 r.2 := by
  have hm : ∀ ts, List.Forall₂ (fun n t => ∃ d, Named dest n d ∧ d.pair = t) row.2 ts ↔
      ∃ ds, row.2.mapM (findLast dest) = some ds ∧ ds.map Layer.pair = ts := by
    intro ts
    generalize row.2 = ns
    induction ns generalizing ts with
    | nil =>
      rw [List.forall₂_nil_left_iff]
      constructor
      · rintro rfl; exact ⟨[], rfl, rfl⟩
      · rintro ⟨ds, h, rfl⟩
        obtain rfl := (Option.some.inj h).symm
        rfl
    | cons n ns ih =>
      rw [List.forall₂_cons_left_iff]
      simp only [mapM_some] at ih ⊢
      constructor
      · rintro ⟨t, ts', ⟨d, hd, rfl⟩, h, rfl⟩
        obtain ⟨ds, h1, rfl⟩ := (ih _).1 h
        exact ⟨d :: ds, .cons ((findLast_iff _ _ _).2 hd) h1, rfl⟩
      · rintro ⟨ds, h, rfl⟩
        cases h with
        | cons ha hl => exact ⟨_, _, ⟨_, (findLast_iff _ _ _).1 ha, rfl⟩, (ih _).2 ⟨_, hl, rfl⟩, rfl⟩
  rw [hm]
  unfold rowOf
  simp only [← findLast_iff]
  obtain ⟨a, b⟩ := r
  constructor
  · intro h
    cases hl : findLast src row.1 with
    | none => rw [hl] at h; cases h
    | some l =>
      cases hds : row.2.mapM (findLast dest) with
      | none => rw [hl, hds] at h; cases h
      | some ds =>
        rw [hl, hds] at h
        have := Option.some.inj h
        exact ⟨⟨l, rfl, congrArg Prod.fst this⟩, ds, rfl, congrArg Prod.snd this⟩
  · rintro ⟨⟨l, hl, rfl⟩, ds, hds, rfl⟩
    rw [hl, hds]; rfl

theorem rows_spec {table : Dict Str (List Str)} {src dest : List Layer} {rows : List (Pair × List Pair)}
    (h : table.mapM (rowOf src dest) = some rows) : (∃ m, layerMapping table src dest = .ok m) ∧
      ∀ g ts, Row table src dest g ts ↔ (g, ts) ∈ rows := by
  rw [mapM_some] at h
  constructor
  · rw [mapping_ok_iff]
    intro row hrow
    obtain ⟨r, -, hr⟩ : ∃ r ∈ rows, rowOf src dest row = some r := by
      induction h with
      | nil => cases hrow
      | cons hx _ ih =>
        rcases List.mem_cons.1 hrow with rfl | hrow
        · exact ⟨_, List.mem_cons_self, hx⟩
        · obtain ⟨r, h1, h2⟩ := ih hrow
          exact ⟨r, List.mem_cons_of_mem _ h1, h2⟩
    obtain ⟨⟨l, hl, _⟩, hf⟩ := (rowOf_iff _ _ _ _).1 hr
    refine ⟨⟨l, hl⟩, fun n hn => ?_⟩
    generalize row.2 = ns at hf hn
    generalize r.2 = ts at hf
    induction hf with
    | nil => cases hn
    | cons hx _ ih =>
      rcases List.mem_cons.1 hn with rfl | hn
      · exact ⟨hx.choose, hx.choose_spec.1⟩
      · exact ih hn
  · intro g ts
    have key : ∀ row, rowOf src dest row = some (g, ts) ↔ ∃ l, Named src row.1 l ∧ l.pair = g ∧
        List.Forall₂ (fun n t => ∃ d, Named dest n d ∧ d.pair = t) row.2 ts := by
      intro row
      rw [rowOf_iff]
      constructor
      · rintro ⟨⟨l, h1, h2⟩, h3⟩; exact ⟨l, h1, h2, h3⟩
      · rintro ⟨l, h1, h2, h3⟩; exact ⟨⟨l, h1, h2⟩, h3⟩
    unfold Row
    simp only [← key]
    induction h with
    | nil => simp
    | cons hx _ ih =>
      simp only [List.mem_cons, exists_eq_or_imp, ih, hx, Option.some.injEq]
      exact or_congr eq_comm Iff.rfl

theorem skyTable_rows : sky130ToSg13g2.mapM (rowOf sky sg) = some skyRows := by decide +kernel

theorem sgTable_rows : (invert sky130ToSg13g2).mapM (rowOf sg sky) = some sgRows := by decide +kernel

/-! ### Numbers -/

def distinctB : List Nat → Bool
  | [] => true
  | n :: l => l.all (fun m => !(Nat.beq n m)) && distinctB l

theorem distinct_nodup {l : List Nat} (h : distinctB l = true) : l.Nodup := by
  induction l with
  | nil => exact List.nodup_nil
  | cons n l ih =>
    simp only [distinctB, Bool.and_eq_true, List.all_eq_true, Bool.not_eq_true'] at h
    rw [List.nodup_cons]
    refine ⟨fun hn => ?_, ih h.2⟩
    have := h.1 n hn
    rw [Nat.beq_refl] at this
    cases this

def code (p : Pair) : Nat := p.1 * 1000 + p.2

theorem pairs_nodup {ls : List Layer} (h : distinctB (ls.map fun l => code l.pair) = true) : (ls.map Layer.pair).Nodup := by
  have := distinct_nodup h
  rw [show (ls.map fun l => code l.pair) = (ls.map Layer.pair).map code by rw [List.map_map]; rfl] at this
  exact this.of_map _

theorem sky_nodup : (sky.map Layer.pair).Nodup := pairs_nodup (by decide +kernel)

theorem sg_nodup : (sg.map Layer.pair).Nodup := pairs_nodup (by decide +kernel)

def hasB (ls : List Layer) (c : Nat) : Bool := ls.any fun l => Nat.beq (code l.pair) c

theorem small : (∀ l ∈ sky, l.pair.2 < 1000) ∧ ∀ l ∈ sg, l.pair.2 < 1000 := by
  constructor <;> decide +kernel

theorem hasB_iff {ls : List Layer} (hs : ∀ l ∈ ls, l.pair.2 < 1000) {p : Pair} (hp : p.2 < 1000) :
    hasB ls (code p) = true ↔ ∃ l ∈ ls, l.pair = p := by
  unfold hasB
  simp only [List.any_eq_true]
  refine exists_congr fun l => and_congr_right fun hl => ?_
  rw [Nat.beq_eq]
  have := hs l hl
  unfold code
  constructor
  · intro h
    exact Prod.ext (by omega) (by omega)
  · rintro rfl; rfl

/-- The numbers of both technologies. -/
theorem shared_iff (p : Pair) : p ∈ shared ↔ (∃ l ∈ sky, l.pair = p) ∧ ∃ l ∈ sg, l.pair = p := by
  have h1 : ∀ p ∈ shared, p.2 < 1000 := by decide
  have h2 : ∀ p ∈ shared, (hasB sky (code p) && hasB sg (code p)) = true := by decide +kernel
  have h3 : ∀ l ∈ sg, (!(hasB sky (code l.pair)) || decide (l.pair ∈ shared)) = true := by decide +kernel
  constructor
  · intro h
    have := h2 p h
    rw [Bool.and_eq_true, hasB_iff small.1 (h1 p h), hasB_iff small.2 (h1 p h)] at this
    exact this
  · rintro ⟨h, l, hl, rfl⟩
    have := h3 l hl
    rw [(hasB_iff small.1 (small.2 l hl)).2 h] at this
    simpa using this

theorem rows_known : (∀ r ∈ skyRows, (∃ l ∈ sky, l.pair = r.1) ∧ ∀ t ∈ r.2, ∃ l ∈ sg, l.pair = t) ∧
    ∀ r ∈ sgRows, (∃ l ∈ sg, l.pair = r.1) ∧ ∀ t ∈ r.2, ∃ l ∈ sky, l.pair = t := by
  constructor
  · rintro ⟨g, ts⟩ hr
    obtain ⟨row, _, l, hl, hg, hf⟩ := ((rows_spec skyTable_rows).2 g ts).2 hr
    refine ⟨⟨l, named_mem hl, hg⟩, fun t ht => ?_⟩
    clear hr
    generalize row.2 = ns at hf
    induction hf with
    | nil => cases ht
    | cons hx _ ih =>
      rcases List.mem_cons.1 ht with rfl | ht
      · obtain ⟨d, hd, e⟩ := hx; exact ⟨d, named_mem hd, e⟩
      · exact ih ht
  · rintro ⟨g, ts⟩ hr
    obtain ⟨row, _, l, hl, hg, hf⟩ := ((rows_spec sgTable_rows).2 g ts).2 hr
    refine ⟨⟨l, named_mem hl, hg⟩, fun t ht => ?_⟩
    clear hr
    generalize row.2 = ns at hf
    induction hf with
    | nil => cases ht
    | cons hx _ ih =>
      rcases List.mem_cons.1 ht with rfl | ht
      · obtain ⟨d, hd, e⟩ := hx; exact ⟨d, named_mem hd, e⟩
      · exact ih ht

/-! ### Recognition -/

theorem known_all {pairs : List Pair} {tech : List Layer} (h : ∀ p ∈ pairs, ∃ l ∈ tech, l.pair = p) :
    known pairs tech = pairs.length := by
  unfold known
  rw [List.countP_eq_length]
  simpa using h

theorem known_le (pairs : List Pair) (tech : List Layer) : known pairs tech ≤ pairs.length := List.countP_le_length

theorem known_lt {pairs : List Pair} {tech : List Layer} : known pairs tech < pairs.length ↔ ∃ p ∈ pairs, ¬ ∃ l ∈ tech, l.pair = p := by
  rw [lt_iff_le_and_ne, and_iff_right (known_le _ _)]
  unfold known
  rw [Ne, List.countP_eq_length]
  simp

theorem lookup_mem {rows : List (Pair × List Pair)} (hn : (rows.map Prod.fst).Nodup) {g : Pair} {ts : List Pair}
    (h : (g, ts) ∈ rows) : rows.lookup g = some ts := by
  induction rows with
  | nil => cases h
  | cons r rows ih =>
    rw [List.map_cons, List.nodup_cons] at hn
    rw [List.lookup_cons]
    rcases List.mem_cons.1 h with rfl | h
    · simp
    · have : (g == r.1) = false := by
        rw [beq_eq_false_iff_ne]
        rintro rfl
        exact hn.1 (List.mem_map.2 ⟨_, h, rfl⟩)
      rw [this]
      exact ih hn.2 h

theorem lookup_none {rows : List (Pair × List Pair)} {g : Pair} (h : ∀ ts, (g, ts) ∉ rows) : rows.lookup g = none := by
  rw [List.lookup_eq_none_iff]
  rintro ⟨a, b⟩ hab
  rw [bne_iff_ne]
  rintro rfl
  exact h b hab

theorem target_eq {table : List (Str × List Str)} {src dest : List Layer} {rows : List (Pair × List Pair)}
    (h : ∀ g ts, Row table src dest g ts ↔ (g, ts) ∈ rows) (hn : (rows.map Prod.fst).Nodup) {g : Pair} {ts : List Pair}
    (ht : Target table src dest g ts) : ts = targetsOf rows g := by
  unfold targetsOf
  rcases ht with ht | ⟨hno, rfl⟩
  · rw [lookup_mem hn ((h _ _).1 ht)]; rfl
  · rw [lookup_none fun ts hts => hno ts ((h _ _).2 hts)]; rfl

theorem skyRows_nodup : (skyRows.map Prod.fst).Nodup := by decide +kernel

theorem sgRows_nodup : (sgRows.map Prod.fst).Nodup := by decide +kernel

/-- Every shape is on the targets of its layer, and nothing else. -/
def Moved {σ : Type} (rows : List (Pair × List Pair)) (lay out : Layout σ) : Prop :=
  ∀ q, (shapesOn out q).Perm (lay.flatMap fun e => (targetsOf rows e.1).flatMap fun t => if t = q then e.2 else [])

variable {σ : Type}

theorem convert_rows {lay out : Layout σ} (hl : (lay.map Prod.fst).Nodup) (h : convert sky sg lay = .ok out) :
    (known (lay.map Prod.fst) sg ≤ known (lay.map Prod.fst) sky → Moved skyRows lay out) ∧
    (known (lay.map Prod.fst) sky < known (lay.map Prod.fst) sg → Moved sgRows lay out) := by
  obtain ⟨h1, h2⟩ := convert_exact_partial sky sg sky_nodup sg_nodup lay out hl h
  constructor
  · intro hk
    obtain ⟨T, hT, hp⟩ := h1 hk
    obtain rfl : T = targetsOf skyRows := funext fun g => target_eq (rows_spec skyTable_rows).2 skyRows_nodup (hT g)
    exact hp
  · intro hk
    obtain ⟨inv, hinv, T, hT, hp⟩ := h2 hk
    have hrow : ∀ g ts, Row inv sg sky g ts ↔ (g, ts) ∈ sgRows := by
      intro g ts
      rw [← (rows_spec sgTable_rows).2]
      unfold Row
      have hi := invert_exact sky130ToSg13g2
      refine exists_congr fun row => and_congr_left fun _ => ?_
      exact (hinv.2 row.1 row.2).trans (hi.2 row.1 row.2).symm
    obtain rfl : T = targetsOf sgRows := funext fun g => target_eq hrow sgRows_nodup (hT g)
    exact hp

/-! ### Theorems -/

/-- **C95, accepted.** With the layer files of the repository no layout is refused. -/
theorem shipped_converts (lay : Layout σ) : ∃ out, convert sky sg lay = .ok out := by
  unfold convert
  split
  · obtain ⟨m, hm⟩ := (rows_spec sgTable_rows).1
    rw [hm]; exact ⟨_, rfl⟩
  · obtain ⟨m, hm⟩ := (rows_spec skyTable_rows).1
    rw [hm]; exact ⟨_, rfl⟩

/-- **C95, sky130A.** A layout that has only layers of sky130A is converted to sg13g2: every shape is put on the layers of
`skyRows`, or on a dummy layer. -/
theorem sky_converted {lay out : Layout σ} (hl : (lay.map Prod.fst).Nodup) (h : convert sky sg lay = .ok out)
    (hsky : ∀ e ∈ lay, ∃ l ∈ sky, l.pair = e.1) (q : Pair) :
    (shapesOn out q).Perm (lay.flatMap fun e => (targetsOf skyRows e.1).flatMap fun t => if t = q then e.2 else []) := by
  refine (convert_rows hl h).1 ?_ q
  rw [known_all (tech := sky)]
  · exact known_le _ _
  · intro p hp
    obtain ⟨e, he, rfl⟩ := List.mem_map.1 hp
    exact hsky e he

/-- **C95, sg13g2 (partial).** A layout that has only layers of sg13g2, not all with numbers that sky130A also has, is converted to
sky130A: every shape is put on the layers of `sgRows`, or on a dummy layer.

Missing from the full property: layouts whose layers all have numbers that sky130A also has (`sg_taken_for_sky`). -/
theorem sg_converted_partial {lay out : Layout σ} (hl : (lay.map Prod.fst).Nodup) (h : convert sky sg lay = .ok out)
    (hsg : ∀ e ∈ lay, ∃ l ∈ sg, l.pair = e.1) (hown : ∃ e ∈ lay, e.1 ∉ shared) (q : Pair) :
    (shapesOn out q).Perm (lay.flatMap fun e => (targetsOf sgRows e.1).flatMap fun t => if t = q then e.2 else []) := by
  refine (convert_rows hl h).2 ?_ q
  rw [known_all (tech := sg), known_lt]
  · obtain ⟨e, he, hs⟩ := hown
    refine ⟨e.1, List.mem_map_of_mem he, fun hk => hs ?_⟩
    rw [shared_iff]
    exact ⟨hk, hsg e he⟩
  · intro p hp
    obtain ⟨e, he, rfl⟩ := List.mem_map.1 hp
    exact hsg e he

/-- **C95 fails for some layouts of sg13g2**: if all layers have numbers that sky130A also has, as those of `Metal3`, `Via3` and
`Metal4`, every shape of them is put on a dummy layer. -/
theorem sg_taken_for_sky {lay out : Layout σ} (hl : (lay.map Prod.fst).Nodup) (h : convert sky sg lay = .ok out)
    (hsh : ∀ e ∈ lay, e.1 ∈ ([(30, 0), (49, 0), (50, 0)] : List Pair)) (q : Pair) :
    (shapesOn out q).Perm (lay.flatMap fun e => if (1000 + e.1.1, e.1.2) = q then e.2 else []) := by
  have hs : ∀ p ∈ ([(30, 0), (49, 0), (50, 0)] : List Pair), p ∈ shared ∧ targetsOf skyRows p = [(1000 + p.1, p.2)] := by
    decide +kernel
  refine (sky_converted hl h (fun e he => ((shared_iff _).1 (hs _ (hsh e he)).1).1) q).trans (List.Perm.of_eq ?_)
  refine List.flatMap_congr fun e he => ?_
  rw [(hs _ (hsh e he)).2]
  simp

theorem mem_shapesOn {lay : Layout σ} {q : Pair} {s : σ} : s ∈ shapesOn lay q ↔ ∃ e ∈ lay, e.1 = q ∧ s ∈ e.2 := by
  unfold shapesOn
  simp only [List.mem_flatMap, List.mem_filter, decide_eq_true_eq, and_assoc]

theorem mem_moved {rows : List (Pair × List Pair)} {lay out : Layout σ} (h : Moved rows lay out) {q : Pair} {s : σ} :
    s ∈ shapesOn out q ↔ ∃ e ∈ lay, q ∈ targetsOf rows e.1 ∧ s ∈ e.2 := by
  rw [(h q).mem_iff]
  simp only [List.mem_flatMap]
  refine exists_congr fun e => and_congr_right fun _ => ?_
  constructor
  · rintro ⟨t, ht, hs⟩
    split at hs
    · next h => exact ⟨h ▸ ht, hs⟩
    · cases hs
  · rintro ⟨h1, h2⟩
    exact ⟨q, h1, by rw [if_pos rfl]; exact h2⟩

theorem flatMap_eq {lay : Layout σ} {q : Pair} : (lay.flatMap fun e => if e.1 = q then e.2 else []) = shapesOn lay q := by
  unfold shapesOn
  induction lay with
  | nil => rfl
  | cons e lay ih =>
    rw [List.flatMap_cons, ih]
    by_cases h : e.1 = q
    · rw [if_pos h, List.filter_cons_of_pos (by simpa using h), List.flatMap_cons]
    · rw [if_neg h, List.filter_cons_of_neg (by simpa using h), List.nil_append]

theorem targets_row {rows : List (Pair × List Pair)} (hn : (rows.map Prod.fst).Nodup) {r : Pair × List Pair} (hr : r ∈ rows) :
    targetsOf rows r.1 = r.2 := by
  unfold targetsOf
  rw [lookup_mem hn hr]; rfl

/-- There and back, for any two tables that are inverse to each other. -/
theorem back {rows bck : List (Pair × List Pair)} (hn : (rows.map Prod.fst).Nodup) (hn' : (bck.map Prod.fst).Nodup)
    (hinv : ∀ r ∈ rows, r.2 ≠ [] ∧ ∀ t ∈ r.2, ∃ b ∈ bck, b.1 = t ∧ r.1 ∈ b.2) {lay out lay' out' : Layout σ}
    (hlay : ∀ e ∈ lay, ∃ r ∈ rows, r.1 = e.1) (h : Moved rows lay out) (hre : Reread out lay') (h' : Moved bck lay' out') :
    (∀ g s, s ∈ shapesOn lay g → s ∈ shapesOn out' g) ∧
    ∀ g, SingleTarget rows bck g → (shapesOn out' g).Perm (shapesOn lay g) := by
  constructor
  · intro g s hs
    obtain ⟨e, he, rfl, hse⟩ := mem_shapesOn.1 hs
    obtain ⟨r, hr, hre1⟩ := hlay e he
    obtain ⟨t, ht⟩ := List.exists_mem_of_ne_nil _ (hinv r hr).1
    obtain ⟨b, hb, hbt, hrb⟩ := (hinv r hr).2 t ht
    have h1 : s ∈ shapesOn out t := (mem_moved h).2 ⟨e, he, by rw [← hre1, targets_row hn hr]; exact ht, hse⟩
    rw [← (hre.2.2 t).mem_iff] at h1
    obtain ⟨e', he', rfl, hs'⟩ := mem_shapesOn.1 h1
    refine (mem_moved h').2 ⟨e', he', ?_, hs'⟩
    rw [← hbt, targets_row hn' hb, ← hre1]
    exact hrb
  · rintro g ⟨t, hgt, htg, hu, hu'⟩
    -- layers of the reread layout are targets of rows
    have hlay' : ∀ e ∈ lay', ∃ b ∈ bck, b.1 = e.1 := by
      intro e he
      obtain ⟨s, hs⟩ := List.exists_mem_of_ne_nil _ (hre.2.1 e he)
      have h1 : s ∈ shapesOn lay' e.1 := mem_shapesOn.2 ⟨e, he, rfl, hs⟩
      rw [(hre.2.2 e.1).mem_iff, mem_moved h] at h1
      obtain ⟨e0, he0, ht0, _⟩ := h1
      obtain ⟨r, hr, hr1⟩ := hlay e0 he0
      rw [← hr1, targets_row hn hr] at ht0
      obtain ⟨b, hb, hb1, _⟩ := (hinv r hr).2 _ ht0
      exact ⟨b, hb, hb1⟩
    have s1 : (shapesOn out' g).Perm (shapesOn lay' t) := by
      refine (h' g).trans (List.Perm.of_eq ?_)
      rw [← flatMap_eq]
      refine List.flatMap_congr fun e he => ?_
      obtain ⟨b, hb, hb1⟩ := hlay' e he
      rw [← hb1, targets_row hn' hb]
      by_cases hbt : b.1 = t
      · obtain rfl : b = (t, [g]) := List.inj_on_of_nodup_map hn' hb htg hbt
        simp
      · rw [if_neg hbt, List.flatMap_eq_nil_iff]
        intro q hq
        rw [if_neg]
        rintro rfl
        exact hbt (hu' b hb hq)
    have s2 : (shapesOn out t).Perm (shapesOn lay g) := by
      refine (h t).trans (List.Perm.of_eq ?_)
      rw [← flatMap_eq]
      refine List.flatMap_congr fun e he => ?_
      obtain ⟨b, hb, hb1⟩ := hlay e he
      rw [← hb1, targets_row hn hb]
      by_cases hbt : b.1 = g
      · obtain rfl : b = (g, [t]) := List.inj_on_of_nodup_map hn hb hgt hbt
        simp
      · rw [if_neg hbt, List.flatMap_eq_nil_iff]
        intro q hq
        rw [if_neg]
        rintro rfl
        exact hbt (hu b hb hq)
    exact s1.trans ((hre.2.2 t).trans s2)

/-- **C95, from sky130A and back (partial).** If a layout has only layers of the table, and the result has a layer whose numbers
sky130A does not have, converting the result back returns every shape to its layer; on layers with a single target (`sky_single`)
it returns nothing else.

Missing from the full property: results without such a layer (`sg_taken_for_sky`), and layers that share a target
(`li1_merged`). -/
theorem sky_back_partial {lay out lay' out' : Layout σ} (hl : (lay.map Prod.fst).Nodup) (h : convert sky sg lay = .ok out)
    (hlay : ∀ e ∈ lay, ∃ r ∈ skyRows, r.1 = e.1) (hre : Reread out lay') (hown : ∃ e ∈ lay', e.1 ∉ shared)
    (h' : convert sky sg lay' = .ok out') :
    (∀ g s, s ∈ shapesOn lay g → s ∈ shapesOn out' g) ∧
    ∀ g, SingleTarget skyRows sgRows g → (shapesOn out' g).Perm (shapesOn lay g) := by
  have h1 : Moved skyRows lay out := fun q => sky_converted hl h (fun e he => by
    obtain ⟨r, hr, e⟩ := hlay e he
    rw [← e]; exact (rows_known.1 r hr).1) q
  refine back skyRows_nodup sgRows_nodup (by decide +kernel) hlay h1 hre
    (fun q => sg_converted_partial hre.1 h' (fun e he => ?_) hown q)
  obtain ⟨s, hs⟩ := List.exists_mem_of_ne_nil _ (hre.2.1 e he)
  have h2 : s ∈ shapesOn lay' e.1 := mem_shapesOn.2 ⟨e, he, rfl, hs⟩
  rw [(hre.2.2 e.1).mem_iff, mem_moved h1] at h2
  obtain ⟨e0, he0, ht0, _⟩ := h2
  obtain ⟨r, hr, hr1⟩ := hlay e0 he0
  rw [← hr1, targets_row skyRows_nodup hr] at ht0
  exact (rows_known.1 r hr).2 _ ht0

/-- **C95, from sg13g2 and back (partial).** If a layout has only layers of the table, and one whose numbers sky130A does not have,
converting the result back returns every shape to its layer; on layers with a single target (`sg_single`) it returns nothing else. -/
theorem sg_back_partial {lay out lay' out' : Layout σ} (hl : (lay.map Prod.fst).Nodup) (h : convert sky sg lay = .ok out)
    (hlay : ∀ e ∈ lay, ∃ r ∈ sgRows, r.1 = e.1) (hown : ∃ e ∈ lay, e.1 ∉ shared) (hre : Reread out lay')
    (h' : convert sky sg lay' = .ok out') :
    (∀ g s, s ∈ shapesOn lay g → s ∈ shapesOn out' g) ∧
    ∀ g, SingleTarget sgRows skyRows g → (shapesOn out' g).Perm (shapesOn lay g) := by
  have h1 : Moved sgRows lay out := fun q => sg_converted_partial hl h (fun e he => by
    obtain ⟨r, hr, e⟩ := hlay e he
    rw [← e]; exact (rows_known.2 r hr).1) hown q
  refine back sgRows_nodup skyRows_nodup (by decide +kernel) hlay h1 hre
    (fun q => sky_converted hre.1 h' (fun e he => ?_) q)
  obtain ⟨s, hs⟩ := List.exists_mem_of_ne_nil _ (hre.2.1 e he)
  have h2 : s ∈ shapesOn lay' e.1 := mem_shapesOn.2 ⟨e, he, rfl, hs⟩
  rw [(hre.2.2 e.1).mem_iff, mem_moved h1] at h2
  obtain ⟨e0, he0, ht0, _⟩ := h2
  obtain ⟨r, hr, hr1⟩ := hlay e0 he0
  rw [← hr1, targets_row sgRows_nodup hr] at ht0
  exact (rows_known.2 r hr).2 _ ht0

def singleB (rows bck : List (Pair × List Pair)) (g : Pair) : Bool :=
  rows.any fun r => decide (r.1 = g) && match r.2 with
    | [t] => decide ((t, [g]) ∈ bck) && rows.all (fun r => !decide (t ∈ r.2) || decide (r.1 = g)) &&
        bck.all fun r => !decide (g ∈ r.2) || decide (r.1 = t)
    | _ => false

theorem of_singleB {rows bck : List (Pair × List Pair)} {g : Pair} (h : singleB rows bck g = true) : SingleTarget rows bck g := by
  obtain ⟨⟨a, b⟩, hr, hb⟩ := List.any_eq_true.1 h
  clear h
  rw [Bool.and_eq_true, decide_eq_true_eq] at hb
  obtain ⟨rfl, h⟩ := hb
  dsimp only at h
  split at h
  · next t =>
    simp only [Bool.and_eq_true, decide_eq_true_eq, List.all_eq_true, Bool.or_eq_true, Bool.not_eq_true',
      decide_eq_false_iff_not] at h
    exact ⟨t, hr, h.1.1, fun r hr ht => (h.1.2 r hr).resolve_left (not_not_intro ht),
      fun r hr ht => (h.2 r hr).resolve_left (not_not_intro ht)⟩
  · cases h

/-- The wells, implants, metals and vias, and the capacitor layers: all drawing layers but tap and diff. -/
theorem sky_single : ∀ g ∈ ([(64, 20), (64, 44), (93, 44), (94, 20), (66, 20), (66, 44), (67, 20), (67, 44), (68, 20), (68, 44),
    (69, 20), (69, 44), (70, 20), (70, 44), (71, 20), (71, 44), (72, 20), (82, 64), (97, 44)] : List Pair),
    SingleTarget skyRows sgRows g := fun g hg => of_singleB (by revert g; decide +kernel)

theorem sg_single : ∀ g ∈ ([(31, 0), (46, 0), (7, 0), (14, 0), (5, 0), (6, 0), (8, 0), (19, 0), (10, 0), (29, 0), (30, 0), (49, 0),
    (50, 0), (66, 0), (67, 0), (125, 0), (126, 0), (99, 39), (36, 0)] : List Pair), SingleTarget sgRows skyRows g :=
  fun g hg => of_singleB (by revert g; decide +kernel)

/-! ### Examples -/

/-- `li1` with a label, `mcon`, `met1`. -/
def exSky : Layout Nat := [((67, 20), [1, 2]), ((67, 5), [3]), ((67, 44), [4]), ((68, 20), [5])]

/-- The result as it is read again. -/
def exSg : Layout Nat := [((8, 0), [1, 2]), ((8, 2), [3]), ((8, 25), [3]), ((19, 0), [4]), ((10, 0), [5])]

theorem exSky_converted : ∃ out, convert sky sg exSky = .ok out ∧ Reread out exSg := by
  obtain ⟨out, h⟩ := shipped_converts exSky
  refine ⟨out, h, by decide +kernel, by decide +kernel, fun q => ?_⟩
  have h1 := sky_converted (by decide +kernel) h (fun e he => by
    obtain ⟨r, hr, e⟩ : ∃ r ∈ skyRows, r.1 = e.1 := by revert e; decide +kernel
    rw [← e]; exact (rows_known.1 r hr).1) q
  refine List.Perm.trans (List.Perm.of_eq ?_) h1.symm
  rw [← flatMap_eq]
  have t1 : targetsOf skyRows (67, 20) = [(8, 0)] := by decide +kernel
  have t2 : targetsOf skyRows (67, 5) = [(8, 2), (8, 25)] := by decide +kernel
  have t3 : targetsOf skyRows (67, 44) = [(19, 0)] := by decide +kernel
  have t4 : targetsOf skyRows (68, 20) = [(10, 0)] := by decide +kernel
  simp only [exSky, exSg, List.flatMap_cons, List.flatMap_nil, t1, t2, t3, t4, List.append_nil, List.append_assoc]

/-- The hypotheses of `sky_back_partial` hold of it. -/
theorem exSky_back : ∃ out', convert sky sg exSg = .ok out' ∧ (shapesOn out' (67, 20)).Perm [1, 2] ∧
    (shapesOn out' (67, 44)).Perm [4] ∧ 3 ∈ shapesOn out' (67, 5) := by
  obtain ⟨out, h, hre⟩ := exSky_converted
  obtain ⟨out', h'⟩ := shipped_converts exSg
  have hb := sky_back_partial (by decide +kernel) h (by decide +kernel) hre ⟨_, List.mem_cons_self, by decide +kernel⟩ h'
  exact ⟨out', h', hb.2 _ (sky_single _ (by decide)), hb.2 _ (sky_single _ (by decide)), hb.1 (67, 5) 3 (by decide +kernel)⟩

/-- **C95 fails for layers that share a target**: the pins of `li1` and its labels go to the same layer, so from there a pin comes back
on the layer of the labels as well. -/
theorem li1_merged {lay out : Layout σ} (hl : (lay.map Prod.fst).Nodup) (h : convert sky sg lay = .ok out) (ss : List σ)
    (hlay : lay = [((8, 2), ss)]) (q : Pair) (hq : q = (67, 16) ∨ q = (67, 5)) : (shapesOn out q).Perm ss := by
  subst hlay
  have h1 := sg_converted_partial hl h (fun e he => by
    obtain rfl := List.mem_singleton.1 he
    obtain ⟨r, hr, e⟩ : ∃ r ∈ sgRows, r.1 = (8, 2) := by decide +kernel
    dsimp only
    rw [← e]; exact (rows_known.2 r hr).1) ⟨_, List.mem_cons_self, by show ((8, 2) : Pair) ∉ shared; decide +kernel⟩ q
  have t : targetsOf sgRows (8, 2) = [(67, 16), (67, 5)] := by decide +kernel
  simp only [List.flatMap_cons, List.flatMap_nil, t, List.append_nil] at h1
  rcases hq with rfl | rfl
  · simpa using h1
  · simpa using h1

/-- **C95 fails for some layouts of sky130A**: `met2`, `via2` and `met3` come back on dummy layers. -/
theorem sky_lost {s1 s2 s3 : σ} {out lay' out' : Layout σ}
    (h : convert sky sg [((69, 20), [s1]), ((69, 44), [s2]), ((70, 20), [s3])] = .ok out) (hre : Reread out lay')
    (h' : convert sky sg lay' = .ok out') :
    s1 ∈ shapesOn out' (1030, 0) ∧ ∀ g : Pair, g.1 < 1000 → shapesOn out' g = [] := by
  have h1 : Moved skyRows _ out := fun q => sky_converted (by
    show ([(69, 20), (69, 44), (70, 20)] : List Pair).Nodup
    decide +kernel) h (fun e he => by
    obtain ⟨r, hr, e⟩ : ∃ r ∈ skyRows, r.1 = e.1 := by
      simp only [List.mem_cons, List.not_mem_nil, or_false] at he
      rcases he with rfl | rfl | rfl <;> dsimp only <;> decide +kernel
    rw [← e]; exact (rows_known.1 r hr).1) q
  have t1 : targetsOf skyRows (69, 20) = [(30, 0)] := by decide +kernel
  have t2 : targetsOf skyRows (69, 44) = [(49, 0)] := by decide +kernel
  have t3 : targetsOf skyRows (70, 20) = [(50, 0)] := by decide +kernel
  have hall : ∀ e ∈ lay', e.1 ∈ ([(30, 0), (49, 0), (50, 0)] : List Pair) := by
    intro e he
    obtain ⟨s, hs⟩ := List.exists_mem_of_ne_nil _ (hre.2.1 e he)
    have h2 : s ∈ shapesOn lay' e.1 := mem_shapesOn.2 ⟨e, he, rfl, hs⟩
    rw [(hre.2.2 e.1).mem_iff, mem_moved h1] at h2
    obtain ⟨e0, he0, ht0, _⟩ := h2
    simp only [List.mem_cons, List.not_mem_nil, or_false] at he0
    rcases he0 with rfl | rfl | rfl
    · rw [t1] at ht0; simp_all
    · rw [t2] at ht0; simp_all
    · rw [t3] at ht0; simp_all
  have hd := sg_taken_for_sky hre.1 h' hall
  constructor
  · rw [(hd _).mem_iff, List.mem_flatMap]
    have h2 : s1 ∈ shapesOn out (30, 0) := (mem_moved h1).2 ⟨_, List.mem_cons_self, by rw [t1]; exact List.mem_cons_self,
      List.mem_cons_self⟩
    rw [← (hre.2.2 _).mem_iff] at h2
    obtain ⟨e, he, he1, hs⟩ := mem_shapesOn.1 h2
    exact ⟨e, he, by rw [he1, if_pos (by decide)]; exact hs⟩
  · intro g hg
    have := hd g
    rw [List.flatMap_eq_nil_iff.2] at this
    · exact this.eq_nil
    · intro e he
      rw [if_neg]
      rintro rfl
      dsimp only at hg
      omega

end Verif.LayerMap
