import Verif.Magic.Parse
import Mathlib.Data.List.Nodup
import Mathlib.Data.List.Induction

/-!
# C67, C68: the files of a run
-/

namespace Verif.Magic

/-! ### Specification -/

/-- What a file `<cell>.ext` says. -/
def ExtOf (lines : List Str) (e : ExtData) : Prop :=
  Collected PortLine lines e.ports ∧ Collected NodeLine lines e.nodes ∧ Collected DeviceLine lines e.devices

/-- All devices are of a type Magic knows. -/
def KnownDevices (lines : List Str) : Prop := ∀ line ∈ lines, ∀ p, DeviceLine line p → KnownType p.type

/-- What a file `<cell>.res.ext` says. -/
def ResOf (lines : List Str) (r : ResExtData) : Prop :=
  Collected RNodeLine lines r.rnodes ∧ Collected ResistLine lines r.resistors

/-- All values of resistors are numbers. -/
def ReadableValues (lines : List Str) : Prop :=
  ∀ line ∈ lines, ∀ a b v, ResistText line a b v → Numeric v → ∃ q, DecNum v q

/-- The file with the capacitances of a cell. -/
def mainName (c : Str) : Str := c ++ ".ext".toList

/-- The file with the resistors of a cell. -/
def resName (c : Str) : Str := c ++ ".res.ext".toList

/-- A cell name that can be recognised in file names. -/
def Clean (c : Str) : Prop := '\n' ∉ c ∧ ¬ ".ext".toList <:+: c ∧ ¬ ".res".toList <:+ c

/-- A directory in which file names are unique and all `*.ext` files belong to recognisable cells. -/
def CleanDir (d : Dir) : Prop :=
  (d.map Prod.fst).Nodup ∧
    ∀ f ∈ d, ".ext".toList <:+ f.1 → ∃ c, Clean c ∧ (f.1 = mainName c ∨ f.1 = resName c)

/-- The data of a cell is what its two files say. -/
def CellOf (d : Dir) (c : Str) (e : CellExtData) : Prop :=
  ∃ lines, (mainName c, lines) ∈ d ∧ ExtOf lines e.ext ∧ (e.res = none ↔ ∀ rl, (resName c, rl) ∉ d) ∧
    ∀ r, e.res = some r → ∃ rl, (resName c, rl) ∈ d ∧ ResOf rl r

/-! ### One file -/

/-- C67: the parser of extraction files fails exactly for an unknown type of device, and otherwise finds what the lines
say, in their order. -/
theorem ext_exact_partial (lines : List Str) (e : ExtData) : parseExt lines = .ok e ↔ KnownDevices lines ∧ ExtOf lines e := by
  unfold parseExt
  rw [Exc.bind_ok]
  simp only [Exc.pure_ok]
  unfold ExtOf KnownDevices
  rw [collected_filterMap port_exact, collected_filterMap node_exact]
  have hd := collected_mapM (f := deviceOf) (P := fun line => ∀ p, DeviceLine line p → KnownType p.type) device_exact
    device_unique lines e.devices
  constructor
  · rintro ⟨os, h1, rfl⟩
    obtain ⟨h2, h3⟩ := hd.1 ⟨os, h1, rfl⟩
    exact ⟨h2, rfl, rfl, h3⟩
  · rintro ⟨h1, h2, h3, h4⟩
    obtain ⟨os, h5, h6⟩ := hd.2 ⟨h1, h4⟩
    refine ⟨os, h5, ?_⟩
    rw [← h2, ← h3, ← h6]

/-- C67: the same for the files with resistors, which fail exactly for values that are not numbers. -/
theorem res_exact_partial (lines : List Str) (r : ResExtData) : parseResExt lines = .ok r ↔ ReadableValues lines ∧ ResOf lines r := by
  unfold parseResExt
  rw [Exc.bind_ok]
  simp only [Exc.pure_ok]
  unfold ResOf ReadableValues
  rw [collected_filterMap rnode_exact]
  have hd := collected_mapM (f := resistorOf) (P := fun line => ∀ a b v, ResistText line a b v → Numeric v → ∃ q, DecNum v q)
    resist_exact resist_unique lines r.resistors
  constructor
  · rintro ⟨os, h1, rfl⟩
    obtain ⟨h2, h3⟩ := hd.1 ⟨os, h1, rfl⟩
    exact ⟨h2, rfl, h3⟩
  · rintro ⟨h1, h2, h4⟩
    obtain ⟨os, h5, h6⟩ := hd.2 ⟨h1, h4⟩
    refine ⟨os, h5, ?_⟩
    rw [← h2, ← h6]

theorem ext_exists {lines : List Str} (h : KnownDevices lines) : ∃ e, parseExt lines = .ok e := by
  have hd := fun out => collected_mapM (f := deviceOf) (P := fun line => ∀ p, DeviceLine line p → KnownType p.type) device_exact
    device_unique lines out
  have : ∃ os, lines.mapM deviceOf = .ok os := by
    clear hd
    induction lines with
    | nil => exact ⟨[], rfl⟩
    | cons l ls ih =>
      obtain ⟨os, hos⟩ := ih (fun x hx => h x (by simp [hx]))
      have hl : ∃ o, deviceOf l = .ok o := by
        by_cases hp : ∃ p, DeviceLine l p
        · obtain ⟨p, hp⟩ := hp
          refine ⟨some p, (device_exact l _).2 ⟨h l (by simp), fun q => ⟨fun e => ?_, fun hq => ?_⟩⟩⟩
          · obtain rfl := Option.some.inj e; exact hp
          · rw [device_unique l p q hp hq]
        · exact ⟨none, (device_exact l _).2 ⟨h l (by simp), fun q => ⟨fun e => (by cases e), fun hq => absurd ⟨q, hq⟩ hp⟩⟩⟩
      obtain ⟨o, ho⟩ := hl
      exact ⟨o :: os, (Exc.mapM_ok _ _ _).2 (.cons ho ((Exc.mapM_ok _ _ _).1 hos))⟩
  obtain ⟨os, hos⟩ := this
  exact ⟨_, by unfold parseExt; rw [hos]; rfl⟩

theorem res_exists {lines : List Str} (h : ReadableValues lines) : ∃ e, parseResExt lines = .ok e := by
  have : ∃ os, lines.mapM resistorOf = .ok os := by
    induction lines with
    | nil => exact ⟨[], rfl⟩
    | cons l ls ih =>
      obtain ⟨os, hos⟩ := ih (fun x hx => h x (by simp [hx]))
      have hl : ∃ o, resistorOf l = .ok o := by
        by_cases hp : ∃ p, ResistLine l p
        · obtain ⟨p, hp⟩ := hp
          refine ⟨some p, (resist_exact l _).2 ⟨h l (by simp), fun q => ⟨fun e => ?_, fun hq => ?_⟩⟩⟩
          · obtain rfl := Option.some.inj e; exact hp
          · rw [resist_unique l p q hp hq]
        · exact ⟨none, (resist_exact l _).2 ⟨h l (by simp), fun q => ⟨fun e => (by cases e), fun hq => absurd ⟨q, hq⟩ hp⟩⟩⟩
      obtain ⟨o, ho⟩ := hl
      exact ⟨o :: os, (Exc.mapM_ok _ _ _).2 (.cons ho ((Exc.mapM_ok _ _ _).1 hos))⟩
  obtain ⟨os, hos⟩ := this
  exact ⟨_, by unfold parseResExt; rw [hos]; rfl⟩

theorem extOf_unique {lines : List Str} {e e' : ExtData} (h : ExtOf lines e) (h' : ExtOf lines e') : e = e' := by
  have u1 := collected_unique (fun l a b ha hb => by
    have := (port_exact l a).2 ha; rw [(port_exact l b).2 hb] at this; exact (Option.some.inj this).symm) h.1 h'.1
  have u2 := collected_unique (fun l a b ha hb => by
    have := (node_exact l a).2 ha; rw [(node_exact l b).2 hb] at this; exact (Option.some.inj this).symm) h.2.1 h'.2.1
  have u3 := collected_unique device_unique h.2.2 h'.2.2
  cases e; cases e'
  simp only at u1 u2 u3
  rw [u1, u2, u3]

theorem resOf_unique {lines : List Str} {e e' : ResExtData} (h : ResOf lines e) (h' : ResOf lines e') : e = e' := by
  have u1 := collected_unique (fun l a b ha hb => by
    have := (rnode_exact l a).2 ha; rw [(rnode_exact l b).2 hb] at this; exact (Option.some.inj this).symm) h.1 h'.1
  have u3 := collected_unique resist_unique h.2 h'.2
  cases e; cases e'
  simp only at u1 u3
  rw [u1, u3]

/-! ### File names -/

theorem clean_tail {x : Char} {c : Str} (h : Clean (x :: c)) : Clean c := by
  refine ⟨fun hm => h.1 (by simp [hm]), fun hi => h.2.1 ?_, fun hs => h.2.2 (hs.trans (List.suffix_cons x c))⟩
  exact hi.trans (List.suffix_cons x c).isInfix

theorem prefix_append_long {p s t : Str} (h : p <+: s ++ t) (hl : p.length ≤ s.length) : p <+: s := by
  exact List.prefix_of_prefix_length_le h (List.prefix_append s t) hl

theorem no_ext_prefix {x : Char} {c t : Str} (h : Clean (x :: c)) (ht : t.head? = some '.') :
    ¬ ".ext".toList <+: (x :: c) ++ t := by
  intro hp
  by_cases hl : 3 ≤ c.length
  · exact h.2.1 (prefix_append_long hp (by simpa using hl)).isInfix
  · cases t with
    | nil => cases ht
    | cons y t =>
      obtain rfl : y = '.' := by simpa using ht
      match c, hl with
      | [], _ => simp at hp
      | [a], _ => simp at hp
      | [a, b], _ => simp at hp
      | a :: b :: e :: r, hl => simp at hl

theorem no_res_prefix {x : Char} {c : Str} (h : Clean (x :: c)) (t : Str) (ht : t.head? = some '.') :
    ¬ ".res.ext".toList <+: (x :: c) ++ t := by
  intro hp
  by_cases hl : 7 ≤ c.length
  · have := (prefix_append_long hp (by simpa using hl)).isInfix
    exact h.2.1 (List.IsInfix.trans (l₂ := ".res.ext".toList) ⟨".res".toList, [], rfl⟩ this)
  · cases t with
    | nil => cases ht
    | cons y t =>
      obtain rfl : y = '.' := by simpa using ht
      match c, hl with
      | [], _ => simp at hp
      | [a], _ => simp at hp
      | [a, b], _ => simp at hp
      | [a, b, e], _ =>
        simp at hp
        obtain ⟨rfl, rfl, rfl, rfl, -⟩ := hp
        exact h.2.2 (List.suffix_refl _)
      | [a, b, e, f], _ => simp at hp
      | [a, b, e, f, g], _ => simp at hp
      | [a, b, e, f, g, i], _ => simp at hp
      | a :: b :: e :: f :: g :: i :: j :: r, hl => simp at hl

theorem splitName_main {c : Str} (h : Clean c) : splitName (mainName c) = some (c, false) := by
  unfold mainName
  induction c with
  | nil => decide
  | cons x c ih =>
    rw [List.cons_append, splitName]
    have h1 : ¬ (".res.ext".toList.isPrefixOf (x :: (c ++ ".ext".toList)) = true) := by
      rw [List.isPrefixOf_iff_prefix]
      exact no_res_prefix h ".ext".toList rfl
    have h2 : ¬ (".ext".toList.isPrefixOf (x :: (c ++ ".ext".toList)) = true) := by
      rw [List.isPrefixOf_iff_prefix]
      exact no_ext_prefix h rfl
    have h3 : ¬ x = '\n' := fun e => h.1 (by simp [e])
    rw [if_neg h1, if_neg h2, if_neg h3, ih (clean_tail h)]
    rfl

theorem splitName_res {c : Str} (h : Clean c) : splitName (resName c) = some (c, true) := by
  unfold resName
  induction c with
  | nil => decide
  | cons x c ih =>
    rw [List.cons_append, splitName]
    have h1 : ¬ (".res.ext".toList.isPrefixOf (x :: (c ++ ".res.ext".toList)) = true) := by
      rw [List.isPrefixOf_iff_prefix]
      exact no_res_prefix h ".res.ext".toList rfl
    have h2 : ¬ (".ext".toList.isPrefixOf (x :: (c ++ ".res.ext".toList)) = true) := by
      rw [List.isPrefixOf_iff_prefix]
      exact no_ext_prefix h rfl
    have h3 : ¬ x = '\n' := fun e => h.1 (by simp [e])
    rw [if_neg h1, if_neg h2, if_neg h3, ih (clean_tail h)]
    rfl

/-! ### Tables of files -/

/-- Files of one kind with their cells. -/
def kind (b : Bool) (d : Dir) : List (Str × List Str) :=
  d.filterMap fun f => match splitName f.1 with
    | none => none
    | some (c, b') => if b' = b then some (c, f.2) else none

theorem filePaths_eq (d : Dir) :
    filePaths d = (Dict.ofList (kind false (extFiles d)), Dict.ofList (kind true (extFiles d))) := by
  unfold filePaths
  induction extFiles d using List.reverseRecOn with
  | nil => rfl
  | append_singleton l f ih =>
    rw [List.foldl_append, ih]
    unfold kind
    rw [List.filterMap_append, List.filterMap_append]
    simp only [List.foldl_cons, List.foldl_nil]
    rcases hs : splitName f.1 with - | ⟨c, b⟩
    · simp [hs]
    · cases b
      · simp [hs, Dict.ofList_snoc]
      · simp [hs, Dict.ofList_snoc]

theorem mem_kind {d : Dir} (hd : CleanDir d) (b : Bool) (c : Str) (lines : List Str) :
    (c, lines) ∈ kind b (extFiles d) ↔ Clean c ∧ ((if b then resName c else mainName c), lines) ∈ d := by
  unfold kind extFiles
  simp only [List.mem_filterMap, List.mem_filter]
  constructor
  · rintro ⟨⟨n, ls⟩, ⟨hf, he⟩, hs⟩
    rw [List.isSuffixOf_iff_suffix] at he
    obtain ⟨c', hc', hn⟩ := hd.2 _ hf he
    rcases hn with hn | hn
    · simp only at hn hs
      rw [hn, splitName_main hc'] at hs
      simp only at hs
      split_ifs at hs with hb
      cases hs
      subst hb
      exact ⟨hc', by rw [← hn]; exact hf⟩
    · simp only at hn hs
      rw [hn, splitName_res hc'] at hs
      simp only at hs
      split_ifs at hs with hb
      cases hs
      subst hb
      exact ⟨hc', by rw [← hn]; exact hf⟩
  · rintro ⟨hc, hm⟩
    cases b
    · refine ⟨(mainName c, lines), ⟨hm, ?_⟩, ?_⟩
      · rw [List.isSuffixOf_iff_suffix]; exact List.suffix_append _ _
      · simp only [splitName_main hc]; rfl
    · refine ⟨(resName c, lines), ⟨hm, ?_⟩, ?_⟩
      · rw [List.isSuffixOf_iff_suffix]
        exact ⟨c ++ ".res".toList, by simp [resName]⟩
      · simp only [splitName_res hc]; rfl

theorem file_unique {d : Dir} (hd : (d.map Prod.fst).Nodup) {n : Str} {a b : List Str} (ha : (n, a) ∈ d) (hb : (n, b) ∈ d) :
    a = b := by
  have := List.inj_on_of_nodup_map hd ha hb rfl
  exact (Prod.mk.inj this).2

/-- In a dictionary built from entries with one value per key, the entries are found. -/
theorem get?_ofList_of_unique {l : List (Str × List Str)} (hu : ∀ k a b, (k, a) ∈ l → (k, b) ∈ l → a = b) (k : Str) (v : List Str) :
    (Dict.ofList l).get? k = some v ↔ (k, v) ∈ l := by
  rw [Dict.get?_ofList]
  constructor
  · intro h
    obtain ⟨⟨k', v'⟩, hf, rfl⟩ := Option.map_eq_some_iff.1 h
    have h1 := List.mem_of_find?_eq_some hf
    have h2 := List.find?_some hf
    simp only [decide_eq_true_eq] at h2
    subst h2
    exact List.mem_reverse.1 h1
  · intro hm
    cases hf : l.reverse.find? (fun p => decide (p.1 = k)) with
    | none =>
      rw [List.find?_eq_none] at hf
      exact absurd (decide_eq_true rfl) (hf (k, v) (List.mem_reverse.2 hm))
    | some p =>
      obtain ⟨k', v'⟩ := p
      have h1 := List.mem_reverse.1 (List.mem_of_find?_eq_some hf)
      have h2 := List.find?_some hf
      simp only [decide_eq_true_eq] at h2
      subst h2
      rw [hu _ _ _ hm h1]
      rfl

theorem get?_kind {d : Dir} (hd : CleanDir d) (b : Bool) (c : Str) (lines : List Str) :
    (Dict.ofList (kind b (extFiles d))).get? c = some lines ↔
      Clean c ∧ ((if b then resName c else mainName c), lines) ∈ d := by
  rw [get?_ofList_of_unique, mem_kind hd]
  intro k u v hu hv
  exact file_unique hd.1 ((mem_kind hd b k u).1 hu).2 ((mem_kind hd b k v).1 hv).2

theorem cellData_ok (res : Dict Str (List Str)) (f : Str × List Str) (x : Str × CellExtData) :
    cellData res f = .ok x ↔ x.1 = f.1 ∧ parseExt f.2 = .ok x.2.ext ∧ (x.2.res = none ↔ res.get? f.1 = none) ∧
      ∀ rl, res.get? f.1 = some rl → ∃ r, x.2.res = some r ∧ parseResExt rl = .ok r := by
  unfold cellData
  rw [Exc.bind_ok]
  cases hg : res.get? f.1 with
  | none =>
    simp only [Exc.pure_ok]
    constructor
    · rintro ⟨e, h, rfl⟩
      exact ⟨rfl, h, by simp, by simp⟩
    · rintro ⟨h1, h2, h3, -⟩
      refine ⟨_, h2, ?_⟩
      obtain ⟨c, e, r⟩ := x
      simp only [iff_true] at h1 h3
      rw [h1, h3]
  | some rl =>
    simp only [Exc.bind_ok, Exc.pure_ok]
    constructor
    · rintro ⟨e, h, r, hr, rfl⟩
      refine ⟨rfl, h, by simp, fun rl' h' => ?_⟩
      cases h'
      exact ⟨r, rfl, hr⟩
    · rintro ⟨h1, h2, -, h4⟩
      obtain ⟨r, hr, hp⟩ := h4 rl rfl
      refine ⟨_, h2, r, hp, ?_⟩
      obtain ⟨c, e, r'⟩ := x
      simp only at h1 hr
      rw [h1, hr]

/-- C68: if all files belong to recognisable cells, reading a run gives every cell that has an extraction file, once, with
what its own files say; it fails exactly if there is no extraction file or one of the files is not readable. -/
theorem run_exact_partial {d : Dir} (hd : CleanDir d) :
    ((∃ cells, parseRun d = .ok cells) ↔
      (∃ c lines, Clean c ∧ (mainName c, lines) ∈ d) ∧
      ∀ c lines, Clean c → (mainName c, lines) ∈ d → KnownDevices lines ∧ ∀ rl, (resName c, rl) ∈ d → ReadableValues rl) ∧
    ∀ cells, parseRun d = .ok cells → (cells.map Prod.fst).Nodup ∧ ∀ c e, (c, e) ∈ cells ↔ Clean c ∧ CellOf d c e := by
  have hmain := fun c lines => get?_kind hd false c lines
  have hres := fun c lines => get?_kind hd true c lines
  simp only [Bool.false_eq_true, if_false, if_true] at hmain hres
  have hnd := Dict.nodup_ofList (kind false (extFiles d))
  unfold parseRun
  rw [filePaths_eq]
  dsimp only
  generalize hM : Dict.ofList (kind false (extFiles d)) = M at *
  generalize Dict.ofList (kind true (extFiles d)) = R at *
  have hmem : ∀ c lines, (c, lines) ∈ M ↔ Clean c ∧ (mainName c, lines) ∈ d := by
    intro c lines
    rw [Dict.mem_iff_get? hnd, hmain]
  have hresn : ∀ c, Clean c → (R.get? c = none ↔ ∀ rl, (resName c, rl) ∉ d) := by
    intro c hc
    rw [Option.eq_none_iff_forall_ne_some]
    refine forall_congr' fun rl => ?_
    rw [Ne, hres]
    simp [hc]
  have hne : M = [] ↔ ¬ ∃ c lines, Clean c ∧ (mainName c, lines) ∈ d := by
    constructor
    · rintro h ⟨c, lines, hc⟩
      have := (hmem c lines).2 hc
      rw [h] at this
      simp at this
    · intro h
      rw [List.eq_nil_iff_forall_not_mem]
      rintro ⟨c, lines⟩ hm
      exact h ⟨c, lines, (hmem c lines).1 hm⟩
  constructor
  · constructor
    · rintro ⟨cells, h⟩
      split_ifs at h with he
      rw [hne, not_not] at he
      refine ⟨he, fun c lines hc hm => ?_⟩
      rw [Exc.mapM_ok] at h
      have hx := (hmem c lines).2 ⟨hc, hm⟩
      obtain ⟨x, -, hx⟩ : ∃ x ∈ cells, cellData R (c, lines) = .ok x := by
        clear hM hmem hne hnd hmain he
        induction h with
        | nil => simp at hx
        | cons h1 _ ih =>
          rcases List.mem_cons.1 hx with rfl | hx
          · exact ⟨_, by simp, h1⟩
          · obtain ⟨x, h2, h3⟩ := ih hx
            exact ⟨x, by simp [h2], h3⟩
      obtain ⟨-, h2, -, h4⟩ := (cellData_ok _ _ _).1 hx
      refine ⟨((ext_exact_partial _ _).1 h2).1, fun rl hrl => ?_⟩
      obtain ⟨r, -, hr⟩ := h4 rl ((hres c rl).2 ⟨hc, hrl⟩)
      exact ((res_exact_partial _ _).1 hr).1
    · rintro ⟨he, hall⟩
      rw [if_neg (by rw [hne, not_not]; exact he)]
      have hall' : ∀ f ∈ M, ∃ x, cellData R f = .ok x := by
        rintro ⟨c, lines⟩ hf
        obtain ⟨hc, hm⟩ := (hmem c lines).1 hf
        obtain ⟨hk, hr⟩ := hall c lines hc hm
        obtain ⟨e, he⟩ := ext_exists hk
        cases hg : R.get? c with
        | none =>
          refine ⟨(c, ⟨e, none⟩), (cellData_ok _ _ _).2 ⟨rfl, he, by simp [hg], fun rl h => ?_⟩⟩
          simp only [hg] at h
          cases h
        | some rl =>
          obtain ⟨r, hr⟩ := res_exists (hr rl ((hres c rl).1 hg).2)
          refine ⟨(c, ⟨e, some r⟩), (cellData_ok _ _ _).2 ⟨rfl, he, by simp [hg], fun rl' h => ?_⟩⟩
          simp only [hg] at h
          cases h
          exact ⟨r, rfl, hr⟩
      clear hM hmem hne hnd hmain he
      induction M with
      | nil => exact ⟨[], rfl⟩
      | cons f M ih =>
        obtain ⟨x, hx⟩ := hall' f (by simp)
        obtain ⟨xs, hxs⟩ := ih (fun g hg => hall' g (by simp [hg]))
        exact ⟨x :: xs, (Exc.mapM_ok _ _ _).2 (.cons hx ((Exc.mapM_ok _ _ _).1 hxs))⟩
  · intro cells h
    split_ifs at h with he
    rw [Exc.mapM_ok] at h
    have hkeys : cells.map Prod.fst = Dict.keys M := by
      clear hM hmem hne hnd hmain he
      induction h with
      | nil => rfl
      | cons h1 _ ih =>
        rw [List.map_cons, Dict.keys_cons, ih, ((cellData_ok _ _ _).1 h1).1]
    have hmem2 : ∀ x, x ∈ cells → ∃ f ∈ M, cellData R f = .ok x := by
      intro x hx
      clear hM hmem hne hnd hmain he hkeys
      induction h with
      | nil => simp at hx
      | @cons f y M' cs h1 _ ih =>
        rcases List.mem_cons.1 hx with rfl | hx
        · exact ⟨f, by simp, h1⟩
        · obtain ⟨g, h2, h3⟩ := ih hx
          exact ⟨g, by simp [h2], h3⟩
    have fwd : ∀ c e, (c, e) ∈ cells → Clean c ∧ CellOf d c e := by
      intro c e hx
      obtain ⟨⟨c', lines⟩, hf, hx⟩ := hmem2 _ hx
      obtain ⟨h1, h2, h3, h4⟩ := (cellData_ok _ _ _).1 hx
      simp only at h1 h2 h3 h4
      subst h1
      obtain ⟨hc, hm⟩ := (hmem c lines).1 hf
      refine ⟨hc, lines, hm, ((ext_exact_partial _ _).1 h2).2, h3.trans (hresn c hc), fun r hr => ?_⟩
      cases hg : R.get? c with
      | none => rw [h3.2 hg] at hr; cases hr
      | some rl =>
        obtain ⟨r', e1, e2⟩ := h4 rl hg
        rw [hr] at e1
        cases e1
        exact ⟨rl, ((hres c rl).1 hg).2, ((res_exact_partial _ _).1 e2).2⟩
    have hnd' : (cells.map Prod.fst).Nodup := by rw [hkeys]; exact hnd
    refine ⟨hnd', fun c e => ⟨fwd c e, ?_⟩⟩
    rintro ⟨hc, lines, hm, h1, h2, h3⟩
    have : c ∈ cells.map Prod.fst := by
      rw [hkeys, Dict.mem_keys]
      exact ⟨lines, (hmem c lines).2 ⟨hc, hm⟩⟩
    obtain ⟨⟨c', e'⟩, hx, rfl⟩ := List.mem_map.1 this
    obtain ⟨-, lines', hm', h1', h2', h3'⟩ := fwd _ _ hx
    obtain rfl := file_unique hd.1 hm hm'
    have e1 := extOf_unique h1 h1'
    have e2 : e.res = e'.res := by
      cases hr : e.res with
      | none => exact (h2'.2 (h2.1 hr)).symm
      | some r =>
        obtain ⟨rl, a1, a2⟩ := h3 r hr
        cases hr' : e'.res with
        | none => exact absurd a1 (h2'.1 hr' rl)
        | some r' =>
          obtain ⟨rl', b1, b2⟩ := h3' r' hr'
          obtain rfl := file_unique hd.1 a1 b1
          rw [resOf_unique a2 b2]
    obtain ⟨x, y⟩ := e
    obtain ⟨x', y'⟩ := e'
    simp only at e1 e2
    rw [e1, e2]
    exact hx

end Verif.Magic
