import Verif.Magic.Files
import Verif.Magic.Script
import Mathlib.Tactic.LinearCombination

/-!
# C67–C69: the report of a Magic run
-/

namespace Verif.Magic

/-! ### Specification -/

/-- Entries of the report of one cell in one group. -/
def shown (es : List Entry) (c : Str) (g : String) : List Entry := es.filter fun e => decide (e.cell = c ∧ e.group = g)

/-- A coordinate of the report, in µm, is the one of the extraction, which counts steps of 5 nm. -/
def At (dbu : ℚ) (v : ℤ) (z : ℤ) : Prop := (v : ℚ) * dbu = z / 200

/-- A point is shown as a square of 20 database units with its lower left corner at the point. -/
def PointBox (dbu : ℚ) (x y : ℤ) (b : Box) : Prop := At dbu b.x1 x ∧ At dbu b.y1 y ∧ b.x2 = b.x1 + 20 ∧ b.y2 = b.y1 + 20

def PortShown (dbu : ℚ) (p : Port) (e : Entry) : Prop :=
  e.name = [p.net, " (".toList, p.layer, ")".toList].flatten ∧
    ∃ b, e.boxes = [b] ∧ At dbu b.x1 p.xBot ∧ At dbu b.y1 p.yBot ∧ At dbu b.x2 p.xTop ∧ At dbu b.y2 p.yTop

def NodeShown (dbu : ℚ) (p : Node) (e : Entry) : Prop :=
  e.name = [p.net, " (".toList, p.layer, ")".toList].flatten ∧ ∃ b, e.boxes = [b] ∧ PointBox dbu p.xBot p.yBot b

def DeviceShown (dbu : ℚ) (p : Device) (e : Entry) : Prop :=
  e.name = ["Type=".toList, p.type, " Model=".toList, p.model].flatten ∧
    ∃ b, e.boxes = [b] ∧ At dbu b.x1 p.xBot ∧ At dbu b.y1 p.yBot ∧ At dbu b.x2 p.xTop ∧ At dbu b.y2 p.yTop

def ResNodeShown (dbu : ℚ) (p : ResNode) (e : Entry) : Prop :=
  e.name = p.name ∧ ∃ b, e.boxes = [b] ∧ PointBox dbu p.xBot p.yBot b

/-- A resistor is shown under its number, nodes and value, at the nodes with its two names. -/
def ResistorShown (pr : ℚ → Str) (dbu : ℚ) (nodes : List ResNode) (r : Resistor × Nat) (e : Entry) : Prop :=
  e.name = ["#".toList, (toString r.2).toList, " ".toList, r.1.node1, "↔︎".toList, r.1.node2, " = ".toList, pr r.1.value,
    " Ω".toList].flatten ∧
  List.Forall₂ (fun (n : ResNode) b => PointBox dbu n.xBot n.yBot b)
    (nodes.filter (fun n => n.name = r.1.node1) ++ nodes.filter (fun n => n.name = r.1.node2)) e.boxes

/-! ### Coordinates -/

theorem at_toDbu {rnd : ℚ → ℤ} (hr : ∀ z : ℤ, rnd z = z) {dbu : ℚ} {k : ℤ} (hk : 200 * dbu * k = 1) (z : ℤ) :
    At dbu (toDbu rnd dbu z) z ∧ rnd (z / 200 / dbu + 20) = toDbu rnd dbu z + 20 := by
  have hd : dbu ≠ 0 := by rintro rfl; simp at hk
  have e : (z : ℚ) / 200 / dbu = ((z * k : ℤ) : ℚ) := by
    push_cast
    rw [div_div, div_eq_iff (mul_ne_zero (by norm_num) hd)]
    linear_combination -(z : ℚ) * hk
  unfold At toDbu
  rw [e, hr]
  refine ⟨?_, ?_⟩
  · push_cast
    linear_combination (z : ℚ) / 200 * hk
  · rw [show (((z * k : ℤ) : ℚ) + 20) = ((z * k + 20 : ℤ) : ℚ) by push_cast; ring, hr]

theorem shown_cell {es : List Entry} {c : Str} (h : ∀ e ∈ es, e.cell = c) (g : String) :
    shown es c g = es.filter fun e => decide (e.group = g) := by
  unfold shown
  apply List.filter_congr
  intro e he
  simp [h e he]

theorem shown_other {es : List Entry} {c c' : Str} (h : ∀ e ∈ es, e.cell = c') (hc : c' ≠ c) (g : String) : shown es c g = [] := by
  unfold shown
  rw [List.filter_eq_nil_iff]
  intro e he
  simp [h e he, hc]

theorem resEntries_cell (rnd : ℚ → ℤ) (pr : ℚ → Str) (dbu : ℚ) (c : Str) (x : Option ResExtData) :
    ∀ e ∈ resEntries rnd pr dbu c x, e.cell = c ∧ e.group ∈ ["Resistor Nodes", "Resistors"] := by
  cases x with
  | none => intro e he; simp [resEntries] at he
  | some r =>
    intro e he
    simp only [resEntries, List.mem_append, List.mem_map] at he
    rcases he with ⟨p, -, rfl⟩ | ⟨p, -, rfl⟩ <;> simp

theorem resEntries_none {rnd : ℚ → ℤ} {pr : ℚ → Str} {dbu : ℚ} {c : Str} {x : Option ResExtData} {g : String}
    (hg : g ∉ ["Resistor Nodes", "Resistors"]) : (resEntries rnd pr dbu c x).filter (fun e => decide (e.group = g)) = [] := by
  rw [List.filter_eq_nil_iff]
  intro e he
  have := (resEntries_cell _ _ _ _ _ e he).2
  simp only [decide_eq_true_eq]
  rintro rfl
  exact hg this

theorem analyzeCell_cell (rnd : ℚ → ℤ) (pr : ℚ → Str) (dbu : ℚ) (c : Str) (x : CellExtData) :
    ∀ e ∈ analyzeCell rnd pr dbu c x, e.cell = c ∧ e.group ∈ ["Ports", "Nodes", "Devices", "Resistor Nodes", "Resistors"] := by
  unfold analyzeCell
  intro e he
  simp only [List.mem_append, List.mem_map] at he
  rcases he with ((⟨p, -, rfl⟩ | ⟨p, -, rfl⟩) | ⟨p, -, rfl⟩) | he
  · simp
  · simp
  · simp
  · obtain ⟨h1, h2⟩ := resEntries_cell _ _ _ _ _ e he
    refine ⟨h1, ?_⟩
    simp only [List.mem_cons] at h2 ⊢
    tauto

theorem shown_analyze {rnd : ℚ → ℤ} {pr : ℚ → Str} {dbu : ℚ} {cells : List (Str × CellExtData)}
    (hn : (cells.map Prod.fst).Nodup) {c : Str} {x : CellExtData} (hx : (c, x) ∈ cells) (g : String) :
    shown (analyze rnd pr dbu cells) c g = (analyzeCell rnd pr dbu c x).filter fun e => decide (e.group = g) := by
  have app : ∀ a b, shown (a ++ b) c g = shown a c g ++ shown b c g := fun a b => List.filter_append ..
  unfold analyze
  induction cells with
  | nil => simp at hx
  | cons y cells ih =>
    rw [List.flatMap_cons, app]
    rw [List.map_cons, List.nodup_cons] at hn
    rcases List.mem_cons.1 hx with rfl | hx
    · rw [shown_cell (fun e he => (analyzeCell_cell _ _ _ _ _ e he).1)]
      have : shown (cells.flatMap fun e => analyzeCell rnd pr dbu e.1 e.2) c g = [] := by
        unfold shown
        rw [List.filter_eq_nil_iff]
        intro e he
        obtain ⟨y, hy, he⟩ := List.mem_flatMap.1 he
        have := (analyzeCell_cell _ _ _ _ _ e he).1
        have hne : y.1 ≠ c := fun h => hn.1 (List.mem_map.2 ⟨y, hy, h⟩)
        simp [this, hne]
      rw [this, List.append_nil]
    · have hne : y.1 ≠ c := fun h => hn.1 (by rw [h]; exact List.mem_map.2 ⟨_, hx, rfl⟩)
      rw [shown_other (fun e he => (analyzeCell_cell _ _ _ _ _ e he).1) hne, ih hn.2 hx, List.nil_append]

theorem filter_map_same {α : Type} (l : List α) (f : α → Entry) (g g' : String) (h : ∀ a, (f a).group = g) :
    (l.map f).filter (fun e => decide (e.group = g')) = if g = g' then l.map f else [] := by
  split_ifs with hg
  · rw [List.filter_eq_self]
    intro e he
    obtain ⟨a, -, rfl⟩ := List.mem_map.1 he
    simp [h, hg]
  · rw [List.filter_eq_nil_iff]
    intro e he
    obtain ⟨a, -, rfl⟩ := List.mem_map.1 he
    simp [h, hg]

theorem forall₂_map_self {α β : Type} {R : α → β → Prop} {f : α → β} (l : List α) (h : ∀ a ∈ l, R a (f a)) :
    List.Forall₂ R l (l.map f) := by
  induction l with
  | nil => exact .nil
  | cons a l ih => exact .cons (h a (by simp)) (ih fun b hb => h b (by simp [hb]))

/-! ### Theorem -/

/-- C69: if all files belong to recognisable cells, the report of a run shows exactly the ports, nodes, devices, resistor
nodes and resistors of the files, in their order, at their places in µm; `1 / (200 dbu)` is an integer and KLayout keeps
integral coordinates. -/
theorem report_exact_partial {d : Dir} (hd : CleanDir d) {rnd : ℚ → ℤ} (hr : ∀ z : ℤ, rnd z = z) {dbu : ℚ} {k : ℤ}
    (hk : 200 * dbu * k = 1) (pr : ℚ → Str) {es : List Entry} (h : report rnd pr dbu d = .ok es) :
    (∀ e ∈ es, (∃ lines, (mainName e.cell, lines) ∈ d) ∧
      e.group ∈ ["Ports", "Nodes", "Devices", "Resistor Nodes", "Resistors"]) ∧
    ∀ c lines, Clean c → (mainName c, lines) ∈ d →
      (∀ ps, Collected PortLine lines ps → List.Forall₂ (PortShown dbu) ps (shown es c "Ports")) ∧
      (∀ ns, Collected NodeLine lines ns → List.Forall₂ (NodeShown dbu) ns (shown es c "Nodes")) ∧
      (∀ ds, Collected DeviceLine lines ds → List.Forall₂ (DeviceShown dbu) ds (shown es c "Devices")) ∧
      (∀ rl, (resName c, rl) ∈ d → ∀ ns rs, Collected RNodeLine rl ns → Collected ResistLine rl rs →
        List.Forall₂ (ResNodeShown dbu) ns (shown es c "Resistor Nodes") ∧
        List.Forall₂ (ResistorShown pr dbu ns) rs.zipIdx (shown es c "Resistors")) ∧
      ((∀ rl, (resName c, rl) ∉ d) → shown es c "Resistor Nodes" = [] ∧ shown es c "Resistors" = []) := by
  unfold report at h
  cases hp : parseRun d with
  | error m => rw [hp] at h; cases h
  | ok cells =>
    rw [hp] at h
    obtain rfl := Except.ok.inj h
    obtain ⟨hn, hc⟩ := (run_exact_partial hd).2 cells hp
    refine ⟨fun e he => ?_, fun c lines hcl hm => ?_⟩
    · obtain ⟨y, hy, he⟩ := List.mem_flatMap.1 he
      obtain ⟨h1, h2⟩ := analyzeCell_cell _ _ _ _ _ e he
      obtain ⟨-, lines, hl, -⟩ := (hc y.1 y.2).1 hy
      exact ⟨⟨lines, by rw [h1]; exact hl⟩, h2⟩
    · obtain ⟨hkn, hrv⟩ := ((run_exact_partial hd).1.1 ⟨cells, hp⟩).2 c lines hcl hm
      obtain ⟨e0, he0⟩ := ext_exists hkn
      have hex : ∃ x, (c, x) ∈ cells := by
        by_cases hf : ∃ rl, (resName c, rl) ∈ d
        · obtain ⟨rl, hrl⟩ := hf
          obtain ⟨r, hr⟩ := res_exists (hrv rl hrl)
          refine ⟨⟨e0, some r⟩, (hc _ _).2 ⟨hcl, lines, hm, ((ext_exact_partial _ _).1 he0).2, ?_, ?_⟩⟩
          · exact ⟨fun h => (by cases h), fun h => absurd hrl (h rl)⟩
          · intro r' h'
            cases h'
            exact ⟨rl, hrl, ((res_exact_partial _ _).1 hr).2⟩
        · refine ⟨⟨e0, none⟩, (hc _ _).2 ⟨hcl, lines, hm, ((ext_exact_partial _ _).1 he0).2, ?_, ?_⟩⟩
          · exact ⟨fun _ rl hrl => hf ⟨rl, hrl⟩, fun _ => rfl⟩
          · intro r' h'; cases h'
      obtain ⟨x, hx⟩ := hex
      obtain ⟨-, lines', hm', ⟨x1, x2, x3⟩, x4, x5⟩ := (hc c x).1 hx
      obtain rfl := file_unique hd.1 hm hm'
      have hat := fun z => (at_toDbu hr hk z).1
      have hat20 := fun z => (at_toDbu hr hk z).2
      have hpt : ∀ a b, PointBox dbu a b (boxAt rnd dbu a b) :=
        fun a b => ⟨hat a, hat b, hat20 a, hat20 b⟩
      have sh := fun g => shown_analyze (rnd := rnd) (pr := pr) (dbu := dbu) hn hx g
      have ucl : ∀ {α : Type} {R : Str → α → Prop} {f : Str → Option α} (_ : ∀ l a, f l = some a ↔ R l a) (l : Str) (a b : α),
          R l a → R l b → a = b := by
        intro α R f hf l a b ha hb
        have := (hf l a).2 ha
        rw [(hf l b).2 hb] at this
        exact (Option.some.inj this).symm
      refine ⟨fun ps hps => ?_, fun ns hns => ?_, fun ds hds => ?_, fun rl hrl ns rs hns hrs => ?_, fun hno => ?_⟩
      · obtain rfl := collected_unique (ucl port_exact) x1 hps
        rw [sh, analyzeCell]
        simp only [List.filter_append]
        rw [filter_map_same _ _ "Ports" _ (fun _ => rfl), filter_map_same _ _ "Nodes" _ (fun _ => rfl),
          filter_map_same _ _ "Devices" _ (fun _ => rfl), if_pos rfl, if_neg (by decide), if_neg (by decide),
          resEntries_none (by decide)]
        simp only [List.append_nil]
        exact forall₂_map_self _ fun p _ => ⟨by simp [netLayer], _, rfl, hat _, hat _, hat _, hat _⟩
      · obtain rfl := collected_unique (ucl node_exact) x2 hns
        rw [sh, analyzeCell]
        simp only [List.filter_append]
        rw [filter_map_same _ _ "Ports" _ (fun _ => rfl), filter_map_same _ _ "Nodes" _ (fun _ => rfl),
          filter_map_same _ _ "Devices" _ (fun _ => rfl), if_pos rfl, if_neg (by decide), if_neg (by decide),
          resEntries_none (by decide)]
        simp only [List.append_nil, List.nil_append]
        exact forall₂_map_self _ fun p _ => ⟨by simp [netLayer], _, rfl, hpt _ _⟩
      · obtain rfl := collected_unique device_unique x3 hds
        rw [sh, analyzeCell]
        simp only [List.filter_append]
        rw [filter_map_same _ _ "Ports" _ (fun _ => rfl), filter_map_same _ _ "Nodes" _ (fun _ => rfl),
          filter_map_same _ _ "Devices" _ (fun _ => rfl), if_pos rfl, if_neg (by decide), if_neg (by decide),
          resEntries_none (by decide)]
        simp only [List.append_nil, List.nil_append]
        exact forall₂_map_self _ fun p _ => ⟨by simp, _, rfl, hat _, hat _, hat _, hat _⟩
      · have rest : ∀ g, g ∉ ["Ports", "Nodes", "Devices"] → shown (analyze rnd pr dbu cells) c g =
            (resEntries rnd pr dbu c x.res).filter fun e => decide (e.group = g) := by
          intro g hg
          simp only [List.mem_cons, List.not_mem_nil, or_false, not_or] at hg
          rw [sh, analyzeCell]
          simp only [List.filter_append]
          rw [filter_map_same _ _ "Ports" _ (fun _ => rfl), filter_map_same _ _ "Nodes" _ (fun _ => rfl),
            filter_map_same _ _ "Devices" _ (fun _ => rfl), if_neg (Ne.symm hg.1), if_neg (Ne.symm hg.2.1),
            if_neg (Ne.symm hg.2.2)]
          simp only [List.nil_append]
        have hsome : ∃ r, x.res = some r := by
          cases hr' : x.res with
          | none => exact absurd hrl (x4.1 hr' rl)
          | some r => exact ⟨r, rfl⟩
        obtain ⟨r, hr'⟩ := hsome
        obtain ⟨rl', hrl', y1, y2⟩ := x5 r hr'
        obtain rfl := file_unique hd.1 hrl hrl'
        obtain rfl := collected_unique (ucl rnode_exact) y1 hns
        obtain rfl := collected_unique resist_unique y2 hrs
        rw [rest _ (by decide), rest _ (by decide), hr', resEntries]
        simp only [List.filter_append]
        rw [filter_map_same _ _ "Resistor Nodes" _ (fun _ => rfl), filter_map_same _ _ "Resistors" _ (fun _ => rfl),
          filter_map_same _ _ "Resistor Nodes" _ (fun _ => rfl), filter_map_same _ _ "Resistors" _ (fun _ => rfl),
          if_pos rfl, if_neg (by decide), if_neg (by decide), if_pos rfl]
        simp only [List.append_nil, List.nil_append]
        refine ⟨forall₂_map_self _ fun p _ => ⟨rfl, _, rfl, hpt _ _⟩, forall₂_map_self _ fun p _ => ⟨by simp, ?_⟩⟩
        exact forall₂_map_self _ fun n _ => hpt _ _
      · have : x.res = none := x4.2 hno
        rw [sh, sh, analyzeCell, this]
        simp only [List.filter_append, resEntries, List.filter_nil]
        rw [filter_map_same _ _ "Ports" _ (fun _ => rfl), filter_map_same _ _ "Nodes" _ (fun _ => rfl),
          filter_map_same _ _ "Devices" _ (fun _ => rfl), filter_map_same _ _ "Ports" _ (fun _ => rfl),
          filter_map_same _ _ "Nodes" _ (fun _ => rfl), filter_map_same _ _ "Devices" _ (fun _ => rfl)]
        simp

/-! ### What is lost -/

theorem quote_split {u v r s : Str} (hu : '"' ∉ u) (hv : '"' ∉ v) (h : u ++ '"' :: r = v ++ '"' :: s) : u = v := by
  have key : ∀ (w t : Str), '"' ∉ w → (w ++ '"' :: t).takeWhile (fun c => c ≠ '"') = w := by
    intro w t hw
    refine (takeWhile_append_stop ?_ ?_).1
    · intro c hc
      simp only [ne_eq, decide_not, Bool.not_eq_eq_eq_not, Bool.not_true, decide_eq_false_iff_not]
      rintro rfl
      exact hw hc
    · intro c hc
      simp only [List.head?_cons, Option.some.injEq] at hc
      subst hc
      simp
  rw [← key u r hu, ← key v s hv, h]

theorem word_noQuote {w : Str} (h : Word w) : '"' ∉ w := by
  intro hm
  rcases h.2 _ hm with h | h
  · exact absurd h (by decide)
  · exact absurd h (by decide)

/-- The full claim fails: a port or node whose net name has a character other than letters, digits and underscores, like
`a_10#` or `x1/out`, is dropped from the data and the report without a message. -/
theorem special_nets_dropped {line net rest : Str} (hq : '"' ∉ net) (hw : ¬ Word net) :
    (Trimmed line ("port \"".toList ++ net ++ '"' :: rest) → ∀ p, ¬ PortLine line p) ∧
    ((Trimmed line ("node \"".toList ++ net ++ '"' :: rest) ∨ Trimmed line ("substrate \"".toList ++ net ++ '"' :: rest)) →
      ∀ p, ¬ NodeLine line p) := by
  constructor
  · rintro h1 p ⟨nr, n, x1, y1, x2, y2, h2, hn, -⟩
    rw [trimmed_iff] at h1 h2
    rw [h1, List.flatten_cons, List.append_assoc, List.append_cancel_left_eq, List.flatten_cons] at h2
    have := quote_split hq (word_noQuote hn) h2
    rw [this] at hw
    exact hw hn
  · rintro h1 p ⟨key, r, c, x, y, more, hk, h2, hn, -⟩
    rw [trimmed_iff] at h2
    rcases h1 with h1 | h1
    all_goals rw [trimmed_iff] at h1
    all_goals rcases hk with rfl | rfl
    · rw [h1, List.flatten_cons, List.append_assoc, List.append_cancel_left_eq, List.flatten_cons] at h2
      have := quote_split hq (word_noQuote hn) h2
      rw [this] at hw
      exact hw hn
    · rw [h1] at h2
      have := congrArg List.head? h2
      exact absurd this (by simp)
    · rw [h1] at h2
      have := congrArg List.head? h2
      exact absurd this (by simp)
    · rw [h1, List.flatten_cons, List.append_assoc, List.append_cancel_left_eq, List.flatten_cons] at h2
      have := quote_split hq (word_noQuote hn) h2
      rw [this] at hw
      exact hw hn

/-! ### Examples -/

/-- A run with one cell. -/
def exDir : Dir :=
  [("inv.ext".toList, ["timestamp 1\n".toList, "port \"VDD\" 2 -600 800 500 1000 m1\n".toList,
      "node \"out\" 7 120 -40 60 m1 0 0 12 34\n".toList, "substrate \"VSUBS\" 0 0 0 0 space 0 0\n".toList,
      "device mosfet nfet 0 0 30 30 1 1 x\n".toList, "node \"a_10#\" 7 120 -40 60 m1 0 0\n".toList]),
    ("inv.res.ext".toList, ["rnode \"out.n0\" 0 12 -40 60 0\n".toList, "resist \"out\" \"out.n0\" 12.5\n".toList]),
    ("inv.spice".toList, [])]

theorem exDir_clean : CleanDir exDir := by
  have hc : Clean "inv".toList := by
    unfold Clean
    refine ⟨by decide, ?_, ?_⟩
    · decide
    · decide
  refine ⟨by decide, fun f hf he => ⟨"inv".toList, hc, ?_⟩⟩
  simp only [exDir, List.mem_cons, List.not_mem_nil, or_false] at hf
  rcases hf with rfl | rfl | rfl
  · exact Or.inl (by decide)
  · exact Or.inr (by decide)
  · rw [← List.isSuffixOf_iff_suffix] at he
    exact absurd he (by decide)

example : parseRun exDir = .ok [("inv".toList,
    ⟨⟨[⟨"VDD".toList, -600, 800, 500, 1000, "m1".toList⟩],
      [⟨"out".toList, 7, 120, -40, 60, "m1".toList⟩, ⟨"VSUBS".toList, 0, 0, 0, 0, "space".toList⟩],
      [⟨"mosfet".toList, "nfet".toList, 0, 0, 30, 30⟩]⟩,
     some ⟨[⟨"out.n0".toList, 0, 12, -40, 60⟩], [⟨"out".toList, "out.n0".toList, 25 / 2⟩]⟩⟩)] := by
  decide +kernel

/-- Two cells whose files cannot be told apart: the data of one replaces the data of the other. -/
def exClash : Dir :=
  [("a.ext".toList, ["port \"A\" 1 0 0 1 1 m1".toList]), ("a.ext2.ext".toList, ["port \"B\" 1 0 0 1 1 m1".toList])]

/-- The full claim fails for names that contain `.ext`: cell `a` is reported with the ports of cell `a.ext2`. -/
theorem run_clash : ∃ e, parseRun exClash = .ok [("a".toList, e)] ∧ e.ext.ports.map Port.net = ["B".toList] :=
  ⟨⟨⟨[⟨"B".toList, 0, 0, 1, 1, "m1".toList⟩], [], []⟩, none⟩, by rfl, by rfl⟩

/-- The full claim fails for cells whose name ends in `.res`: their capacitances are read as resistors of another cell. -/
theorem run_res_clash : ∃ e, parseRun [("a.ext".toList, []), ("a.res.ext".toList, ["port \"A\" 1 0 0 1 1 m1".toList])] =
    .ok [("a".toList, e)] ∧ e.ext.ports = [] :=
  ⟨⟨⟨[], [], []⟩, some ⟨[], []⟩⟩, by rfl, by rfl⟩

end Verif.Magic
