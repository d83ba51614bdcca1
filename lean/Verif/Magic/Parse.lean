import Verif.Magic.Lemmas
import Verif.Magic.Spec
import Verif.Common.Text

/-!
# The parser finds exactly what the lines say
-/

namespace Verif.Magic

/-! ### Words and numbers -/

theorem word_iff (a : Str) : Accepts (.cls isWord) a ↔ Word a := by
  simp only [Accepts, Word, isWord, Bool.or_eq_true, decide_eq_true_eq]

theorem name_iff (a : Str) : Accepts (.cls isName) a ↔ Name a := by
  simp only [Accepts, Name, isName, isWord, Bool.or_eq_true, decide_eq_true_eq, or_assoc]

theorem nat_iff (a : Str) (n : Nat) : DecNat a n ↔ Accepts (.cls Char.isDigit) a ∧ natOf a = n := by
  simp only [Accepts, DecNat, natOf, and_assoc]

theorem intOf_minus (b : Str) : intOf ('-' :: b) = -(natOf b : ℤ) := rfl

theorem intOf_digits {a : Str} (h : ∀ c ∈ a, c.isDigit = true) : intOf a = natOf a := by
  unfold intOf
  split
  · next r => exact absurd (h '-' (by simp)) (by decide)
  · rfl

theorem int_iff (a : Str) (z : ℤ) : DecInt a z ↔ Accepts (.signed Char.isDigit) a ∧ intOf a = z := by
  constructor
  · rintro (⟨n, ⟨h1, h2, h3⟩, rfl⟩ | ⟨b, n, rfl, ⟨h1, h2, h3⟩, rfl⟩)
    · exact ⟨Or.inl ⟨h1, h2⟩, by rw [intOf_digits h2]; exact congrArg _ h3⟩
    · exact ⟨Or.inr ⟨b, rfl, h1, h2⟩, by rw [intOf_minus]; exact congrArg (fun n : Nat => -(n : ℤ)) h3⟩
  · rintro ⟨⟨h1, h2⟩ | ⟨b, rfl, h1, h2⟩, rfl⟩
    · exact Or.inl ⟨_, ⟨h1, h2, rfl⟩, intOf_digits h2⟩
    · exact Or.inr ⟨b, _, rfl, ⟨h1, h2, rfl⟩, rfl⟩

theorem unsignedOf_iff (a : Str) (q : ℚ) : unsignedOf a = .ok q ↔ DecFrac a q := by
  unfold unsignedOf
  dsimp only
  constructor
  · intro h
    have hcat := List.takeWhile_append_dropWhile (p := Char.isDigit) (l := a)
    have htw : ∀ c ∈ a.takeWhile Char.isDigit, c.isDigit = true := fun c hc => mem_takeWhile hc
    generalize a.takeWhile Char.isDigit = u at h hcat htw
    generalize a.dropWhile Char.isDigit = w at h hcat
    cases w with
    | nil =>
      rw [List.append_nil] at hcat
      subst hcat
      dsimp only at h
      split_ifs at h with hu
      exact Or.inl ⟨_, ⟨hu, htw, rfl⟩, (Except.ok.inj h).symm⟩
    | cons c v =>
      dsimp only at h
      split_ifs at h with hc
      obtain ⟨rfl, hv, hne⟩ := hc
      refine Or.inr ⟨u, v, hcat.symm, ?_, ?_, (Except.ok.inj h).symm⟩
      · intro d hd
        rcases List.mem_append.1 hd with hd | hd
        · exact htw d hd
        · exact List.all_eq_true.1 hv d hd
      · intro hn
        rcases List.append_eq_nil_iff.1 hn with ⟨h1, h2⟩
        rcases hne with h | h
        · exact h h1
        · exact h h2
  · rintro (⟨n, ⟨h1, h2, h3⟩, rfl⟩ | ⟨u, v, rfl, hd, hne, rfl⟩)
    · have := takeWhile_append_stop (p := Char.isDigit) (a := a) (r := []) h2 (by simp)
      rw [List.append_nil] at this
      rw [this.1, this.2]
      dsimp only
      rw [if_neg h1]
      exact congrArg (fun n : Nat => (Except.ok (n : ℚ) : Except String ℚ)) h3
    · have := takeWhile_append_stop (p := Char.isDigit) (a := u) (r := '.' :: v)
        (fun c hc => hd c (List.mem_append_left _ hc)) (by intro c hc; simp at hc; subst hc; decide)
      rw [this.1, this.2]
      dsimp only
      rw [if_pos]
      · rfl
      · refine ⟨rfl, List.all_eq_true.2 fun c hc => hd c (List.mem_append_right _ hc), ?_⟩
        by_contra hh
        rw [not_or, not_not, not_not] at hh
        exact hne (by rw [hh.1, hh.2]; rfl)

theorem floatOf_iff (a : Str) (q : ℚ) : floatOf a = .ok q ↔ DecNum a q := by
  have hd : ∀ b r, ¬ DecFrac ('-' :: b) r := by
    rintro b r (⟨n, ⟨-, h2, -⟩, -⟩ | ⟨u, v, he, h2, -, -⟩)
    · exact absurd (h2 '-' (by simp)) (by decide)
    · cases u with
      | nil => simp at he
      | cons c u =>
        simp only [List.cons_append, List.cons.injEq] at he
        have := h2 c (by simp)
        rw [← he.1] at this
        exact absurd this (by decide)
  unfold floatOf
  split
  · next b =>
    constructor
    · intro h
      cases hu : unsignedOf b with
      | error m => rw [hu] at h; cases h
      | ok r =>
        rw [hu] at h
        exact Or.inr ⟨b, r, rfl, (unsignedOf_iff b r).1 hu, (Except.ok.inj h).symm⟩
    · rintro (h | ⟨b', r, he, h, rfl⟩)
      · exact absurd h (hd b q)
      · obtain rfl : b = b' := (List.cons.inj he).2
        rw [(unsignedOf_iff b r).2 h]
        rfl
  · next hm =>
    rw [unsignedOf_iff]
    constructor
    · exact Or.inl
    · rintro (h | ⟨b', r, rfl, h, rfl⟩)
      · exact h
      · exact absurd rfl (hm b')

/-! ### Lines -/

theorem strip_head_last (s : Str) : (∀ c, (strip s).head? = some c → isWs c = false) ∧
    ∀ c, (strip s).getLast? = some c → isWs c = false := by
  have key : ∀ t : Str, ∀ c, (t.dropWhile isWs).head? = some c → isWs c = false := fun t c h => dropWhile_head _ _ _ h
  constructor
  · intro c hc
    unfold strip at hc
    rw [List.head?_reverse] at hc
    -- the last character of a suffix of the reversed text is the first one of the text without leading white space
    have hs : ((s.dropWhile isWs).reverse.dropWhile isWs) <:+ (s.dropWhile isWs).reverse := List.dropWhile_suffix _
    obtain ⟨p, hp⟩ := hs
    have : (s.dropWhile isWs).reverse.getLast? = some c := by
      rw [← hp, List.getLast?_append, hc]; rfl
    rw [List.getLast?_reverse] at this
    exact key s c this
  · intro c hc
    unfold strip at hc
    rw [List.getLast?_reverse] at hc
    exact key _ c hc

theorem strip_parts (s : Str) : ∃ u v, s = u ++ strip s ++ v ∧ (∀ c ∈ u, isWs c = true) ∧ ∀ c ∈ v, isWs c = true := by
  refine ⟨s.takeWhile isWs, ((s.dropWhile isWs).reverse.takeWhile isWs).reverse, ?_, fun c hc => mem_takeWhile hc,
    fun c hc => mem_takeWhile (List.mem_reverse.1 hc)⟩
  unfold strip
  rw [List.append_assoc, ← List.reverse_append, List.takeWhile_append_dropWhile, List.reverse_reverse,
    List.takeWhile_append_dropWhile]

theorem trimmed_iff (line t : Str) : Trimmed line t ↔ strip line = t := by
  constructor
  · rintro ⟨u, v, rfl, hu, hv, h1, h2⟩
    rw [strip_append_ws hv, strip_ws_append hu, strip_clean h1 h2]
  · rintro rfl
    obtain ⟨u, v, h, hu, hv⟩ := strip_parts line
    exact ⟨u, v, h, hu, hv, strip_head_last line⟩

theorem port_exact (line : Str) (p : Port) : portOf line = some p ↔ PortLine line p := by
  unfold portOf PortLine
  simp only [trimmed_iff, ← word_iff, nat_iff, int_iff]
  constructor
  · intro h
    split at h
    · next hm =>
      obtain ⟨hf, hs⟩ := (fullMatch_iff _ sep_port _ _).1 hm
      simp only [portRe, coord, L, List.cons_append, List.nil_append, List.forall₂_cons] at hf
      obtain ⟨h1, h2, h3, h4, h5, h6, h7, h8, h9, h10, h11, h12, h13, h14, -⟩ := hf
      obtain rfl := Option.some.inj h
      cases h1; cases h3; cases h5; cases h7; cases h9; cases h11; cases h13
      exact ⟨_, _, _, _, _, _, hs, h2, ⟨h4, rfl⟩, ⟨h6, rfl⟩, ⟨h8, rfl⟩, ⟨h10, rfl⟩, ⟨h12, rfl⟩, h14⟩
    · cases h
  · rintro ⟨nr, n, x1, y1, x2, y2, hs, hn, ⟨hnr, -⟩, ⟨h1, e1⟩, ⟨h2, e2⟩, ⟨h3, e3⟩, ⟨h4, e4⟩, hl⟩
    have := (fullMatch_iff _ sep_port (strip line) _).2 ⟨by
      simp only [portRe, coord, L, List.cons_append, List.nil_append, List.forall₂_cons]
      exact ⟨rfl, hn, rfl, hnr, rfl, h1, rfl, h2, rfl, h3, rfl, h4, rfl, hl, .nil⟩, hs⟩
    rw [this]
    dsimp only
    rw [e1, e2, e3, e4]

theorem node_key (key : String) (s net r c x y layer more a b d e f g h : Str) :
    fullMatch (nodeRe key) s = some [a, net, b, r, d, c, e, x, f, y, g, layer, h, more] ↔
      (a = (key ++ " \"").toList ∧ b = "\" ".toList ∧ d = " ".toList ∧ e = " ".toList ∧ f = " ".toList ∧ g = " ".toList ∧
        h = " ".toList) ∧
      (Accepts (.cls isWord) net ∧ Accepts (.cls Char.isDigit) r ∧ Accepts (.cls Char.isDigit) c ∧
        Accepts (.signed Char.isDigit) x ∧ Accepts (.signed Char.isDigit) y ∧ Accepts (.cls isWord) layer) ∧
      s = [a, net, b, r, d, c, e, x, f, y, g, layer, h, more].flatten := by
  rw [fullMatch_iff _ (sep_node key)]
  simp only [nodeRe, coord, L, List.cons_append, List.nil_append, List.forall₂_cons]
  constructor
  · rintro ⟨⟨h1, h2, h3, h4, h5, h6, h7, h8, h9, h10, h11, h12, h13, -, -⟩, hs⟩
    exact ⟨⟨h1, h3, h5, h7, h9, h11, h13⟩, ⟨h2, h4, h6, h8, h10, h12⟩, hs⟩
  · rintro ⟨⟨h1, h3, h5, h7, h9, h11, h13⟩, ⟨h2, h4, h6, h8, h10, h12⟩, hs⟩
    exact ⟨⟨h1, h2, h3, h4, h5, h6, h7, h8, h9, h10, h11, h12, h13, trivial, .nil⟩, hs⟩

/-- A line that starts with one of the two words does not start with the other one. -/
theorem node_other {s : Str} {gs : List Str} (h : fullMatch (nodeRe "substrate") s = some gs) :
    fullMatch (nodeRe "node") s = none := by
  cases hn : fullMatch (nodeRe "node") s with
  | none => rfl
  | some gs' =>
    obtain ⟨h1, h2⟩ := (fullMatch_iff _ (sep_node _) _ _).1 h
    obtain ⟨h3, h4⟩ := (fullMatch_iff _ (sep_node _) _ _).1 hn
    rw [nodeRe, List.cons_append] at h1 h3
    obtain ⟨_, t1, ha, -, rfl⟩ := List.forall₂_cons_left_iff.1 h1
    obtain ⟨_, t2, hb, -, rfl⟩ := List.forall₂_cons_left_iff.1 h3
    have e1 : s.head? = some 's' := by rw [h2, List.flatten_cons, ha]; rfl
    have e2 : s.head? = some 'n' := by rw [h4, List.flatten_cons, hb]; rfl
    rw [e1] at e2
    exact absurd (Option.some.inj e2) (by decide)

theorem node_exact (line : Str) (p : Node) : nodeOf line = some p ↔ NodeLine line p := by
  unfold nodeOf NodeLine
  simp only [trimmed_iff, ← word_iff, nat_iff, int_iff]
  constructor
  · intro h
    split at h
    · next hm =>
      obtain rfl := Option.some.inj h
      have hm' := Option.or_eq_some_iff.1 hm
      rcases hm' with hm | ⟨-, hm⟩
      · obtain ⟨⟨rfl, rfl, rfl, rfl, rfl, rfl, rfl⟩, ⟨h1, h2, h3, h4, h5, h6⟩, hs⟩ := (node_key _ _ _ _ _ _ _ _ _ _ _ _ _ _ _ _).1 hm
        exact ⟨_, _, _, _, _, _, Or.inl rfl, hs, h1, ⟨h2, rfl⟩, ⟨h3, rfl⟩, ⟨h4, rfl⟩, ⟨h5, rfl⟩, h6⟩
      · obtain ⟨⟨rfl, rfl, rfl, rfl, rfl, rfl, rfl⟩, ⟨h1, h2, h3, h4, h5, h6⟩, hs⟩ := (node_key _ _ _ _ _ _ _ _ _ _ _ _ _ _ _ _).1 hm
        exact ⟨_, _, _, _, _, _, Or.inr rfl, hs, h1, ⟨h2, rfl⟩, ⟨h3, rfl⟩, ⟨h4, rfl⟩, ⟨h5, rfl⟩, h6⟩
    · cases h
  · rintro ⟨key, r, c, x, y, more, hk, hs, hn, ⟨h1, e1⟩, ⟨h2, e2⟩, ⟨h3, e3⟩, ⟨h4, e4⟩, hl⟩
    rcases hk with rfl | rfl
    · have := (node_key "node" (strip line) p.net r c x y p.layer more _ _ _ _ _ _ _).2
        ⟨⟨rfl, rfl, rfl, rfl, rfl, rfl, rfl⟩, ⟨hn, h1, h2, h3, h4, hl⟩, hs⟩
      rw [this]
      dsimp only [Option.or]
      rw [e1, e2, e3, e4]
    · have := (node_key "substrate" (strip line) p.net r c x y p.layer more _ _ _ _ _ _ _).2
        ⟨⟨rfl, rfl, rfl, rfl, rfl, rfl, rfl⟩, ⟨hn, h1, h2, h3, h4, hl⟩, hs⟩
      rw [node_other this, this]
      dsimp only [Option.or]
      rw [e1, e2, e3, e4]

theorem known_iff (t : Str) : t ∈ deviceTypes ↔ KnownType t := by
  unfold deviceTypes KnownType
  rw [List.mem_map]
  constructor
  · rintro ⟨a, ha, rfl⟩
    rwa [String.ofList_toList]
  · intro h
    exact ⟨_, h, String.toList_ofList⟩

theorem device_key (line : Str) (p : Device) : DeviceLine line p ↔ ∃ x1 y1 x2 y2 more, fullMatch deviceRe (strip line) =
      some ["device ".toList, p.type, " ".toList, p.model, " ".toList, x1, " ".toList, y1, " ".toList,
      x2, " ".toList, y2, " ".toList, more] ∧ intOf x1 = p.xBot ∧ intOf y1 = p.yBot ∧ intOf x2 = p.xTop ∧ intOf y2 = p.yTop := by
  unfold DeviceLine
  simp only [trimmed_iff, ← word_iff, int_iff]
  refine exists_congr fun x1 => exists_congr fun y1 => exists_congr fun x2 => exists_congr fun y2 =>
    exists_congr fun more => ?_
  rw [fullMatch_iff _ sep_device]
  simp only [deviceRe, coord, L, List.cons_append, List.nil_append, List.forall₂_cons]
  constructor
  · rintro ⟨hs, h1, h2, ⟨h3, e3⟩, ⟨h4, e4⟩, ⟨h5, e5⟩, ⟨h6, e6⟩⟩
    exact ⟨⟨⟨rfl, h1, rfl, h2, rfl, h3, rfl, h4, rfl, h5, rfl, h6, rfl, trivial, .nil⟩, hs⟩, e3, e4, e5, e6⟩
  · rintro ⟨⟨⟨-, h1, -, h2, -, h3, -, h4, -, h5, -, h6, -, -, -⟩, hs⟩, e3, e4, e5, e6⟩
    exact ⟨hs, h1, h2, ⟨h3, e3⟩, ⟨h4, e4⟩, ⟨h5, e5⟩, ⟨h6, e6⟩⟩

theorem device_unique (line : Str) (p q : Device) (hp : DeviceLine line p) (hq : DeviceLine line q) : p = q := by
  obtain ⟨x1, y1, x2, y2, more, h, e1, e2, e3, e4⟩ := (device_key line p).1 hp
  obtain ⟨x1', y1', x2', y2', more', h', e1', e2', e3', e4'⟩ := (device_key line q).1 hq
  rw [h] at h'
  simp only [Option.some.injEq, List.cons.injEq, and_true, true_and] at h'
  obtain ⟨h1, h2, rfl, rfl, rfl, rfl, -⟩ := h'
  cases p; cases q
  simp only at e1 e2 e3 e4 h1 h2 e1' e2' e3' e4'
  rw [← e1, ← e2, ← e3, ← e4, ← e1', ← e2', ← e3', ← e4', h1, h2]

theorem device_exact (line : Str) (o : Option Device) : deviceOf line = .ok o ↔
    (∀ p, DeviceLine line p → KnownType p.type) ∧ ∀ p, o = some p ↔ DeviceLine line p := by
  have key := device_key line
  unfold deviceOf
  split
  · next a ty b model c x1 d y1 e x2 f y2 g more hm =>
    have hf := ((fullMatch_iff _ sep_device _ _).1 hm).1
    simp only [deviceRe, coord, L, List.cons_append, List.nil_append, List.forall₂_cons] at hf
    obtain ⟨h1, -, h3, -, h5, -, h7, -, h9, -, h11, -, h13, -, -⟩ := hf
    cases h1; cases h3; cases h5; cases h7; cases h9; cases h11; cases h13
    have key' : ∀ p, DeviceLine line p ↔ p = ⟨ty, model, intOf x1, intOf y1, intOf x2, intOf y2⟩ := by
      intro p
      rw [key]
      constructor
      · rintro ⟨x1', y1', x2', y2', more', h, e1, e2, e3, e4⟩
        rw [hm] at h
        simp only [Option.some.injEq, List.cons.injEq, and_true, true_and] at h
        obtain ⟨h1, h2, rfl, rfl, rfl, rfl, -⟩ := h
        cases p
        simp only at e1 e2 e3 e4 h1 h2
        rw [← e1, ← e2, ← e3, ← e4, h1, h2]
      · rintro rfl
        exact ⟨x1, y1, x2, y2, more, hm, rfl, rfl, rfl, rfl⟩
    simp only [key']
    split_ifs with hk
    · rw [known_iff] at hk
      constructor
      · intro h
        obtain rfl := Except.ok.inj h
        exact ⟨fun p hp => hp ▸ hk, fun p => ⟨fun h => (Option.some.inj h).symm, fun h => h ▸ rfl⟩⟩
      · rintro ⟨-, h⟩
        rw [(h _).2 rfl]
    · rw [known_iff] at hk
      exact ⟨(fun h => by cases h), fun h => absurd (h.1 _ rfl) hk⟩
  · next hno =>
    have key' : ∀ p, ¬ DeviceLine line p := by
      intro p hp
      obtain ⟨x1, y1, x2, y2, more, h, -⟩ := (key p).1 hp
      exact hno _ _ _ _ _ _ _ _ _ _ _ _ _ _ h
    simp only [key', iff_false]
    constructor
    · intro h
      obtain rfl := Except.ok.inj h
      exact ⟨(fun p hp => hp.elim), fun p h => (by cases h)⟩
    · rintro ⟨-, h⟩
      cases o with
      | none => rfl
      | some p => exact absurd rfl (h p)

theorem rnode_exact (line : Str) (p : ResNode) : rnodeOf line = some p ↔ RNodeLine line p := by
  unfold rnodeOf RNodeLine
  simp only [trimmed_iff, ← name_iff, int_iff]
  constructor
  · intro h
    split at h
    · next hm =>
      obtain ⟨hf, hs⟩ := (fullMatch_iff _ sep_rnode _ _).1 hm
      simp only [rnodeRe, coord, L, List.cons_append, List.nil_append, List.forall₂_cons] at hf
      obtain ⟨h1, h2, h3, h4, h5, h6, h7, h8, h9, h10, h11, h12, -⟩ := hf
      obtain rfl := Option.some.inj h
      cases h1; cases h3; cases h4; cases h6; cases h8; cases h10; cases h12
      exact ⟨_, _, _, _, hs, h2, ⟨h5, rfl⟩, ⟨h7, rfl⟩, ⟨h9, rfl⟩, ⟨h11, rfl⟩⟩
    · cases h
  · rintro ⟨r, c, x, y, hs, hn, ⟨h1, e1⟩, ⟨h2, e2⟩, ⟨h3, e3⟩, ⟨h4, e4⟩⟩
    have := (fullMatch_iff _ sep_rnode (strip line) _).2 ⟨by
      simp only [rnodeRe, coord, L, List.cons_append, List.nil_append, List.forall₂_cons]
      exact ⟨rfl, hn, rfl, rfl, h1, rfl, h2, rfl, h3, rfl, h4, rfl, .nil⟩, hs⟩
    rw [this]
    dsimp only
    rw [e1, e2, e3, e4]

theorem numeric_iff (v : Str) : Accepts (.signed isNum) v ↔ Numeric v := by
  simp only [Accepts, Numeric, isNum, Bool.or_eq_true, decide_eq_true_eq, or_assoc]
  constructor
  · rintro (h | ⟨b, rfl, h⟩)
    · exact ⟨v, Or.inl rfl, h⟩
    · exact ⟨b, Or.inr rfl, h⟩
  · rintro ⟨w, rfl | rfl, h⟩
    · exact Or.inl h
    · exact Or.inr ⟨w, rfl, h⟩

theorem numeric_of_frac {v : Str} {q : ℚ} (h : DecFrac v q) : v ≠ [] ∧ ∀ c ∈ v, c.isDigit = true ∨ c = '\\' ∨ c = '.' := by
  rcases h with ⟨n, ⟨h1, h2, -⟩, -⟩ | ⟨u, w, rfl, h2, -, -⟩
  · exact ⟨h1, fun c hc => Or.inl (h2 c hc)⟩
  · refine ⟨by simp, fun c hc => ?_⟩
    rcases List.mem_append.1 hc with hc | hc
    · exact Or.inl (h2 c (List.mem_append_left _ hc))
    · rcases List.mem_cons.1 hc with rfl | hc
      · exact Or.inr (Or.inr rfl)
      · exact Or.inl (h2 c (List.mem_append_right _ hc))

theorem numeric_of_num {v : Str} {q : ℚ} (h : DecNum v q) : Numeric v := by
  rcases h with h | ⟨b, r, rfl, h, -⟩
  · exact ⟨v, Or.inl rfl, numeric_of_frac h⟩
  · exact ⟨b, Or.inr rfl, numeric_of_frac h⟩

theorem resist_key (line a b v : Str) : ResistText line a b v ∧ Numeric v ↔ fullMatch resistRe (strip line) =
      some ["resist \"".toList, a, "\" \"".toList, b, "\" ".toList, v] := by
  unfold ResistText
  rw [trimmed_iff, ← name_iff, ← name_iff, ← numeric_iff, fullMatch_iff _ sep_resist]
  simp only [resistRe, L, List.forall₂_cons]
  constructor
  · rintro ⟨⟨hs, h1, h2⟩, h3⟩
    exact ⟨⟨rfl, h1, rfl, h2, rfl, h3, .nil⟩, hs⟩
  · rintro ⟨⟨-, h1, -, h2, -, h3, -⟩, hs⟩
    exact ⟨⟨hs, h1, h2⟩, h3⟩

theorem resist_unique (line : Str) (p q : Resistor) (hp : ResistLine line p) (hq : ResistLine line q) : p = q := by
  obtain ⟨v, h1, h2⟩ := hp
  obtain ⟨v', h1', h2'⟩ := hq
  have e := (resist_key _ _ _ _).1 ⟨h1, numeric_of_num h2⟩
  rw [(resist_key _ _ _ _).1 ⟨h1', numeric_of_num h2'⟩] at e
  simp only [Option.some.injEq, List.cons.injEq, and_true, true_and] at e
  obtain ⟨e1, e2, rfl⟩ := e
  have e3 := (floatOf_iff _ _).2 h2
  rw [(floatOf_iff _ _).2 h2'] at e3
  cases p; cases q
  simp only at e1 e2 e3
  rw [Except.ok.inj e3, e1, e2]

theorem resist_exact (line : Str) (o : Option Resistor) : resistorOf line = .ok o ↔
    (∀ a b v, ResistText line a b v → Numeric v → ∃ q, DecNum v q) ∧ ∀ p, o = some p ↔ ResistLine line p := by
  have key := resist_key line
  unfold resistorOf
  split
  · next x a y b z v hm =>
    have hf := ((fullMatch_iff _ sep_resist _ _).1 hm).1
    simp only [resistRe, L, List.forall₂_cons] at hf
    obtain ⟨h1, -, h3, -, h5, -, -⟩ := hf
    cases h1; cases h3; cases h5
    have u1 : ∀ a' b' v', ResistText line a' b' v' → Numeric v' → a' = a ∧ b' = b ∧ v' = v := by
      intro a' b' v' h hn
      have := (key a' b' v').1 ⟨h, hn⟩
      rw [hm] at this
      simp only [Option.some.injEq, List.cons.injEq, and_true, true_and] at this
      exact ⟨this.1.symm, this.2.1.symm, this.2.2.symm⟩
    have t1 := (key a b v).2 hm
    have key' : ∀ p, ResistLine line p ↔ p.node1 = a ∧ p.node2 = b ∧ DecNum v p.value := by
      intro p
      constructor
      · rintro ⟨v', h1, h2⟩
        obtain ⟨e1, e2, e3⟩ := u1 _ _ _ h1 (numeric_of_num h2)
        exact ⟨e1, e2, e3 ▸ h2⟩
      · rintro ⟨e1, e2, h⟩
        exact ⟨v, by rw [e1, e2]; exact t1.1, h⟩
    constructor
    · intro h
      cases hv : floatOf v with
      | error m => rw [hv] at h; cases h
      | ok q =>
        rw [hv] at h
        obtain rfl := Except.ok.inj h
        refine ⟨fun a' b' v' h hn => ?_, fun p => ?_⟩
        · obtain ⟨-, -, rfl⟩ := u1 a' b' v' h hn
          exact ⟨q, (floatOf_iff _ _).1 hv⟩
        · rw [key', ← floatOf_iff, hv]
          constructor
          · intro h
            cases h
            exact ⟨rfl, rfl, rfl⟩
          · rintro ⟨e1, e2, e3⟩
            rw [Except.ok.inj e3, ← e1, ← e2]
    · rintro ⟨h1, h2⟩
      obtain ⟨q, hq⟩ := h1 a b v t1.1 t1.2
      rw [(floatOf_iff v q).2 hq, (h2 ⟨a, b, q⟩).2 ((key' _).2 ⟨rfl, rfl, hq⟩)]
      rfl
  · next hno =>
    have n1 : ∀ a b v, ResistText line a b v → Numeric v → False := fun a b v h hn => hno _ _ _ _ _ _ ((key a b v).1 ⟨h, hn⟩)
    have n2 : ∀ p, ¬ ResistLine line p := fun p ⟨v, h1, h2⟩ => n1 _ _ _ h1 (numeric_of_num h2)
    simp only [n2, iff_false]
    constructor
    · intro h
      obtain rfl := Except.ok.inj h
      exact ⟨fun a b v h hn => (n1 a b v h hn).elim, fun p h => (by cases h)⟩
    · rintro ⟨-, h⟩
      cases o with
      | none => rfl
      | some p => exact absurd rfl (h p)

/-! ### Files -/

theorem collected_filterMap {α : Type} {R : Str → α → Prop} {f : Str → Option α} (h : ∀ line a, f line = some a ↔ R line a)
    (lines : List Str) (out : List α) : Collected R lines out ↔ out = lines.filterMap f := by
  constructor
  · intro hc
    induction hc with
    | nil => rfl
    | take hr _ ih => rw [List.filterMap_cons_some ((h _ _).2 hr), ih]
    | skip hr _ ih =>
      rw [List.filterMap_cons_none, ih]
      rw [Option.eq_none_iff_forall_ne_some]
      exact fun a ha => hr a ((h _ _).1 ha)
  · rintro rfl
    induction lines with
    | nil => exact .nil
    | cons l ls ih =>
      cases hl : f l with
      | none =>
        rw [List.filterMap_cons_none hl]
        exact .skip (fun a ha => by rw [(h l a).2 ha] at hl; cases hl) ih
      | some a =>
        rw [List.filterMap_cons_some hl]
        exact .take ((h l a).1 hl) ih

theorem collected_unique {α : Type} {R : Str → α → Prop} (hR : ∀ line a b, R line a → R line b → a = b)
    {lines : List Str} {o1 o2 : List α} (h1 : Collected R lines o1) (h2 : Collected R lines o2) : o1 = o2 := by
  induction h1 generalizing o2 with
  | nil => cases h2; rfl
  | take hr _ ih =>
    cases h2 with
    | take hr' h' => rw [hR _ _ _ hr hr', ih h']
    | skip hr' _ => exact absurd hr (hr' _)
  | skip hr _ ih =>
    cases h2 with
    | take hr' _ => exact absurd hr' (hr _)
    | skip _ h' => exact ih h'

theorem collected_mapM {α : Type} {R : Str → α → Prop} {P : Str → Prop} {f : Str → Except String (Option α)}
    (h : ∀ line o, f line = .ok o ↔ P line ∧ ∀ a, o = some a ↔ R line a)
    (hR : ∀ line a b, R line a → R line b → a = b) (lines : List Str) (out : List α) :
    (∃ os, lines.mapM f = .ok os ∧ out = os.filterMap id) ↔ (∀ line ∈ lines, P line) ∧ Collected R lines out := by
  simp only [Exc.mapM_ok]
  constructor
  · rintro ⟨os, hf, rfl⟩
    induction hf with
    | nil => exact ⟨by simp, .nil⟩
    | @cons l o ls os hl _ ih =>
      obtain ⟨hp, ho⟩ := (h l o).1 hl
      refine ⟨fun x hx => ?_, ?_⟩
      · rcases List.mem_cons.1 hx with rfl | hx
        · exact hp
        · exact ih.1 x hx
      · cases o with
        | none =>
          exact .skip (fun a ha => by have := (ho a).2 ha; cases this) ih.2
        | some a => exact .take ((ho a).1 rfl) ih.2
  · rintro ⟨hp, hc⟩
    induction hc with
    | nil => exact ⟨[], .nil, rfl⟩
    | @take l ls a out hr _ ih =>
      obtain ⟨os, h1, h2⟩ := ih (fun x hx => hp x (by simp [hx]))
      refine ⟨some a :: os, .cons ((h l (some a)).2 ⟨hp l (by simp), fun b => ?_⟩) h1, by rw [h2]; rfl⟩
      exact ⟨fun h => Option.some.inj h ▸ hr, fun h => by rw [hR l a b hr h]⟩
    | @skip l ls out hr _ ih =>
      obtain ⟨os, h1, h2⟩ := ih (fun x hx => hp x (by simp [hx]))
      refine ⟨none :: os, .cons ((h l none).2 ⟨hp l (by simp), fun a => ?_⟩) h1, by rw [h2]; rfl⟩
      exact ⟨(fun h => by cases h), fun h => absurd h (hr a)⟩

end Verif.Magic
