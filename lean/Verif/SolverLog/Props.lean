import Verif.SolverLog.Lemmas

/-!
# Properties of the solver log parsers (C11, C12)

`ShowsMatrix`, `ShowsMatrix2` (see `Spec.lean`) describe the printed form; they do not use the parsers.
-/

namespace Verif.SolverLog

variable {flt : Str → Option ℚ}

/-- Rows read from the lines that follow the header. -/
theorem readRows_lines (row : Str → Except String (Str × List ℚ)) (pre ls post : List Str) (hdr dimLine : Str)
    {rs : List (Str × List ℚ)} (h : List.Forall₂ (fun a b => row a = .ok b) ls rs) :
    readRows row (pre ++ hdr :: dimLine :: (ls ++ post)).reverse (1 + (ls ++ post).length) rs.length =
      .ok ⟨rs.map Prod.fst, rs.map Prod.snd⟩ := by
  unfold readRows
  rw [← h.length_eq]
  have key : (List.range ls.length).mapM (fun (k : Nat) => do
      row (← pyIndex (pre ++ hdr :: dimLine :: (ls ++ post)).reverse (((1 + (ls ++ post).length : Nat) : Int) - 2 - (k : Int)))) =
      ls.mapM row := by
    apply mapM_range_eq
    intro i hi
    have hlen : (pre ++ hdr :: dimLine :: (ls ++ post)).length = pre.length + 2 + (ls ++ post).length := by simp; omega
    have hi2 : pre.length + 2 + i < (pre ++ hdr :: dimLine :: (ls ++ post)).length := by
      rw [hlen, List.length_append]; omega
    have := pyIndex_rev _ _ hi2
    have e : (((pre ++ hdr :: dimLine :: (ls ++ post)).length : Int) - 1 - ((pre.length + 2 + i : Nat) : Int)) =
        (((1 + (ls ++ post).length : Nat) : Int) - 2 - i) := by rw [hlen]; push_cast; ring
    rw [e] at this
    rw [this]
    have e2 : (pre ++ hdr :: dimLine :: (ls ++ post))[pre.length + 2 + i] = ls[i] := by
      rw [List.getElem_append_right (by omega)]
      have : pre.length + 2 + i - pre.length = i + 2 := by omega
      simp only [this, List.getElem_cons_succ]
      rw [List.getElem_append_left hi]
    rw [e2]
    rfl
  rw [key, mapM_ok_of row h]
  rfl

/-- C11, main part: from a log with any text before, and any text without a further matrix header after it, the last
printed matrix is returned: names and rows in printed order, values scaled by 1e-6.  `float("matrix")` is an error. -/
theorem fastercap_last_matrix (hf : flt "matrix".toList = none) (pre block post : List Str)
    (rows : List (Str × List ℚ)) (hb : ShowsMatrix flt block rows)
    (hpost : ∀ l ∈ post, strip l ≠ "Capacitance matrix is:".toList) :
    fastercapParse flt (pre ++ block ++ post) = .ok (scaled rows) := by
  obtain ⟨hdr, ls, rfl, hh, hrows⟩ := hb
  set dl := "Dimension ".toList ++ (toString rows.length).toList ++ " x ".toList ++ (toString rows.length).toList with hdl
  have hrest : ∀ l ∈ dl :: (ls ++ post), isHeader l = false := by
    intro l hl
    rw [List.mem_cons, List.mem_append] at hl
    rcases hl with rfl | hl | hl
    · exact dim_not_header _ _
    · obtain ⟨i, hi, rfl⟩ := List.getElem_of_mem hl
      exact row_not_header hf (hrows.get (by simpa using hi) (by rw [← hrows.length_eq]; simpa using hi))
    · simpa [isHeader] using hpost l hl
  have hshape : pre ++ (hdr :: dl :: ls) ++ post = pre ++ hdr :: dl :: (ls ++ post) := by simp
  have hidx := findIdx_rev (p := isHeader) pre (dl :: (ls ++ post)) hdr (by simpa [isHeader] using hh) hrest
  unfold fastercapParse
  simp only [hshape, hidx]
  have hd : pyIndex (pre ++ hdr :: dl :: (ls ++ post)).reverse (((dl :: (ls ++ post)).length : Int) - 1) = .ok dl := by
    have hlt : pre.length + 1 < (pre ++ hdr :: dl :: (ls ++ post)).length := by simp
    have := pyIndex_rev _ _ hlt
    have e : (((pre ++ hdr :: dl :: (ls ++ post)).length : Int) - 1 - ((pre.length + 1 : Nat) : Int)) =
        ((dl :: (ls ++ post)).length : Int) - 1 := by simp; ring
    rw [e] at this
    rw [this, List.getElem_append_right (by omega)]
    simp
  rw [hd]
  show (match parseDim dl with
    | none => _
    | some dim => _) = _
  rw [hdl, parseDim_shows, ← hdl]
  have hlen : (dl :: (ls ++ post)).length = 1 + (ls ++ post).length := by simp; omega
  simp only [hlen]
  have hrs : List.Forall₂ (fun a b => parseRow flt a = .ok b) ls (rows.map fun r => (r.1, r.2.map (· / 1000000))) := by
    rw [List.forall₂_map_right_iff]
    exact hrows.imp fun _ _ h => parseRow_shows h
  have := readRows_lines (parseRow flt) pre ls post hdr dl hrs
  rw [List.length_map] at this
  rw [this]
  simp [scaled, Function.comp_def]

/-- C11: a log without any matrix header is rejected. -/
theorem fastercap_no_matrix_rejected (lines : List Str) (h : ∀ l ∈ lines, strip l ≠ "Capacitance matrix is:".toList) :
    ∃ e, fastercapParse flt lines = .error e := by
  unfold fastercapParse
  have : lines.reverse.findIdx? isHeader = none := by
    rw [List.findIdx?_eq_none_iff]
    intro x hx
    simpa [isHeader] using h x (List.mem_reverse.1 hx)
  simp only [this]
  exact ⟨_, rfl⟩

/-- Header position and dimension of a log that ends inside of a matrix. -/
theorem fastercap_cut (hf : flt "matrix".toList = none) (pre ls : List Str) (hdr : Str) (n : Nat)
    (rows : List (Str × List ℚ)) (hh : strip hdr = "Capacitance matrix is:".toList)
    (hrows : List.Forall₂ (ShowsRow flt) ls rows) :
    let dl := "Dimension ".toList ++ (toString n).toList ++ " x ".toList ++ (toString n).toList
    let L := pre ++ hdr :: dl :: ls
    fastercapParse flt L = readRows (parseRow flt) L.reverse (1 + ls.length) n ∧
    ∀ j, (List.range (ls.length + (L.take j).length)).mapM (fun (k : Nat) => do
      parseRow flt (← pyIndex L.reverse (((1 + ls.length : Nat) : Int) - 2 - (k : Int)))) =
      (ls ++ L.take j).mapM (parseRow flt) := by
  intro dl L
  have hrest : ∀ l ∈ dl :: ls, isHeader l = false := by
    intro l hl
    rw [List.mem_cons] at hl
    rcases hl with rfl | hl
    · exact dim_not_header _ _
    · obtain ⟨i, hi, rfl⟩ := List.getElem_of_mem hl
      exact row_not_header hf (hrows.get (by simpa using hi) (by rw [← hrows.length_eq]; simpa using hi))
  have hidx := findIdx_rev (p := isHeader) pre (dl :: ls) hdr (by simpa [isHeader] using hh) hrest
  have hLlen : L.length = pre.length + 2 + ls.length := by simp only [L]; simp; omega
  constructor
  · unfold fastercapParse
    simp only [L, hidx]
    have hd : pyIndex (pre ++ hdr :: dl :: ls).reverse (((dl :: ls).length : Int) - 1) = .ok dl := by
      have hlt : pre.length + 1 < (pre ++ hdr :: dl :: ls).length := by simp
      have := pyIndex_rev _ _ hlt
      have e : (((pre ++ hdr :: dl :: ls).length : Int) - 1 - ((pre.length + 1 : Nat) : Int)) =
          ((dl :: ls).length : Int) - 1 := by simp; ring
      rw [e] at this
      rw [this, List.getElem_append_right (by omega)]
      simp
    rw [hd]
    show (match parseDim dl with
      | none => _
      | some dim => _) = _
    rw [show parseDim dl = some n from parseDim_shows n n, List.length_cons, Nat.add_comm]
  · intro j
    rw [← List.length_append]
    apply mapM_range_eq
    intro i hi
    by_cases hil : i < ls.length
    · have := pyIndex_rev L (pre.length + 2 + i) (by omega)
      have e : ((L.length : Int) - 1 - ((pre.length + 2 + i : Nat) : Int)) = ((1 + ls.length : Nat) : Int) - 2 - i := by
        rw [hLlen]; push_cast; ring
      rw [e] at this
      rw [this, List.getElem_append_left hil]
      have e2 : L[pre.length + 2 + i]'(by omega) = ls[i] := by
        simp only [L]
        rw [List.getElem_append_right (by omega)]
        have : pre.length + 2 + i - pre.length = i + 2 := by omega
        simp only [this, List.getElem_cons_succ]
      rw [e2]
      rfl
    · rw [List.length_append, List.length_take] at hi
      have := pyIndex_rev_neg L (i - ls.length)
      have e : (-1 - ((i - ls.length : Nat) : Int)) = ((1 + ls.length : Nat) : Int) - 2 - i := by omega
      rw [e] at this
      rw [this, List.getElem_append_right (by omega), List.getElem_take, List.getElem?_eq_getElem (by omega)]
      rfl

/-- The outcome for a log that ends inside of a matrix. -/
theorem fastercap_truncated_eq (hf : flt "matrix".toList = none) (pre block : List Str) (n : Nat)
    (rows : List (Str × List ℚ)) (hb : ShowsPart flt block n rows) (hk : rows.length < n)
    (hn : n - rows.length ≤ (pre ++ block).length) :
    fastercapParse flt (pre ++ block) =
      (((pre ++ block).take (n - rows.length)).mapM (parseRow flt)).map (fun extra =>
        (⟨(scaled rows).names ++ extra.map Prod.fst, (scaled rows).rows ++ extra.map Prod.snd⟩ : Matrix)) := by
  obtain ⟨hdr, ls, rfl, hh, hrows⟩ := hb
  obtain ⟨h1, h2⟩ := fastercap_cut hf pre ls hdr n rows hh hrows
  rw [h1]
  have hll : ls.length = rows.length := hrows.length_eq
  have key := h2 (n - rows.length)
  rw [List.length_take, Nat.min_eq_left hn] at key
  rw [show ls.length + (n - rows.length) = n by omega] at key
  have hrs : ls.mapM (parseRow flt) = .ok (rows.map fun r => (r.1, r.2.map (· / 1000000))) := by
    apply mapM_ok_of
    rw [List.forall₂_map_right_iff]
    exact hrows.imp fun _ _ h => parseRow_shows h
  unfold readRows
  rw [key, List.mapM_append, hrs]
  cases h : ((pre ++ hdr :: ("Dimension ".toList ++ (toString n).toList ++ " x ".toList ++ (toString n).toList) ::
      ls).take (n - rows.length)).mapM (parseRow flt) with
  | error e => rfl
  | ok ex =>
    show Except.ok _ = Except.ok _
    simp [scaled, Function.comp_def]

/-- C11, truncated logs: what really happens if the log ends after `rows.length < n` of the `n` rows.  The parser
continues at the *start* of the file (negative index): if the first lines of the log can be read as rows, they are taken for the
missing rows. -/
theorem fastercap_truncated (hf : flt "matrix".toList = none) (pre block first rest : List Str) (n : Nat)
    (rows extra : List (Str × List ℚ)) (hb : ShowsPart flt block n rows) (hk : n = rows.length + extra.length)
    (he : extra ≠ []) (hfirst : pre ++ block = first ++ rest) (hx : List.Forall₂ (ShowsRow flt) first extra) :
    fastercapParse flt (pre ++ block) = .ok (scaled (rows ++ extra)) := by
  have hpos := List.length_pos_iff.2 he
  have hl := hx.length_eq
  have hn : n - rows.length = first.length := by omega
  rw [fastercap_truncated_eq hf pre block n rows hb (by omega) (by rw [hfirst, List.length_append]; omega), hn, hfirst,
    List.take_left, mapM_ok_of (parseRow flt) (r := extra.map fun r => (r.1, r.2.map (· / 1000000)))
      (by rw [List.forall₂_map_right_iff]; exact hx.imp fun _ _ h => parseRow_shows h)]
  simp [scaled, Except.map, Function.comp_def]

/-- C11, truncated logs, the part that holds: if the very first line of the log is not itself readable as a matrix row
(it is blank, or a word other than the first is not a number), then a log that ends inside of a matrix is rejected.
Missing for the full claim: see `fastercap_truncated_fails` and `fastercap_cut_row_fails`. -/
theorem fastercap_truncated_partial (hf : flt "matrix".toList = none) (first : Str) (pre block : List Str) (n : Nat)
    (rows : List (Str × List ℚ)) (hb : ShowsPart flt block n rows) (hk : rows.length < n)
    (h1 : (∀ x ∈ first, isWs x = true) ∨ ∃ toks, LineOf first toks ∧ ∃ t ∈ toks.tail, flt t = none) :
    ∃ e, fastercapParse flt (first :: pre ++ block) = .error e := by
  obtain ⟨hdr, ls, rfl, hh, hrows⟩ := hb
  obtain ⟨h2, h3⟩ := fastercap_cut hf (first :: pre) ls hdr n rows hh hrows
  rw [h2]
  have hll : ls.length = rows.length := hrows.length_eq
  have key := h3 1
  simp only [List.cons_append, List.take_succ_cons, List.take_zero, List.length_singleton] at key
  have hbad : ∃ e, parseRow flt first = .error e := by
    unfold parseRow
    rcases h1 with h | ⟨toks, hl, t, ht, hft⟩
    · have : strip first = [] := by
        have := strip_append_ws (s := []) h
        rw [List.nil_append] at this
        rw [this]; rfl
      rw [this]
      exact ⟨_, rfl⟩
    · rw [lineOf_parts hl]
      cases toks with
      | nil => exact ⟨_, rfl⟩
      | cons a toks =>
        have : toks.mapM flt = none := by
          rw [List.tail_cons] at ht
          clear hl
          induction toks with
          | nil => cases ht
          | cons b bs ih =>
            rw [List.mapM_cons]
            rcases List.mem_cons.1 ht with rfl | ht
            · rw [hft]; rfl
            · rw [ih ht]
              cases flt b <;> rfl
        unfold rowOfCells
        simp only [this]
        exact ⟨_, rfl⟩
  obtain ⟨e, he⟩ := hbad
  have hrs : ls.mapM (parseRow flt) = .ok (rows.map fun r => (r.1, r.2.map (· / 1000000))) := by
    apply mapM_ok_of
    rw [List.forall₂_map_right_iff]
    exact hrows.imp fun _ _ h => parseRow_shows h
  rw [List.mapM_append, hrs, List.mapM_cons, he] at key
  obtain ⟨m, hm⟩ : ∃ m, n = (ls.length + 1) + m := ⟨n - (ls.length + 1), by omega⟩
  refine ⟨e, ?_⟩
  unfold readRows
  rw [show List.range n = List.range (ls.length + 1) ++ (List.range m).map (ls.length + 1 + ·) by rw [hm, List.range_add]]
  rw [List.mapM_append]
  simp only [List.cons_append] at key ⊢
  rw [key]
  rfl

/-! ### Witnesses -/

/-- A toy `float`: digits only. -/
def digitsFlt (s : Str) : Option ℚ :=
  if s ≠ [] ∧ s.all Char.isDigit then some (Nat.ofDigitChars 10 s 0) else none

/-- The hypotheses of `fastercap_last_matrix` are met by a log with two iterations, indentation and trailing text. -/
example : fastercapParse digitsFlt (["x", "Capacitance matrix is:", "Dimension 1 x 1", "g1_A  5", "",
      " Capacitance matrix is: ", "Dimension 2 x 2", "g1_A 7  1", "   g2_B 1 8  ", "", "done"].map String.toList) =
    .ok ⟨["g1_A".toList, "g2_B".toList], [[7/1000000, 1/1000000], [1/1000000, 8/1000000]]⟩ := by decide +kernel

example : ShowsMatrix digitsFlt (["Capacitance matrix is:", "Dimension 1 x 1", " g1_A  5 "].map String.toList)
    [("g1_A".toList, [5])] := by
  have t : ∀ w : Str, w ≠ [] → w.all (fun c => !isWs c) = true → Token w := by
    intro w h1 h2
    refine ⟨h1, fun x hx => ?_⟩
    have := List.all_eq_true.1 h2 x hx
    simpa using this
  refine ⟨"Capacitance matrix is:".toList, [" g1_A  5 ".toList], by decide, by decide, ?_⟩
  refine List.Forall₂.cons ⟨["5".toList], ⟨" ".toList, "g1_A  5".toList, " ".toList, by decide, by decide, by decide, ?_⟩,
    List.Forall₂.cons (by decide +kernel) .nil⟩ .nil
  exact Spaced.cons (w := "g1_A".toList) (t _ (by decide) (by decide)) 1 (Spaced.last (w := "5".toList) (t _ (by decide) (by decide)))

/-- C11 is violated for truncated logs: this log ends after the dimension line, and the first line of the file
(a single word) becomes a row of the matrix. -/
theorem fastercap_truncated_fails :
    fastercapParse digitsFlt (["FasterCap", "Capacitance matrix is:", "Dimension 1 x 1"].map String.toList) =
      .ok ⟨["FasterCap".toList], [[]]⟩ := by decide +kernel

/-- C11 is violated for a log cut in its last row: the short row is accepted, and the matrix is not square. -/
theorem fastercap_cut_row_fails :
    fastercapParse digitsFlt (["Capacitance matrix is:", "Dimension 2 x 2", "g1_A 70 10", "g2_B 1"].map String.toList) =
      .ok ⟨["g1_A".toList, "g2_B".toList], [[70/1000000, 10/1000000], [1/1000000]]⟩ := by decide +kernel

/-! ### FastCap2 -/

/-- C12, main part: from a log with any text before and any text without a further matrix header after it, the last
printed matrix is returned, names and rows in printed order and values scaled by 1e-6.
Missing for the full claim: the unit is ignored, see `fastcap_unit_ignored_fails`. -/
theorem fastcap_last_matrix_partial (unit : Str) (pre block post : List Str) (rows : List (Str × List ℚ))
    (hb : ShowsMatrix2 flt unit block rows)
    (hlater : ∀ l ∈ block.tail ++ post, ¬ "CAPACITANCE MATRIX, ".toList <+: l) :
    fastcapParse flt (pre ++ block ++ post) = .ok (scaled rows) := by
  obtain ⟨cols, ls, toks, rfl, hu, hw, hcols, hlen, hrows⟩ := hb
  set hdr := "CAPACITANCE MATRIX, ".toList ++ unit with hhdr
  have hrest : ∀ l ∈ cols :: (ls ++ post), isSection l = false := by
    intro l hl
    have := hlater l (by simpa using hl)
    unfold isSection
    by_contra hc
    rw [Bool.not_eq_false] at hc
    exact this (List.isPrefixOf_iff_prefix.1 hc)
  have hshape : pre ++ (hdr :: cols :: ls) ++ post = pre ++ hdr :: cols :: (ls ++ post) := by simp
  have hsec : isSection hdr = true := by
    unfold isSection
    rw [List.isPrefixOf_iff_prefix]
    exact List.prefix_append _ _
  have hidx := findIdx_rev (p := isSection) pre (cols :: (ls ++ post)) hdr hsec hrest
  have hunit : sectionUnit hdr = some unit := by
    unfold sectionUnit
    rw [hhdr, stripPrefix_append]
    have : unit.takeWhile isWord = unit := List.takeWhile_eq_self_iff.2 hw
    simp only [this]
    rw [if_neg]
    rwa [List.isEmpty_iff]
  unfold fastcapParse
  simp only [hshape, hidx]
  have hh : pyIndex (pre ++ hdr :: cols :: (ls ++ post)).reverse (((cols :: (ls ++ post)).length : Int)) = .ok hdr := by
    have hlt : pre.length < (pre ++ hdr :: cols :: (ls ++ post)).length := by simp
    have := pyIndex_rev _ _ hlt
    have e : (((pre ++ hdr :: cols :: (ls ++ post)).length : Int) - 1 - ((pre.length : Nat) : Int)) =
        ((cols :: (ls ++ post)).length : Int) := by simp; ring
    rw [e] at this
    rw [this, List.getElem_append_right (by omega)]
    simp
  have hd : pyIndex (pre ++ hdr :: cols :: (ls ++ post)).reverse (((cols :: (ls ++ post)).length : Int) - 1) = .ok cols := by
    have hlt : pre.length + 1 < (pre ++ hdr :: cols :: (ls ++ post)).length := by simp
    have := pyIndex_rev _ _ hlt
    have e : (((pre ++ hdr :: cols :: (ls ++ post)).length : Int) - 1 - ((pre.length + 1 : Nat) : Int)) =
        ((cols :: (ls ++ post)).length : Int) - 1 := by simp; ring
    rw [e] at this
    rw [this, List.getElem_append_right (by omega)]
    simp
  rw [hh, hd]
  show (match sectionUnit hdr with
    | none => _
    | some _ => _) = _
  rw [hunit]
  show readRows (parseRow2 flt) _ _ (splitWs (strip cols)).length = _
  rw [splitWs_lineOf hcols, hlen]
  have hrs : List.Forall₂ (fun a b => parseRow2 flt a = .ok b) ls (rows.map fun r => (r.1, r.2.map (· / 1000000))) := by
    rw [List.forall₂_map_right_iff]
    exact hrows.imp fun _ _ h => parseRow2_shows h
  have := readRows_lines (parseRow2 flt) pre ls post hdr cols hrs
  rw [List.length_map] at this
  rw [List.length_cons, Nat.add_comm, this]
  simp [scaled, Function.comp_def]

/-- The hypotheses are met by a printed 1 x 1 matrix. -/
example : ShowsMatrix2 digitsFlt "picofarads".toList
    (["CAPACITANCE MATRIX, picofarads", "   1 ", " A 1   70"].map String.toList) [("A".toList, [70])] := by
  have t : ∀ w : Str, w ≠ [] → w.all (fun c => !isWs c) = true → Token w := by
    intro w h1 h2
    refine ⟨h1, fun x hx => ?_⟩
    have := List.all_eq_true.1 h2 x hx
    simpa using this
  refine ⟨"   1 ".toList, [" A 1   70".toList], ["1".toList], by decide, by decide, by decide,
    ⟨"   ".toList, "1".toList, " ".toList, by decide, by decide, by decide,
      Spaced.last (t _ (by decide) (by decide))⟩, by decide, .cons ?_ .nil⟩
  exact ⟨" ".toList, "A".toList, "1".toList, 2, "70".toList, [], ["70".toList], by decide, by decide, by decide,
    t _ (by decide) (by decide), t _ (by decide) (by decide), rfl, Spaced.last (t _ (by decide) (by decide)),
    .cons (by decide +kernel) .nil⟩

/-- C12: a log without a matrix is rejected. -/
theorem fastcap_no_matrix_rejected (lines : List Str) (h : ∀ l ∈ lines, ¬ "CAPACITANCE MATRIX, ".toList <+: l) :
    ∃ e, fastcapParse flt lines = .error e := by
  unfold fastcapParse
  have : lines.reverse.findIdx? isSection = none := by
    rw [List.findIdx?_eq_none_iff]
    intro x hx
    have := h x (List.mem_reverse.1 hx)
    by_contra hc
    rw [Bool.not_eq_false] at hc
    exact this (List.isPrefixOf_iff_prefix.1 hc)
  simp only [this]
  exact ⟨_, rfl⟩

/-- C12 is violated: the announced unit has no influence.  Two logs that print the same numbers, one in picofarads and
one in nanofarads, give the same matrix. -/
theorem fastcap_unit_ignored_fails :
    fastcapParse digitsFlt (["CAPACITANCE MATRIX, picofarads", "  1 2", "A 1 70 10", "B 2 10 80"].map String.toList) =
      fastcapParse digitsFlt (["CAPACITANCE MATRIX, nanofarads", "  1 2", "A 1 70 10", "B 2 10 80"].map String.toList) ∧
    fastcapParse digitsFlt (["CAPACITANCE MATRIX, picofarads", "  1 2", "A 1 70 10", "B 2 10 80"].map String.toList) =
      .ok ⟨["A".toList, "B".toList], [[70/1000000, 10/1000000], [10/1000000, 80/1000000]]⟩ := by
  constructor <;> decide +kernel

/-- C12: the same for every matrix and every pair of units. -/
theorem fastcap_unit_ignored (u1 u2 : Str) (pre b1 b2 post : List Str) (rows : List (Str × List ℚ))
    (h1 : ShowsMatrix2 flt u1 b1 rows) (h2 : ShowsMatrix2 flt u2 b2 rows)
    (hl1 : ∀ l ∈ b1.tail ++ post, ¬ "CAPACITANCE MATRIX, ".toList <+: l)
    (hl2 : ∀ l ∈ b2.tail ++ post, ¬ "CAPACITANCE MATRIX, ".toList <+: l) :
    fastcapParse flt (pre ++ b1 ++ post) = fastcapParse flt (pre ++ b2 ++ post) := by
  rw [fastcap_last_matrix_partial u1 pre b1 post rows h1 hl1, fastcap_last_matrix_partial u2 pre b2 post rows h2 hl2]

/-- C12: if name and running number are separated by two blanks, the running number is read as the first value. -/
theorem fastcap_padded_name_fails :
    fastcapParse digitsFlt (["CAPACITANCE MATRIX, picofarads", "  1 2", "A  1 70 10", "BB 2 10 80"].map String.toList) =
      .ok ⟨["A".toList, "BB".toList], [[1/1000000, 70/1000000, 10/1000000], [10/1000000, 80/1000000]]⟩ := by decide +kernel

end Verif.SolverLog
