import Verif.Decks.Reader

/-!
# The lines of schematics for LVS of sg13g2

custom_reader.lvs 25–84: `parse_element` and `clean_sch` change the text of an element before KLayout's SPICE reader sees it.
-/

namespace Verif.Decks

/-! ### Model -/

/-- `s.split(' ')`: the words between white space. Simplification: white space is blank, tab and line ends. -/
def wordsFrom (acc : Str) : Str → List Str
  | [] => if acc = [] then [] else [acc]
  | c :: cs => if c.isWhitespace then (if acc = [] then wordsFrom [] cs else acc :: wordsFrom [] cs) else wordsFrom (acc ++ [c]) cs

/-- `s.split(' ')`. -/
def wordsOf (s : Str) : List Str := wordsFrom [] s

/-- `ws.join(' ')`. -/
def joinWords : List Str → Str
  | [] => []
  | [w] => w
  | w :: v :: ws => w ++ ' ' :: joinWords (v :: ws)

/-- `line.delete('[]$\\/')`; custom_reader.lvs 51. The backslash before the slash quotes it and is not deleted itself. -/
def deleteMarks (line : Str) : Str := line.filter fun c => !(['[', ']', '$', '/'].contains c)

/-- The number of words that are kept of an element; custom_reader.lvs 30–44. -/
def numTerms (line : Str) (ele : Ele) : Nat :=
  if ele = .C then (if has line "varicap" then 5 else if has line "rfcmim" then 4 else 3) else 3

/-- `\w`. -/
def isW (c : Char) : Bool := c.isAlphanum || c == '_'

/-- The greedy `\S+\b` after its first character `c`: as many characters as possible of `v`, so that exactly one of the characters
before and behind the end is a word character. What follows `v` is a blank or the end of the line. -/
def upToBoundary : Char → Str → Option Str
  | c, [] => if isW c then some [] else none
  | c, d :: v => match upToBoundary d v with
    | some e => some (d :: e)
    | none => if isW c != isW d then some [] else none

/-- A match of `\w+\s*=\s*\S+\b` at the start of the text. -/
def matchParam (s : Str) : Option Str :=
  let key := s.takeWhile isW
  let r := s.dropWhile isW
  if key = [] then none else match r.dropWhile Char.isWhitespace with
    | '=' :: r' => match r'.dropWhile Char.isWhitespace with
      | c :: v => (upToBoundary c (v.takeWhile fun x => !x.isWhitespace)).map fun e =>
          key ++ r.takeWhile Char.isWhitespace ++ '=' :: (r'.takeWhile Char.isWhitespace ++ c :: e)
      | [] => none
    | _ => none

/-- `line.scan(/\b\w+\s*=\s*\S+\b/)`; custom_reader.lvs 28. `inWord`: the character before is a word character; `skip`: the number
of characters that belong to the last match. -/
def scanFrom : Bool → Nat → Str → List Str
  | _, _, [] => []
  | _, skip + 1, c :: cs => scanFrom (isW c) skip cs
  | inWord, 0, c :: cs =>
    if !inWord && isW c then match matchParam (c :: cs) with
      | some m => m :: scanFrom (isW c) (m.length - 1) cs
      | none => scanFrom (isW c) 0 cs
    else scanFrom (isW c) 0 cs

/-- The parameters of a line. -/
def scan (line : Str) : List Str := scanFrom false 0 line

/-- `clean_sch`; custom_reader.lvs 25–46. -/
def cleanSch (line : Str) (ele : Ele) : Str :=
  joinWords ((wordsOf line).take (numTerms line ele)) ++ ' ' :: joinWords (scan line)

/-- The text that `parse_element` passes on; custom_reader.lvs 49–56. The further attempts after an exception (57–84) append a
value to this text or change the letter. -/
def cleanLine (line : Str) (ele : Ele) : Str :=
  if ele = .R ∨ ele = .C then cleanSch (deleteMarks line) ele else deleteMarks line

/-! ### Specification -/

/-- A word of a schematic line. -/
def Word (w : Str) : Prop := w ≠ [] ∧ ∀ c ∈ w, c.isWhitespace = false

/-- No character of the word is a bracket, a dollar sign or a slash. -/
def Plain (w : Str) : Prop := ∀ c ∈ w, c ≠ '[' ∧ c ≠ ']' ∧ c ≠ '$' ∧ c ≠ '/'

/-- A name of a net or model: no equals sign. -/
def Name (w : Str) : Prop := Word w ∧ Plain w ∧ '=' ∉ w

/-- A letter, a digit or an underscore. -/
def WordChar (c : Char) : Prop := c.isAlphanum = true ∨ c = '_'

/-- A parameter: a key, an equals sign and a value that ends with a letter, a digit or an underscore. -/
def Param (w : Str) : Prop :=
  ∃ key value last, w = key ++ '=' :: (value ++ [last]) ∧ key ≠ [] ∧ (∀ c ∈ key, WordChar c) ∧
    Word (value ++ [last]) ∧ Plain (value ++ [last]) ∧ WordChar last

/-! ### Proofs -/

theorem deleteMarks_plain {s : Str} (h : Plain s) : deleteMarks s = s := by
  refine List.filter_eq_self.2 fun c hc => ?_
  have := h c hc
  simp [this.1, this.2.1, this.2.2.1, this.2.2.2]

theorem wordsFrom_word {w : Str} (hw : ∀ c ∈ w, c.isWhitespace = false) : ∀ (acc rest : Str),
    wordsFrom acc (w ++ rest) = wordsFrom (acc ++ w) rest := by
  induction w with
  | nil => simp
  | cons c w ih =>
    intro acc rest
    rw [List.cons_append, wordsFrom, if_neg (by simp [hw c]), ih (fun x hx => hw x (.tail _ hx))]
    simp

theorem wordsOf_cons {w : Str} (hw : Word w) (rest : Str) : wordsOf (w ++ ' ' :: rest) = w :: wordsOf rest := by
  have hs : (' ' : Char).isWhitespace = true := by decide
  rw [wordsOf, wordsFrom_word hw.2, List.nil_append, wordsFrom, if_pos hs, if_neg hw.1, wordsOf]

theorem wordsOf_word {w : Str} (hw : Word w) : wordsOf w = [w] := by
  have := wordsFrom_word hw.2 [] []
  rw [List.append_nil, List.nil_append] at this
  rw [wordsOf, this, wordsFrom, if_neg hw.1]

theorem wordsOf_join : ∀ {ws : List Str}, (∀ w ∈ ws, Word w) → wordsOf (joinWords ws) = ws
  | [], _ => rfl
  | [w], h => wordsOf_word (h w (.head _))
  | w :: v :: ws, h => by rw [joinWords, wordsOf_cons (h w (.head _)), wordsOf_join fun x hx => h x (.tail _ hx)]

theorem wordsOf_join_append : ∀ {ws : List Str}, ws ≠ [] → (∀ w ∈ ws, Word w) → ∀ rest : Str,
    wordsOf (joinWords ws ++ ' ' :: rest) = ws ++ wordsOf rest
  | [w], _, h, rest => wordsOf_cons (h w (.head _)) rest
  | w :: v :: ws, _, h, rest => by
    rw [joinWords, List.append_assoc, List.cons_append, wordsOf_cons (h w (.head _)),
      wordsOf_join_append (by simp) fun x hx => h x (.tail _ hx)]
    rfl

theorem plain_join : ∀ {ws : List Str}, (∀ w ∈ ws, Plain w) → Plain (joinWords ws)
  | [], _ => fun c hc => by simp [joinWords] at hc
  | [w], h => h w (.head _)
  | w :: v :: ws, h => by
    intro c hc
    rw [joinWords, List.mem_append, List.mem_cons] at hc
    rcases hc with hc | rfl | hc
    · exact h w (.head _) c hc
    · decide
    · exact plain_join (fun x hx => h x (.tail _ hx)) c hc

theorem isW_iff {c : Char} : isW c = true ↔ WordChar c := by simp [isW, WordChar]

theorem isW_eq : isW '=' = false := by decide

theorem isW_blank {c : Char} (h : isW c = true) : c.isWhitespace = false := by
  by_contra hc
  rw [Bool.not_eq_false] at hc
  unfold Char.isWhitespace at hc
  simp only [Bool.or_eq_true, decide_eq_true_eq] at hc
  rcases hc with ((rfl | rfl) | rfl) | rfl <;> exact absurd h (by decide)

/-- Behind a word that is no parameter. -/
theorem scan_name {w : Str} (hw : ∀ c ∈ w, c.isWhitespace = false) (he : '=' ∉ w) {rest : Str}
    (hr : ∀ c ∈ rest.head?, c.isWhitespace = false ∧ c ≠ '=') : ∀ b, scanFrom b 0 (w ++ ' ' :: rest) = scanFrom false 0 rest := by
  have hs : isW ' ' = false := by decide
  induction w with
  | nil => intro b; rw [List.nil_append, scanFrom, hs]; simp
  | cons c w ih =>
    intro b
    have ih := ih (fun x hx => hw x (.tail _ hx)) (fun h => he (.tail _ h))
    have hm : matchParam (c :: (w ++ ' ' :: rest)) = none := by
      have key : ∀ u : Str, (∀ x ∈ u, x.isWhitespace = false) → '=' ∉ u →
          ∀ t, ((u ++ ' ' :: rest).dropWhile isW).dropWhile Char.isWhitespace ≠ '=' :: t := by
        intro u
        induction u with
        | nil =>
          intro _ _ t
          have hb : (' ' : Char).isWhitespace = true := by decide
          rw [List.nil_append, List.dropWhile_cons_of_neg (by simp [hs]), List.dropWhile_cons_of_pos hb]
          cases rest with
          | nil => simp
          | cons d rest =>
            have := hr d (by simp)
            rw [List.dropWhile_cons_of_neg (by simp [this.1])]
            intro h
            exact this.2 (List.cons.inj h).1
        | cons d u ihu =>
          intro h1 h2 t
          by_cases hd : isW d = true
          · rw [List.cons_append, List.dropWhile_cons_of_pos hd]
            exact ihu (fun x hx => h1 x (.tail _ hx)) (fun h => h2 (.tail _ h)) t
          · rw [List.cons_append, List.dropWhile_cons_of_neg hd, List.dropWhile_cons_of_neg (by simp [h1 d])]
            intro h
            exact h2 ((List.cons.inj h).1 ▸ .head _)
      unfold matchParam
      have := key (c :: w) hw he
      rw [List.cons_append] at this
      simp only
      split <;> rfl
    rw [List.cons_append, scanFrom, hm]
    split <;> exact ih _

theorem upToBoundary_all {last : Char} (hl : isW last = true) : ∀ (value : Str) (c : Char),
    upToBoundary c (value ++ [last]) = some (value ++ [last])
  | [], c => by simp [upToBoundary, hl]
  | d :: v, c => by rw [List.cons_append, upToBoundary, upToBoundary_all hl v d]

theorem takeWhile_all {p : Char → Bool} : ∀ {u : Str} {c : Char} {r : Str}, (∀ x ∈ u, p x = true) → p c = false →
    (u ++ c :: r).takeWhile p = u ∧ (u ++ c :: r).dropWhile p = c :: r
  | [], c, r, _, hc => by simp [hc]
  | d :: u, c, r, h, hc => by
    have := takeWhile_all (u := u) (c := c) (r := r) (fun x hx => h x (.tail _ hx)) hc
    rw [List.cons_append, List.takeWhile_cons_of_pos (h d (.head _)), List.dropWhile_cons_of_pos (h d (.head _)), this.1, this.2]
    exact ⟨rfl, rfl⟩

/-- A line goes on with a blank or ends. -/
def Ends (r : Str) : Prop := r = [] ∨ ∃ r', r = ' ' :: r'

theorem takeWhile_ends {u r : Str} (hu : ∀ x ∈ u, x.isWhitespace = false) (hr : Ends r) :
    (u ++ r).takeWhile (fun x => !x.isWhitespace) = u := by
  rcases hr with rfl | ⟨r', rfl⟩
  · rw [List.append_nil]
    exact List.takeWhile_eq_self_iff.2 fun x hx => by simp [hu x hx]
  · exact (takeWhile_all (fun x hx => by simp [hu x hx]) (by decide)).1

theorem matchParam_param {key value : Str} {last : Char} (hk : key ≠ []) (hkw : ∀ c ∈ key, isW c = true)
    (hv : ∀ c ∈ value ++ [last], c.isWhitespace = false) (hl : isW last = true) {r : Str} (hr : Ends r) :
    matchParam (key ++ '=' :: (value ++ [last] ++ r)) = some (key ++ '=' :: (value ++ [last])) := by
  obtain ⟨h1, h2⟩ := takeWhile_all (r := value ++ [last] ++ r) hkw isW_eq
  have he : ('=' : Char).isWhitespace = false := by decide
  unfold matchParam
  simp only [h1, h2, if_neg hk]
  rw [List.dropWhile_cons_of_neg (by simp [he])]
  have h3 : (List.takeWhile Char.isWhitespace ('=' :: (value ++ [last] ++ r))) = [] :=
    List.takeWhile_cons_of_neg (by simp [he])
  rw [h3]
  cases value with
  | nil =>
    have hb : last.isWhitespace = false := hv last (by simp)
    simp only [List.nil_append, List.cons_append]
    rw [List.dropWhile_cons_of_neg (by simp [hb]), List.takeWhile_cons_of_neg (by simp [hb])]
    have := takeWhile_ends (u := []) (by simp) hr
    rw [List.nil_append] at this
    simp [this, upToBoundary, hl]
  | cons c v =>
    have hb : c.isWhitespace = false := hv c (by simp)
    simp only [List.cons_append]
    rw [List.dropWhile_cons_of_neg (by simp [hb]), List.takeWhile_cons_of_neg (by simp [hb])]
    have := takeWhile_ends (u := v ++ [last]) (fun x hx => hv x (.tail _ hx)) hr
    simp only [List.append_assoc, List.nil_append, List.cons_append] at this ⊢
    simp [this, upToBoundary_all hl]

theorem scan_skip : ∀ (m : Str) (b : Bool) (r : Str), m ≠ [] → ∃ b', scanFrom b m.length (m ++ r) = scanFrom b' 0 r
  | [c], b, r, _ => ⟨isW c, rfl⟩
  | c :: d :: m, b, r, _ => by
    obtain ⟨b', h⟩ := scan_skip (d :: m) (isW c) r (by simp)
    exact ⟨b', by rw [List.length_cons, List.cons_append, scanFrom, h]⟩

theorem scan_blank (b : Bool) (r : Str) : scanFrom b 0 (' ' :: r) = scanFrom false 0 r := by
  have hs : isW ' ' = false := by decide
  rw [scanFrom, hs]
  simp

/-- A parameter is found. -/
theorem scan_param {p : Str} (hp : Param p) {r : Str} (hr : Ends r) :
    ∃ b, scanFrom false 0 (p ++ r) = p :: scanFrom b 0 r := by
  obtain ⟨key, value, last, rfl, hk, hkw, hv, _, hl⟩ := hp
  have hm := matchParam_param hk (fun c hc => isW_iff.2 (hkw c hc)) hv.2 (isW_iff.2 hl) hr
  obtain ⟨c, ks, rfl⟩ := List.exists_cons_of_ne_nil hk
  have hc : isW c = true := isW_iff.2 (hkw c (.head _))
  rw [List.append_assoc, List.cons_append, scanFrom]
  rw [List.cons_append] at hm
  simp only [List.cons_append, List.append_assoc] at hm ⊢
  rw [hm]
  simp only [hc, Bool.not_false, Bool.and_self, if_true, List.length_cons, Nat.add_sub_cancel]
  obtain ⟨b, h⟩ := scan_skip (ks ++ '=' :: (value ++ [last])) true r (by simp)
  refine ⟨b, ?_⟩
  rw [← h]
  simp only [List.append_assoc, List.cons_append]

theorem joinWords_cons (w : Str) {ws : List Str} (h : ws ≠ []) : joinWords (w :: ws) = w ++ ' ' :: joinWords ws := by
  obtain ⟨v, vs, rfl⟩ := List.exists_cons_of_ne_nil h
  rfl

theorem Param.word {p : Str} (h : Param p) : Word p := by
  obtain ⟨key, value, last, rfl, hk, hkw, hv, _, hl⟩ := h
  refine ⟨by simp, fun c hc => ?_⟩
  rw [List.mem_append, List.mem_cons] at hc
  rcases hc with hc | rfl | hc
  · exact isW_blank (isW_iff.2 (hkw c hc))
  · decide
  · exact hv.2 c hc

theorem wordChar_plain {c : Char} (h : WordChar c) : c ≠ '[' ∧ c ≠ ']' ∧ c ≠ '$' ∧ c ≠ '/' := by
  refine ⟨?_, ?_, ?_, ?_⟩ <;> rintro rfl <;> exact absurd (isW_iff.2 h) (by decide)

theorem Param.plain {p : Str} (h : Param p) : Plain p := by
  obtain ⟨key, value, last, rfl, hk, hkw, _, hv, hl⟩ := h
  intro c hc
  rw [List.mem_append, List.mem_cons] at hc
  rcases hc with hc | rfl | hc
  · exact wordChar_plain (hkw c hc)
  · decide
  · exact hv c hc

theorem Param.head {p : Str} (h : Param p) : ∃ c s, p = c :: s ∧ c ≠ '=' := by
  obtain ⟨key, value, last, rfl, hk, hkw, _⟩ := h
  obtain ⟨c, ks, rfl⟩ := List.exists_cons_of_ne_nil hk
  exact ⟨c, _, rfl, by rintro rfl; exact absurd (isW_iff.2 (hkw _ (.head _))) (by decide)⟩

theorem scan_params : ∀ {ps : List Str}, (∀ p ∈ ps, Param p) → scanFrom false 0 (joinWords ps) = ps
  | [], _ => rfl
  | [p], h => by
    obtain ⟨b, hb⟩ := scan_param (h p (.head _)) (.inl rfl)
    rw [List.append_nil] at hb
    rw [joinWords, hb]
    cases b <;> rfl
  | p :: q :: ps, h => by
    obtain ⟨b, hb⟩ := scan_param (h p (.head _)) (.inr ⟨joinWords (q :: ps), rfl⟩)
    rw [joinWords, hb, scan_blank, scan_params fun x hx => h x (.tail _ hx)]

theorem scan_last {w : Str} (hw : ∀ c ∈ w, c.isWhitespace = false) (he : '=' ∉ w) : ∀ b, scanFrom b 0 w = [] := by
  induction w with
  | nil => intro b; cases b <;> rfl
  | cons c w ih =>
    intro b
    have hw' : ∀ x ∈ w, x.isWhitespace = false := fun x hx => hw x (.tail _ hx)
    have he' : '=' ∉ w := fun h => he (.tail _ h)
    have ih := ih hw' he'
    have hm : matchParam (c :: w) = none := by
      have sub : ∀ t, ((c :: w).dropWhile isW).dropWhile Char.isWhitespace ≠ '=' :: t := by
        intro t ht
        have : '=' ∈ ((c :: w).dropWhile isW).dropWhile Char.isWhitespace := by rw [ht]; exact .head _
        exact he ((List.dropWhile_sublist _).subset ((List.dropWhile_sublist _).subset this))
      unfold matchParam
      simp only
      split <;> rfl
    rw [scanFrom, hm]
    split <;> exact ih _

/-- The parameters of a line are found, and nothing else. -/
theorem scan_found {ps : List Str} (hps : ∀ p ∈ ps, Param p) : ∀ {ns : List Str}, (∀ n ∈ ns, Name n) →
    scanFrom false 0 (joinWords (ns ++ ps)) = ps
  | [], _ => scan_params hps
  | n :: ns, h => by
    have hn := h n (.head _)
    by_cases he : ns ++ ps = []
    · obtain ⟨rfl, rfl⟩ := List.append_eq_nil_iff.1 he
      exact scan_last hn.1.2 hn.2.2 _
    · rw [List.cons_append, joinWords_cons _ he, scan_name hn.1.2 hn.2.2 ?_, scan_found hps fun x hx => h x (.tail _ hx)]
      have first : ∃ c s, joinWords (ns ++ ps) = c :: s ∧ c.isWhitespace = false ∧ c ≠ '=' := by
        have hfst : ∀ (w : Str) (ws : List Str), (∃ c s, w = c :: s ∧ c.isWhitespace = false ∧ c ≠ '=') →
            ∃ c s, joinWords (w :: ws) = c :: s ∧ c.isWhitespace = false ∧ c ≠ '=' := by
          rintro w ws ⟨c, s, rfl, h1, h2⟩
          cases ws with
          | nil => exact ⟨c, s, rfl, h1, h2⟩
          | cons v vs => exact ⟨c, _, rfl, h1, h2⟩
        cases ns with
        | nil =>
          obtain ⟨p, ps', rfl⟩ := List.exists_cons_of_ne_nil (l := ps) (by simpa using he)
          obtain ⟨c, s, rfl, hc⟩ := (hps p (.head _)).head
          exact hfst _ _ ⟨c, s, rfl, (hps _ (.head _)).word.2 c (.head _), hc⟩
        | cons m ms =>
          have hm := h m (.tail _ (.head _))
          obtain ⟨c, s, rfl⟩ := List.exists_cons_of_ne_nil hm.1.1
          exact hfst _ _ ⟨c, s, rfl, hm.1.2 c (.head _), fun e => hm.2.2 (e ▸ .head _)⟩
      obtain ⟨c, s, e, h1, h2⟩ := first
      rw [e]
      intro d hd
      obtain rfl : c = d := by simpa using hd
      exact ⟨h1, h2⟩

/-- What `clean_sch` leaves of names and parameters: as many names as it counts, and all parameters. -/
theorem cleaned {names params : List Str} (hn : ∀ n ∈ names, Name n) (hp : ∀ p ∈ params, Param p) {ele : Ele}
    (hele : ele = .R ∨ ele = .C) (hl : numTerms (joinWords (names ++ params)) ele ≤ names.length) :
    wordsOf (cleanLine (joinWords (names ++ params)) ele) =
      names.take (numTerms (joinWords (names ++ params)) ele) ++ params := by
  have hw : ∀ w ∈ names ++ params, Word w := fun w hw => (List.mem_append.1 hw).elim (fun h => (hn w h).1) fun h => (hp w h).word
  have hpl : ∀ w ∈ names ++ params, Plain w :=
    fun w hw => (List.mem_append.1 hw).elim (fun h => (hn w h).2.1) fun h => (hp w h).plain
  have hpos : 0 < numTerms (joinWords (names ++ params)) ele := by
    unfold numTerms
    split_ifs <;> decide
  have ht : (names ++ params).take (numTerms (joinWords (names ++ params)) ele) =
      names.take (numTerms (joinWords (names ++ params)) ele) := List.take_append_of_le_length hl
  rw [cleanLine, if_pos hele, deleteMarks_plain (plain_join hpl), cleanSch, wordsOf_join hw, ht, scan, scan_found hp hn,
    wordsOf_join_append _ (fun w h => (hn w (List.mem_of_mem_take h)).1), wordsOf_join fun p h => (hp p h).word]
  intro h
  have := congrArg List.length h
  rw [List.length_take, List.length_nil] at this
  omega

/-- The words of an element that is no resistor or capacitor reach the reader of KLayout unchanged. -/
theorem words_kept_partial {ws : List Str} (hw : ∀ w ∈ ws, Word w) (hp : ∀ w ∈ ws, Plain w) {ele : Ele}
    (hele : ele ≠ .R ∧ ele ≠ .C) : wordsOf (cleanLine (joinWords ws) ele) = ws := by
  rw [cleanLine, if_neg (by simp [hele.1, hele.2]), deleteMarks_plain (plain_join hp), wordsOf_join hw]

/-- The nets, the model and the parameters of a resistor with two nets and of a capacitor with as many nets as its model asks for
reach the reader of KLayout unchanged. -/
theorem nets_kept_partial {nets params : List Str} {model : Str} (hn : ∀ n ∈ nets ++ [model], Name n) (hp : ∀ p ∈ params, Param p)
    {ele : Ele} (hele : ele = .R ∧ nets.length = 2 ∨ ele = .C ∧
      ((nets.length = 4 ∧ has (joinWords (nets ++ model :: params)) "varicap" = true) ∨
       (nets.length = 3 ∧ has (joinWords (nets ++ model :: params)) "varicap" = false ∧
          has (joinWords (nets ++ model :: params)) "rfcmim" = true) ∨
       (nets.length = 2 ∧ has (joinWords (nets ++ model :: params)) "varicap" = false ∧
          has (joinWords (nets ++ model :: params)) "rfcmim" = false))) :
    wordsOf (cleanLine (joinWords (nets ++ model :: params)) ele) = nets ++ model :: params := by
  have hc : numTerms (joinWords (nets ++ model :: params)) ele = nets.length + 1 := by
    rcases hele with ⟨rfl, h⟩ | ⟨rfl, ⟨h, hv⟩ | ⟨h, hv, hr⟩ | ⟨h, hv, hr⟩⟩
    · simp [numTerms, h]
    · simp [numTerms, h, hv]
    · simp [numTerms, h, hv, hr]
    · simp [numTerms, h, hv, hr]
  have e : nets ++ model :: params = (nets ++ [model]) ++ params := by simp
  rw [e] at hc ⊢
  rw [cleaned hn hp (hele.imp And.left And.left) (by rw [hc]; simp), hc, List.take_of_length_le (by simp)]

/-- Violation: a resistor with a bulk net loses its model, and the bulk net is in its place. -/
theorem bulk_as_model {a b w model : Str} {params : List Str} (hn : ∀ n ∈ [a, b, w, model], Name n)
    (hp : ∀ p ∈ params, Param p) :
    wordsOf (cleanLine (joinWords (a :: b :: w :: model :: params)) .R) = a :: b :: w :: params := by
  have h3 : numTerms (joinWords ([a, b, w, model] ++ params)) .R = 3 := rfl
  have := cleaned hn hp (ele := .R) (.inl rfl) (by rw [h3]; simp)
  rw [h3] at this
  exact this

/-- Violation: an expression in braces as the value of a parameter of a resistor or capacitor loses the closing brace. -/
theorem brace_lost : wordsOf (cleanLine "n1 n2 rsil w={width}".toList .R) = ["n1", "n2", "rsil", "w={width"].map String.toList := by
  decide +kernel

/-- Two names of nets are one for the reader exactly if they are equal without brackets, dollar signs and slashes. -/
theorem merged_iff {a b : Str} {ws : List Str} {ele : Ele} (hele : ele ≠ .R ∧ ele ≠ .C) :
    cleanLine (joinWords (a :: ws)) ele = cleanLine (joinWords (b :: ws)) ele ↔
      a.filter (fun c => decide (c ≠ '[' ∧ c ≠ ']' ∧ c ≠ '$' ∧ c ≠ '/')) =
      b.filter (fun c => decide (c ≠ '[' ∧ c ≠ ']' ∧ c ≠ '$' ∧ c ≠ '/')) := by
  have hd : ∀ s, deleteMarks s = s.filter (fun c => decide (c ≠ '[' ∧ c ≠ ']' ∧ c ≠ '$' ∧ c ≠ '/')) := by
    intro s
    refine List.filter_congr fun c _ => ?_
    rw [Bool.eq_iff_iff]
    simp
  rw [cleanLine, cleanLine, if_neg (by simp [hele.1, hele.2]), if_neg (by simp [hele.1, hele.2]), hd, hd]
  cases ws with
  | nil => rfl
  | cons w ws =>
    rw [joinWords, joinWords, List.filter_append, List.filter_append]
    exact List.append_left_inj _

/-- Violation: the bits of a bus are taken for other nets of the schematic: `a[1]` and `a1` are one net. -/
theorem nets_merged (ws : List Str) :
    cleanLine (joinWords ("a[1]".toList :: ws)) .M = cleanLine (joinWords ("a1".toList :: ws)) .M :=
  (merged_iff ⟨by decide, by decide⟩).2 (by decide)

/-- A resistor and a transistor. -/
theorem lines_ex :
    (∀ w ∈ ["n1", "n2", "rsil"].map String.toList, Name w) ∧ (∀ p ∈ ["w=1u", "l=2.5u"].map String.toList, Param p) ∧
    cleanLine "n1  n2 rsil m w=1u l = 2.5u".toList .R = "n1 n2 rsil w=1u l = 2.5u".toList ∧
    cleanLine "a b c d sg13_hv_svaricap Nx=1 w={1}".toList .C = "a b c d sg13_hv_svaricap Nx=1 w={1".toList ∧
    wordsOf (cleanLine "d g s b sg13_lv_nmos w=1u".toList .M) = ["d", "g", "s", "b", "sg13_lv_nmos", "w=1u"].map String.toList := by
  refine ⟨by unfold Name Word Plain; decide, ?_, by decide +kernel, by decide +kernel, by decide⟩
  simp only [List.map_cons, List.map_nil, List.forall_mem_cons]
  refine ⟨⟨"w".toList, "1".toList, 'u', by decide, by decide, by unfold WordChar; decide, by unfold Word; decide, by unfold Plain; decide,
    by unfold WordChar; decide⟩, ⟨"l".toList, "2.5".toList, 'u', by decide, by decide, by unfold WordChar; decide, by unfold Word; decide,
    by unfold Plain; decide, by unfold WordChar; decide⟩, by simp⟩

end Verif.Decks
