import Verif.Common.PyStr

/-!
# Paths

The functions of `os.path` that the runners use (POSIX), and the place in the file system that a path denotes for a given
working directory. Simplifications: no symbolic links, and no special meaning of two leading slashes.
-/

namespace Verif.Runners

/-- A place in the file system: the names of the directories from the root, then the name of the file. -/
abbrev Place := List Str

/-- One more component of a path. -/
def step (acc : Place) (c : Str) : Place :=
  if c = [] ∨ c = ['.'] then acc else if c = ['.', '.'] then acc.dropLast else acc ++ [c]

/-- The place that the operating system finds for a path. -/
def locate (cwd : Place) (p : Str) : Place :=
  (splitOn '/' p).foldl step (if p.head? = some '/' then [] else cwd)

/-- `os.path.join(a, b)` -/
def join (a b : Str) : Str :=
  if b.head? = some '/' then b else if a = [] ∨ a.getLast? = some '/' then a ++ b else a ++ '/' :: b

/-- `os.path.basename(p)` -/
def basename (p : Str) : Str := (p.reverse.takeWhile (· != '/')).reverse

/-- `os.path.dirname(p)` -/
def dirname (p : Str) : Str :=
  let head := (p.reverse.dropWhile (· != '/')).reverse
  if head.all (· == '/') then head else (head.reverse.dropWhile (· == '/')).reverse

/-- `os.path.abspath(p)` in a working directory. -/
def abspath (cwd : Place) (p : Str) : Str :=
  match locate cwd p with
  | [] => ['/']
  | q => q.flatMap fun c => '/' :: c

/-! ### Lemmas -/

/-- The name of a file or directory. -/
def Name (c : Str) : Prop := c ≠ [] ∧ '/' ∉ c ∧ c ≠ ['.'] ∧ c ≠ ['.', '.']

theorem splitOn_append_sep (c : Char) (s t : Str) : splitOn c (s ++ c :: t) = splitOn c s ++ splitOn c t := by
  induction s with
  | nil => simp [splitOn]
  | cons a s ih =>
    rw [List.cons_append]
    simp only [splitOn]
    by_cases h : a = c
    · simp [h, ih]
    · rw [if_neg h, if_neg h, ih]
      cases hs : splitOn c s with
      | nil => exact absurd hs (splitOn_ne_nil c s)
      | cons w ws => simp

theorem mem_splitOn {c : Char} {s w : Str} (h : w ∈ splitOn c s) : c ∉ w := by
  induction s generalizing w with
  | nil => simp [splitOn] at h; simp [h]
  | cons a s ih =>
    simp only [splitOn] at h
    by_cases ha : a = c
    · rw [if_pos ha] at h
      rcases List.mem_cons.1 h with rfl | h
      · simp
      · exact ih h
    · rw [if_neg ha] at h
      cases hs : splitOn c s with
      | nil => exact absurd hs (splitOn_ne_nil c s)
      | cons v vs =>
        rw [hs] at h ih
        rcases List.mem_cons.1 h with rfl | h
        · have := ih (w := v) (by simp)
          simp [this, Ne.symm ha]
        · exact ih (by simp [h])

theorem step_name {acc : Place} {c : Str} (h : Name c) : step acc c = acc ++ [c] := by
  obtain ⟨h1, _, h3, h4⟩ := h
  unfold step
  rw [if_neg (by rintro (h | h) <;> contradiction), if_neg h4]

theorem foldl_step_names (l : List Str) (h : ∀ c ∈ l, Name c) (acc : Place) : l.foldl step acc = acc ++ l := by
  induction l generalizing acc with
  | nil => simp
  | cons a l ih =>
    rw [List.foldl_cons, step_name (h a (by simp)), ih fun c hc => h c (by simp [hc])]
    simp

theorem foldl_step_clean (l : List Str) (hl : ∀ c ∈ l, '/' ∉ c) (acc : Place) (ha : ∀ c ∈ acc, Name c) :
    ∀ c ∈ l.foldl step acc, Name c := by
  induction l generalizing acc with
  | nil => exact ha
  | cons a l ih =>
    rw [List.foldl_cons]
    apply ih fun c hc => hl c (by simp [hc])
    unfold step
    intro c hc
    split_ifs at hc with h1 h2
    · exact ha c hc
    · exact ha c (List.dropLast_subset _ hc)
    · rcases List.mem_append.1 hc with hc | hc
      · exact ha c hc
      · rw [List.mem_singleton.1 hc]
        exact ⟨fun h => h1 (Or.inl h), hl a (by simp), fun h => h1 (Or.inr h), h2⟩

/-- Places consist of names. -/
theorem locate_clean {cwd : Place} (hc : ∀ c ∈ cwd, Name c) (p : Str) : ∀ c ∈ locate cwd p, Name c := by
  unfold locate
  apply foldl_step_clean _ (fun c h => mem_splitOn h)
  split_ifs
  · simp
  · exact hc

theorem locate_nil (cwd : Place) : locate cwd [] = cwd := by simp [locate, splitOn, step]

/-- Absolute paths do not depend on the working directory. -/
theorem locate_absolute {p : Str} (h : p.head? = some '/') (cwd cwd' : Place) : locate cwd p = locate cwd' p := by
  simp [locate, h]

/-- A path relative to a directory. -/
theorem locate_join (cwd : Place) (a b : Str) (hb : b.head? ≠ some '/') :
    locate cwd (join a b) = locate (locate cwd a) b := by
  unfold join
  rw [if_neg hb]
  by_cases ha : a = []
  · rw [if_pos (Or.inl ha), ha, locate_nil, List.nil_append]
  · obtain ⟨x, a', rfl⟩ := List.exists_cons_of_ne_nil ha
    have hr : locate (locate cwd (x :: a')) b =
        (splitOn '/' b).foldl step (locate cwd (x :: a')) := by
      conv_lhs => unfold locate
      rw [if_neg hb]
      rfl
    rw [hr]
    by_cases hl : (x :: a').getLast? = some '/'
    · rw [if_pos (Or.inr hl)]
      obtain ⟨d, hd⟩ : ∃ d, x :: a' = d ++ ['/'] := by
        obtain ⟨ys, hys⟩ := List.getLast?_eq_some_iff.1 hl
        exact ⟨ys, hys⟩
      rw [hd]
      have hh : (d ++ ['/'] ++ b).head? = (d ++ ['/']).head? := by cases d <;> rfl
      unfold locate
      rw [hh, List.append_assoc, List.cons_append, List.nil_append, splitOn_append_sep, List.foldl_append,
        splitOn_append_sep, List.foldl_append]
      simp [splitOn, step]
    · rw [if_neg (by rintro (h | h) <;> contradiction)]
      have hh : (x :: a' ++ '/' :: b).head? = (x :: a').head? := rfl
      unfold locate
      rw [hh, splitOn_append_sep, List.foldl_append]

theorem locate_name (cwd : Place) {f : Str} (hf : Name f) : locate cwd f = cwd ++ [f] := by
  have h : f.head? ≠ some '/' := by
    intro h
    exact hf.2.1 (List.mem_of_mem_head? h)
  unfold locate
  rw [if_neg h, splitOn_none hf.2.1, List.foldl_cons, List.foldl_nil, step_name hf]

theorem head_of_name {f : Str} (hf : Name f) : f.head? ≠ some '/' := fun h => hf.2.1 (List.mem_of_mem_head? h)

/-- The absolute path denotes the same place, everywhere. -/
theorem locate_abspath {cwd : Place} (hc : ∀ c ∈ cwd, Name c) (cwd' : Place) (p : Str) :
    locate cwd' (abspath cwd p) = locate cwd p := by
  have hn := locate_clean hc p
  unfold abspath
  generalize locate cwd p = q at hn ⊢
  cases q with
  | nil => rfl
  | cons x q =>
    have key : ∀ (l : List Str), (∀ c ∈ l, Name c) → ∀ (s : Str), '/' ∉ s →
        splitOn '/' (s ++ l.flatMap fun c => '/' :: c) = s :: l := by
      intro l
      induction l with
      | nil => intro _ s hs; simp [splitOn_none hs]
      | cons y l ih =>
        intro hl s hs
        rw [List.flatMap_cons, List.cons_append, splitOn_append hs, ih (fun c h => hl c (by simp [h])) y
          (hl y (by simp)).2.1]
    have h1 := key (x :: q) hn [] (by simp)
    rw [List.nil_append] at h1
    unfold locate
    simp only [h1]
    rw [if_pos (by simp), List.foldl_cons]
    have : step [] [] = [] := by simp [step]
    rw [this, foldl_step_names _ hn, List.nil_append]

theorem basename_append (d : Str) {f : Str} (hf : '/' ∉ f) : basename (d ++ '/' :: f) = f := by
  unfold basename
  rw [List.reverse_append, List.reverse_cons, List.append_assoc, List.takeWhile_append_of_pos]
  · simp
  · intro c hc
    have : c ∈ f := by simpa using hc
    simp only [bne_iff_ne, ne_eq]
    rintro rfl
    exact hf this

theorem dirname_head (d : Str) {f : Str} (hf : '/' ∉ f) :
    ((d ++ '/' :: f).reverse.dropWhile (· != '/')).reverse = d ++ ['/'] := by
  rw [List.reverse_append, List.reverse_cons, List.append_assoc, List.dropWhile_append_of_pos]
  · simp
  · intro c hc
    have : c ∈ f := by simpa using hc
    simp only [bne_iff_ne, ne_eq]
    rintro rfl
    exact hf this

/-- Slashes at the end of a path make no difference. -/
theorem locate_slash (cwd : Place) {d : Str} (hd : d ≠ []) : locate cwd (d ++ ['/']) = locate cwd d := by
  unfold locate
  have hh : (d ++ ['/']).head? = d.head? := by
    cases d with
    | nil => exact absurd rfl hd
    | cons _ _ => rfl
  rw [hh, splitOn_append_sep, List.foldl_append]
  simp [splitOn, step]

theorem locate_slashes (cwd : Place) {d : Str} (hd : d ≠ []) (n : ℕ) :
    locate cwd (d ++ List.replicate n '/') = locate cwd d := by
  induction n with
  | zero => simp
  | succ n ih =>
    rw [List.replicate_succ', ← List.append_assoc, locate_slash cwd (by simp [hd]), ih]

theorem locate_root (cwd : Place) (n : ℕ) : locate cwd (List.replicate (n + 1) '/') = [] := by
  have h : List.replicate (n + 1) '/' = ['/'] ++ List.replicate n '/' := by rw [List.replicate_succ]; rfl
  rw [h, locate_slashes cwd (by simp)]
  simp [locate, splitOn, step]

/-- The directory of a file. -/
theorem locate_dirname (cwd : Place) {d f : Str} (hd : d ≠ []) (hf : '/' ∉ f) :
    locate cwd (dirname (d ++ '/' :: f)) = locate cwd d ∧ dirname (d ++ '/' :: f) ≠ [] := by
  unfold dirname
  rw [dirname_head d hf]
  simp only
  by_cases hall : (d ++ ['/']).all (· == '/') = true
  · rw [if_pos hall]
    exact ⟨locate_slash cwd hd, by simp⟩
  · rw [if_neg hall]
    -- remove the slashes at the end
    have key : ∀ s : Str, ∃ n, s = (s.reverse.dropWhile (· == '/')).reverse ++ List.replicate n '/' := by
      intro s
      refine ⟨(s.reverse.takeWhile (· == '/')).length, ?_⟩
      have h1 := List.takeWhile_append_dropWhile (p := (· == '/')) (l := s.reverse)
      have h2 : s.reverse.takeWhile (· == '/') = List.replicate (s.reverse.takeWhile (· == '/')).length '/' := by
        apply List.eq_replicate_iff.2 ⟨rfl, ?_⟩
        intro b hb
        simpa using List.mem_takeWhile_imp hb
      have h3 := congrArg List.reverse h1
      rw [List.reverse_append, List.reverse_reverse] at h3
      conv_lhs => rw [← h3, h2]
      simp
    obtain ⟨n, hn⟩ := key (d ++ ['/'])
    set e := ((d ++ ['/']).reverse.dropWhile (· == '/')).reverse with he
    have hne : e ≠ [] := by
      intro h0
      apply hall
      rw [hn, h0, List.nil_append]
      simp
    refine ⟨?_, hne⟩
    rw [← locate_slashes cwd hne n, ← hn, locate_slash cwd hd]

end Verif.Runners
