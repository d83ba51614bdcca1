import Verif.Checker.Props

/-!
# C72: `dump_stl` writes every surface, and nothing else
-/

namespace Verif.Checker

open Verif.Finalize (Point Triangle HDielKey HCondKey)

/-! ### Reading a file -/

/-- The text after `vertex` of a line, if it is a vertex line. -/
def vertexOf (line : Str) : Option Str :=
  if line.take 10 = "   vertex ".toList then some (line.drop 10) else none

/-- Groups of three. -/
def triples : List Str → List (Str × Str × Str)
  | a :: b :: c :: l => (a, b, c) :: triples l
  | _ => []

/-- The facets of a file: its vertices, three by three. -/
def readStl (text : Str) : List (Str × Str × Str) := triples ((splitOn '\n' text).filterMap vertexOf)

theorem splitOn_lines (ls : List Str) (h : ∀ l ∈ ls, '\n' ∉ l) (rest : Str) :
    splitOn '\n' (ls.flatMap (fun l => l ++ ['\n']) ++ rest) = ls ++ splitOn '\n' rest := by
  induction ls with
  | nil => rfl
  | cons a ls ih =>
    simp only [List.flatMap_cons, List.append_assoc, List.cons_append, List.nil_append]
    rw [splitOn_append (h a (by simp)), ih fun l hl => h l (by simp [hl])]

/-- The lines of a facet. -/
def facetLines (fmt : Point ℚ → Str) (t : Triangle ℚ) : List Str :=
  ["  facet normal 0 0 0".toList, "    outer loop".toList, "   vertex ".toList ++ fmt t.p2,
    "   vertex ".toList ++ fmt t.p1, "   vertex ".toList ++ fmt t.p0, "  endloop".toList, " endfacet".toList]

theorem facet_lines (fmt : Point ℚ → Str) (t : Triangle ℚ) :
    facet fmt t = (facetLines fmt t).flatMap fun l => l ++ ['\n'] := by
  have h1 : "  facet normal 0 0 0\n".toList = "  facet normal 0 0 0".toList ++ ['\n'] := by decide
  have h2 : "    outer loop\n".toList = "    outer loop".toList ++ ['\n'] := by decide
  have h3 : "  endloop\n".toList = "  endloop".toList ++ ['\n'] := by decide
  have h4 : " endfacet\n".toList = " endfacet".toList ++ ['\n'] := by decide
  have h5 : "\n".toList = ['\n'] := by decide
  unfold facet facetLines Triangle.reversed
  rw [h1, h2, h3, h4, h5]
  clear h1 h2 h3 h4 h5
  generalize "  facet normal 0 0 0".toList = s1
  generalize "    outer loop".toList = s2
  generalize "  endloop".toList = s3
  generalize " endfacet".toList = s4
  generalize "   vertex ".toList = s5
  simp only [List.flatMap_cons, List.flatMap_nil, List.append_assoc, List.append_nil]

theorem facetLines_clean (fmt : Point ℚ → Str) (hf : ∀ p, '\n' ∉ fmt p) (t : Triangle ℚ) :
    ∀ l ∈ facetLines fmt t, '\n' ∉ l := by
  intro l hl
  simp only [facetLines, List.mem_cons, List.not_mem_nil, or_false] at hl
  rcases hl with rfl | rfl | rfl | rfl | rfl | rfl | rfl
  · decide
  · decide
  · rw [List.mem_append]; rintro (h | h)
    · revert h; decide
    · exact hf _ h
  · rw [List.mem_append]; rintro (h | h)
    · revert h; decide
    · exact hf _ h
  · rw [List.mem_append]; rintro (h | h)
    · revert h; decide
    · exact hf _ h
  · decide
  · decide

theorem vertexOf_vertex (s : Str) : vertexOf ("   vertex ".toList ++ s) = some s := by
  simp [vertexOf]

/-- The file of a surface lists its triangles, each once and in order, with the sense of rotation flipped. -/
theorem stl_exact (fmt : Point ℚ → Str) (hf : ∀ p, '\n' ∉ fmt p) (tris : List (Triangle ℚ)) :
    readStl (stlText fmt tris) = tris.map fun t => (fmt t.p2, fmt t.p1, fmt t.p0) := by
  have hlines : splitOn '\n' (stlText fmt tris) =
      "solid stl".toList :: tris.flatMap (facetLines fmt) ++ ["endsolid stl".toList, []] := by
    have hbody : tris.flatMap (facet fmt) = (tris.flatMap (facetLines fmt)).flatMap fun l => l ++ ['\n'] := by
      rw [List.flatMap_assoc]
      exact congrArg (fun f => List.flatMap f tris) (funext fun t => facet_lines fmt t)
    unfold stlText
    rw [hbody]
    have h1 : "solid stl\n".toList = "solid stl".toList ++ ['\n'] := by decide
    rw [h1]
    simp only [List.append_assoc, List.cons_append, List.nil_append]
    rw [splitOn_append (by decide), splitOn_lines]
    · have h2 : splitOn '\n' "endsolid stl\n".toList = ["endsolid stl".toList, []] := by decide
      rw [h2]
    · intro l hl
      obtain ⟨t, _, hl⟩ := List.mem_flatMap.1 hl
      exact facetLines_clean fmt hf t l hl
  have hv : (tris.flatMap (facetLines fmt)).filterMap vertexOf =
      tris.flatMap fun t => [fmt t.p2, fmt t.p1, fmt t.p0] := by
    rw [List.filterMap_flatMap]
    refine congrArg (fun f => List.flatMap f tris) (funext fun t => ?_)
    have e1 : vertexOf "  facet normal 0 0 0".toList = none := by decide
    have e2 : vertexOf "    outer loop".toList = none := by decide
    have e3 : vertexOf "  endloop".toList = none := by decide
    have e4 : vertexOf " endfacet".toList = none := by decide
    simp only [facetLines, List.filterMap_cons, vertexOf_vertex, e1, e2, e3, e4, List.filterMap_nil]
  have ht : ∀ l : List (Triangle ℚ), triples (l.flatMap fun t => [fmt t.p2, fmt t.p1, fmt t.p0]) =
      l.map fun t => (fmt t.p2, fmt t.p1, fmt t.p0) := by
    intro l
    induction l with
    | nil => rfl
    | cons t l ih =>
      simp only [List.flatMap_cons, List.cons_append, List.nil_append, triples, List.map_cons, ih]
  have e5 : vertexOf "solid stl".toList = none := by decide
  have e6 : ["endsolid stl".toList, []].filterMap vertexOf = [] := by decide
  unfold readStl
  rw [hlines]
  simp only [List.cons_append, List.filterMap_cons, e5, List.filterMap_append, e6, List.append_nil, hv, ht]

/-! ### The files -/

/-- Name of the file of a material. -/
def dielFile (pre : Str) (m : String) : Str := pre ++ "diel_".toList ++ m.toList ++ ".stl".toList

/-- Name of the file of a net. -/
def condFile (pre : Str) (n : String) : Str := pre ++ "cond_".toList ++ n.toList ++ ".stl".toList

theorem dielFile_inj {pre : Str} {a b : String} (h : dielFile pre a = dielFile pre b) : a = b := by
  simp only [dielFile, List.append_assoc, List.append_cancel_left_eq, List.append_cancel_right_eq] at h
  exact String.toList_injective h

theorem condFile_inj {pre : Str} {a b : String} (h : condFile pre a = condFile pre b) : a = b := by
  simp only [condFile, List.append_assoc, List.append_cancel_left_eq, List.append_cancel_right_eq] at h
  exact String.toList_injective h

theorem diel_ne_cond (pre : Str) (a b : String) : dielFile pre a ≠ condFile pre b := by
  intro h
  simp only [dielFile, condFile, List.append_assoc, List.append_cancel_left_eq] at h
  have h1 := congrArg (List.take 5) h
  rw [List.take_append_of_le_length (by decide), List.take_append_of_le_length (by decide)] at h1
  exact absurd h1 (by decide)

theorem writeAll (fmt : Point ℚ → Str) (name : String → Str) (hinj : ∀ a b, name a = name b → a = b)
    (surf : String → List (Triangle ℚ)) (l : List String) (files : Dict Str Str)
    (hok : ∀ n ∈ l, surf n ≠ [] → '/' ∉ name n) :
    ∃ files', l.foldlM (fun files n => writeStl fmt files (name n) (surf n)) files = .ok files' ∧
      (∀ n ∈ l, surf n ≠ [] → files'.get? (name n) = some (stlText fmt (surf n))) ∧
      ∀ f, (∀ n ∈ l, surf n ≠ [] → name n ≠ f) → files'.get? f = files.get? f := by
  induction l generalizing files with
  | nil => exact ⟨files, rfl, by simp, fun _ _ => rfl⟩
  | cons a l ih =>
    by_cases ha : surf a = []
    · obtain ⟨files', h1, h2, h3⟩ := ih files fun n hn => hok n (by simp [hn])
      refine ⟨files', ?_, ?_, ?_⟩
      · rw [List.foldlM_cons, writeStl, if_pos (by simp [ha])]
        exact h1
      · intro n hn hne
        rcases List.mem_cons.1 hn with rfl | hn
        · exact absurd ha hne
        · exact h2 n hn hne
      · intro f hf
        exact h3 f fun n hn => hf n (by simp [hn])
    · obtain ⟨files', h1, h2, h3⟩ := ih (files.set (name a) (stlText fmt (surf a))) fun n hn => hok n (by simp [hn])
      refine ⟨files', ?_, ?_, ?_⟩
      · rw [List.foldlM_cons, writeStl, if_neg (by simpa using ha), if_neg (hok a (by simp) ha)]
        exact h1
      · intro n hn hne
        by_cases hnl : n ∈ l
        · exact h2 n hnl hne
        · rcases List.mem_cons.1 hn with rfl | hn
          · rw [h3 (name n) ?_, Dict.get?_set_self]
            intro m hm _ hc
            exact hnl (hinj _ _ hc ▸ hm)
          · exact absurd hn hnl
      · intro f hf
        rw [h3 f fun n hn => hf n (by simp [hn]), Dict.get?_set_ne _ _ (hf a (by simp) ha)]

/-- C72: every material and every net with a surface gets its own file with exactly its triangles; no other file is
touched. Names with a slash are excluded: see `dump_slash`. -/
theorem dump_exact (fmt : Point ℚ → Str) (hf : ∀ p, '\n' ∉ fmt p) (pre : Str) (hpre : '/' ∉ pre) (g : Gen)
    (hm : ∀ m ∈ g.materials, '/' ∉ m.toList) (hn : ∀ n ∈ g.netNames, '/' ∉ n.toList) (files : Dict Str Str) :
    ∃ files', dumpStl fmt pre g files = .ok files' ∧
      (∀ m ∈ g.materials, materialSurface g.diel g.cond m ≠ [] →
        ∃ text, files'.get? (pre ++ "diel_".toList ++ m.toList ++ ".stl".toList) = some text ∧
          readStl text = (materialSurface g.diel g.cond m).map fun t => (fmt t.p2, fmt t.p1, fmt t.p0)) ∧
      (∀ n ∈ g.netNames, netSurface g.cond n ≠ [] →
        ∃ text, files'.get? (pre ++ "cond_".toList ++ n.toList ++ ".stl".toList) = some text ∧
          readStl text = (netSurface g.cond n).map fun t => (fmt t.p2, fmt t.p1, fmt t.p0)) ∧
      ∀ f, (∀ m ∈ g.materials, materialSurface g.diel g.cond m ≠ [] →
          pre ++ "diel_".toList ++ m.toList ++ ".stl".toList ≠ f) →
        (∀ n ∈ g.netNames, netSurface g.cond n ≠ [] → pre ++ "cond_".toList ++ n.toList ++ ".stl".toList ≠ f) →
        files'.get? f = files.get? f := by
  have slash : ∀ (mid n : Str), '/' ∉ mid → '/' ∉ n → '/' ∉ pre ++ mid ++ n ++ ".stl".toList := by
    intro mid n h1 h2
    simp only [List.mem_append, not_or]
    exact ⟨⟨⟨hpre, h1⟩, h2⟩, by decide⟩
  obtain ⟨f1, a1, a2, a3⟩ := writeAll fmt (dielFile pre) (fun _ _ h => dielFile_inj h) (collectDiel g) g.materials files
    (fun m h _ => slash _ _ (by decide) (hm m h))
  obtain ⟨f2, b1, b2, b3⟩ := writeAll fmt (condFile pre) (fun _ _ h => condFile_inj h) (collectCond g) g.netNames f1
    (fun n h _ => slash _ _ (by decide) (hn n h))
  refine ⟨f2, ?_, ?_, ?_, ?_⟩
  · unfold dumpStl
    have : g.materials.foldlM (fun files mn =>
      writeStl fmt files (pre ++ "diel_".toList ++ mn.toList ++ ".stl".toList) (collectDiel g mn)) files = .ok f1 := a1
    rw [this]
    exact b1
  · intro m hmm hne
    refine ⟨_, ?_, stl_exact fmt hf _⟩
    rw [← collectDiel_eq] at hne ⊢
    exact (b3 (dielFile pre m) fun n _ _ => (diel_ne_cond pre m n).symm).trans (a2 m hmm hne)
  · intro n hnn hne
    refine ⟨_, ?_, stl_exact fmt hf _⟩
    rw [← collectCond_eq] at hne ⊢
    exact b2 n hnn hne
  · intro f h1 h2
    rw [b3 f fun n hnn hne => h2 n hnn (by rwa [← collectCond_eq]),
      a3 f fun m hmm hne => h1 m hmm (by rwa [← collectDiel_eq])]

/-- A net name with a slash (and a surface) stops the dump with an exception. -/
theorem dump_slash : dumpStl (fun _ => ['0']) [] { exGen with
    netNames := ["a/b"], cond := [(⟨"a/b", some "ox"⟩, pillow)] } [] = .error "FileNotFoundError" := by
  decide +kernel

/-- The example of `exGen` meets the hypotheses: two files are written. -/
theorem exGen_dumped : (dumpStl (fun _ => ['0']) [] exGen []).map (fun d => (Dict.keys d).map String.ofList) =
    .ok ["diel_ox.stl", "cond_VDD.stl"] := by
  decide +kernel

end Verif.Checker
