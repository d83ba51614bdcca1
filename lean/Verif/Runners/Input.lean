import Verif.Runners.Together
import Verif.Runners.Svg
import Verif.ListFile.Props
import Verif.Checker.Stl

/-!
# Making the input of the field solvers (C106)

Model of `build_fastercap_input` (kpex_cli.py 475–503) in the world of files of C74. The surfaces are those of the model generator (C17, C55,
C56), the list file and the names of the geometry files those of C20 and C21, the text of an STL file that of C72. The text of the lines
of a list file and of a geometry file is a parameter. Messages, and the geometry check (C71), which only prints, are left out.
-/

namespace Verif.Runners
open Verif.Finalize (Triangle Point)
open Verif.Checker (Gen collectDiel collectCond stlText)
open Verif.ListFile (Cfg Geo Line)

/-! ### Model -/

/-- What `build_fastercap_input` works with: the generated model, the materials and permittivities, and the texts. -/
structure InputEnv where
  gen : Gen
  cfg : Cfg
  fmt : Point ℚ → Str
  lstText : List Line → Str
  geoText : Geo (Triangle ℚ) → Str

/-- Files of a directory, written one after the other. -/
def writeAll (dir : Str) : List (Str × Str) → Act Unit
  | [] => lift (.ok ())
  | f :: l => andThen (writeFile (join dir f.1) f.2) fun _ => writeAll dir l

/-- The files of `dump_stl` in the order in which they are written; fastercap_model_generator.py 966–982. -/
def stlFiles (fmt : Point ℚ → Str) (g : Gen) : List (Str × Str) :=
  (g.materials.filter fun mn => (collectDiel g mn).length ≠ 0).map (fun mn =>
    ("diel_".toList ++ mn.toList ++ ".stl".toList, stlText fmt (collectDiel g mn))) ++
  (g.netNames.filter fun nn => (collectCond g nn).length ≠ 0).map fun nn =>
    ("cond_".toList ++ nn.toList ++ ".stl".toList, stlText fmt (collectCond g nn))

/-- `build_fastercap_input`; kpex_cli.py 475–503. Returned is the path of the list file, as `write_fastcap` does
(fastercap_model_generator.py 745, 820–825). Simplified: the permittivities of all surfaces are looked up before the first file is
written, not one by one in between (fastercap_model_generator.py 755–762, 799–812). -/
def inputFlow (e : InputEnv) (out : Str) : Act Str :=
  let dir := join out "FasterCap_Input_Files".toList
  let geo := join out "Geometries".toList
  let cfg := { e.cfg with pre := "FasterCap_Input_".toList }
  andThen (makedirs dir) fun _ =>
  andThen (lift (ListFile.write cfg e.gen.diel e.gen.cond)) fun o =>
  andThen (writeAll dir (o.files.map fun f => (f.1, e.geoText f.2))) fun _ =>
  andThen (writeFile (join dir (cfg.pre ++ ".lst".toList)) (e.lstText o.lst)) fun _ =>
  andThen (makedirs geo) fun _ =>
  andThen (writeAll geo (stlFiles e.fmt e.gen)) fun _ =>
  lift (.ok (join dir (cfg.pre ++ ".lst".toList)))

/-! ### Specification -/

/-- The file a line of the list names. -/
def Names : Line → Str → Prop
  | .void _, _ => False
  | .diel f _ _, n => f = n
  | .cond f _ _, n => f = n

/-- The directories of the input and of the geometries. -/
def inputDir (o : Place) : Place := o ++ ["FasterCap_Input_Files".toList]
def geometryDir (o : Place) : Place := o ++ ["Geometries".toList]

/-- The file is the STL file of a material or net with triangles in this run. -/
def StlOf (e : InputEnv) (n text : Str) : Prop :=
  (∃ m ∈ e.gen.materials, collectDiel e.gen m ≠ [] ∧ n = "diel_".toList ++ m.toList ++ ".stl".toList ∧
    text = stlText e.fmt (collectDiel e.gen m)) ∨
  ∃ m ∈ e.gen.netNames, collectCond e.gen m ≠ [] ∧ n = "cond_".toList ++ m.toList ++ ".stl".toList ∧
    text = stlText e.fmt (collectCond e.gen m)

/-- The two directories can be made, no directory is in the place of a file, and no name has a slash. -/
structure InputReady (e : InputEnv) (o : Place) (files : List Str) (w : World) : Prop where
  way1 : ∀ d, d <+: inputDir o → Dict.get? w.files d = none
  way2 : ∀ d, d <+: geometryDir o → Dict.get? w.files d = none
  free1 : ∀ n, inputDir o ++ [n] ∉ w.dirs
  free2 : ∀ n, geometryDir o ++ [n] ∉ w.dirs
  plain : ∀ n ∈ files, '/' ∉ n
  plainStl : (∀ m ∈ e.gen.materials, '/' ∉ m.toList) ∧ ∀ m ∈ e.gen.netNames, '/' ∉ m.toList

/-! ### Theorems -/

theorem writeAll_ok (dir : Str) (D : Place) (l : List (Str × Str)) (w : World) (hl : ∀ f ∈ l, Name f.1) (hD : locate w.cwd dir = D)
    (hdir : D ∈ w.dirs) (hfree : ∀ n, D ++ [n] ∉ w.dirs) :
    ∃ fs, writeAll dir l w = (.ok (), { w with files := fs }) ∧
      (∀ f ∈ l, (∀ g ∈ l, g.1 = f.1 → g.2 = f.2) → Dict.get? fs (D ++ [f.1]) = some f.2) ∧
      ∀ q, (∀ f ∈ l, q ≠ D ++ [f.1]) → Dict.get? fs q = Dict.get? w.files q := by
  induction l generalizing w with
  | nil => exact ⟨w.files, rfl, by simp, fun _ _ => rfl⟩
  | cons f l ih =>
    have hn := hl f (by simp)
    have hloc : locate w.cwd (join dir f.1) = D ++ [f.1] := by rw [locate_file _ _ hn, hD]
    have h1 : writeFile (join dir f.1) f.2 w = (.ok (), { w with files := Dict.set w.files (D ++ [f.1]) f.2 }) := by
      rw [writeFile_ok _ (join_ne_nil dir hn) (by rw [hloc]; exact ⟨by simpa using hdir, hfree _⟩), hloc]
    obtain ⟨fs, h2, h3, h4⟩ := ih { w with files := Dict.set w.files (D ++ [f.1]) f.2 } (fun g hg => hl g (by simp [hg])) hD hdir hfree
    refine ⟨fs, ?_, ?_, ?_⟩
    · rw [writeAll, andThen_ok h1, h2]
    · intro g hg hfun
      by_cases hgl : ∃ g' ∈ l, g'.1 = g.1
      · obtain ⟨g', hg', he⟩ := hgl
        rw [← he, h3 g' hg' (fun g'' hg'' he'' => by
          rw [hfun g' (by simp [hg']) he, hfun g'' (by simp [hg'']) (he''.trans he)])]
        rw [hfun g' (by simp [hg']) he]
      · have hgf : g = f := by
          rcases List.mem_cons.1 hg with h | h
          · exact h
          · exact absurd ⟨g, h, rfl⟩ hgl
        subst hgf
        rw [h4 _ (fun g' hg' he => hgl ⟨g', hg', by
          have := List.append_cancel_left he
          simpa using this.symm⟩)]
        exact Dict.get?_set_self _ _ _
    · intro q hq
      rw [h4 q (fun g hg => hq g (by simp [hg]))]
      exact Dict.get?_set_ne _ _ (Ne.symm (hq f (by simp)))

theorem stl_name {a m : Str} {m' : String} (ha : '/' ∉ a) (hn : m = a ++ m'.toList ++ ".stl".toList) (hm : '/' ∉ m'.toList) : Name m := by
  subst hn
  rw [List.append_assoc]
  have hs : ".stl".toList = ['.', 's', 't', 'l'] := by decide
  have hlen : 4 ≤ (a ++ (m'.toList ++ ".stl".toList)).length := by simp [hs]; omega
  refine ⟨?_, ?_, ?_, ?_⟩
  · intro h; rw [h] at hlen; simp at hlen
  · intro h
    simp only [List.mem_append] at h
    rcases h with h | h | h
    · exact ha h
    · exact hm h
    · revert h; decide
  · intro h; rw [h] at hlen; simp at hlen
  · intro h; rw [h] at hlen; simp at hlen

theorem mem_stlFiles (e : InputEnv) (f : Str × Str) : f ∈ stlFiles e.fmt e.gen ↔ StlOf e f.1 f.2 := by
  obtain ⟨n, t⟩ := f
  unfold stlFiles StlOf
  simp only [List.mem_append, List.mem_map, List.mem_filter, Prod.mk.injEq, decide_eq_true_eq, List.length_eq_zero_iff, ne_eq]
  constructor
  · rintro (⟨m, ⟨h1, h2⟩, rfl, rfl⟩ | ⟨m, ⟨h1, h2⟩, rfl, rfl⟩)
    exacts [Or.inl ⟨m, h1, h2, rfl, rfl⟩, Or.inr ⟨m, h1, h2, rfl, rfl⟩]
  · rintro (⟨m, h1, h2, rfl, rfl⟩ | ⟨m, h1, h2, rfl, rfl⟩)
    exacts [Or.inl ⟨m, ⟨h1, h2⟩, rfl, rfl⟩, Or.inr ⟨m, ⟨h1, h2⟩, rfl, rfl⟩]

theorem stlOf_unique {e : InputEnv} {n t t' : Str} (h : StlOf e n t) (h' : StlOf e n t') : t = t' := by
  have hd : "diel_".toList = ['d', 'i', 'e', 'l', '_'] := by decide
  have hc : "cond_".toList = ['c', 'o', 'n', 'd', '_'] := by decide
  rcases h with ⟨m, _, _, hn, rfl⟩ | ⟨m, _, _, hn, rfl⟩ <;> rcases h' with ⟨m', _, _, hn', rfl⟩ | ⟨m', _, _, hn', rfl⟩ <;>
    rw [hn] at hn'
  · have := List.append_cancel_left (List.append_cancel_right hn')
    rw [String.toList_inj.1 this]
  · rw [hd, hc] at hn'; simp at hn'
  · rw [hd, hc] at hn'; simp at hn'
  · have := List.append_cancel_left (List.append_cancel_right hn')
    rw [String.toList_inj.1 this]

theorem named_written {c : Cfg} {diel : Dict Finalize.HDielKey (List (Triangle ℚ))} {cond : Dict Finalize.HCondKey (List (Triangle ℚ))}
    {o : ListFile.Out (Triangle ℚ)} (h : ListFile.write c diel cond = .ok o) : ∀ l ∈ o.lst, ∀ n, Names l n → ∃ g, (n, g) ∈ o.files := by
  obtain ⟨h1, h2⟩ := ListFile.write_eq h
  rw [h1, h2]
  intro l hl n hn
  rcases List.mem_cons.1 hl with rfl | hl
  · exact hn.elim
  · rcases List.mem_append.1 hl with hl | hl
    · obtain ⟨r, hr, rfl⟩ := List.mem_map.1 hl
      have hn : ListFile.dielName c r.1 r.2.1 = n := hn
      subst hn
      exact ⟨_, List.mem_append_left _ (List.mem_map.2 ⟨r, hr, rfl⟩)⟩
    · obtain ⟨r, hr, rfl⟩ := List.mem_map.1 hl
      have hn : r.name c = n := hn
      subst hn
      exact ⟨_, List.mem_append_right _ (List.mem_map.2 ⟨r, hr, rfl⟩)⟩

/-- A geometry file does not have the name of the list file. -/
theorem geo_not_list {c : Cfg} {diel : Dict Finalize.HDielKey (List (Triangle ℚ))} {cond : Dict Finalize.HCondKey (List (Triangle ℚ))}
    {o : ListFile.Out (Triangle ℚ)} (h : ListFile.write c diel cond = .ok o) : ∀ f ∈ o.files, f.1 ≠ c.pre ++ ".lst".toList := by
  intro f hf he
  have hform : ∃ k r, f.1 = c.pre ++ (ListFile.dec k ++ '_' :: r) := by
    rcases ListFile.file_cases h hf with ⟨num, kv, _, e⟩ | ⟨num, kv, _, e⟩
    · obtain ⟨r, hr⟩ := ListFile.dielName_form c num kv.1
      exact ⟨num, r, e.trans hr⟩
    · obtain ⟨r, hr⟩ := ListFile.condName_form c num kv.1.outside kv.1.netName.toList
      exact ⟨num, r, e.trans hr⟩
  obtain ⟨k, r, hk⟩ := hform
  rw [hk] at he
  have he := List.append_cancel_left he
  have hmem : '_' ∈ ".lst".toList := by rw [← he]; simp
  revert hmem; decide

theorem name_of_file {c : Cfg} {diel : Dict Finalize.HDielKey (List (Triangle ℚ))} {cond : Dict Finalize.HCondKey (List (Triangle ℚ))}
    {o : ListFile.Out (Triangle ℚ)} (h : ListFile.write c diel cond = .ok o) (hpre : 3 ≤ c.pre.length) : ∀ f ∈ o.files, '/' ∉ f.1 → Name f.1 := by
  intro f hf hs
  have hlen : 3 ≤ f.1.length := by
    rcases ListFile.file_cases h hf with ⟨num, kv, _, e⟩ | ⟨num, kv, _, e⟩
    · obtain ⟨r, hr⟩ := ListFile.dielName_form c num kv.1
      rw [e, hr]; simp only [List.length_append]; omega
    · obtain ⟨r, hr⟩ := ListFile.condName_form c num kv.1.outside kv.1.netName.toList
      rw [e, hr]; simp only [List.length_append]; omega
  refine ⟨?_, hs, ?_, ?_⟩ <;> intro he <;> rw [he] at hlen <;> simp at hlen

/-- **C106.** Whatever earlier runs have left in the output directory: the path handed to the solvers is the list file in the directory of
the input; the list, and every file the list names, are those of this run; the STL files of this run are in the directory of the geometries;
all other files are as they were. -/
theorem input_fresh (e : InputEnv) (out : Str) (w : World) (o : Place) (ho : locate w.cwd out = o) (m : ListFile.Out (Triangle ℚ))
    (hm : ListFile.write { e.cfg with pre := "FasterCap_Input_".toList } e.gen.diel e.gen.cond = .ok m)
    (hr : InputReady e o (m.files.map Prod.fst) w) :
    ∃ w', inputFlow e out w = (.ok (lstPath out), w') ∧ w'.cwd = w.cwd ∧ w'.console = w.console ∧
      (∀ d, d ∈ w'.dirs ↔ d ∈ w.dirs ∨ d <+: inputDir o ∨ d <+: geometryDir o) ∧
      Dict.get? w'.files (inputDir o ++ ["FasterCap_Input_.lst".toList]) = some (e.lstText m.lst) ∧
      (∀ l ∈ m.lst, ∀ n, Names l n → ∃ g, (n, g) ∈ m.files) ∧
      (∀ n g, (n, g) ∈ m.files → Dict.get? w'.files (inputDir o ++ [n]) = some (e.geoText g)) ∧
      (∀ n t, StlOf e n t → Dict.get? w'.files (geometryDir o ++ [n]) = some t) ∧
      (∀ q, q ≠ inputDir o ++ ["FasterCap_Input_.lst".toList] → (∀ n g, (n, g) ∈ m.files → q ≠ inputDir o ++ [n]) →
        (∀ n t, StlOf e n t → q ≠ geometryDir o ++ [n]) → Dict.get? w'.files q = Dict.get? w.files q) := by
  have nI : Name "FasterCap_Input_Files".toList := ⟨by decide, by decide, by decide, by decide⟩
  have nG : Name "Geometries".toList := ⟨by decide, by decide, by decide, by decide⟩
  have nL : Name "FasterCap_Input_.lst".toList := ⟨by decide, by decide, by decide, by decide⟩
  have hI : locate w.cwd (join out "FasterCap_Input_Files".toList) = inputDir o := by rw [locate_file _ _ nI, ho]; rfl
  have hG : locate w.cwd (join out "Geometries".toList) = geometryDir o := by rw [locate_file _ _ nG, ho]; rfl
  have hlst : "FasterCap_Input_".toList ++ ".lst".toList = "FasterCap_Input_.lst".toList := by decide
  -- makedirs
  have m1 := makedirs_ok (w := w) (join_ne_nil out nI) hI hr.way1
  obtain ⟨w1, hw1⟩ : ∃ w1, w1 = { w with dirs := w.dirs ++ (inputDir o).inits.filter (· ∉ w.dirs) } := ⟨_, rfl⟩
  rw [← hw1] at m1
  have d1 : ∀ d, d ∈ w1.dirs ↔ d ∈ w.dirs ∨ d <+: inputDir o := by
    intro d
    rw [hw1]
    simp only [List.mem_append, List.mem_filter, List.mem_inits, decide_eq_true_eq]
    tauto
  have hnp : ∀ n (D : Place), D.length ≤ (inputDir o).length → ¬ inputDir o ++ [n] <+: D := by
    intro n D hD h
    have := h.length_le
    simp at this; omega
  have hnp' : ∀ n (D : Place), D.length ≤ (geometryDir o).length → ¬ geometryDir o ++ [n] <+: D := by
    intro n D hD h
    have := h.length_le
    simp at this; omega
  have len : (inputDir o).length = (geometryDir o).length := by simp [inputDir, geometryDir]
  have f1 : ∀ n, inputDir o ++ [n] ∉ w1.dirs := by
    intro n h
    rcases (d1 _).1 h with h | h
    · exact hr.free1 n h
    · exact hnp n _ le_rfl h
  have i1 : inputDir o ∈ w1.dirs := (d1 _).2 (Or.inr List.prefix_rfl)
  -- geometry files
  obtain ⟨fs2, m2, g2, k2⟩ := writeAll_ok (join out "FasterCap_Input_Files".toList) (inputDir o) (m.files.map fun f => (f.1, e.geoText f.2)) w1
    (by
      intro f hf
      obtain ⟨f', hf', rfl⟩ := List.mem_map.1 hf
      exact name_of_file hm (by show 3 ≤ "FasterCap_Input_".toList.length; decide) f' hf' (hr.plain _ (List.mem_map_of_mem hf'))) (by rw [hw1]; exact hI) i1 f1
  -- list
  obtain ⟨w3, hw3⟩ : ∃ w3, w3 = { w1 with
    files := Dict.set fs2 (inputDir o ++ ["FasterCap_Input_.lst".toList]) (e.lstText m.lst) } := ⟨_, rfl⟩
  have hL : locate w1.cwd (join (join out "FasterCap_Input_Files".toList) "FasterCap_Input_.lst".toList) =
      inputDir o ++ ["FasterCap_Input_.lst".toList] := by
    rw [locate_file _ _ nL, hw1]
    simp only
    rw [hI]
  have m3 : writeFile (join (join out "FasterCap_Input_Files".toList) "FasterCap_Input_.lst".toList) (e.lstText m.lst)
      { w1 with files := fs2 } = (.ok (), w3) := by
    rw [writeFile_ok _ (join_ne_nil _ nL) (by
      show Writable _ (locate w1.cwd _)
      rw [hL]; exact ⟨by simpa using i1, f1 _⟩)]
    show (_, { w1 with files := Dict.set fs2 (locate w1.cwd _) _ }) = _
    rw [hL, hw3]
  have g3 : ∀ q, q ≠ inputDir o ++ ["FasterCap_Input_.lst".toList] → (∀ n g, (n, g) ∈ m.files → q ≠ inputDir o ++ [n]) →
      Dict.get? w3.files q = Dict.get? w.files q := by
    intro q h1 h2
    rw [hw3]
    show Dict.get? (Dict.set fs2 _ _) q = _
    rw [Dict.get?_set_ne _ _ (Ne.symm h1), k2 q, hw1]
    intro f hf
    obtain ⟨f', hf', rfl⟩ := List.mem_map.1 hf
    exact h2 f'.1 f'.2 hf'
  have hdiff : ∀ a b : Str, inputDir o ++ [a] ≠ geometryDir o ++ [b] := by
    intro a b h
    unfold inputDir geometryDir at h
    rw [List.append_assoc, List.append_assoc] at h
    have h := List.append_cancel_left h
    have h' : "FasterCap_Input_Files".toList = "Geometries".toList := by injection h
    revert h'; decide
  -- makedirs
  have m4 := makedirs_ok (w := w3) (D := geometryDir o) (join_ne_nil out nG) (by rw [hw3, hw1]; exact hG) (by
    intro d hd
    rw [g3 d, hr.way2 d hd]
    · rintro rfl
      exact hnp _ _ len.ge hd
    · rintro n g - rfl
      exact hnp _ _ len.ge hd)
  obtain ⟨w4, hw4⟩ : ∃ w4, w4 = { w3 with dirs := w3.dirs ++ (geometryDir o).inits.filter (· ∉ w3.dirs) } := ⟨_, rfl⟩
  rw [← hw4] at m4
  have d4 : ∀ d, d ∈ w4.dirs ↔ d ∈ w.dirs ∨ d <+: inputDir o ∨ d <+: geometryDir o := by
    intro d
    have : w3.dirs = w1.dirs := by rw [hw3]
    rw [hw4]
    simp only [List.mem_append, List.mem_filter, List.mem_inits, decide_eq_true_eq, this, d1]
    tauto
  -- STL
  obtain ⟨fs5, m5, g5, k5⟩ := writeAll_ok (join out "Geometries".toList) (geometryDir o) (stlFiles e.fmt e.gen) w4 (by
      intro f hf
      rcases (mem_stlFiles e f).1 hf with ⟨x, hx, _, hn, _⟩ | ⟨x, hx, _, hn, _⟩
      · exact stl_name (by decide) hn (hr.plainStl.1 x hx)
      · exact stl_name (by decide) hn (hr.plainStl.2 x hx))
    (by rw [hw4, hw3, hw1]; exact hG) ((d4 _).2 (Or.inr (Or.inr List.prefix_rfl))) (by
      intro n h
      rcases (d4 _).1 h with h | h | h
      · exact hr.free2 n h
      · exact hnp' n _ len.le h
      · exact hnp' n _ le_rfl h)
  have hk5 : ∀ n, Dict.get? fs5 (inputDir o ++ [n]) = Dict.get? w3.files (inputDir o ++ [n]) := by
    intro n
    rw [k5 _ (fun f _ => hdiff n f.1), hw4]
  refine ⟨{ w4 with files := fs5 }, ?_, by rw [hw4, hw3, hw1], by rw [hw4, hw3, hw1], d4, ?_, named_written hm, ?_, ?_, ?_⟩
  · unfold inputFlow
    simp only [hlst]
    rw [andThen_ok m1]
    show andThen (lift (ListFile.write _ _ _)) _ _ = _
    rw [hm, lift_step, andThen_ok m2, andThen_ok m3, andThen_ok m4, andThen_ok m5]
    rfl
  · show Dict.get? fs5 _ = _
    rw [hk5, hw3]
    exact Dict.get?_set_self _ _ _
  · intro n g hg
    show Dict.get? fs5 _ = _
    rw [hk5, hw3]
    show Dict.get? (Dict.set fs2 _ _) _ = _
    rw [Dict.get?_set_ne]
    · refine g2 (n, e.geoText g) (List.mem_map.2 ⟨(n, g), hg, rfl⟩) ?_
      intro f hf he
      obtain ⟨f', hf', rfl⟩ := List.mem_map.1 hf
      have : f' = (n, g) := List.inj_on_of_nodup_map (ListFile.names_distinct hm) hf' hg he
      rw [this]
    · intro h
      have h := List.append_cancel_left h
      have h : "FasterCap_Input_.lst".toList = n := by injection h
      exact geo_not_list hm (n, g) hg (by rw [← h]; exact hlst.symm)
  · intro n t h
    exact g5 (n, t) ((mem_stlFiles e _).2 h) (fun f hf he => by
      have he : f.1 = n := he
      exact stlOf_unique (n := n) (by rw [← he]; exact (mem_stlFiles e f).1 hf) h)
  · intro q h1 h2 h3
    show Dict.get? fs5 q = _
    rw [k5 q (fun f hf => h3 f.1 f.2 ((mem_stlFiles e f).1 hf)), hw4]
    exact g3 q h1 h2

/-- Finding: STL files of earlier runs stay. A file of the directory of the geometries that is not one of this run is as it was, also if it
shows a net that has no shapes any more. -/
theorem stl_stale (e : InputEnv) (out : Str) (w : World) (o : Place) (ho : locate w.cwd out = o) (m : ListFile.Out (Triangle ℚ))
    (hm : ListFile.write { e.cfg with pre := "FasterCap_Input_".toList } e.gen.diel e.gen.cond = .ok m)
    (hr : InputReady e o (m.files.map Prod.fst) w) (nn : String) (hn : nn ∈ e.gen.netNames → collectCond e.gen nn = []) (old : Str)
    (hold : Dict.get? w.files (geometryDir o ++ ["cond_".toList ++ nn.toList ++ ".stl".toList]) = some old) :
    Dict.get? (inputFlow e out w).2.files (geometryDir o ++ ["cond_".toList ++ nn.toList ++ ".stl".toList]) = some old := by
  obtain ⟨w', h1, _, _, _, _, _, _, _, h2⟩ := input_fresh e out w o ho m hm hr
  rw [h1]
  have hdiff : ∀ a b : Str, geometryDir o ++ [b] ≠ inputDir o ++ [a] := by
    intro a b h
    unfold inputDir geometryDir at h
    rw [List.append_assoc, List.append_assoc] at h
    have h := List.append_cancel_left h
    have h' : "Geometries".toList = "FasterCap_Input_Files".toList := by injection h
    revert h'; decide
  rw [h2 _ (hdiff _ _) (fun _ _ _ => hdiff _ _)]
  · exact hold
  · intro n t hs h
    have h := List.append_cancel_left h
    have h : "cond_".toList ++ nn.toList ++ ".stl".toList = n := by injection h
    have hd : "diel_".toList = ['d', 'i', 'e', 'l', '_'] := by decide
    have hc : "cond_".toList = ['c', 'o', 'n', 'd', '_'] := by decide
    subst h
    rcases hs with ⟨x, _, _, hx, _⟩ | ⟨x, hx1, hx2, hx, _⟩
    · rw [hd, hc] at hx; simp at hx
    · have := String.toList_inj.1 (List.append_cancel_left (List.append_cancel_right hx))
      subst this
      exact hx2 (hn hx1)

/-! ### Examples -/

/-- The model of the example of C72, with permittivities. -/
def exInput : InputEnv where
  gen := Checker.exGen
  cfg := { materials := [("ox", 4)], kVoid := 3, pre := [], maxLen := some 255, digest := fun _ => ['d'] }
  fmt := fun _ => ['0']
  lstText := fun l => List.replicate l.length 'l'
  geoText := fun g => List.replicate g.tris.length 't'

/-- A directory in which an earlier run has left a list file and the geometry of a net that is gone. -/
def usedWorld : World :=
  { cwd := [['h']]
    dirs := [[], [['h']], [['h'], ['o']], [['h'], ['o'], "FasterCap_Input_Files".toList], [['h'], ['o'], "Geometries".toList]]
    files := [([['h'], ['o'], "FasterCap_Input_Files".toList, "FasterCap_Input_.lst".toList], ['x']),
      ([['h'], ['o'], "Geometries".toList, "cond_OLD.stl".toList], ['y'])]
    console := [] }

theorem usedWorld_ready : InputReady exInput [['h'], ['o']] (match ListFile.write { exInput.cfg with pre := "FasterCap_Input_".toList }
    exInput.gen.diel exInput.gen.cond with | .ok m => m.files.map Prod.fst | .error _ => []) usedWorld where
  way1 := by
    intro d hd
    have key : ∀ d ∈ (inputDir [['h'], ['o']]).inits, Dict.get? usedWorld.files d = none := by decide +kernel
    exact key d ((List.mem_inits _ _).2 hd)
  way2 := by
    intro d hd
    have key : ∀ d ∈ (geometryDir [['h'], ['o']]).inits, Dict.get? usedWorld.files d = none := by decide +kernel
    exact key d ((List.mem_inits _ _).2 hd)
  free1 := by intro n h; simp [usedWorld, inputDir] at h
  free2 := by intro n h; simp [usedWorld, geometryDir] at h
  plain := by decide +kernel
  plainStl := by decide +kernel

/-- The hypotheses of C106 hold: the list is the new one, and the geometry of the old net is still there. -/
example : ∃ m, ListFile.write { exInput.cfg with pre := "FasterCap_Input_".toList } exInput.gen.diel exInput.gen.cond = .ok m ∧
    m.files ≠ [] ∧
    Dict.get? (inputFlow exInput ['o'] usedWorld).2.files ([['h'], ['o'], "FasterCap_Input_Files".toList] ++
      ["FasterCap_Input_.lst".toList]) = some (exInput.lstText m.lst) ∧
    Dict.get? (inputFlow exInput ['o'] usedWorld).2.files ([['h'], ['o'], "Geometries".toList] ++ ["cond_OLD.stl".toList]) =
      some ['y'] := by
  have hok : (ListFile.write { exInput.cfg with pre := "FasterCap_Input_".toList } exInput.gen.diel exInput.gen.cond).isOk = true := by
    decide +kernel
  have hr := usedWorld_ready
  cases h : ListFile.write { exInput.cfg with pre := "FasterCap_Input_".toList } exInput.gen.diel exInput.gen.cond with
  | error e => rw [h] at hok; cases hok
  | ok m =>
    rw [h] at hr
    obtain ⟨w', h1, _, _, _, h2, _⟩ := input_fresh exInput ['o'] usedWorld [['h'], ['o']] (by decide +kernel) m h hr
    refine ⟨m, rfl, ?_, by rw [h1]; exact h2, ?_⟩
    · have : (match ListFile.write { exInput.cfg with pre := "FasterCap_Input_".toList } exInput.gen.diel exInput.gen.cond with
          | .ok m => m.files.isEmpty | .error _ => true) = false := by decide +kernel
      rw [h] at this
      have this : m.files.isEmpty = false := this
      intro hn
      rw [hn] at this
      cases this
    · exact stl_stale exInput ['o'] usedWorld [['h'], ['o']] (by decide +kernel) m h hr "OLD" (by decide +kernel) ['y'] (by decide +kernel)

end Verif.Runners
