import Verif.Runners.Prepare

/-!
# A complete run (C108)

The steps of `main` put together: LVS and the layouts of its layers (C107), the input of the field solvers (C106) and the engines (C105), in
an output directory that earlier runs have used. Magic is left out; it comes before all of this (C77).
-/

namespace Verif.Runners
open Verif.Lvs (DbLayer Source Unnamed)

/-! ### Specification -/

/-- The input directory holds the list file and the geometry files of the generated model. -/
def HasInput (e : InputEnv) (m : ListFile.Out (Finalize.Triangle ℚ)) (o : Place) (files : Dict Place Str) : Prop :=
  Dict.get? files (inputDir o ++ ["FasterCap_Input_.lst".toList]) = some (e.lstText m.lst) ∧
    ∀ n g, (n, g) ∈ m.files → Dict.get? files (inputDir o ++ [n]) = some (e.geoText g)

/-- A solver that, started in the directory `dir`, succeeds with the generated model as its input and prints `printed`, whatever other files
there are, and leaves the files it finds as they are. -/
def SolvesModel (p : Prog) (argv : List Str) (dir : Place) (e : InputEnv) (m : ListFile.Out (Finalize.Triangle ℚ)) (o : Place)
    (printed : Str) : Prop :=
  ∀ w : World, w.cwd = dir → HasInput e m o w.files →
    ∃ x, p argv w = .ok x ∧ x.code = 0 ∧ x.output = printed ∧ ∀ q t, Dict.get? w.files q = some t → Dict.get? x.files q = some t

/-- The files of a run directly in the output directory. -/
def allFiles : List String := prepFiles ++ (fasterCapFiles ++ fastCapFiles ++ rcx25Files)

/-! ### Theorems -/

theorem SolvesModel.solves {p : Prog} {argv : List Str} {dir : Place} {e : InputEnv} {m : ListFile.Out (Finalize.Triangle ℚ)} {o : Place}
    {printed : Str} (h : SolvesModel p argv dir e m o printed) {v : World} (hv : HasInput e m o v.files) :
    Solves p argv dir (inputDir o) v printed :=
  fun w hc _ hk => h w hc ⟨hk _ _ _ hv.1, fun n g hg => hk _ _ _ (hv.2 n g hg)⟩

theorem file_ne_dir (o : Place) (cell : Str) {f : String} (hf : f ∈ allFiles) :
    o ++ [cell ++ f.toList] ≠ inputDir o ∧ o ++ [cell ++ f.toList] ≠ geometryDir o := by
  have key : ∀ f ∈ allFiles, f.toList.reverse.take 2 ≠ ['s', 'e'] ∧ 2 ≤ f.toList.reverse.length := by decide
  obtain ⟨k1, k2⟩ := key f hf
  have hl : (cell ++ f.toList).reverse.take 2 = f.toList.reverse.take 2 := by
    rw [List.reverse_append, List.take_append_of_le_length k2]
  constructor
  · intro he
    have he := List.append_cancel_left he
    simp only [List.cons.injEq, and_true] at he
    rw [he] at hl
    exact k1 (hl.symm.trans (by decide))
  · intro he
    have he := List.append_cancel_left he
    simp only [List.cons.injEq, and_true] at he
    rw [he] at hl
    exact k1 (hl.symm.trans (by decide))

theorem file_not_prefix (o : Place) (cell : Str) {f : String} (hf : f ∈ allFiles) :
    ¬ o ++ [cell ++ f.toList] <+: inputDir o ∧ ¬ o ++ [cell ++ f.toList] <+: geometryDir o :=
  ⟨fun h => (file_ne_dir o cell hf).1 (h.eq_of_length (by simp [inputDir])),
    fun h => (file_ne_dir o cell hf).2 (h.eq_of_length (by simp [geometryDir]))⟩

/-- **C108.** If LVS gives a database with a layer the technology knows, the solvers succeed on the generated model and print what can be
read, and the extraction of the 2.5D engine succeeds, then the run succeeds, whatever files earlier runs have left, and in the end the output
directory has the layouts of the layers, the input of the solvers if one of them is requested, and the results of every requested engine. -/
theorem whole_run {M : Type} (r : Request) (hmag : r.magic = false) (hany : r.fastercap = true ∨ r.fastcap = true ∨ r.rcx25 = true)
    (run : Step → Act Unit) (pe : PrepEnv) (lvs : Act (List DbLayer)) (ie : InputEnv)
    (p1 p2 : Prog) (s1 s2 : Solver M) (exe1 exe2 out cell : Str) (a : FasterCapArgs) (e : Env25) (cf : String → String) (round3 : ℚ → ℚ)
    (c : Netlist.Circuit) (bb : Bool)
    (rl : run .lvs = prepFlow pe lvs out cell) (ri : run .input = andThen (inputFlow ie out) fun _ => lift (.ok ()))
    (r1 : run .fastercap = fasterCapFlow p1 s1 exe1 out cell (lstPath out) a)
    (r2 : run .fastcap = fastCapFlow p2 s2 exe2 out cell (lstPath out))
    (r3 : run .rcx25 = rcx25Flow e cf round3 c bb out cell)
    (w w1 : World) (db : List DbLayer) (hlvs : lvs w = (.ok db, w1)) (hd : (db.map (·.index)).Nodup)
    (hs : ∃ s, Source pe.tech pe.blackbox db s)
    (o : Place) (hcwd : ∀ c ∈ w1.cwd, Name c) (hcell : '/' ∉ cell) (ho : locate w1.cwd out = o) (hod : o ∈ w1.dirs)
    (hnd : ∀ f ∈ allFiles, o ++ [cell ++ f.toList] ∉ w1.dirs)
    (m : ListFile.Out (Finalize.Triangle ℚ))
    (hm : r.fastercap = true ∨ r.fastcap = true →
      ListFile.write { ie.cfg with pre := "FasterCap_Input_".toList } ie.gen.diel ie.gen.cond = .ok m ∧
      InputReady ie o (m.files.map Prod.fst) w1)
    (printed1 printed2 : Str)
    (h1 : r.fastercap = true → Understood s1 printed1 ∧
      SolvesModel p1 (fasterCapArgs exe1 (lstPath out) a) w1.cwd ie m o printed1)
    (h2 : r.fastcap = true → out.head? = some '/' ∧ Understood s2 printed2 ∧
      SolvesModel p2 (fastCapArgs exe2 "FasterCap_Input_.lst".toList fastCapDefaults) (inputDir o) ie m o printed2)
    (h3 : r.rcx25 = true → Extracts e) :
    ∃ w', main r run w = (.ok (), w') ∧
      HoldsLayers pe cell (Source pe.tech pe.blackbox db) (Dict.get? w'.files (o ++ [cell ++ "_nonempty_LVS_layers.gds.gz".toList])) ∧
      ((∃ s, Unnamed pe.tech db s) → HoldsLayers pe cell (Unnamed pe.tech db)
        (Dict.get? w'.files (o ++ [cell ++ "_unnamed_LVS_layers.gds.gz".toList]))) ∧
      Dict.get? w'.files (o ++ [cell ++ "_l2n_extracted.oas".toList]) = some (pe.annotated db) ∧
      Dict.get? w'.files (o ++ [cell ++ "_l2n_internal.oas".toList]) = some (pe.internal db) ∧
      (r.fastercap = true ∨ r.fastcap = true → HasInput ie m o w'.files) ∧
      (r.fastercap = true → FasterCapResults s1 printed1 o cell w'.files) ∧
      (r.fastcap = true → FastCapResults s2 printed2 o cell w'.files) ∧
      (r.rcx25 = true → Rcx25Results e cf round3 c bb o cell w'.files) := by
  obtain ⟨fs, a1, a2, _, a3, _, a4, a5, a6⟩ := layers_dumped pe lvs out cell w w1 db hlvs hd o ho hcell hod
    (fun f hf => hnd f (List.mem_append_left _ hf))
  obtain ⟨a2, a2'⟩ := a2 hs
  have l0 : run .lvs w = (.ok (), { w1 with files := fs }) := by
    rw [rl]
    exact Prod.ext a2 a1
  -- the steps before the engines
  obtain ⟨v, hb, vc, vd, vi, vk, vI⟩ : ∃ v, inOrder run (before r) w = (.ok (), v) ∧ v.cwd = w1.cwd ∧
      (∀ d, d ∈ v.dirs → d ∈ w1.dirs ∨ d <+: inputDir o ∨ d <+: geometryDir o) ∧
      (r.fastercap = true ∨ r.fastcap = true → HasInput ie m o v.files ∧ inputDir o ∈ v.dirs) ∧
      (∀ f ∈ allFiles, Dict.get? v.files (o ++ [cell ++ f.toList]) = Dict.get? fs (o ++ [cell ++ f.toList])) ∧
      o ∈ v.dirs := by
    by_cases hr : r.fastercap = true ∨ r.fastcap = true
    · obtain ⟨hm1, hm2⟩ := hm hr
      have hpre : ∀ d, d <+: inputDir o ∨ d <+: geometryDir o → Dict.get? fs d = Dict.get? w1.files d := by
        intro d hd'
        refine a6 d fun f hf he => ?_
        have hp := file_not_prefix o cell (List.mem_append_left _ hf : f ∈ allFiles)
        rw [← he] at hp
        exact hd'.elim hp.1 hp.2
      have hready : InputReady ie o (m.files.map Prod.fst) { w1 with files := fs } :=
        ⟨fun d hd' => (hpre d (Or.inl hd')).trans (hm2.way1 d hd'), fun d hd' => (hpre d (Or.inr hd')).trans (hm2.way2 d hd'), hm2.free1,
          hm2.free2, hm2.plain, hm2.plainStl⟩
      obtain ⟨v, b1, b2, _, b3, b4, _, b5, _, b6⟩ := input_fresh ie out { w1 with files := fs } o ho m hm1 hready
      refine ⟨v, ?_, b2, fun d hd' => (b3 d).1 hd', fun _ => ⟨⟨b4, b5⟩, (b3 _).2 (Or.inr (Or.inl List.prefix_rfl))⟩, ?_,
        (b3 _).2 (Or.inl hod)⟩
      · have hbr : before r = [.lvs] ++ [.input] := by
          unfold before
          rw [hmag]
          rcases hr with hr | hr <;> simp [hr]
        have l1 : run .input { w1 with files := fs } = (.ok (), v) := by rw [ri, andThen_ok b1]; rfl
        rw [hbr, inOrder_append run (inOrder_one run l0), inOrder_one run l1]
      · intro f hf
        refine b6 _ (fun h => ?_) (fun n g _ h => ?_) (fun n t _ h => ?_)
        · exact input_ne o _ _ [] _ h.symm
        · exact input_ne o _ _ [] _ h.symm
        · exact input_ne o _ _ [] _ h.symm
    · have hbr : before r = [.lvs] := by
        unfold before
        rw [hmag]
        simp only [not_or, Bool.not_eq_true] at hr
        simp [hr]
      exact ⟨{ w1 with files := fs }, by rw [hbr, inOrder_one run l0], rfl, fun d h => Or.inl h, fun h => absurd h hr, fun _ _ => rfl, hod⟩
  have vnd : ∀ f ∈ allFiles, o ++ [cell ++ f.toList] ∉ v.dirs := by
    intro f hf h
    rcases vd _ h with h | h | h
    · exact hnd f hf h
    · exact (file_not_prefix o cell hf).1 h
    · exact (file_not_prefix o cell hf).2 h
  obtain ⟨w', c1, c2, c3, c4, c5⟩ := engines_together r run w v hany p1 p2 s1 s2 exe1 exe2 out cell a e cf round3 c bb r1 r2 r3 hb o
    (by rw [vc]; exact hcwd) hcell (by rw [vc]; exact ho) vI (fun f hf => vnd f (List.mem_append_right _ hf))
    printed1 printed2
    (fun h => ⟨(h1 h).1, by rw [vc]; exact (h1 h).2.solves (vi (Or.inl h)).1⟩)
    (fun h => ⟨(h2 h).1, (vi (Or.inr h)).2, (h2 h).2.1, (h2 h).2.2.solves (vi (Or.inr h)).1⟩) h3
  have keep : ∀ f ∈ prepFiles, ∀ t, Dict.get? fs (o ++ [cell ++ f.toList]) = some t →
      Dict.get? w'.files (o ++ [cell ++ f.toList]) = some t := by
    intro f hf t ht
    have hdis : ∀ g ∈ fasterCapFiles ++ fastCapFiles ++ rcx25Files, o ++ [cell ++ f.toList] ≠ o ++ [cell ++ g.toList] := by
      intro g hg he
      have he := List.append_cancel_left he
      simp only [List.cons.injEq, and_true, List.append_cancel_left_eq] at he
      have key : ∀ f ∈ prepFiles, ∀ g ∈ fasterCapFiles ++ fastCapFiles ++ rcx25Files, f ≠ g := by decide
      exact key f hf g hg (String.toList_inj.1 he)
    refine c5 _ _ (fun _ g hg => hdis g (by simp [hg])) (fun _ g hg => hdis g (by simp [hg])) (fun _ g hg => hdis g (by simp [hg])) ?_
    rw [vk f (List.mem_append_left _ hf), ht]
  have keepLayers : ∀ (P : Lvs.ExtractedLayer → Prop), ∀ f ∈ prepFiles, HoldsLayers pe cell P (Dict.get? fs (o ++ [cell ++ f.toList])) →
      HoldsLayers pe cell P (Dict.get? w'.files (o ++ [cell ++ f.toList])) := by
    rintro P f hf ⟨ls, k1, k2, k3⟩
    exact ⟨ls, k1, k2, keep f hf _ k3⟩
  refine ⟨w', c1, keepLayers _ "_nonempty_LVS_layers.gds.gz" (by decide) a2', fun h => keepLayers _ "_unnamed_LVS_layers.gds.gz" (by decide) (a3 h),
    keep "_l2n_extracted.oas" (by decide) _ a4, keep "_l2n_internal.oas" (by decide) _ a5, fun h => ?_, c2, c3, c4⟩
  have hv := (vi h).1
  refine ⟨?_, fun n g hg => ?_⟩
  · exact c5 _ _ (fun _ f _ => input_ne _ _ _ [] _) (fun _ f _ => input_ne _ _ _ [] _) (fun _ f _ => input_ne _ _ _ [] _) hv.1
  · exact c5 _ _ (fun _ f _ => input_ne _ _ _ [] _) (fun _ f _ => input_ne _ _ _ [] _) (fun _ f _ => input_ne _ _ _ [] _) (hv.2 n g hg)

/-! ### Example -/

/-- A complete run with three engines. -/
def exWhole : Step → Act Unit
  | .lvs => prepFlow exPrep (fun w => (.ok Lvs.exDb, w)) "/h/o".toList ['x']
  | .input => andThen (inputFlow exInput "/h/o".toList) fun _ => lift (.ok ())
  | s => exRun "/h/o".toList s

/-- The hypotheses of C108 hold in a directory with the files of an earlier run. -/
example : ∃ w' m, main ⟨false, true, true, true⟩ exWhole usedWorld = (.ok (), w') ∧ HasInput exInput m [['h'], ['o']] w'.files ∧
    FasterCapResults exSolver "C 1\n".toList [['h'], ['o']] ['x'] w'.files ∧
    FastCapResults exSolver "C 1\n".toList [['h'], ['o']] ['x'] w'.files ∧
    Rcx25Results exEnv id id Rcx25Netlist.exCircuit true [['h'], ['o']] ['x'] w'.files := by
  have hok : (ListFile.write { exInput.cfg with pre := "FasterCap_Input_".toList } exInput.gen.diel exInput.gen.cond).isOk = true := by
    decide +kernel
  have hr := usedWorld_ready
  cases h : ListFile.write { exInput.cfg with pre := "FasterCap_Input_".toList } exInput.gen.diel exInput.gen.cond with
  | error e => rw [h] at hok; cases hok
  | ok m =>
    rw [h] at hr
    obtain ⟨g1, _, g3, _, g5, _⟩ := exPrep_meets
    obtain ⟨w', a, _, _, _, _, b, c, d, e⟩ := whole_run ⟨false, true, true, true⟩ rfl (Or.inl rfl) exWhole exPrep
      (fun w => (.ok Lvs.exDb, w)) exInput okProg okProg exSolver exSolver _ _ "/h/o".toList ['x'] _ exEnv id id Rcx25Netlist.exCircuit true
      rfl rfl rfl rfl rfl usedWorld usedWorld Lvs.exDb rfl g1 g5 [['h'], ['o']] exWorld_meets.1 (by decide) (by decide) g3 (by decide +kernel) m
      (fun _ => ⟨h, hr⟩) "C 1\n".toList "C 1\n".toList
      (fun _ => ⟨exSolver_understood, fun _ _ _ => ⟨_, rfl, rfl, rfl, fun _ _ h => h⟩⟩)
      (fun _ => ⟨by decide, exSolver_understood, fun _ _ _ => ⟨_, rfl, rfl, rfl, fun _ _ h => h⟩⟩) (fun _ => exEnv_extracts)
    exact ⟨w', m, a, b (Or.inl rfl), c rfl, d rfl, e rfl⟩

end Verif.Runners
