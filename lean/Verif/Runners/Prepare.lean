import Verif.Runners.Input
import Verif.Lvs.Props

/-!
# The layouts of the layers of an LVS database (C107)

Model of the part of `main` between LVS and the engines (kpex_cli.py 868–917) in the world of files of C74. LVS with its cache (C36, C75) is
any step that gives a database; the extraction context is that of C45. KLayout's writers are parameters. Messages are left out.
-/

namespace Verif.Runners
open Verif.Lvs (DbLayer ExtractedLayer Merged Source Unnamed prepare layers_exact)
open Verif.TechInfo (Tech GDSPair)

/-! ### Model -/

/-- Technology, `--blackbox` and KLayout's writers: of the annotated and of the internal layout of a database, and of a layout with one cell
and some layers, each with its name, GDS numbers and shapes. -/
structure PrepEnv where
  tech : Tech
  blackbox : Bool
  annotated : List DbLayer → Str
  internal : List DbLayer → Str
  dump : Str → List (GDSPair × String × List Shapes.Polygon) → Str

/-- `dump_layers`, kpex_cli.py 886–899: one layer of the new layout for each given one. -/
def dumpLayers (e : PrepEnv) (cell : Str) (ls : List ExtractedLayer) (path : Str) : Act Unit :=
  writeFile path (e.dump cell (ls.map fun l => (l.pair, l.name, l.shapes)))

/-- kpex_cli.py 868–917. -/
def prepFlow (e : PrepEnv) (lvs : Act (List DbLayer)) (out cell : Str) : Act Unit :=
  andThen lvs fun db =>
  let x := prepare e.tech e.blackbox db
  andThen (writeFile (join out (cell ++ "_l2n_extracted.oas".toList)) (e.annotated db)) fun _ =>
  andThen (writeFile (join out (cell ++ "_l2n_internal.oas".toList)) (e.internal db)) fun _ =>
  andThen (if x.layers.unnamed.length ≥ 1 then
      dumpLayers e cell x.layers.unnamed (join out (cell ++ "_unnamed_LVS_layers.gds.gz".toList))
    else lift (.ok ())) fun _ =>
  if x.layers.extracted.length ≥ 1 then
    dumpLayers e cell (x.layers.extracted.flatMap fun m => m.2.sources) (join out (cell ++ "_nonempty_LVS_layers.gds.gz".toList))
  else lift (.error "SystemExit(1)")

/-! ### Specification -/

/-- The files of this part of a run, after the name of the cell. -/
def prepFiles : List String := ["_l2n_extracted.oas", "_l2n_internal.oas", "_unnamed_LVS_layers.gds.gz", "_nonempty_LVS_layers.gds.gz"]

/-- A file has the layout with exactly the layers of which `P` holds, each once. -/
def HoldsLayers (e : PrepEnv) (cell : Str) (P : ExtractedLayer → Prop) (file : Option Str) : Prop :=
  ∃ ls : List ExtractedLayer, (∀ l, l ∈ ls ↔ P l) ∧ ls.Nodup ∧ file = some (e.dump cell (ls.map fun l => (l.pair, l.name, l.shapes)))

/-! ### Theorems -/

theorem sources_exact (t : Tech) (bb : Bool) (db : List DbLayer) (hd : (db.map (·.index)).Nodup) :
    (∀ s, s ∈ (prepare t bb db).layers.extracted.flatMap (fun m => m.2.sources) ↔ Source t bb db s) ∧
      ((prepare t bb db).layers.extracted.flatMap fun m => m.2.sources).Nodup := by
  obtain ⟨h1, h2, h3, _⟩ := layers_exact t bb db hd
  refine ⟨fun s => ?_, ?_⟩
  · rw [List.mem_flatMap]
    constructor
    · rintro ⟨⟨p, m⟩, hm, hs⟩
      exact (((h2 p m hm).2.2.1 s).1 hs).1
    · intro hs
      obtain ⟨⟨p, m⟩, hm, hp⟩ := List.mem_map.1 (h3 s hs)
      exact ⟨(p, m), hm, ((h2 p m hm).2.2.1 s).2 ⟨hs, hp.symm⟩⟩
  · rw [List.nodup_flatMap]
    refine ⟨?_, ?_⟩
    · rintro ⟨p, m⟩ hm
      have := (h2 p m hm).2.2.2
      have h : (m.sources.map (·.idx)).Nodup := this.imp fun h => Nat.ne_of_lt h
      exact List.Nodup.of_map _ h
    · have hk : ((prepare t bb db).layers.extracted.map Prod.fst).Nodup := h1
      rw [List.Nodup, List.pairwise_map] at hk
      refine hk.imp_of_mem ?_
      rintro ⟨p, m⟩ ⟨p', m'⟩ hm hm' hne s hs hs'
      have e1 := (((h2 p m hm).2.2.1 s).1 hs).2
      have e2 := (((h2 p' m' hm').2.2.1 s).1 hs').2
      exact hne (e1.symm.trans e2)

/-- **C107.** After LVS the output directory has the annotated and the internal layout of the database, and a layout with exactly the
non-empty layers the technology knows, each once with its name, GDS numbers and shapes; another one with exactly the non-empty layers it does
not know, if there are any. If there are no known layers, the run ends with an exit status before any engine starts. -/
theorem layers_dumped (e : PrepEnv) (lvs : Act (List DbLayer)) (out cell : Str) (w w1 : World) (db : List DbLayer)
    (hlvs : lvs w = (.ok db, w1)) (hd : (db.map (·.index)).Nodup) (o : Place) (ho : locate w1.cwd out = o) (hcell : '/' ∉ cell)
    (hod : o ∈ w1.dirs) (hnd : ∀ f ∈ prepFiles, o ++ [cell ++ f.toList] ∉ w1.dirs) :
    ∃ fs, (prepFlow e lvs out cell w).2 = { w1 with files := fs } ∧
      ((∃ s, Source e.tech e.blackbox db s) → (prepFlow e lvs out cell w).1 = .ok () ∧
        HoldsLayers e cell (Source e.tech e.blackbox db) (Dict.get? fs (o ++ [cell ++ "_nonempty_LVS_layers.gds.gz".toList]))) ∧
      ((¬ ∃ s, Source e.tech e.blackbox db s) → (prepFlow e lvs out cell w).1 = .error "SystemExit(1)" ∧
        Dict.get? fs (o ++ [cell ++ "_nonempty_LVS_layers.gds.gz".toList]) =
          Dict.get? w1.files (o ++ [cell ++ "_nonempty_LVS_layers.gds.gz".toList])) ∧
      ((∃ s, Unnamed e.tech db s) →
        HoldsLayers e cell (Unnamed e.tech db) (Dict.get? fs (o ++ [cell ++ "_unnamed_LVS_layers.gds.gz".toList]))) ∧
      ((¬ ∃ s, Unnamed e.tech db s) → Dict.get? fs (o ++ [cell ++ "_unnamed_LVS_layers.gds.gz".toList]) =
        Dict.get? w1.files (o ++ [cell ++ "_unnamed_LVS_layers.gds.gz".toList])) ∧
      Dict.get? fs (o ++ [cell ++ "_l2n_extracted.oas".toList]) = some (e.annotated db) ∧
      Dict.get? fs (o ++ [cell ++ "_l2n_internal.oas".toList]) = some (e.internal db) ∧
      ∀ q, (∀ f ∈ prepFiles, q ≠ o ++ [cell ++ f.toList]) → Dict.get? fs q = Dict.get? w1.files q := by
  obtain ⟨s1, s2⟩ := sources_exact e.tech e.blackbox db hd
  obtain ⟨_, h2, h3, u1, u2⟩ := layers_exact e.tech e.blackbox db hd
  have hU : (∃ s, Unnamed e.tech db s) ↔ (prepare e.tech e.blackbox db).layers.unnamed.length ≥ 1 := by
    rw [ge_iff_le, Nat.succ_le_iff, List.length_pos_iff_exists_mem]
    exact exists_congr fun s => (u1 s).symm
  have hS : (∃ s, Source e.tech e.blackbox db s) ↔ (prepare e.tech e.blackbox db).layers.extracted.length ≥ 1 := by
    rw [ge_iff_le, Nat.succ_le_iff, List.length_pos_iff_exists_mem]
    constructor
    · rintro ⟨s, hs⟩
      obtain ⟨m, hm, _⟩ := List.mem_map.1 (h3 s hs)
      exact ⟨m, hm⟩
    · rintro ⟨⟨p, m⟩, hm⟩
      obtain ⟨s, hs⟩ := List.exists_mem_of_ne_nil _ (h2 p m hm).2.1
      exact ⟨s, (((h2 p m hm).2.2.1 s).1 hs).1⟩
  have hwr : ∀ (f : String) (fs : Dict Place Str) (text : Str), f ∈ prepFiles → Name (cell ++ f.toList) →
      writeFile (join out (cell ++ f.toList)) text { w1 with files := fs } =
        (.ok (), { w1 with files := Dict.set fs (o ++ [cell ++ f.toList]) text }) := by
    intro f fs text hf hn
    have hl : locate w1.cwd (join out (cell ++ f.toList)) = o ++ [cell ++ f.toList] := by rw [locate_file _ _ hn, ho]
    rw [writeFile_ok (w := { w1 with files := fs }) _ (join_ne_nil out hn) (by
      show Writable _ (locate w1.cwd _)
      rw [hl]; exact ⟨by simpa using hod, hnd f hf⟩)]
    show (_, { w1 with files := Dict.set fs (locate w1.cwd _) text }) = _
    rw [hl]
  have n1 : Name (cell ++ "_l2n_extracted.oas".toList) := name_append hcell _ (by decide) (by decide)
  have n2 : Name (cell ++ "_l2n_internal.oas".toList) := name_append hcell _ (by decide) (by decide)
  have n3 : Name (cell ++ "_unnamed_LVS_layers.gds.gz".toList) := name_append hcell _ (by decide) (by decide)
  have n4 : Name (cell ++ "_nonempty_LVS_layers.gds.gz".toList) := name_append hcell _ (by decide) (by decide)
  have hne : ∀ f g : String, f ≠ g → o ++ [cell ++ f.toList] ≠ o ++ [cell ++ g.toList] := by
    intro f g h he
    have he := List.append_cancel_left he
    simp only [List.cons.injEq, and_true, List.append_cancel_left_eq] at he
    exact h (String.toList_inj.1 he)
  obtain ⟨F1, hF1⟩ : ∃ F1, F1 = Dict.set w1.files (o ++ [cell ++ "_l2n_extracted.oas".toList]) (e.annotated db) := ⟨_, rfl⟩
  obtain ⟨F2, hF2⟩ : ∃ F2, F2 = Dict.set F1 (o ++ [cell ++ "_l2n_internal.oas".toList]) (e.internal db) := ⟨_, rfl⟩
  have a1 : writeFile (join out (cell ++ "_l2n_extracted.oas".toList)) (e.annotated db) w1 = (.ok (), { w1 with files := F1 }) := by
    rw [hF1]
    exact hwr "_l2n_extracted.oas" w1.files _ (by decide) n1
  have a2 : writeFile (join out (cell ++ "_l2n_internal.oas".toList)) (e.internal db) { w1 with files := F1 } =
      (.ok (), { w1 with files := F2 }) := by
    rw [hF2]
    exact hwr "_l2n_internal.oas" F1 _ (by decide) n2
  -- unknown layers
  obtain ⟨F3, a3, b3, c3, d3⟩ : ∃ F3, (if (prepare e.tech e.blackbox db).layers.unnamed.length ≥ 1 then
        dumpLayers e cell (prepare e.tech e.blackbox db).layers.unnamed (join out (cell ++ "_unnamed_LVS_layers.gds.gz".toList))
      else lift (.ok ())) { w1 with files := F2 } = (.ok (), { w1 with files := F3 }) ∧
      ((∃ s, Unnamed e.tech db s) →
        HoldsLayers e cell (Unnamed e.tech db) (Dict.get? F3 (o ++ [cell ++ "_unnamed_LVS_layers.gds.gz".toList]))) ∧
      ((¬ ∃ s, Unnamed e.tech db s) → F3 = F2) ∧
      ∀ q, q ≠ o ++ [cell ++ "_unnamed_LVS_layers.gds.gz".toList] → Dict.get? F3 q = Dict.get? F2 q := by
    by_cases hu : ∃ s, Unnamed e.tech db s
    · rw [if_pos (hU.1 hu)]
      refine ⟨_, hwr "_unnamed_LVS_layers.gds.gz" F2 _ (by decide) n3, fun _ => ⟨_, u1, ?_, Dict.get?_set_self _ _ _⟩, fun h => absurd hu h,
        fun q hq => Dict.get?_set_ne _ _ (Ne.symm hq)⟩
      have h : ((prepare e.tech e.blackbox db).layers.unnamed.map (·.idx)).Nodup := u2.imp fun h => Nat.ne_of_lt h
      exact List.Nodup.of_map _ h
    · rw [if_neg (fun h => hu (hU.2 h))]
      exact ⟨F2, rfl, fun h => absurd h hu, fun _ => rfl, fun _ _ => rfl⟩
  -- known layers
  obtain ⟨F4, res, a4, b4, c4, d4⟩ : ∃ F4 res, (if (prepare e.tech e.blackbox db).layers.extracted.length ≥ 1 then
        dumpLayers e cell ((prepare e.tech e.blackbox db).layers.extracted.flatMap fun m => m.2.sources)
          (join out (cell ++ "_nonempty_LVS_layers.gds.gz".toList))
      else lift (.error "SystemExit(1)")) { w1 with files := F3 } = (res, { w1 with files := F4 }) ∧
      ((∃ s, Source e.tech e.blackbox db s) → res = .ok () ∧
        HoldsLayers e cell (Source e.tech e.blackbox db) (Dict.get? F4 (o ++ [cell ++ "_nonempty_LVS_layers.gds.gz".toList]))) ∧
      ((¬ ∃ s, Source e.tech e.blackbox db s) → res = .error "SystemExit(1)" ∧ F4 = F3) ∧
      ∀ q, q ≠ o ++ [cell ++ "_nonempty_LVS_layers.gds.gz".toList] → Dict.get? F4 q = Dict.get? F3 q := by
    by_cases hs : ∃ s, Source e.tech e.blackbox db s
    · rw [if_pos (hS.1 hs)]
      exact ⟨_, _, hwr "_nonempty_LVS_layers.gds.gz" F3 _ (by decide) n4, fun _ => ⟨rfl, _, s1, s2, Dict.get?_set_self _ _ _⟩,
        fun h => absurd hs h, fun q hq => Dict.get?_set_ne _ _ (Ne.symm hq)⟩
    · rw [if_neg (fun h => hs (hS.2 h))]
      exact ⟨F3, _, rfl, fun h => absurd h hs, fun _ => ⟨rfl, rfl⟩, fun _ _ => rfl⟩
  have hrun : prepFlow e lvs out cell w = (res, { w1 with files := F4 }) := by
    unfold prepFlow
    rw [andThen_ok hlvs, andThen_ok a1, andThen_ok a2, andThen_ok a3, a4]
  have g2 : ∀ q, q ≠ o ++ [cell ++ "_l2n_extracted.oas".toList] → q ≠ o ++ [cell ++ "_l2n_internal.oas".toList] →
      Dict.get? F2 q = Dict.get? w1.files q := by
    intro q h1 h2
    rw [hF2, Dict.get?_set_ne _ _ (Ne.symm h2), hF1, Dict.get?_set_ne _ _ (Ne.symm h1)]
  refine ⟨F4, by rw [hrun], fun h => ?_, fun h => ?_, fun h => ?_, fun h => ?_, ?_, ?_, ?_⟩
  · rw [hrun]; exact b4 h
  · rw [hrun]
    refine ⟨(c4 h).1, ?_⟩
    rw [(c4 h).2, d3 _ (hne _ _ (by decide)), g2 _ (hne _ _ (by decide)) (hne _ _ (by decide))]
  · rw [d4 _ (hne "_unnamed_LVS_layers.gds.gz" _ (by decide))]
    exact b3 h
  · rw [d4 _ (hne "_unnamed_LVS_layers.gds.gz" _ (by decide)), c3 h, g2 _ (hne _ _ (by decide)) (hne _ _ (by decide))]
  · rw [d4 _ (hne "_l2n_extracted.oas" _ (by decide)), d3 _ (hne "_l2n_extracted.oas" _ (by decide)), hF2,
      Dict.get?_set_ne _ _ (hne "_l2n_internal.oas" _ (by decide)), hF1, Dict.get?_set_self]
  · rw [d4 _ (hne "_l2n_internal.oas" _ (by decide)), d3 _ (hne "_l2n_internal.oas" _ (by decide)), hF2, Dict.get?_set_self]
  · intro q hq
    simp only [prepFiles, List.forall_mem_cons] at hq
    rw [d4 q hq.2.2.2.1, d3 q hq.2.2.1, g2 q hq.1 hq.2.1]

/-! ### Examples -/

/-- The database of the example of C45 in the directory of the example of C106. -/
def exPrep : PrepEnv where
  tech := Lvs.exTech
  blackbox := true
  annotated := fun db => List.replicate db.length 'a'
  internal := fun db => List.replicate db.length 'i'
  dump := fun cell ls => cell ++ ls.flatMap fun l => l.2.1.toList

theorem exPrep_meets : (Lvs.exDb.map (·.index)).Nodup ∧ locate usedWorld.cwd ['o'] = [['h'], ['o']] ∧ [['h'], ['o']] ∈ usedWorld.dirs ∧
    (∀ f ∈ prepFiles, ([['h'], ['o']] : Place) ++ [['x'] ++ f.toList] ∉ usedWorld.dirs) ∧
    (∃ s, Source exPrep.tech exPrep.blackbox Lvs.exDb s) ∧ ∃ s, Unnamed exPrep.tech Lvs.exDb s := by
  refine ⟨by decide, by decide, by decide, by decide, ⟨⟨0, "met1_con", (68, 20), _⟩, Lvs.exDb[0],
    Lvs.computed "met1_con" (68, 20) .regular "met1", by decide, by decide, ⟨[], _, rfl, rfl, by decide⟩, by unfold Lvs.LeftOut; decide, rfl⟩,
    ⟨⟨3, "other", (1003, 20), _⟩, Lvs.exDb[3], by decide, by decide, by decide, by decide, rfl⟩⟩

/-- The three layers the technology knows are in the one layout, the one it does not know is in the other. -/
example : Dict.get? (prepFlow exPrep (fun w => (.ok Lvs.exDb, w)) ['o'] ['x'] usedWorld).2.files
      [['h'], ['o'], "x_nonempty_LVS_layers.gds.gz".toList] = some "xmet1_conmet1_capmet1_pin".toList ∧
    Dict.get? (prepFlow exPrep (fun w => (.ok Lvs.exDb, w)) ['o'] ['x'] usedWorld).2.files
      [['h'], ['o'], "x_unnamed_LVS_layers.gds.gz".toList] = some "xother".toList := by decide +kernel

end Verif.Runners
