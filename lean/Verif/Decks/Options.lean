import Verif.Runners.Props

/-!
# The options of the LVS scripts and what LVS does with the netlists

pdk/sky130A/libs.tech/kpex/sky130.lvs 885–952 and 2536–2603, pdk/ihp_sg13g2/libs.tech/kpex/sg13g2.lvs 69–157 and 486–540.
-/

namespace Verif.Decks

open Runners (Place lvsArgs)

/-- A text, as in the area `Runners`. -/
abbrev Str := List Char

/-- The layout netlist or the schematic. -/
inductive Side where
  | layout
  | schematic
deriving DecidableEq, Repr

/-- What the scripts do with a netlist. -/
inductive Step where
  | align
  | simplify (s : Side)
  | pins (s : Side)
  | combine (s : Side)
  | purge (s : Side)
  | purgeNets (s : Side)
  | compare
deriving DecidableEq, Repr

/-- The variables of a script: `$name`, or nothing (`nil`) if it is not set. -/
abbrev Vars := Str → Option Str

/-- `-rd name=value` on the command line of KLayout: the name ends at the first `=`. -/
def define (s : Str) (v : Vars) : Vars := fun n =>
  if n = s.takeWhile (· ≠ '=') then some ((s.dropWhile (· ≠ '=')).drop 1) else v n

/-- The variables that the options of KLayout set. `-b` (batch mode) and `-r file` (the script) set none; other options do not
occur. -/
def varsOf : List Str → Vars → Vars
  | [], v => v
  | o :: rest, v =>
    if o = "-rd".toList then
      match rest with
      | [] => v
      | s :: rest => varsOf rest (define s v)
    else if o = "-r".toList then
      match rest with
      | [] => v
      | _ :: rest => varsOf rest v
    else varsOf rest v

/-- The variables of a script that is started by a command. The first word is the program. -/
def started (args : List Str) : Vars := varsOf args.tail fun _ => none

/-- `$x == "true"`. -/
def isTrue (v : Vars) (n : String) : Bool := v n.toList == some "true".toList

/-- `bool_check?($x)`; sg13g2.lvs 70–72. `nil.to_s` is empty. -/
def boolCheck (v : Vars) (n : String) : Bool := ((v n.toList).getD []).map Char.toLower == "true".toList

/-- sky130.lvs 892–952 and 2536–2588. Left out: `netlist`, which only makes the netlist available, and the thresholds of the
comparison. -/
def skySteps (v : Vars) : List Step :=
  let simplify := !(isTrue v "net_only" || isTrue v "top_lvl_pins" || isTrue v "combine" || isTrue v "purge" ||
    isTrue v "purge_nets")
  [.align] ++ (if simplify then [.simplify .layout] else []) ++
    (if isTrue v "top_lvl_pins" then [.pins .layout] else []) ++ (if isTrue v "combine" then [.combine .layout] else []) ++
    (if isTrue v "purge" then [.purge .layout] else []) ++ (if isTrue v "purge_nets" then [.purgeNets .layout] else []) ++
    (if isTrue v "schematic_simplify" then [.simplify .schematic] else []) ++ [.compare]

/-- sg13g2.lvs 88–127 and 492–529. The script ends early if only the netlist is wanted. -/
def sgSteps (v : Vars) : List Step :=
  if boolCheck v "net_only" then []
  else [.align] ++ (if !boolCheck v "no_simplify" then [.simplify .layout, .simplify .schematic] else []) ++
    (if boolCheck v "top_lvl_pins" then [.pins .layout, .pins .schematic] else []) ++
    (if boolCheck v "combine_devices" then [.combine .layout, .combine .schematic] else []) ++
    (if boolCheck v "purge" then [.purge .layout, .purge .schematic] else []) ++
    (if boolCheck v "purge_nets" then [.purgeNets .layout, .purgeNets .schematic] else []) ++ [.compare]

/-! ### Specification -/

/-- The step keeps all devices and nets of the netlists: it only changes the hierarchy, adds pins or compares. -/
inductive Keeps : Step → Prop
  | align : Keeps .align
  | pins (s : Side) : Keeps (.pins s)
  | compare : Keeps .compare

/-! ### Proofs -/

theorem define_at (n w : Str) (hn : '=' ∉ n) (v : Vars) (m : Str) :
    define (n ++ '=' :: w) v m = if m = n then some w else v m := by
  have h1 : (n ++ '=' :: w).takeWhile (· ≠ '=') = n := by
    rw [List.takeWhile_append_of_pos (by
      intro c hc
      simp only [ne_eq, decide_not, Bool.not_eq_true', decide_eq_false_iff_not]
      rintro rfl
      exact hn hc)]
    simp
  have h2 : (n ++ '=' :: w).dropWhile (· ≠ '=') = '=' :: w := by
    rw [List.dropWhile_append_of_pos (by
      intro c hc
      simp only [ne_eq, decide_not, Bool.not_eq_true', decide_eq_false_iff_not]
      rintro rfl
      exact hn hc)]
    simp
  rw [define, h1, h2]
  rfl

theorem varsOf_rd (s : Str) (rest : List Str) (v : Vars) : varsOf ("-rd".toList :: s :: rest) v = varsOf rest (define s v) := by
  rw [varsOf, if_pos rfl]

theorem started_words (exe script : Str) (rest : List Str) :
    started ([exe, "-b".toList, "-r".toList, script] ++ rest) = varsOf rest fun _ => none := by
  show varsOf ("-b".toList :: "-r".toList :: script :: rest) _ = _
  rw [varsOf, if_neg (by decide), if_neg (by decide), varsOf, if_neg (by decide), if_pos rfl]

theorem varsOf_settings : ∀ (settings : List (Str × Str)), (settings.map Prod.fst).Nodup → (∀ kv ∈ settings, '=' ∉ kv.1) →
    ∀ (v : Vars) (n w : Str), ((n, w) ∈ settings ∨ (n ∉ settings.map Prod.fst ∧ v n = some w)) →
      varsOf (settings.flatMap fun kv => ["-rd".toList, kv.1 ++ '=' :: kv.2]) v n = some w
  | [], _, _, v, n, w, h => by
    rcases h with h | h
    · cases h
    · exact h.2
  | kv :: rest, hd, he, v, n, w, h => by
    rw [List.flatMap_cons, List.cons_append, List.cons_append, List.nil_append, varsOf_rd]
    rw [List.map_cons, List.nodup_cons] at hd
    refine varsOf_settings rest hd.2 (fun x hx => he x (.tail _ hx)) _ n w ?_
    rcases h with h | ⟨h, hv⟩
    · rcases List.mem_cons.1 h with rfl | h
      · exact .inr ⟨hd.1, by rw [define_at _ _ (he _ (.head _)), if_pos rfl]⟩
      · exact .inl h
    · rw [List.map_cons, List.mem_cons, not_or] at h
      exact .inr ⟨h.2, by rw [define_at _ _ (he _ (.head _)), if_neg h.1, hv]⟩

theorem started_lvs (cwd : Place) (exe script gds sch db : Str) (verbose : Bool) :
    ∃ settings : List (Str × Str),
      (∀ n w, (n, w) ∈ settings → started (lvsArgs cwd exe script gds sch db verbose) n = some w) ∧
      ∀ p ∈ [("schematic_simplify", "false"), ("net_only", "false"), ("top_lvl_pins", "true"), ("combine", "false"),
        ("combine_devices", "false"), ("purge", "false"), ("purge_nets", "false"), ("no_simplify", "true")],
        (p.1.toList, p.2.toList) ∈ settings := by
  refine ⟨[("input".toList, Runners.abspath cwd gds), ("report".toList, Runners.abspath cwd db),
    ("schematic".toList, Runners.abspath cwd sch),
    ("thr".toList, "22".toList), ("run_mode".toList, "deep".toList), ("spice_net_names".toList, "true".toList),
    ("spice_comments".toList, "false".toList), ("scale".toList, "false".toList),
    ("verbose".toList, if verbose then "true".toList else "false".toList), ("schematic_simplify".toList, "false".toList),
    ("net_only".toList, "false".toList), ("top_lvl_pins".toList, "true".toList), ("combine".toList, "false".toList),
    ("combine_devices".toList, "false".toList), ("purge".toList, "false".toList), ("purge_nets".toList, "false".toList),
    ("no_simplify".toList, "true".toList)], ?_, ?_⟩
  · intro n w h
    generalize hs : [("input".toList, Runners.abspath cwd gds), ("report".toList, Runners.abspath cwd db),
      ("schematic".toList, Runners.abspath cwd sch),
      ("thr".toList, "22".toList), ("run_mode".toList, "deep".toList), ("spice_net_names".toList, "true".toList),
      ("spice_comments".toList, "false".toList), ("scale".toList, "false".toList),
      ("verbose".toList, if verbose then "true".toList else "false".toList), ("schematic_simplify".toList, "false".toList),
      ("net_only".toList, "false".toList), ("top_lvl_pins".toList, "true".toList), ("combine".toList, "false".toList),
      ("combine_devices".toList, "false".toList), ("purge".toList, "false".toList), ("purge_nets".toList, "false".toList),
      ("no_simplify".toList, "true".toList)] = settings at h
    have hargs : lvsArgs cwd exe script gds sch db verbose = [exe, "-b".toList, "-r".toList, script] ++
        settings.flatMap fun kv => ["-rd".toList, kv.1 ++ '=' :: kv.2] := by
      subst hs
      cases verbose <;> rfl
    have hkeys : settings.map Prod.fst = ["input".toList, "report".toList, "schematic".toList, "thr".toList,
        "run_mode".toList, "spice_net_names".toList, "spice_comments".toList, "scale".toList, "verbose".toList,
        "schematic_simplify".toList, "net_only".toList, "top_lvl_pins".toList, "combine".toList, "combine_devices".toList,
        "purge".toList, "purge_nets".toList, "no_simplify".toList] := by
      subst hs
      rfl
    have hnd : (settings.map Prod.fst).Nodup := by
      rw [hkeys]
      decide
    have heq : ∀ kv ∈ settings, '=' ∉ kv.1 := by
      intro kv hkv
      have hm := List.mem_map_of_mem (f := Prod.fst) hkv
      rw [hkeys] at hm
      revert hm
      generalize kv.1 = k
      revert k
      decide
    rw [hargs, started_words]
    exact varsOf_settings settings hnd heq _ n w (.inl h)
  · intro p hp
    simp only [List.mem_cons, List.not_mem_nil, or_false] at hp
    rcases hp with rfl | rfl | rfl | rfl | rfl | rfl | rfl | rfl <;>
      simp only [List.mem_cons, true_or, or_true]

/-- **C130.** LVS as KPEX starts it keeps all devices and nets: with either shipped script, whatever the files and the
verbosity, the netlists are aligned, get pins and are compared, but are not simplified, combined or purged. -/
theorem lvs_keeps (cwd : Place) (exe script gds sch db : Str) (verbose : Bool) :
    (∀ s ∈ skySteps (started (lvsArgs cwd exe script gds sch db verbose)), Keeps s) ∧
    (∀ s ∈ sgSteps (started (lvsArgs cwd exe script gds sch db verbose)), Keeps s) ∧
    .compare ∈ skySteps (started (lvsArgs cwd exe script gds sch db verbose)) ∧
    .compare ∈ sgSteps (started (lvsArgs cwd exe script gds sch db verbose)) ∧
    .pins .layout ∈ skySteps (started (lvsArgs cwd exe script gds sch db verbose)) ∧
    .pins .layout ∈ sgSteps (started (lvsArgs cwd exe script gds sch db verbose)) := by
  obtain ⟨settings, hv, hs⟩ := started_lvs cwd exe script gds sch db verbose
  have at' : ∀ n w, (n, w) ∈ [("schematic_simplify", "false"), ("net_only", "false"), ("top_lvl_pins", "true"),
      ("combine", "false"), ("combine_devices", "false"), ("purge", "false"), ("purge_nets", "false"),
      ("no_simplify", "true")] → started (lvsArgs cwd exe script gds sch db verbose) n.toList = some w.toList :=
    fun n w h => hv _ _ (hs _ h)
  have h1 := at' "schematic_simplify" "false" (by simp)
  have h2 := at' "net_only" "false" (by simp)
  have h3 := at' "top_lvl_pins" "true" (by simp)
  have h4 := at' "combine" "false" (by simp)
  have h5 := at' "combine_devices" "false" (by simp)
  have h6 := at' "purge" "false" (by simp)
  have h7 := at' "purge_nets" "false" (by simp)
  have h8 := at' "no_simplify" "true" (by simp)
  have hsky : skySteps (started (lvsArgs cwd exe script gds sch db verbose)) = [.align, .pins .layout, .compare] := by
    simp only [skySteps, isTrue, h1, h2, h3, h4, h6, h7]
    rfl
  have hsg : sgSteps (started (lvsArgs cwd exe script gds sch db verbose)) =
      [.align, .pins .layout, .pins .schematic, .compare] := by
    simp only [sgSteps, boolCheck, h2, h3, h5, h6, h7, h8]
    rfl
  rw [hsky, hsg]
  refine ⟨?_, ?_, by simp, by simp, by simp, by simp⟩
  · intro s h
    simp only [List.mem_cons, List.not_mem_nil, or_false] at h
    rcases h with rfl | rfl | rfl
    exacts [.align, .pins _, .compare]
  · intro s h
    simp only [List.mem_cons, List.not_mem_nil, or_false] at h
    rcases h with rfl | rfl | rfl | rfl
    exacts [.align, .pins _, .pins _, .compare]

/-- C130: the options matter. Without options both scripts simplify the layout netlist. -/
theorem lvs_keeps_ex : .simplify .layout ∈ skySteps (started ["klayout".toList]) ∧
    .simplify .layout ∈ sgSteps (started ["klayout".toList]) ∧ ¬ Keeps (.simplify .layout) :=
  ⟨by decide, by decide, nofun⟩

/-- C130: the script of sg13g2 reads its options whatever their letter case is. -/
theorem sg_letter_case (v w : Vars) (h : ∀ n, (v n).map (·.map Char.toLower) = (w n).map (·.map Char.toLower)) :
    sgSteps v = sgSteps w := by
  have hb : ∀ n, boolCheck v n = boolCheck w n := by
    intro n
    have hn := h n.toList
    unfold boolCheck
    rcases hv : v n.toList with _ | a <;> rcases hw : w n.toList with _ | b <;> rw [hv, hw] at hn
    · cases hn
    · cases hn
    · have hab : a.map Char.toLower = b.map Char.toLower := Option.some.inj hn
      rw [Option.getD_some, Option.getD_some, hab]
  simp only [sgSteps, hb]

/-- C130: the script of sky130A takes `TRUE` for no; the netlist is then simplified, not purged. -/
theorem sky_letter_case :
    .purge .layout ∈ sgSteps (started ["klayout".toList, "-rd".toList, "purge=TRUE".toList]) ∧
    .purge .layout ∉ skySteps (started ["klayout".toList, "-rd".toList, "purge=TRUE".toList]) ∧
    .simplify .layout ∈ skySteps (started ["klayout".toList, "-rd".toList, "purge=TRUE".toList]) ∧
    .purge .layout ∈ skySteps (started ["klayout".toList, "-rd".toList, "purge=true".toList]) :=
  ⟨by decide, by decide, by decide, by decide⟩

end Verif.Decks
