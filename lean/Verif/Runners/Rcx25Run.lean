import Verif.Runners.Svg
import Verif.Runners.Main
import Verif.Rcx25Netlist.Props

/-!
# The 2.5D engine (C104)

Model of `KpexCLI.run_kpex_2_5d_engine`, kpex_cli.py 677–749, with the paths of `main` (kpex_cli.py 931–936): the report, the table and
the netlist of a run, and the repair of the report. The extraction itself (C66), the text of a netlist, of a number and of a report, and
whether KLayout can load a report, are parameters; messages are left out, apart from the table and its path.
-/

namespace Verif.Runners

open Summary (CellResults ExtractionSummary summarizeAll)
open Rcx25Netlist (CsvRow csvRows expand)

/-! ### Model -/

/-- What is outside of the flow: the extraction, which also gives the text of the report; the SPICE writer; the text of a number;
whether KLayout loads a report; and `repair_rdb_xml` (area `Rdb`). -/
structure Env25 where
  extract : Except String (Dict String CellResults × Str)
  spice : Netlist.Circuit → Except String Str
  pr : ℚ → Str
  loads : Str → Bool
  repair : Str → Except String Str

/-- The text of a value that may be missing. -/
def valueText (pr : ℚ → Str) : Option ℚ → Str
  | some v => pr v
  | none => []

/-- One line of the table, kpex_cli.py 704–707. -/
def rowText (pr : ℚ → Str) (r : CsvRow) : Str :=
  r.device.toList ++ [';'] ++ r.net1.toList ++ [';'] ++ r.net2.toList ++ [';'] ++ valueText pr r.cap ++ [';'] ++ valueText pr r.res ++
    ['\n']

/-- The table, kpex_cli.py 703–707. -/
def tableText (pr : ℚ → Str) (rows : List CsvRow) : Str :=
  "Device;Net1;Net2;Capacitance [fF];Resistance [Ω]\n".toList ++ (rows.map (rowText pr)).flatten

/-- A line on the console. -/
def say (line : Str) : Act Unit := fun w => (.ok (), { w with console := w.console ++ [line] })

/-- `repair_rdb`, repair_rdb.py 111–129, as far as files are concerned: the repaired report is written beside the report. Whether it can
be loaded is only reported. -/
def repairFlow (e : Env25) (rep : Str) : Act Unit :=
  andThen (readFile rep) fun text => emit (rep ++ ".repair.xml".toList) (e.repair text)

/-- `run_kpex_2_5d_engine`, kpex_cli.py 677–749. The table is opened, and so emptied, before the results are summarised (699–701). -/
def rcx25Flow (e : Env25) (cf : String → String) (round3 : ℚ → ℚ) (c : Netlist.Circuit) (bb : Bool) (out cell : Str) : Act Unit :=
  fun w =>
    let rep := join out (cell ++ "_k25d_pex_report.rdb.gz".toList)
    let csv := abspath w.cwd (join out (cell ++ "_k25d_pex_netlist.csv".toList))
    let net := abspath w.cwd (join out (cell ++ "_k25d_pex_netlist.spice".toList))
    andThen (lift e.extract) (fun r =>
      andThen (writeFile rep r.2) fun _ =>
      andThen (writeFile csv []) fun _ =>
      andThen (lift (csvRows cf round3 r.1)) fun rows =>
      andThen (writeFile csv (tableText e.pr rows)) fun _ =>
      andThen (readFile csv) fun text =>
      andThen (showLines (universal text)) fun _ =>
      andThen (say csv) fun _ =>
      andThen (lift (expand cf c r.1 bb)) fun c' =>
      andThen (emit net (e.spice c')) fun _ =>
      andThen (readFile rep) fun text =>
      if e.loads text then lift (.ok ()) else repairFlow e rep) w

/-! ### Specification -/

/-- The files of a run. -/
def report25 (cell : Str) : Str := cell ++ "_k25d_pex_report.rdb.gz".toList
def table25 (cell : Str) : Str := cell ++ "_k25d_pex_netlist.csv".toList
def netlist25 (cell : Str) : Str := cell ++ "_k25d_pex_netlist.spice".toList
def repaired25 (cell : Str) : Str := cell ++ "_k25d_pex_report.rdb.gz.repair.xml".toList

/-- The output directory is there and the files in it are no directories. -/
structure Ready25 (out cell : Str) (w : World) : Prop where
  dir : locate w.cwd out ∈ w.dirs
  files : ∀ f ∈ [report25 cell, table25 cell, netlist25 cell, repaired25 cell], locate w.cwd out ++ [f] ∉ w.dirs

/-- A name or number that keeps to its field. -/
def Plain (s : Str) : Prop := ∀ ch ∈ s, ch ≠ ';' ∧ ch ≠ '\n' ∧ ch ≠ '\r'

/-- The lines of a text, without their ends. -/
def Lines (text : Str) (ls : List Str) : Prop := text = (ls.map (· ++ ['\n'])).flatten ∧ ∀ l ∈ ls, '\n' ∉ l

/-- The fields of a line. -/
def Fields (line : Str) (fs : List Str) : Prop := line = [';'].intercalate fs ∧ ∀ f ∈ fs, ';' ∉ f

/-- The names and the texts of the values of a row are plain. -/
def PlainRow (pr : ℚ → Str) (r : CsvRow) : Prop :=
  Plain r.device.toList ∧ Plain r.net1.toList ∧ Plain r.net2.toList ∧ (∀ v, r.cap = some v → Plain (pr v)) ∧
    ∀ v, r.res = some v → Plain (pr v)

/-! ### Theorems -/

theorem join_append (out : Str) {f : Str} (hf : f ≠ []) (s : Str) : join out f ++ s = join out (f ++ s) := by
  obtain ⟨a, f', rfl⟩ := List.exists_cons_of_ne_nil hf
  unfold join
  have h : (a :: f' ++ s).head? = (a :: f').head? := rfl
  rw [h]
  split_ifs <;> simp

theorem abspath_ne_nil (cwd : Place) (p : Str) : abspath cwd p ≠ [] := by
  unfold abspath
  split
  · simp
  · rename_i q hq
    cases h : locate cwd p with
    | nil => exact absurd h hq
    | cons a l => simp

theorem line_read {l : Str} (h : '\n' ∉ l) (s : Str) : readlines (l ++ ['\n'] ++ s) = (l ++ ['\n']) :: readlines s := by
  induction l with
  | nil => simp [readlines]
  | cons c l ih =>
    have hc : c ≠ '\n' := fun e => h (e ▸ List.mem_cons_self)
    have ih := ih (fun e => h (List.mem_cons_of_mem _ e))
    simp only [List.cons_append, readlines, if_neg hc]
    rw [ih]

/-- The lines as they are read, without their ends. -/
theorem lines_read {text : Str} {ls : List Str} (h : Lines text ls) : (readlines text).map List.dropLast = ls := by
  obtain ⟨rfl, h⟩ := h
  induction ls with
  | nil => rfl
  | cons l ls ih =>
    rw [List.map_cons, List.flatten_cons, line_read (h l List.mem_cons_self), List.map_cons, List.dropLast_concat,
      ih fun m hm => h m (List.mem_cons_of_mem _ hm)]

theorem lines_unique {text : Str} {ls ls' : List Str} (h : Lines text ls) (h' : Lines text ls') : ls = ls' := by
  rw [← lines_read h, lines_read h']

theorem lines_nil : Lines [] [] := ⟨rfl, fun _ h => absurd h List.not_mem_nil⟩

theorem lines_cons {l text : Str} {ls : List Str} (hl : '\n' ∉ l) (h : Lines text ls) : Lines (l ++ ['\n'] ++ text) (l :: ls) := by
  obtain ⟨rfl, h⟩ := h
  refine ⟨by rw [List.map_cons, List.flatten_cons], fun m hm => ?_⟩
  rcases List.mem_cons.1 hm with rfl | hm
  · exact hl
  · exact h m hm

/-- A text whose last line is complete has lines. -/
theorem lines_exist (s : Str) : ∃ ls, Lines (s ++ ['\n']) ls := by
  induction s with
  | nil => exact ⟨[[]], by simp [Lines]⟩
  | cons c s ih =>
    obtain ⟨ls, h1, h2⟩ := ih
    by_cases hc : c = '\n'
    · subst hc
      refine ⟨[] :: ls, ?_⟩
      exact lines_cons (l := []) (by simp) ⟨h1, h2⟩
    · cases ls with
      | nil => simp at h1
      | cons l ls =>
        refine ⟨(c :: l) :: ls, ?_, ?_⟩
        · rw [List.cons_append, h1]; simp
        · intro m hm
          rcases List.mem_cons.1 hm with rfl | hm
          · intro hn
            rcases List.mem_cons.1 hn with e | hn
            · exact hc e.symm
            · exact h2 l List.mem_cons_self hn
          · exact h2 m (List.mem_cons_of_mem _ hm)

theorem universal_plain {s : Str} (h : '\r' ∉ s) : universal s = s := by
  induction s with
  | nil => rfl
  | cons c s ih =>
    have hc : c ≠ '\r' := fun e => h (e ▸ List.mem_cons_self)
    have ih := ih fun e => h (List.mem_cons_of_mem _ e)
    have : universal (c :: s) = (if c = '\r' then '\n' else c) :: universal s := by
      rw [universal]
      exact fun x hx => absurd hx hc
    rw [this, if_neg hc, ih]

theorem universal_end (s : Str) : ∃ t, universal (s ++ ['\n']) = t ++ ['\n'] := by
  fun_induction universal s with
  | case1 => exact ⟨[], rfl⟩
  | case2 s ih =>
    obtain ⟨t, ht⟩ := ih
    exact ⟨'\n' :: t, by simp [universal, ht]⟩
  | case3 c s h ih =>
    obtain ⟨t, ht⟩ := ih
    by_cases hs : c = '\r' ∧ s = []
    · obtain ⟨rfl, rfl⟩ := hs
      exact ⟨[], by simp [universal]⟩
    · refine ⟨(if c = '\r' then '\n' else c) :: t, ?_⟩
      have : universal (c :: (s ++ ['\n'])) = (if c = '\r' then '\n' else c) :: universal (s ++ ['\n']) := by
        rw [universal]
        intro x hx e
        cases s with
        | nil => exact hs ⟨hx, rfl⟩
        | cons a s =>
          rw [List.cons_append, List.cons.injEq] at e
          exact h s hx (by rw [e.1])
      rw [List.cons_append, this, ht, List.cons_append]

theorem tableText_end (pr : ℚ → Str) (rows : List CsvRow) : ∃ s, tableText pr rows = s ++ ['\n'] := by
  unfold tableText
  rcases List.eq_nil_or_concat rows with rfl | ⟨init, r, rfl⟩
  · exact ⟨"Device;Net1;Net2;Capacitance [fF];Resistance [Ω]".toList, by rw [List.map_nil, List.flatten_nil, List.append_nil]; decide⟩
  · rw [List.concat_eq_append, List.map_append, List.flatten_append]
    simp only [List.map_cons, List.map_nil, List.flatten_cons, List.flatten_nil, List.append_nil, rowText]
    exact ⟨_, by rw [← List.append_assoc, ← List.append_assoc]⟩

/-- **C104, the table.** The lines of the table are the head and one for each row; the fields of the line are the name of the device, its
two nets, the capacitance and the resistance, of which one is empty. -/
theorem table_reads_back (pr : ℚ → Str) (rows : List CsvRow) (h : ∀ r ∈ rows, PlainRow pr r) :
    ∃ ls, Lines (tableText pr rows) ("Device;Net1;Net2;Capacitance [fF];Resistance [Ω]".toList :: ls) ∧
      List.Forall₂ (fun r l => ∃ cap res, Fields l [r.device.toList, r.net1.toList, r.net2.toList, cap, res] ∧
        (∀ v, r.cap = some v → cap = pr v) ∧ (r.cap = none → cap = []) ∧
        (∀ v, r.res = some v → res = pr v) ∧ (r.res = none → res = [])) rows ls := by
  have key : ∃ ls, Lines (rows.map (rowText pr)).flatten ls ∧
      List.Forall₂ (fun r l => ∃ cap res, Fields l [r.device.toList, r.net1.toList, r.net2.toList, cap, res] ∧
        (∀ v, r.cap = some v → cap = pr v) ∧ (r.cap = none → cap = []) ∧
        (∀ v, r.res = some v → res = pr v) ∧ (r.res = none → res = [])) rows ls := by
    induction rows with
    | nil => exact ⟨[], lines_nil, List.Forall₂.nil⟩
    | cons r rows ih =>
      obtain ⟨ls, h1, h2⟩ := ih fun q hq => h q (List.mem_cons_of_mem _ hq)
      obtain ⟨p1, p2, p3, p4, p5⟩ := h r List.mem_cons_self
      have pv : ∀ o : Option ℚ, (∀ v, o = some v → Plain (pr v)) → Plain (valueText pr o) := by
        intro o ho
        cases o with
        | none => intro ch hc; exact absurd hc List.not_mem_nil
        | some v => exact ho v rfl
      have p4 := pv _ p4
      have p5 := pv _ p5
      refine ⟨[';'].intercalate [r.device.toList, r.net1.toList, r.net2.toList, valueText pr r.cap, valueText pr r.res] :: ls, ?_, ?_⟩
      · have e : rowText pr r =
            [';'].intercalate [r.device.toList, r.net1.toList, r.net2.toList, valueText pr r.cap, valueText pr r.res] ++ ['\n'] := by
          simp [rowText, List.intercalate]
        rw [List.map_cons, List.flatten_cons, e]
        refine lines_cons ?_ h1
        intro hn
        simp only [List.intercalate, List.intersperse, List.flatten_cons, List.flatten_nil, List.mem_append, List.append_nil,
          List.mem_singleton] at hn
        rcases hn with hn | hn | hn | hn | hn | hn | hn | hn | hn
        · exact (p1 _ hn).2.1 rfl
        · exact absurd hn (by decide)
        · exact (p2 _ hn).2.1 rfl
        · exact absurd hn (by decide)
        · exact (p3 _ hn).2.1 rfl
        · exact absurd hn (by decide)
        · exact (p4 _ hn).2.1 rfl
        · exact absurd hn (by decide)
        · exact (p5 _ hn).2.1 rfl
      · refine List.Forall₂.cons ⟨_, _, ⟨rfl, ?_⟩, ?_, ?_, ?_, ?_⟩ h2
        · intro f hf hs
          simp only [List.mem_cons, List.not_mem_nil, or_false] at hf
          rcases hf with rfl | rfl | rfl | rfl | rfl
          · exact (p1 _ hs).1 rfl
          · exact (p2 _ hs).1 rfl
          · exact (p3 _ hs).1 rfl
          · exact (p4 _ hs).1 rfl
          · exact (p5 _ hs).1 rfl
        · intro v hv; rw [hv]; rfl
        · intro hv; rw [hv]; rfl
        · intro v hv; rw [hv]; rfl
        · intro hv; rw [hv]; rfl
  obtain ⟨ls, h1, h2⟩ := key
  refine ⟨ls, ?_, h2⟩
  have e : tableText pr rows = "Device;Net1;Net2;Capacitance [fF];Resistance [Ω]".toList ++ ['\n'] ++ (rows.map (rowText pr)).flatten := by
    unfold tableText
    congr 1
  rw [e]
  exact lines_cons (by decide) h1

/-- Fields are read back as they were written. -/
theorem fields_unique {line : Str} {fs fs' : List Str} (h : Fields line fs) (h' : Fields line fs') (hne : fs ≠ []) (hne' : fs' ≠ []) :
    fs = fs' := by
  obtain ⟨rfl, h⟩ := h
  obtain ⟨h1, h'⟩ := h'
  rw [← List.splitOn_intercalate ';' h hne, h1, List.splitOn_intercalate ';' h' hne']

/-- **C104.** A run whose extraction succeeds and whose results can be summarised leaves, in the output directory, the report of the
extraction, the table of the summarised parasitics and the netlist with these parasitics (C05, C51), shows the lines of the table and
where it is, and changes no other file; if KLayout cannot load the report, a repaired copy is put beside it. -/
theorem rcx25_results (e : Env25) (cf : String → String) (round3 : ℚ → ℚ) (c : Netlist.Circuit) (bb : Bool) (out cell : Str) (w : World)
    (cells : Dict String CellResults) (report : Str) (hx : e.extract = .ok (cells, report)) (s : ExtractionSummary)
    (hs : summarizeAll cells = .ok s) (hcell : '/' ∉ cell) (hcwd : ∀ c ∈ w.cwd, Name c) (hr : Ready25 out cell w)
    (hspice : ∀ c', ∃ t, e.spice c' = .ok t) (hrep : e.loads report = false → ∃ t, e.repair report = .ok t) :
    ∃ w' rows c' net shown ls path, rcx25Flow e cf round3 c bb out cell w = (.ok (), w') ∧
      csvRows cf round3 cells = .ok rows ∧ expand cf c cells bb = .ok c' ∧ e.spice c' = .ok net ∧
      w'.cwd = w.cwd ∧ w'.dirs = w.dirs ∧
      Dict.get? w'.files (locate w.cwd out ++ [report25 cell]) = some report ∧
      Dict.get? w'.files (locate w.cwd out ++ [table25 cell]) = some (tableText e.pr rows) ∧
      Dict.get? w'.files (locate w.cwd out ++ [netlist25 cell]) = some net ∧
      (∀ t, e.loads report = false → e.repair report = .ok t →
        Dict.get? w'.files (locate w.cwd out ++ [repaired25 cell]) = some t) ∧
      (∀ q, q ≠ locate w.cwd out ++ [report25 cell] → q ≠ locate w.cwd out ++ [table25 cell] →
        q ≠ locate w.cwd out ++ [netlist25 cell] → (e.loads report = false → q ≠ locate w.cwd out ++ [repaired25 cell]) →
        Dict.get? w'.files q = Dict.get? w.files q) ∧
      w'.console = w.console ++ ls ++ [path] ∧ SameText (tableText e.pr rows) shown ∧ Lines shown ls ∧
      (∀ cwd, locate cwd path = locate w.cwd out ++ [table25 cell]) := by
  obtain ⟨D, hD⟩ : ∃ D, D = locate w.cwd out := ⟨_, rfl⟩
  rw [← hD]
  have n1 : Name (report25 cell) := name_append hcell _ (by decide) (by decide)
  have n2 : Name (table25 cell) := name_append hcell _ (by decide) (by decide)
  have n3 : Name (netlist25 cell) := name_append hcell _ (by decide) (by decide)
  have n4 : Name (repaired25 cell) := name_append hcell _ (by decide) (by decide)
  have l1 : locate w.cwd (join out (report25 cell)) = D ++ [report25 cell] := by rw [locate_file _ _ n1, hD]
  have l2 : ∀ cwd, locate cwd (abspath w.cwd (join out (table25 cell))) = D ++ [table25 cell] := by
    intro cwd; rw [locate_abspath hcwd, locate_file _ _ n2, hD]
  have l3 : ∀ cwd, locate cwd (abspath w.cwd (join out (netlist25 cell))) = D ++ [netlist25 cell] := by
    intro cwd; rw [locate_abspath hcwd, locate_file _ _ n3, hD]
  have l4 : locate w.cwd (join out (repaired25 cell)) = D ++ [repaired25 cell] := by rw [locate_file _ _ n4, hD]
  have hw : ∀ f ∈ [report25 cell, table25 cell, netlist25 cell, repaired25 cell], ∀ w' : World, w'.dirs = w.dirs →
      Writable w' (D ++ [f]) := by
    intro f hf w' hd
    unfold Writable
    rw [List.dropLast_concat, hd, hD]
    exact ⟨hr.dir, hr.files f hf⟩
  obtain ⟨rows, hrows⟩ : ∃ rows, csvRows cf round3 cells = .ok rows := ⟨_, by unfold csvRows; rw [hs]; rfl⟩
  obtain ⟨c', hc'⟩ : ∃ c', expand cf c cells bb = .ok c' := by
    cases h : expand cf c cells bb with
    | ok c' => exact ⟨c', rfl⟩
    | error m =>
      obtain ⟨m', hm'⟩ := (Rcx25Netlist.expand_fails_iff cf c cells bb).1 ⟨m, h⟩
      rw [hs] at hm'; cases hm'
  obtain ⟨net, hnet⟩ := hspice c'
  have ne12 : report25 cell ≠ table25 cell := fun h => absurd (List.append_cancel_left h) (by decide)
  have ne13 : report25 cell ≠ netlist25 cell := fun h => absurd (List.append_cancel_left h) (by decide)
  have ne14 : report25 cell ≠ repaired25 cell := fun h => absurd (List.append_cancel_left h) (by decide)
  have ne23 : table25 cell ≠ netlist25 cell := fun h => absurd (List.append_cancel_left h) (by decide)
  have ne24 : table25 cell ≠ repaired25 cell := fun h => absurd (List.append_cancel_left h) (by decide)
  have ne34 : netlist25 cell ≠ repaired25 cell := fun h => absurd (List.append_cancel_left h) (by decide)
  have sub : ∀ {f g : Str}, f ≠ g → D ++ [f] ≠ D ++ [g] := by
    intro f g h he
    exact h (by simpa using List.append_cancel_left he)
  obtain ⟨st, hst⟩ := tableText_end e.pr rows
  obtain ⟨ut, hut⟩ := universal_end st
  obtain ⟨ls, hls⟩ := lines_exist ut
  have hshow : (readlines (universal (tableText e.pr rows))).map List.dropLast = ls := by
    rw [hst, hut]; exact lines_read hls
  obtain ⟨F1, hF1⟩ : ∃ F, F = Dict.set (Dict.set (Dict.set w.files (D ++ [report25 cell]) report) (D ++ [table25 cell]) [])
    (D ++ [table25 cell]) (tableText e.pr rows) := ⟨_, rfl⟩
  obtain ⟨F2, hF2⟩ : ∃ F, F = Dict.set F1 (D ++ [netlist25 cell]) net := ⟨_, rfl⟩
  have g1 : Dict.get? F2 (D ++ [report25 cell]) = some report := by
    rw [hF2, hF1, Dict.get?_set_ne _ _ (sub ne13.symm), Dict.get?_set_ne _ _ (sub ne12.symm), Dict.get?_set_ne _ _ (sub ne12.symm),
      Dict.get?_set_self]
  have g2 : Dict.get? F2 (D ++ [table25 cell]) = some (tableText e.pr rows) := by
    rw [hF2, hF1, Dict.get?_set_ne _ _ (sub ne23.symm), Dict.get?_set_self]
  have g3 : Dict.get? F2 (D ++ [netlist25 cell]) = some net := by rw [hF2, Dict.get?_set_self]
  have go : ∀ q, q ≠ D ++ [report25 cell] → q ≠ D ++ [table25 cell] → q ≠ D ++ [netlist25 cell] →
      Dict.get? F2 q = Dict.get? w.files q := by
    intro q h1 h2 h3
    rw [hF2, hF1, Dict.get?_set_ne _ _ (Ne.symm h3), Dict.get?_set_ne _ _ (Ne.symm h2), Dict.get?_set_ne _ _ (Ne.symm h2),
      Dict.get?_set_ne _ _ (Ne.symm h1)]
  obtain ⟨csv, hcsv⟩ : ∃ p, p = abspath w.cwd (join out (table25 cell)) := ⟨_, rfl⟩
  have hmain : rcx25Flow e cf round3 c bb out cell w =
      (if e.loads report then lift (.ok ()) else repairFlow e (join out (report25 cell)))
        { w with files := F2, console := w.console ++ ls ++ [csv] } := by
    unfold rcx25Flow
    simp only
    rw [show cell ++ "_k25d_pex_report.rdb.gz".toList = report25 cell from rfl,
      show cell ++ "_k25d_pex_netlist.csv".toList = table25 cell from rfl,
      show cell ++ "_k25d_pex_netlist.spice".toList = netlist25 cell from rfl]
    rw [andThen_ok (show lift e.extract w = (.ok (cells, report), w) by unfold lift; rw [hx])]
    have s1 := writeFile_ok (w := w) report (join_ne_nil out n1) (by rw [l1]; exact hw _ (by simp) _ rfl)
    rw [l1] at s1
    rw [andThen_ok s1, ← hcsv]
    rw [← hcsv] at l2
    have hcn : csv ≠ [] := hcsv ▸ abspath_ne_nil _ _
    have s2 := writeFile_ok (w := { w with files := Dict.set w.files (D ++ [report25 cell]) report }) (p := csv) [] hcn
      (by rw [l2]; exact hw _ (by simp) _ rfl)
    rw [l2] at s2
    rw [andThen_ok s2]
    have h3 : ∀ w' : World, lift (csvRows cf round3 cells) w' = (.ok rows, w') := by intro w'; unfold lift; rw [hrows]
    rw [andThen_ok (h3 _)]
    have s3 := writeFile_ok (w := { w with files := Dict.set (Dict.set w.files (D ++ [report25 cell]) report) (D ++ [table25 cell]) [] })
      (p := csv) (tableText e.pr rows) hcn (by rw [l2]; exact hw _ (by simp) _ rfl)
    rw [l2] at s3
    simp only at s3
    rw [andThen_ok s3, ← hF1]
    have s4 : readFile csv { w with files := F1 } = (.ok (tableText e.pr rows), { w with files := F1 }) :=
      readFile_ok hcn (by rw [l2, hF1]; exact Dict.get?_set_self _ _ _)
    rw [andThen_ok s4]
    have s5 : showLines (universal (tableText e.pr rows)) { w with files := F1 } =
        (.ok (), { w with files := F1, console := w.console ++ ls }) := by
      unfold showLines
      rw [hshow]
    rw [andThen_ok s5]
    have s6 : say csv { w with files := F1, console := w.console ++ ls } = (.ok (), { w with files := F1, console := w.console ++ ls ++ [csv] }) := rfl
    rw [andThen_ok s6]
    have h7 : ∀ w' : World, lift (expand cf c cells bb) w' = (.ok c', w') := by intro w'; unfold lift; rw [hc']
    rw [andThen_ok (h7 _), hnet]
    have s8 := emit_ok (w := { w with files := F1, console := w.console ++ ls ++ [csv] }) (text := net)
      (abspath_ne_nil w.cwd (join out (netlist25 cell))) (by rw [l3]; exact hw _ (by simp) _ rfl)
    rw [l3] at s8
    simp only at s8
    rw [andThen_ok s8, ← hF2]
    have s9 : readFile (join out (report25 cell)) { w with files := F2, console := w.console ++ ls ++ [csv] } =
        (.ok report, { w with files := F2, console := w.console ++ ls ++ [csv] }) :=
      readFile_ok (join_ne_nil out n1) (by show Dict.get? F2 (locate w.cwd _) = _; rw [l1]; exact g1)
    rw [andThen_ok s9]
  have hshown : SameText (tableText e.pr rows) (ut ++ ['\n']) := by
    rw [← hut, ← hst]; exact universal_same _
  have hpath : ∀ cwd, locate cwd csv = D ++ [table25 cell] := by intro cwd; rw [hcsv]; exact l2 cwd
  cases hl : e.loads report with
  | true =>
    rw [hl, if_pos rfl] at hmain
    refine ⟨_, rows, c', net, _, ls, csv, hmain, hrows, hc', hnet, rfl, rfl, g1, g2, g3, ?_, ?_, rfl, hshown, hls, hpath⟩
    · intro t h; exact absurd h (by simp)
    · intro q h1 h2 h3 _; exact go q h1 h2 h3
  | false =>
    obtain ⟨t, ht⟩ := hrep hl
    rw [hl, if_neg (by simp)] at hmain
    have s9 : readFile (join out (report25 cell)) { w with files := F2, console := w.console ++ ls ++ [csv] } =
        (.ok report, { w with files := F2, console := w.console ++ ls ++ [csv] }) :=
      readFile_ok (join_ne_nil out n1) (by show Dict.get? F2 (locate w.cwd _) = _; rw [l1]; exact g1)
    have e4 : join out (report25 cell) ++ ".repair.xml".toList = join out (repaired25 cell) := by
      rw [join_append out n1.1]
      congr 1
      unfold report25 repaired25
      rw [List.append_assoc]
      congr 1
    have s10 := emit_ok (w := { w with files := F2, console := w.console ++ ls ++ [csv] }) (text := t)
      (join_ne_nil out n4) (by show Writable _ (locate w.cwd _); rw [l4]; exact hw _ (by simp) _ rfl)
    rw [show World.cwd { w with files := F2, console := w.console ++ ls ++ [csv] } = w.cwd from rfl, l4] at s10
    have hmain : rcx25Flow e cf round3 c bb out cell w = (.ok (), { w with
        files := Dict.set F2 (D ++ [repaired25 cell]) t, console := w.console ++ ls ++ [csv] }) := by
      rw [hmain]
      unfold repairFlow
      rw [andThen_ok s9, ht, e4]
      exact s10
    refine ⟨_, rows, c', net, _, ls, csv, hmain, hrows, hc', hnet, rfl, rfl, ?_, ?_, ?_, ?_, ?_, rfl, hshown, hls, hpath⟩
    · rw [Dict.get?_set_ne _ _ (sub ne14.symm)]; exact g1
    · rw [Dict.get?_set_ne _ _ (sub ne24.symm)]; exact g2
    · rw [Dict.get?_set_ne _ _ (sub ne34.symm)]; exact g3
    · intro t' _ h
      rw [ht] at h
      cases h
      exact Dict.get?_set_self _ _ _
    · intro q h1 h2 h3 h4
      rw [Dict.get?_set_ne _ _ (Ne.symm (h4 rfl))]
      exact go q h1 h2 h3

/-- An extraction that fails changes nothing: files of an earlier run stay as they are. -/
theorem rcx25_fails (e : Env25) (cf : String → String) (round3 : ℚ → ℚ) (c : Netlist.Circuit) (bb : Bool) (out cell : Str) (w : World)
    (m : String) (hx : e.extract = .error m) : rcx25Flow e cf round3 c bb out cell w = (.error m, w) := by
  unfold rcx25Flow
  simp only
  exact andThen_error (by unfold lift; rw [hx])

/-- If the results cannot be summarised (an element of a resistor network without its nodes), the report is new, the table is empty,
and the netlist is still that of an earlier run. -/
theorem rcx25_half (e : Env25) (cf : String → String) (round3 : ℚ → ℚ) (c : Netlist.Circuit) (bb : Bool) (out cell : Str) (w : World)
    (cells : Dict String CellResults) (report : Str) (hx : e.extract = .ok (cells, report)) (m : String)
    (hs : summarizeAll cells = .error m) (hcell : '/' ∉ cell) (hcwd : ∀ c ∈ w.cwd, Name c) (hr : Ready25 out cell w) :
    ∃ w', rcx25Flow e cf round3 c bb out cell w = (.error m, w') ∧
      Dict.get? w'.files (locate w.cwd out ++ [report25 cell]) = some report ∧
      Dict.get? w'.files (locate w.cwd out ++ [table25 cell]) = some [] ∧
      ∀ q, q ≠ locate w.cwd out ++ [report25 cell] → q ≠ locate w.cwd out ++ [table25 cell] →
        Dict.get? w'.files q = Dict.get? w.files q := by
  obtain ⟨D, hD⟩ : ∃ D, D = locate w.cwd out := ⟨_, rfl⟩
  rw [← hD]
  have n1 : Name (report25 cell) := name_append hcell _ (by decide) (by decide)
  have n2 : Name (table25 cell) := name_append hcell _ (by decide) (by decide)
  have l1 : locate w.cwd (join out (report25 cell)) = D ++ [report25 cell] := by rw [locate_file _ _ n1, hD]
  have l2 : locate w.cwd (abspath w.cwd (join out (table25 cell))) = D ++ [table25 cell] := by
    rw [locate_abspath hcwd, locate_file _ _ n2, hD]
  have hw : ∀ f ∈ [report25 cell, table25 cell, netlist25 cell, repaired25 cell], ∀ w' : World, w'.dirs = w.dirs →
      Writable w' (D ++ [f]) := by
    intro f hf w' hd
    unfold Writable
    rw [List.dropLast_concat, hd, hD]
    exact ⟨hr.dir, hr.files f hf⟩
  have ne12 : D ++ [report25 cell] ≠ D ++ [table25 cell] := by
    intro he
    have := List.append_cancel_left he
    simp only [List.cons.injEq, and_true] at this
    exact absurd (List.append_cancel_left this) (by decide)
  have s1 := writeFile_ok (w := w) report (join_ne_nil out n1) (by rw [l1]; exact hw _ (by simp) _ rfl)
  rw [l1] at s1
  have s2 := writeFile_ok (w := { w with files := Dict.set w.files (D ++ [report25 cell]) report })
    (p := abspath w.cwd (join out (table25 cell))) [] (abspath_ne_nil _ _) (by
      show Writable _ (locate w.cwd _); rw [l2]; exact hw _ (by simp) _ rfl)
  rw [show World.cwd { w with files := Dict.set w.files (D ++ [report25 cell]) report } = w.cwd from rfl, l2] at s2
  refine ⟨{ w with files := Dict.set (Dict.set w.files (D ++ [report25 cell]) report) (D ++ [table25 cell]) [] }, ?_, ?_, ?_, ?_⟩
  · unfold rcx25Flow
    simp only
    rw [show cell ++ "_k25d_pex_report.rdb.gz".toList = report25 cell from rfl,
      show cell ++ "_k25d_pex_netlist.csv".toList = table25 cell from rfl]
    rw [andThen_ok (show lift e.extract w = (.ok (cells, report), w) by unfold lift; rw [hx]), andThen_ok s1, andThen_ok s2]
    exact andThen_error (by
      unfold lift csvRows
      rw [hs]; rfl)
  · show Dict.get? (Dict.set (Dict.set _ _ _) _ _) _ = _
    rw [Dict.get?_set_ne _ _ ne12.symm, Dict.get?_set_self]
  · exact Dict.get?_set_self _ _ _
  · intro q h1 h2
    show Dict.get? (Dict.set (Dict.set _ _ _) _ _) _ = _
    rw [Dict.get?_set_ne _ _ (Ne.symm h2), Dict.get?_set_ne _ _ (Ne.symm h1)]

/-! ### Examples -/

/-- Finding: a semicolon in the name of a net is not quoted, so the line does not tell which nets are meant. -/
theorem semicolon_ambiguous (pr : ℚ → Str) (v : ℚ) :
    rowText pr ⟨"C1", "a;b", "c", some v, none⟩ = rowText pr ⟨"C1", "a", "b;c", some v, none⟩ := by
  have h1 : "a;b".toList = ['a', ';', 'b'] := by decide
  have h2 : "b;c".toList = ['b', ';', 'c'] := by decide
  have h3 : "a".toList = ['a'] := by decide
  have h4 : "c".toList = ['c'] := by decide
  simp [rowText, h1, h2, h3, h4]

/-- An extraction with the results of `Rcx25Netlist.exHistory`, and a report that cannot be loaded. -/
def exEnv : Env25 where
  extract := .ok (Summary.runCells Rcx25Netlist.exHistory, ['r'])
  spice := fun c => .ok (List.replicate c.devices.length 'd')
  pr := fun v => (toString v.num).toList
  loads := fun _ => false
  repair := fun t => .ok ('x' :: t)

theorem exWorld_ready : Ready25 ['o'] ['x'] exWorld := ⟨by decide +kernel, by decide +kernel⟩

/-- The hypotheses of C104 hold for this run. -/
example : ∃ w', rcx25Flow exEnv id id Rcx25Netlist.exCircuit true ['o'] ['x'] exWorld = (.ok (), w') ∧
    Dict.get? w'.files [['h'], ['o'], "x_k25d_pex_report.rdb.gz".toList] = some ['r'] ∧
    Dict.get? w'.files [['h'], ['o'], "x_k25d_pex_report.rdb.gz.repair.xml".toList] = some ['x', 'r'] := by
  have hs : ∃ s, summarizeAll (Summary.runCells Rcx25Netlist.exHistory) = .ok s := by
    have : (summarizeAll (Summary.runCells Rcx25Netlist.exHistory)).isOk = true := by decide +kernel
    cases h : summarizeAll (Summary.runCells Rcx25Netlist.exHistory) with
    | ok s => exact ⟨s, rfl⟩
    | error m => rw [h] at this; cases this
  obtain ⟨s, hs⟩ := hs
  obtain ⟨w', rows, c', net, shown, ls, path, h, _, _, _, _, _, h1, _, _, h2, _⟩ := rcx25_results exEnv id id Rcx25Netlist.exCircuit true
    ['o'] ['x'] exWorld _ _ rfl s hs (by decide) exWorld_meets.1 exWorld_ready (fun _ => ⟨_, rfl⟩) (fun _ => ⟨_, rfl⟩)
  exact ⟨w', h, h1, h2 _ rfl rfl⟩

/-- Results that cannot be summarised. -/
example : summarizeAll [("TOP", { cellName := "TOP", networks := [⟨[], [⟨0, 1, 5⟩]⟩] })] = .error "KeyError" := rfl

/-- Plain rows, for the table. -/
example : PlainRow (fun v => (toString v.num).toList) ⟨"C1", "A", "B", some 3, none⟩ := by
  refine ⟨?_, ?_, ?_, ?_, ?_⟩
  · unfold Plain; decide
  · unfold Plain; decide
  · unfold Plain; decide
  · rintro v h
    cases h
    unfold Plain; decide
  · rintro v h; cases h

end Verif.Runners
