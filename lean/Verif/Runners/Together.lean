import Verif.Runners.Main
import Verif.Runners.Rcx25Run

/-!
# Several engines in one run (C105)
-/

namespace Verif.Runners
open Verif.Summary (CellResults summarizeAll)
open Verif.Rcx25Netlist (csvRows expand)

/-! ### Specification -/

/-- The files of the 2.5D engine in the output directory, after the name of the cell. -/
def rcx25Files : List String := ["_k25d_pex_report.rdb.gz", "_k25d_pex_netlist.csv", "_k25d_pex_netlist.spice",
  "_k25d_pex_report.rdb.gz.repair.xml"]

/-- What a solver printed can be read, and its results can be written. -/
def Understood {M : Type} (s : Solver M) (printed : Str) : Prop :=
  ∃ m raw avg csv exp red, (∀ text, SameText printed text → s.parse text = .ok m) ∧ s.raw m = .ok raw ∧ s.avg m = .ok avg ∧
    s.csv m = .ok csv ∧ s.expanded m = .ok exp ∧ s.reduced m = .ok red

/-- A program that succeeds and prints `printed` whenever it is started in the directory `dir` with the input files of `v` in `inp`,
and leaves the files it finds as they are. -/
def Solves (p : Prog) (argv : List Str) (dir inp : Place) (v : World) (printed : Str) : Prop :=
  ∀ w : World, w.cwd = dir → w.dirs = v.dirs → (∀ a r t, Dict.get? v.files (inp ++ a :: r) = some t →
      Dict.get? w.files (inp ++ a :: r) = some t) →
    ∃ x, p argv w = .ok x ∧ x.code = 0 ∧ x.output = printed ∧ ∀ q t, Dict.get? w.files q = some t → Dict.get? x.files q = some t

/-- The files hold what a solver printed and the results of that. -/
def FasterCapResults {M : Type} (s : Solver M) (printed : Str) (o : Place) (cell : Str) (files : Dict Place Str) : Prop :=
  ∃ text m raw avg csv exp red, SameText printed text ∧ s.parse text = .ok m ∧ s.raw m = .ok raw ∧ s.avg m = .ok avg ∧
    s.csv m = .ok csv ∧ s.expanded m = .ok exp ∧ s.reduced m = .ok red ∧
    Dict.get? files (o ++ [cell ++ "_FasterCap_Output.txt".toList]) = some text ∧
    Dict.get? files (o ++ [cell ++ "_FasterCap_Result_Matrix_Raw.csv".toList]) = some raw ∧
    Dict.get? files (o ++ [cell ++ "_FasterCap_Result_Matrix_Avg.csv".toList]) = some avg ∧
    Dict.get? files (o ++ [cell ++ "_FasterCap_Expanded_Netlist.csv".toList]) = some csv ∧
    Dict.get? files (o ++ [cell ++ "_FasterCap_Expanded_Netlist.cir".toList]) = some exp ∧
    Dict.get? files (o ++ [cell ++ "_FasterCap_Reduced_Netlist.cir".toList]) = some red

def FastCapResults {M : Type} (s : Solver M) (printed : Str) (o : Place) (cell : Str) (files : Dict Place Str) : Prop :=
  ∃ text m raw avg exp red, SameText printed text ∧ s.parse text = .ok m ∧ s.raw m = .ok raw ∧ s.avg m = .ok avg ∧
    s.expanded m = .ok exp ∧ s.reduced m = .ok red ∧
    Dict.get? files (o ++ [cell ++ "_FastCap2_Output.txt".toList]) = some text ∧
    Dict.get? files (o ++ [cell ++ "_FastCap2_Result_Matrix_Raw.csv".toList]) = some raw ∧
    Dict.get? files (o ++ [cell ++ "_FastCap2_Result_Matrix_Avg.csv".toList]) = some avg ∧
    Dict.get? files (o ++ [cell ++ "_FastCap2_Expanded_Netlist.cir".toList]) = some exp ∧
    Dict.get? files (o ++ [cell ++ "_FastCap2_Reduced_Netlist.cir".toList]) = some red

/-- The files hold the results of an extraction of the 2.5D engine. -/
def Rcx25Results (e : Env25) (cf : String → String) (round3 : ℚ → ℚ) (c : Netlist.Circuit) (bb : Bool) (o : Place) (cell : Str)
    (files : Dict Place Str) : Prop :=
  ∃ cells report rows c' net, e.extract = .ok (cells, report) ∧ csvRows cf round3 cells = .ok rows ∧
    expand cf c cells bb = .ok c' ∧ e.spice c' = .ok net ∧
    Dict.get? files (o ++ [cell ++ "_k25d_pex_report.rdb.gz".toList]) = some report ∧
    Dict.get? files (o ++ [cell ++ "_k25d_pex_netlist.csv".toList]) = some (tableText e.pr rows) ∧
    Dict.get? files (o ++ [cell ++ "_k25d_pex_netlist.spice".toList]) = some net

/-- An extraction whose results can be summarised and written. -/
def Extracts (e : Env25) : Prop :=
  ∃ cells report s, e.extract = .ok (cells, report) ∧ summarizeAll cells = .ok s ∧ (∀ c', ∃ t, e.spice c' = .ok t) ∧
    (e.loads report = false → ∃ t, e.repair report = .ok t)

/-- What comes before the engines that follow LVS, and these engines. -/
def before (r : Request) : List Step :=
  (if r.magic then [.magic] else []) ++ .lvs :: (if r.fastercap || r.fastcap then [.input] else [])
def engines (r : Request) : List Step :=
  (if r.fastercap then [.fastercap] else []) ++ ((if r.fastcap then [.fastcap] else []) ++ if r.rcx25 then [.rcx25] else [])

/-! ### Theorems -/

theorem sublist_filter {α : Type} [DecidableEq α] {l L : List α} (h : l.Sublist L) (hn : L.Nodup) : l = L.filter (· ∈ l) := by
  induction h with
  | slnil => rfl
  | cons a h ih =>
    rw [List.nodup_cons] at hn
    rw [List.filter_cons_of_neg (by simpa using fun hm => hn.1 (h.subset hm))]
    exact ih hn.2
  | cons_cons a h ih =>
    rename_i l L
    rw [List.nodup_cons] at hn
    rw [List.filter_cons_of_pos (by simp)]
    congr 1
    rw [ih hn.2] 
    apply List.filter_congr
    intro x hx
    have : x ≠ a := fun he => hn.1 (he ▸ hx)
    rw [← ih hn.2]
    simp [this]

theorem main_list (r : Request) (h : r.fastercap = true ∨ r.fastcap = true ∨ r.rcx25 = true) (run : Step → Act Unit) (w : World) :
    main r run w = inOrder run (before r ++ engines r) w := by
  obtain ⟨l, hl, hs, m1, m2, m3, m4, m5, m6⟩ := main_exact r run w
  have hL : ([.magic, .lvs, .input, .fastercap, .fastcap, .rcx25] : List Step).Nodup := by decide
  rw [hl, sublist_filter hs hL]
  congr 1
  have e : ∀ s, decide (s ∈ l) = decide (s ∈ before r ++ engines r) := by
    intro s
    apply decide_eq_decide.2
    obtain ⟨a, b, c, d⟩ := r
    cases s <;> simp only [m1, m2, m3, m4, m5, m6] <;> clear hl hs m1 m2 m3 m4 m5 m6 <;> revert a b c d <;> decide
  simp only [e]
  obtain ⟨a, b, c, d⟩ := r
  clear hl hs m1 m2 m3 m4 m5 m6 e
  revert h
  revert a b c d
  decide

theorem inOrder_append (run : Step → Act Unit) {l l' : List Step} {w w' : World} (h : inOrder run l w = (.ok (), w')) :
    inOrder run (l ++ l') w = inOrder run l' w' := by
  induction l generalizing w with
  | nil => simp only [inOrder] at h; cases h; rfl
  | cons s l ih =>
    simp only [inOrder, List.cons_append] at h ⊢
    cases hr : run s w with
    | mk res w1 =>
      rw [hr] at h
      cases res with
      | error e => simp at h
      | ok u => exact ih h

theorem inOrder_fails (run : Step → Act Unit) {l l' : List Step} {w w' : World} {m : String} (h : inOrder run l w = (.error m, w')) :
    inOrder run (l ++ l') w = (.error m, w') := by
  induction l generalizing w with
  | nil => simp [inOrder] at h
  | cons s l ih =>
    simp only [inOrder, List.cons_append] at h ⊢
    cases hr : run s w with
    | mk res w1 =>
      rw [hr] at h
      cases res with
      | error e => exact h
      | ok u => exact ih h

theorem inOrder_one (run : Step → Act Unit) {s : Step} {w w' : World} (h : run s w = (.ok (), w')) :
    inOrder run [s] w = (.ok (), w') := by
  simp only [inOrder, h]

/-- Files other than those with the given ends are kept. -/
def KeepsBut (fs : List String) (o : Place) (cell : Str) (v w : World) : Prop :=
  ∀ q t, (∀ f ∈ fs, q ≠ o ++ [cell ++ f.toList]) → Dict.get? v.files q = some t → Dict.get? w.files q = some t

theorem KeepsBut.file {fs : List String} {o : Place} {cell : Str} {v w : World} (h : KeepsBut fs o cell v w) {f : String}
    (hf : f ∉ fs) {t : Str} (ht : Dict.get? v.files (o ++ [cell ++ f.toList]) = some t) :
    Dict.get? w.files (o ++ [cell ++ f.toList]) = some t := by
  refine h _ _ (fun g hg he => hf ?_) ht
  have he := List.append_cancel_left he
  simp only [List.cons.injEq, and_true, List.append_cancel_left_eq] at he
  rw [String.toList_inj.1 he]
  exact hg

theorem FasterCapResults.keep {M : Type} {s : Solver M} {printed : Str} {fs : List String} {o : Place} {cell : Str} {v w : World}
    (h : FasterCapResults s printed o cell v.files) (hk : KeepsBut fs o cell v w) (hd : ∀ f ∈ fasterCapFiles, f ∉ fs) :
    FasterCapResults s printed o cell w.files := by
  obtain ⟨text, m, raw, avg, csv, exp, red, p0, p1, p2, p3, p4, p5, p6, g1, g2, g3, g4, g5, g6⟩ := h
  exact ⟨text, m, raw, avg, csv, exp, red, p0, p1, p2, p3, p4, p5, p6, hk.file (hd _ (by decide)) g1, hk.file (hd _ (by decide)) g2,
    hk.file (hd _ (by decide)) g3, hk.file (hd _ (by decide)) g4, hk.file (hd _ (by decide)) g5, hk.file (hd _ (by decide)) g6⟩

theorem FastCapResults.keep {M : Type} {s : Solver M} {printed : Str} {fs : List String} {o : Place} {cell : Str} {v w : World}
    (h : FastCapResults s printed o cell v.files) (hk : KeepsBut fs o cell v w) (hd : ∀ f ∈ fastCapFiles, f ∉ fs) :
    FastCapResults s printed o cell w.files := by
  obtain ⟨text, m, raw, avg, exp, red, p0, p1, p2, p3, p4, p5, g1, g2, g3, g4, g5⟩ := h
  exact ⟨text, m, raw, avg, exp, red, p0, p1, p2, p3, p4, p5, hk.file (hd _ (by decide)) g1, hk.file (hd _ (by decide)) g2,
    hk.file (hd _ (by decide)) g3, hk.file (hd _ (by decide)) g4, hk.file (hd _ (by decide)) g5⟩

theorem input_ne (o : Place) (i : Str) (a : Str) (r : Place) (f : Str) : o ++ [i] ++ a :: r ≠ o ++ [f] := by
  intro h
  have := congrArg List.length h
  simp at this

/-- **C105.** If the steps before the engines succeed, the solvers succeed and print what can be read, the extraction of the 2.5D engine
can be summarised, and the output directory is given by an absolute path if FastCap2 is requested, then the run succeeds, every
requested engine has left its own results, those of one engine are not touched by the others, and every other file is as it was. -/
theorem engines_together {M : Type} (r : Request) (run : Step → Act Unit) (w v : World) (hany : r.fastercap = true ∨ r.fastcap = true ∨
      r.rcx25 = true)
    (p1 p2 : Prog) (s1 s2 : Solver M) (exe1 exe2 out cell : Str) (a : FasterCapArgs) (e : Env25) (cf : String → String) (round3 : ℚ → ℚ)
    (c : Netlist.Circuit) (bb : Bool)
    (r1 : run .fastercap = fasterCapFlow p1 s1 exe1 out cell (lstPath out) a)
    (r2 : run .fastcap = fastCapFlow p2 s2 exe2 out cell (lstPath out))
    (r3 : run .rcx25 = rcx25Flow e cf round3 c bb out cell)
    (hb : inOrder run (before r) w = (.ok (), v)) (o : Place) (hcwd : ∀ c ∈ v.cwd, Name c) (hcell : '/' ∉ cell)
    (ho : locate v.cwd out = o) (hod : o ∈ v.dirs) (hnd : ∀ f ∈ fasterCapFiles ++ fastCapFiles ++ rcx25Files, o ++ [cell ++ f.toList] ∉ v.dirs)
    (printed1 printed2 : Str)
    (h1 : r.fastercap = true → Understood s1 printed1 ∧ Solves p1 (fasterCapArgs exe1 (lstPath out) a) v.cwd
      (o ++ ["FasterCap_Input_Files".toList]) v printed1)
    (h2 : r.fastcap = true → out.head? = some '/' ∧ o ++ ["FasterCap_Input_Files".toList] ∈ v.dirs ∧ Understood s2 printed2 ∧
      Solves p2 (fastCapArgs exe2 "FasterCap_Input_.lst".toList fastCapDefaults) (o ++ ["FasterCap_Input_Files".toList])
        (o ++ ["FasterCap_Input_Files".toList]) v printed2)
    (h3 : r.rcx25 = true → Extracts e) :
    ∃ w', main r run w = (.ok (), w') ∧
      (r.fastercap = true → FasterCapResults s1 printed1 o cell w'.files) ∧
      (r.fastcap = true → FastCapResults s2 printed2 o cell w'.files) ∧
      (r.rcx25 = true → Rcx25Results e cf round3 c bb o cell w'.files) ∧
      ∀ q t, (r.fastercap = true → ∀ f ∈ fasterCapFiles, q ≠ o ++ [cell ++ f.toList]) →
        (r.fastcap = true → ∀ f ∈ fastCapFiles, q ≠ o ++ [cell ++ f.toList]) →
        (r.rcx25 = true → ∀ f ∈ rcx25Files, q ≠ o ++ [cell ++ f.toList]) →
        Dict.get? v.files q = some t → Dict.get? w'.files q = some t := by
  -- FasterCap
  obtain ⟨v1, e1, d1, c1, k1, k1', g1⟩ : ∃ v1, inOrder run (if r.fastercap then [.fastercap] else []) v = (.ok (), v1) ∧
      v1.dirs = v.dirs ∧ v1.cwd = v.cwd ∧ KeepsBut fasterCapFiles o cell v v1 ∧ (r.fastercap = false → v1 = v) ∧
      (r.fastercap = true → FasterCapResults s1 printed1 o cell v1.files) := by
    cases hr : r.fastercap with
    | false => exact ⟨v, rfl, rfl, rfl, fun _ _ _ h => h, fun _ => rfl, fun h => nomatch h⟩
    | true =>
      obtain ⟨⟨m, raw, avg, csv, exp, red, hm, a1, a2, a3, a4, a5⟩, hs⟩ := h1 hr
      obtain ⟨x, hx, hcode, hout, hkeep⟩ := hs v rfl rfl (fun _ _ _ h => h)
      obtain ⟨v1, text, b1, b2, b3, b4, b5, b6, b7, b8, b9, b10, b11⟩ := fastercap_results p1 s1 exe1 out cell (lstPath out) a v x o m raw
        avg csv exp red hcell ho hod (fun f hf => hnd f (by simp [hf])) hx hcode (by rw [hout]; exact hm) a1 a2 a3 a4 a5
      rw [hout] at b2
      refine ⟨v1, inOrder_one run (by rw [r1]; exact b1), b11, b10, ?_, (fun h => nomatch h), fun _ => ⟨text, m, raw, avg, csv, exp, red, b2,
        hm _ b2, a1, a2, a3, a4, a5, b3, b4, b5, b6, b7, b8⟩⟩
      intro q t hq ht
      rw [b9 q hq]
      exact hkeep q t ht
  -- FastCap2
  obtain ⟨v2, e2, d2, c2, k2, k2', g2⟩ : ∃ v2, inOrder run (if r.fastcap then [.fastcap] else []) v1 = (.ok (), v2) ∧
      v2.dirs = v.dirs ∧ ((∀ c ∈ v2.cwd, Name c) ∧ locate v2.cwd out = o) ∧ KeepsBut fastCapFiles o cell v1 v2 ∧
      (r.fastcap = false → v2 = v1) ∧ (r.fastcap = true → FastCapResults s2 printed2 o cell v2.files) := by
    cases hr : r.fastcap with
    | false =>
      refine ⟨v1, rfl, d1, ?_, fun _ _ _ h => h, fun _ => rfl, fun h => nomatch h⟩
      rw [c1]
      exact ⟨hcwd, ho⟩
    | true =>
      obtain ⟨habs, hwork, ⟨m, raw, avg, csv, exp, red, hm, a1, a2, a3, a4, a5⟩, hs⟩ := h2 hr
      obtain ⟨x, hx, hcode, hout, hkeep⟩ := hs { v1 with cwd := o ++ ["FasterCap_Input_Files".toList] } rfl d1
        (fun b r t h => k1 _ _ (fun f _ => input_ne _ _ _ _ _) h)
      obtain ⟨v2, text, b1, b2, b3, b4, b5, b6, b7, b8, b9, b10⟩ := fastcap_results_partial p2 s2 exe2 out cell v1 x o m raw avg exp red
        (by rw [c1]; exact hcwd) habs hcell (by rw [c1]; exact ho) (by rw [d1]; exact hod) (by rw [d1]; exact fun f hf => hnd f (by simp [hf])) (by rw [d1]; exact hwork)
        hx hcode (by rw [hout]; exact hm) a1 a2 a4 a5
      rw [hout] at b2
      refine ⟨v2, inOrder_one run (by rw [r2]; exact b1), b10.trans d1, ⟨?_, ?_⟩, ?_, (fun h => nomatch h), fun _ => ⟨text, m, raw, avg, exp,
        red, b2, hm _ b2, a1, a2, a4, a5, b3, b4, b5, b6, b7⟩⟩
      · rw [b9]
        intro c hc
        rcases List.mem_append.1 hc with h | h
        · exact locate_clean hcwd out c (ho ▸ h)
        · rw [List.mem_singleton.1 h]
          exact ⟨by decide, by decide, by decide, by decide⟩
      · rw [locate_absolute habs v2.cwd v.cwd]
        exact ho
      · intro q t hq ht
        rw [b8 q hq]
        exact hkeep q t ht
  -- 2.5D
  obtain ⟨v3, e3, k3, k3', g3⟩ : ∃ v3, inOrder run (if r.rcx25 then [.rcx25] else []) v2 = (.ok (), v3) ∧
      KeepsBut rcx25Files o cell v2 v3 ∧
      (r.rcx25 = false → v3 = v2) ∧ (r.rcx25 = true → Rcx25Results e cf round3 c bb o cell v3.files) := by
    cases hr : r.rcx25 with
    | false => exact ⟨v2, rfl, fun _ _ _ h => h, fun _ => rfl, fun h => nomatch h⟩
    | true =>
      obtain ⟨cells, report, s, hx, hs, hsp, hrp⟩ := h3 hr
      obtain ⟨v3, rows, c', net, shown, ls, path, b1, b2, b3, b4, b5, b6, b7, b8, b9, b10, b11, _⟩ := rcx25_results e cf round3 c bb out
        cell v2 cells report hx s hs hcell c2.1 ⟨by rw [c2.2, d2]; exact hod, by
          intro f hf
          rw [c2.2, d2]
          simp only [List.mem_cons, List.not_mem_nil, or_false] at hf
          rcases hf with rfl | rfl | rfl | rfl <;> exact hnd _ (by decide)⟩ hsp hrp
      rw [c2.2] at b7 b8 b9 b11
      refine ⟨v3, inOrder_one run (by rw [r3]; exact b1), ?_, (fun h => nomatch h),
        fun _ => ⟨cells, report, rows, c', net, hx, b2, b3, b4, b7, b8, b9⟩⟩
      intro q t hq ht
      simp only [rcx25Files, List.forall_mem_cons] at hq
      rw [b11 q hq.1 hq.2.1 hq.2.2.1 (fun _ => hq.2.2.2.1)]
      exact ht
  refine ⟨v3, ?_, fun h => ((g1 h).keep k2 (by decide)).keep k3 (by decide), fun h => (g2 h).keep k3 (by decide), g3, ?_⟩
  · rw [main_list r hany, inOrder_append run hb, engines, inOrder_append run e1, inOrder_append run e2, e3]
  · intro q t q1 q2 q3 hq
    have hq1 : Dict.get? v1.files q = some t := by
      cases hr : r.fastercap with
      | false => rw [k1' hr]; exact hq
      | true => exact k1 q t (q1 hr) hq
    have hq2 : Dict.get? v2.files q = some t := by
      cases hr : r.fastcap with
      | false => rw [k2' hr]; exact hq1
      | true => exact k2 q t (q2 hr) hq1
    cases hr : r.rcx25 with
    | false => rw [k3' hr]; exact hq2
    | true => exact k3 q t (q3 hr) hq2

/-- Finding: with a relative output directory and FastCap2 requested, the run ends with an exception when FastCap2 has succeeded, and the
2.5D engine is not started, whatever it would do. -/
theorem together_relative {M : Type} (r : Request) (run : Step → Act Unit) (w v : World) (hr : r.fastcap = true)
    (p2 : Prog) (s2 : Solver M) (exe2 out cell : Str) (r2 : run .fastcap = fastCapFlow p2 s2 exe2 out cell (lstPath out))
    (hb : inOrder run (before r ++ if r.fastercap then [.fastercap] else []) w = (.ok (), v)) (o : Place) (hcwd : ∀ c ∈ v.cwd, Name c)
    (hrel : out.head? ≠ some '/') (hup : ['.', '.'] ∉ splitOn '/' out) (hcell : '/' ∉ cell) (ho : locate v.cwd out = o) (hod : o ∈ v.dirs)
    (hnd : ∀ f ∈ fastCapFiles, o ++ [cell ++ f.toList] ∉ v.dirs) (hwork : o ++ ["FasterCap_Input_Files".toList] ∈ v.dirs)
    (x : Exit) (hx : p2 (fastCapArgs exe2 "FasterCap_Input_.lst".toList fastCapDefaults)
      { v with cwd := o ++ ["FasterCap_Input_Files".toList] } = .ok x) (hcode : x.code = 0)
    (hno : ∀ rest, Dict.get? x.files (o ++ "FasterCap_Input_Files".toList :: rest ++
      [cell ++ "_FastCap2_Output.txt".toList]) = none) :
    (main r run w).1 = .error "FileNotFoundError" ∧
      ∀ run' : Step → Act Unit, (∀ s, s ≠ .rcx25 → run' s = run s) → main r run' w = main r run w := by
  have hf := fastcap_relative p2 s2 exe2 out cell v hcwd hrel hup hcell o ho hod hnd hwork x hx hcode hno
  obtain ⟨v', hv'⟩ : ∃ v', run .fastcap v = (.error "FileNotFoundError", v') := by
    rw [r2]
    exact ⟨_, Prod.ext hf rfl⟩
  have hsame : ∀ (run' : Step → Act Unit), (∀ s, s ≠ .rcx25 → run' s = run s) → ∀ (l : List Step), .rcx25 ∉ l → ∀ w,
      inOrder run' l w = inOrder run l w := by
    intro run' h l
    induction l with
    | nil => intro _ _; rfl
    | cons s l ih =>
      intro hl w
      rw [List.mem_cons, not_or] at hl
      simp only [inOrder, h s (Ne.symm hl.1)]
      cases run s w with
      | mk res w1 =>
        cases res with
        | error e => rfl
        | ok u => exact ih hl.2 w1
  have hlist : ∀ run' : Step → Act Unit, (∀ s, s ≠ .rcx25 → run' s = run s) → main r run' w = (.error "FileNotFoundError", v') := by
    intro run' h
    rw [main_list r (Or.inr (Or.inl hr)), engines, ← List.append_assoc, if_pos hr,
      inOrder_append run' (w' := v) (by
        rw [hsame run' h _ _ w]
        · exact hb
        · obtain ⟨a, b, c, d⟩ := r
          clear hb hr
          revert a b c d
          decide)]
    simp only [inOrder, List.cons_append, h .fastcap (by decide), hv']
  refine ⟨by rw [hlist run fun _ _ => rfl], fun run' h => ?_⟩
  rw [hlist run' h, hlist run fun _ _ => rfl]

/-! ### Examples -/

/-- All engines but Magic, for the world `exWorld`. -/
def exRun (out : Str) : Step → Act Unit
  | .fastercap => fasterCapFlow okProg exSolver "FasterCap".toList out ['x'] (lstPath out)
      ⟨"0.05".toList, "0.5".toList, "0.5".toList, some ['2'], true, false, false⟩
  | .fastcap => fastCapFlow okProg exSolver "fastcap".toList out ['x'] (lstPath out)
  | .rcx25 => rcx25Flow exEnv id id Rcx25Netlist.exCircuit true out ['x']
  | _ => fun w => (.ok (), w)

theorem exSolver_understood : Understood exSolver "C 1\n".toList := by
  refine ⟨"C 1\n".toList, _, _, _, _, _, ?_, rfl, rfl, rfl, rfl, rfl⟩
  intro text h
  have : text = "C 1\n".toList := (sameText_unique (universal_same "C 1\n".toList) h).symm.trans (by decide)
  subst this
  rfl

theorem okProg_solves (argv : List Str) (dir inp : Place) (v : World) : Solves okProg argv dir inp v "C 1\n".toList :=
  fun _ _ _ _ => ⟨_, rfl, rfl, rfl, fun _ _ h => h⟩

theorem exEnv_extracts : Extracts exEnv := by
  have hs : ∃ s, summarizeAll (Summary.runCells Rcx25Netlist.exHistory) = .ok s := by
    have : (summarizeAll (Summary.runCells Rcx25Netlist.exHistory)).isOk = true := by decide +kernel
    cases h : summarizeAll (Summary.runCells Rcx25Netlist.exHistory) with
    | ok s => exact ⟨s, rfl⟩
    | error m => rw [h] at this; cases this
  obtain ⟨s, hs⟩ := hs
  exact ⟨_, _, s, rfl, hs, fun _ => ⟨_, rfl⟩, fun _ => ⟨_, rfl⟩⟩

/-- The hypotheses of C105 hold for this run of three engines. -/
example : ∃ w', main ⟨false, true, true, true⟩ (exRun "/h/o".toList) exWorld = (.ok (), w') ∧
    FasterCapResults exSolver "C 1\n".toList [['h'], ['o']] ['x'] w'.files ∧
    FastCapResults exSolver "C 1\n".toList [['h'], ['o']] ['x'] w'.files ∧
    Rcx25Results exEnv id id Rcx25Netlist.exCircuit true [['h'], ['o']] ['x'] w'.files := by
  obtain ⟨h1, h2, h3, h4, h5, h6⟩ := exWorld_meets
  obtain ⟨w', a, b, c, d, _⟩ := engines_together ⟨false, true, true, true⟩ (exRun "/h/o".toList) exWorld exWorld (Or.inl rfl) okProg okProg
    exSolver exSolver _ _ _ _ _ exEnv id id Rcx25Netlist.exCircuit true rfl rfl rfl rfl [['h'], ['o']] h1 (by decide) h2 h4 (fun _ _ => h6 _)
    "C 1\n".toList "C 1\n".toList (fun _ => ⟨exSolver_understood, okProg_solves _ _ _ _⟩)
    (fun _ => ⟨by decide, h5, exSolver_understood, okProg_solves _ _ _ _⟩) (fun _ => exEnv_extracts)
  exact ⟨w', a, b rfl, c rfl, d rfl⟩

/-- FastCap2 and the 2.5D engine with a relative output directory: the run fails. -/
example : (main ⟨false, false, true, true⟩ (exRun ['o']) exWorld).1 = .error "FileNotFoundError" := by
  obtain ⟨h1, _, h3, h4, h5, h6⟩ := exWorld_meets
  exact (together_relative ⟨false, false, true, true⟩ (exRun ['o']) exWorld exWorld rfl okProg exSolver _ _ _ rfl rfl [['h'], ['o']] h1
    (by decide) (by decide) (by decide) h3 h4 (fun _ _ => h6 _) h5 _ rfl rfl (fun _ => rfl)).1

end Verif.Runners
