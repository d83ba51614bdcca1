import Verif.Pipeline.Model
import Verif.SolverLog.Props
import Verif.CapMatrix.Props
import Verif.Maxwell.Props
import Verif.Reduce.Props

/-!
# The field-solver flow from the log to the netlist (C53)
-/

namespace Verif.Pipeline

open Netlist Maxwell

/-! ## Specification -/

/-- The printed rows form an `n`×`n` matrix with values `V i j`, and row `i` is labelled `g<num i>_<nm i>`. -/
def Printed (rows : List (Str × List ℚ)) (n : Nat) (num : Nat → Nat) (nm : Nat → String) (V : Nat → Nat → ℚ) : Prop :=
  rows.length = n ∧ ∀ i < n, ∃ r, rows[i]? = some r ∧ r.1 = ("g" ++ toString (num i) ++ "_" ++ nm i).toList ∧ r.2.length = n ∧
    ∀ j < n, r.2[j]? = some (V i j)

/-- Names of the conductors: distinct, on one line, and names of nets of the netlist (or of the two added ground nets). -/
structure Conductors (c : Circuit) (n : Nat) (nm : Nat → String) : Prop where
  oneLine : ∀ i < n, '\n' ∉ (nm i).toList
  distinct : ∀ i j, i < n → j < n → nm i = nm j → i = j
  net : ∀ i < n, nm i ∈ c.nets ∨ nm i = "FC_GND" ∨ nm i = "VSUBS"

/-- The symmetrised value in F of an entry printed in units of 1e-6 F. -/
def symmetrised (V : Nat → Nat → ℚ) (i j : Nat) : ℚ := (V i j + V j i) / 2 / 1000000

/-- After averaging, the printed values are those of a system of conductors: couplings not positive, remainder not negative. -/
def Physical (n : Nat) (V : Nat → Nat → ℚ) : Prop :=
  (∀ i j, i < n → j < n → i ≠ j → symmetrised V i j ≤ 0) ∧ ∀ i < n, 0 ≤ ∑ j ∈ Finset.range n, symmetrised V i j

/-! ## Theorems -/

theorem afterParse_correct (c : Circuit) (bb : Bool) (rows : List (Str × List ℚ)) (n : Nat) (num : Nat → Nat)
    (nm : Nat → String) (V : Nat → Nat → ℚ) (hp : Printed rows n num nm V) (hc : Conductors c n nm) (hph : Physical n V)
    (hf : ∀ d ∈ c.devices, d.clsName ≠ "PEX_CAP") :
    ∃ (c' : Circuit) (net : Nat → Nat), afterParse c bb (SolverLog.scaled rows) = .ok c' ∧
      (∀ i < n, c'.nets[net i]? = some (nm i)) ∧
      (∀ i j, 0 < i → i < n → 0 < j → j < n → nodal (parasitics c') (net i) (net j) = symmetrised V i j) ∧
      (∃ m, Maxwell.expand c m bb = .ok c') ∧
      (∀ d ∈ parasitics c', ∃ a b s t, d.terms.get? "A" = some a ∧ d.terms.get? "B" = some b ∧
        c'.nets[a]? = some s ∧ c'.nets[b]? = some t) := by
  obtain ⟨hlen, hrow⟩ := hp
  have hold : CapMatrix.Holds (fun _ => (SolverLog.scaled rows).rows) ⟨(SolverLog.scaled rows).names, 0⟩ n
      (fun i j => V i j / 1000000) := by
    refine ⟨by simp [SolverLog.scaled, hlen], by simp [SolverLog.scaled, hlen], fun i hi => ?_⟩
    obtain ⟨r, h1, h2, h3, h4⟩ := hrow i hi
    refine ⟨r.2.map (· / 1000000), ?_, by simp [h3], fun j hj => ?_⟩
    · simp only [SolverLog.scaled, List.getElem?_map, h1, Option.map_some]
    · rw [List.getElem?_map, h4 j hj]; rfl
  obtain ⟨h', o, hav, hon, -, hold', -, -⟩ := CapMatrix.averaging_correct _ 1 _ n _ hold (by simp)
  have hent : ∀ i j, i < n → j < n →
      (⟨o.names.map String.ofList, h' o.rows⟩ : Maxwell.CapMatrix).entry i j = symmetrised V i j := by
    intro i j hi hj
    obtain ⟨row, e1, e2, e3⟩ := hold'.2.2 i hi
    unfold Maxwell.CapMatrix.entry
    simp only [List.getD, e1, Option.getD_some, e3 j hj]
    unfold CapMatrix.averaged symmetrised
    by_cases hij : i = j
    · rw [if_pos hij, hij]; ring
    · rw [if_neg hij]; ring
  have hdim : (⟨o.names.map String.ofList, h' o.rows⟩ : Maxwell.CapMatrix).dimension = n := by
    simp [Maxwell.CapMatrix.dimension, hold'.1]
  have hmax : IsMaxwell ⟨o.names.map String.ofList, h' o.rows⟩ := by
    refine ⟨⟨?_, ?_⟩, ?_, ?_, ?_⟩
    · rw [hdim]; exact hold'.2.1
    · rw [hdim]
      intro r hr
      obtain ⟨i, hi, rfl⟩ := List.getElem_of_mem hr
      have hi' : i < n := by rw [← hold'.2.1]; exact hi
      obtain ⟨row, e1, e2, e3⟩ := hold'.2.2 i hi'
      rw [List.getElem?_eq_getElem hi] at e1
      cases e1
      exact e2
    · rw [hdim]
      intro i j hi hj
      rw [hent i j hi hj, hent j i hj hi]
      unfold symmetrised; ring
    · rw [hdim]
      intro i j hi hj hij
      rw [hent i j hi hj]
      exact hph.1 i j hi hj hij
    · rw [hdim]
      intro i hi
      rw [Finset.sum_congr rfl fun j hj => hent i j hi (Finset.mem_range.1 hj)]
      exact hph.2 i hi
  have hax : AxesNamed c ⟨o.names.map String.ofList, h' o.rows⟩ num nm := by
    refine ⟨?_, ?_, ?_, ?_⟩ <;> rw [hdim]
    · intro i hi
      obtain ⟨r, h1, h2, h3, h4⟩ := hrow i hi
      simp only [hon, SolverLog.scaled, List.getElem?_map, h1, Option.map_some, h2, String.ofList_toList]
    · exact hc.oneLine
    · exact hc.distinct
    · exact hc.net
  obtain ⟨c', net, he, h1, h2, -⟩ := netlist_reproduces_maxwell c _ num nm bb hmax hax hf
  rw [hdim] at h1 h2
  have hends : ∀ d ∈ parasitics c', ∃ a b s t, d.terms.get? "A" = some a ∧ d.terms.get? "B" = some b ∧
        c'.nets[a]? = some s ∧ c'.nets[b]? = some t := by
    obtain ⟨c'', net2, he2, h3, h4⟩ := cap_devices_exact c _ num nm bb hmax.square hax hf
    rw [he] at he2
    cases he2
    rw [hdim] at h3
    intro d hd
    rcases (h4 d).1 hd with ⟨i, j, hij, hj, -, rfl⟩ | ⟨i, hi0, hi, -, rfl⟩
    · rw [hdim] at hj
      exact ⟨net2 i, net2 j, _, _, rfl, rfl, h3 i (by omega), h3 j hj⟩
    · rw [hdim] at hi
      exact ⟨net2 i, net2 0, _, _, rfl, rfl, h3 i hi, h3 0 (by omega)⟩
  refine ⟨c', net, ?_, h1, fun i j hi0 hi hj0 hj => ?_, ⟨_, he⟩, hends⟩
  · unfold afterParse
    rw [hav]
    exact he
  · rw [h2 i j hi0 hi hj0 hj, hent i j hi hj]

theorem parasitics_isPexCap {c c' : Circuit} {m : Maxwell.CapMatrix} {bb : Bool} (h : Maxwell.expand c m bb = .ok c')
    (hf : ∀ d ∈ c.devices, d.clsName ≠ "PEX_CAP") :
    (c'.devices.filter fun d => Reduce.IsPexCap d) = parasitics c' ∧ ∀ d ∈ parasitics c', GoodCap d := by
  obtain ⟨added, gnd, hd, hg, -⟩ := only_positive_caps c c' m bb h
  have key : ∀ d ∈ c'.devices, d.clsName = "PEX_CAP" → GoodCap d := by
    intro d hdm hcls
    rw [hd] at hdm
    simp only [List.mem_append, List.mem_cons, List.not_mem_nil, or_false] at hdm
    rcases hdm with (hdm | hdm) | hdm
    · cases bb
      · cases hdm
      · exact absurd hcls (hf d hdm)
    · exact hg d hdm
    · rcases hdm with rfl | rfl <;> exact absurd hcls (show ¬ "PEX_RES" = "PEX_CAP" by decide)
  constructor
  · unfold parasitics
    apply List.filter_congr
    intro d hdm
    apply decide_eq_decide.2
    constructor
    · exact fun hp => hp.2
    · exact fun hcls => ⟨Or.inl (key d hdm hcls).kind, hcls⟩
  · intro d hdm
    rw [parasitics, List.mem_filter] at hdm
    exact key d hdm.1 (by simpa using hdm.2)

/-- C53: from the FasterCap log to the netlist.  If the last matrix printed in the log has the values `V` (in 1e-6 F) for
conductors named after nets, then the flow succeeds; in the produced netlist the nodal capacitance matrix of the added
capacitors (over the conductors other than the first) is the symmetrised printed matrix in F, and every row of the CSV
report shows one added capacitor, in netlist order. -/
theorem fastercap_flow_correct (flt : Str → Option ℚ) (round2 : ℚ → ℚ) (top : String) (c : Circuit) (bb : Bool)
    (hm : flt "matrix".toList = none) (pre block post : List Str) (rows : List (Str × List ℚ))
    (hb : SolverLog.ShowsMatrix flt block rows) (hpost : ∀ l ∈ post, strip l ≠ "Capacitance matrix is:".toList)
    (n : Nat) (num : Nat → Nat) (nm : Nat → String) (V : Nat → Nat → ℚ) (hp : Printed rows n num nm V)
    (hc : Conductors c n nm) (hph : Physical n V) (hf : ∀ d ∈ c.devices, d.clsName ≠ "PEX_CAP") :
    ∃ (c' : Circuit) (csv : List Reduce.Row) (net : Nat → Nat),
      fasterCapFlow flt round2 top c bb (pre ++ block ++ post) = .ok (c', csv) ∧
      (∀ i < n, c'.nets[net i]? = some (nm i)) ∧
      (∀ i j, 0 < i → i < n → 0 < j → j < n → nodal (parasitics c') (net i) (net j) = symmetrised V i j) ∧
      List.Forall₂ (Reduce.Shows round2 c') (parasitics c') csv := by
  have hparse := SolverLog.fastercap_last_matrix hm pre block post rows hb hpost
  obtain ⟨c', net, h1, h2, h3, ⟨m, hm'⟩, h5⟩ := afterParse_correct c bb rows n num nm V hp hc hph hf
  obtain ⟨hfil, hgood⟩ := parasitics_isPexCap hm' hf
  have hby : Reduce.circuitByName [(top, c')] top = some c' := by simp [Reduce.circuitByName]
  obtain ⟨csv, hcsv⟩ := Reduce.csv_written round2 [(top, c')] top c' hby (by
    intro d hd hpex
    have hmem : d ∈ parasitics c' := by rw [← hfil, List.mem_filter]; exact ⟨hd, by simpa using hpex⟩
    obtain ⟨a, b, s, t, e1, e2, e3, e4⟩ := h5 d hmem
    obtain ⟨v, hv, -⟩ := (hgood d hmem).value
    exact ⟨⟨v, hv⟩, ⟨a, s, e1, e3⟩, ⟨b, t, e2, e4⟩⟩)
  refine ⟨c', csv, net, ?_, h2, h3, ?_⟩
  · unfold fasterCapFlow
    rw [hparse]
    simp only [bind, Except.bind, h1, hcsv]
    rfl
  · obtain ⟨c'', e1, e2⟩ := Reduce.csv_shows_parasitics round2 _ _ _ hcsv
    rw [hby] at e1
    cases e1
    rw [hfil] at e2
    exact e2

/-- C53 for FastCap2 logs: the same, without CSV report.  Missing: the announced unit is ignored (see C12). -/
theorem fastcap_flow_partial (flt : Str → Option ℚ) (c : Circuit) (bb : Bool) (unit : Str)
    (pre block post : List Str) (rows : List (Str × List ℚ)) (hb : SolverLog.ShowsMatrix2 flt unit block rows)
    (hlater : ∀ l ∈ block.tail ++ post, ¬ "CAPACITANCE MATRIX, ".toList <+: l)
    (n : Nat) (num : Nat → Nat) (nm : Nat → String) (V : Nat → Nat → ℚ) (hp : Printed rows n num nm V)
    (hc : Conductors c n nm) (hph : Physical n V) (hf : ∀ d ∈ c.devices, d.clsName ≠ "PEX_CAP") :
    ∃ (c' : Circuit) (net : Nat → Nat),
      fastCapFlow flt c bb (pre ++ block ++ post) = .ok c' ∧
      (∀ i < n, c'.nets[net i]? = some (nm i)) ∧
      (∀ i j, 0 < i → i < n → 0 < j → j < n → nodal (parasitics c') (net i) (net j) = symmetrised V i j) := by
  have hparse := SolverLog.fastcap_last_matrix_partial unit pre block post rows hb hlater
  obtain ⟨c', net, h1, h2, h3, -, -⟩ := afterParse_correct c bb rows n num nm V hp hc hph hf
  refine ⟨c', net, ?_, h2, h3⟩
  unfold fastCapFlow
  rw [hparse]
  exact h1

/-- An example flow: three conductors, matrix not symmetric, two iterations in the log. -/
def exFlt (s : Str) : Option ℚ :=
  match s with
  | '-' :: t => (SolverLog.digitsFlt t).map (- ·)
  | _ => SolverLog.digitsFlt s

/-- The flow on a concrete log: (−5−7)/2 µ between A and B. -/
example : (match fasterCapFlow exFlt id "top" ⟨["A", "B"], []⟩ false
      (["Capacitance matrix is:", "Dimension 1 x 1", "g1_A 3", "Capacitance matrix is:", "Dimension 3 x 3",
        "g1_VSUBS 20 -5 -6", "g2_A -5 30 -5", "g3_B -6 -7 40", "", "bye"].map String.toList) with
    | .ok (c', csv) => decide (csv = [⟨"Cext_0_1", "VSUBS", "A", 5000000000⟩, ⟨"Cext_0_2", "VSUBS", "B", 6000000000⟩,
        ⟨"Cext_1_2", "A", "B", 6000000000⟩, ⟨"Cext_1_1", "A", "VSUBS", 19000000000⟩, ⟨"Cext_2_2", "B", "VSUBS", 28000000000⟩])
    | .error _ => false) = true := by decide +kernel

/-- The hypotheses of C53 are met by these values. -/
example : let rows : List (Str × List ℚ) := [("g1_VSUBS".toList, [20, -5, -6]), ("g2_A".toList, [-5, 30, -5]), ("g3_B".toList, [-6, -7, 40])]
    let V : Nat → Nat → ℚ := fun i j => (([[20, -5, -6], [-5, 30, -5], [-6, -7, 40]] : List (List ℚ)).getD i []).getD j 0
    let nm : Nat → String := fun i => ["VSUBS", "A", "B"].getD i ""
    Printed rows 3 (· + 1) nm V ∧ Conductors ⟨["A", "B"], []⟩ 3 nm ∧ Physical 3 V := by
  intro rows V nm
  have lt3 : ∀ i, i < 3 → i = 0 ∨ i = 1 ∨ i = 2 := by intro i hi; omega
  refine ⟨⟨rfl, fun i hi => ?_⟩, ⟨fun i hi => ?_, fun i j hi hj => ?_, fun i hi => ?_⟩, fun i j hi hj => ?_, fun i hi => ?_⟩
  · rcases lt3 i hi with rfl | rfl | rfl
    · refine ⟨("g1_VSUBS".toList, [20, -5, -6]), rfl, by decide, rfl, fun j hj => ?_⟩
      rcases lt3 j hj with rfl | rfl | rfl <;> rfl
    · refine ⟨("g2_A".toList, [-5, 30, -5]), rfl, by decide, rfl, fun j hj => ?_⟩
      rcases lt3 j hj with rfl | rfl | rfl <;> rfl
    · refine ⟨("g3_B".toList, [-6, -7, 40]), rfl, by decide, rfl, fun j hj => ?_⟩
      rcases lt3 j hj with rfl | rfl | rfl <;> rfl
  · rcases lt3 i hi with rfl | rfl | rfl <;> decide
  · rcases lt3 i hi with rfl | rfl | rfl <;> rcases lt3 j hj with rfl | rfl | rfl <;> decide
  · rcases lt3 i hi with rfl | rfl | rfl <;> decide
  · rcases lt3 i hi with rfl | rfl | rfl <;> rcases lt3 j hj with rfl | rfl | rfl <;> decide +kernel
  · rcases lt3 i hi with rfl | rfl | rfl <;> decide +kernel

end Verif.Pipeline
