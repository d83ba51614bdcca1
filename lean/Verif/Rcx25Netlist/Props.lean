import Verif.Rcx25Netlist.Lemmas
import Verif.Summary.Props

/-!
# The netlist and the CSV report of the 2.5D engine (C05, C51)
-/

namespace Verif.Rcx25Netlist

open Netlist Summary

/-! ## Specification -/

/-- Name of the net at a terminal. -/
def netAt (c : Circuit) (d : Device) (t : String) : Option String := (d.terms.get? t).bind fun n => c.nets[n]?

/-- Device `d` of circuit `c` realises the table entry `kv` as a two-terminal element of the given kind and class. -/
structure Realises (c : Circuit) (k : Kind) (cls param : String) (d : Device) (kv : NetCoupleKey × ℚ) : Prop where
  kind : d.kind = k
  cls : d.clsName = cls
  endA : netAt c d "A" = some kv.1.net1
  endB : netAt c d "B" = some kv.1.net2
  value : d.params.get? param = some kv.2

/-- The devices are, in some order, exactly one device per entry of the table, with distinct names. -/
structure ExactlyRealise (c : Circuit) (k : Kind) (cls param : String) (ds : List Device) (table : Dict NetCoupleKey ℚ) :
    Prop where
  names : (ds.map Device.name).Nodup
  bij : ∃ items, items.Perm table ∧ List.Forall₂ (Realises c k cls param) ds items

/-- Value of all capacitors of class `C` between nets of the given names. -/
def parasiticCap (c : Circuit) (a b : String) : ℚ :=
  ((c.devices.filter fun d => d.clsName = "C").map fun d =>
    match netAt c d "A", netAt c d "B" with
    | some x, some y => if SamePair x y a b then d.params.getD "C" 0 else 0
    | _, _ => 0).sum

/-! ## C05 -/

private theorem sorted_perm (cf : String → String) (d : Dict NetCoupleKey ℚ) : (sortedItems cf d).Perm d :=
  List.perm_insertionSort _ _

private theorem devices_spec {c : Circuit} {st : Circuit × Dict String Nat} {k : Kind} {cls param : String}
    {items : List (NetCoupleKey × ℚ)} {table : Dict NetCoupleKey ℚ} (hperm : items.Perm table) (hi : TblInv st)
    (hm : ∀ kv ∈ items, kv.1.net1 ∈ st.1.nets ∧ kv.1.net2 ∈ st.1.nets) (hc : c.nets = st.1.nets) :
    ∃ ds, items.zipIdx.mapM (itemDevice k cls param st.2) = .ok ds ∧ ExactlyRealise c k cls param ds table ∧
      List.Forall₂ (Realises c k cls param) ds items ∧
      ds.map Device.name = (List.range' 0 ds.length).map (fun i => "ext_" ++ toString (i + 1)) := by
  obtain ⟨ds, hds, hR⟩ := mapM_forall₂ (f := itemDevice k cls param st.2)
    (R := fun d x => Realises c k cls param d x.1 ∧ d.name = "ext_" ++ toString (x.2 + 1)) items.zipIdx (by
      intro x hx
      have hx' : x.1 ∈ items := by
        obtain ⟨a, b⟩ := x
        exact List.mem_of_getElem? (List.mem_zipIdx_iff_getElem?.1 hx)
      obtain ⟨h1, h2⟩ := hm _ hx'
      obtain ⟨a, ha⟩ := hi.complete _ h1
      obtain ⟨b, hb⟩ := hi.complete _ h2
      refine ⟨twoTerminal k cls ("ext_" ++ toString (x.2 + 1)) a b param x.1.2, ?_, ⟨rfl, rfl, ?_, ?_, ?_⟩, rfl⟩
      · unfold itemDevice; simp only [ha, hb]
      · show (some a).bind (fun n => c.nets[n]?) = _
        rw [hc]; exact hi.sound _ _ ha
      · show (some b).bind (fun n => c.nets[n]?) = _
        rw [hc]; exact hi.sound _ _ hb
      · simp [twoTerminal, Device.setParam, Device.connect, Dict.set, Dict.get?])
  have hF := forall₂_zipIdx_fst (hR.imp fun _ _ h => h.1)
  have hN := forall₂_zipIdx_names (hR.imp fun _ _ h => h.2)
  refine ⟨ds, hds, ⟨?_, items, hperm, hF⟩, hF, hN⟩
  rw [hN, List.nodup_map_iff_inj_on List.nodup_range']
  intro i _ j _ h
  exact extName_inj h

private theorem expand_exact (cf : String → String) (c : Circuit) (cells : Dict String CellResults) (bb : Bool)
    (s : ExtractionSummary) (hs : summarizeAll cells = .ok s) :
    ∃ (c' : Circuit) (caps ress : List Device) (new : List String), expand cf c cells bb = .ok c' ∧
      c'.devices = (dropCaps c bb).devices ++ caps ++ ress ∧
      ExactlyRealise c' .capacitor "C" "C" caps s.capacitances ∧
      ExactlyRealise c' .resistor "R" "R" ress s.resistances ∧
      List.Forall₂ (Realises c' .capacitor "C" "C") caps (sortedItems cf s.capacitances) ∧
      List.Forall₂ (Realises c' .resistor "R" "R") ress (sortedItems cf s.resistances) ∧
      caps.map Device.name = (List.range' 0 caps.length).map (fun i => "ext_" ++ toString (i + 1)) ∧
      ress.map Device.name = (List.range' 0 ress.length).map (fun i => "ext_" ++ toString (i + 1)) ∧
      c'.nets = c.nets ++ ["FC_GND", "VSUBS"] ++ new ∧ new.Nodup ∧
      (∀ n ∈ new, n ∉ c.nets ++ ["FC_GND", "VSUBS"] ∧
        ∃ kv, (kv ∈ s.capacitances ∨ kv ∈ s.resistances) ∧ (n = kv.1.net1 ∨ n = kv.1.net2)) := by
  set c1 := (((dropCaps c bb).createNet "FC_GND").1.createNet "VSUBS").1 with hc1
  have hn1 : c1.nets = c.nets ++ ["FC_GND", "VSUBS"] := by
    rw [hc1]; unfold dropCaps Circuit.createNet; cases bb <;> simp
  have hd1 : c1.devices = (dropCaps c bb).devices := rfl
  have pc := sorted_perm cf s.capacitances
  have pr := sorted_perm cf s.resistances
  obtain ⟨g1, m1⟩ := addNets_spec
    (P := fun n => ∃ kv, (kv ∈ s.capacitances ∨ kv ∈ s.resistances) ∧ (n = kv.1.net1 ∨ n = kv.1.net2))
    (sortedItems cf s.capacitances)
    (fun kv h => ⟨⟨kv, Or.inl (pc.mem_iff.1 h), Or.inl rfl⟩, ⟨kv, Or.inl (pc.mem_iff.1 h), Or.inr rfl⟩⟩) (inv_start c1)
  obtain ⟨g2, m2⟩ := addNets_spec
    (P := fun n => ∃ kv, (kv ∈ s.capacitances ∨ kv ∈ s.resistances) ∧ (n = kv.1.net1 ∨ n = kv.1.net2))
    (sortedItems cf s.resistances)
    (fun kv h => ⟨⟨kv, Or.inr (pr.mem_iff.1 h), Or.inl rfl⟩, ⟨kv, Or.inr (pr.mem_iff.1 h), Or.inr rfl⟩⟩) g1.inv
  set st := addNets (addNets (c1, c1.name2net) (sortedItems cf s.capacitances)) (sortedItems cf s.resistances) with hst
  have m1' : ∀ kv ∈ sortedItems cf s.capacitances, kv.1.net1 ∈ st.1.nets ∧ kv.1.net2 ∈ st.1.nets :=
    fun kv h => ⟨g2.mem (m1 kv h).1, g2.mem (m1 kv h).2⟩
  obtain ⟨_, hdev, new, e, hnd, hfresh, hP⟩ := g1.trans g2
  -- the circuit with all devices has the same nets
  have key : ∀ ds : List Device, (Circuit.mk st.1.nets ds).nets = st.1.nets := fun _ => rfl
  have hreal : ∀ (ds ds' : List Device) k cls p d kv,
      Realises ⟨st.1.nets, ds⟩ k cls p d kv → Realises ⟨st.1.nets, ds'⟩ k cls p d kv :=
    fun ds ds' k cls p d kv h => ⟨h.kind, h.cls, h.endA, h.endB, h.value⟩
  obtain ⟨caps, hcaps, ec, fc, nc⟩ := devices_spec (c := ⟨st.1.nets, []⟩) (k := .capacitor) (cls := "C") (param := "C")
    pc g2.inv m1' rfl
  obtain ⟨ress, hress, er, fr, nr⟩ := devices_spec (c := ⟨st.1.nets, []⟩) (k := .resistor) (cls := "R") (param := "R")
    pr g2.inv m2 rfl
  refine ⟨⟨st.1.nets, st.1.devices ++ caps ++ ress⟩, caps, ress, new, ?_, ?_, ?_, ?_, ?_, ?_, nc, nr, ?_, hnd, ?_⟩
  · unfold expand
    simp only [hs, bind, Except.bind, pure, Except.pure]
    rw [← hc1, ← hst, hcaps, hress]
  · show st.1.devices ++ caps ++ ress = _
    rw [hdev, hd1]
  · obtain ⟨a, items, b, c⟩ := ec
    exact ⟨a, items, b, c.imp fun _ _ h => hreal _ _ _ _ _ _ _ h⟩
  · obtain ⟨a, items, b, c⟩ := er
    exact ⟨a, items, b, c.imp fun _ _ h => hreal _ _ _ _ _ _ _ h⟩
  · exact fc.imp fun _ _ h => hreal _ _ _ _ _ _ _ h
  · exact fr.imp fun _ _ h => hreal _ _ _ _ _ _ _ h
  · show st.1.nets = _
    rw [e, hn1]
  · intro n hn
    refine ⟨?_, hP n hn⟩
    have := hfresh n hn
    rwa [hn1] at this

/-- **C05** (partial: see `net_names_unique_fails` and `cap_unit_fails` for the two clauses the code violates). If the
results can be summarised, expansion succeeds; the result has the kept devices followed by exactly one capacitor per
capacitance and exactly one resistor per resistance of the summary, each between nets of the right names and with the
summary's number as value; existing nets are kept and nets are only added for names of the summary that are missing. -/
theorem netlist_contains_the_parasitics_partial (cf : String → String) (c : Circuit) (cells : Dict String CellResults)
    (bb : Bool) (s : ExtractionSummary) (hs : summarizeAll cells = .ok s) :
    ∃ (c' : Circuit) (kept caps ress : List Device) (new : List String), expand cf c cells bb = .ok c' ∧
      c'.devices = kept ++ caps ++ ress ∧
      (if bb then kept = c.devices else kept = c.devices.filter fun d => ¬ (d.kind = .capacitor ∨ d.kind = .capacitorWithBulk)) ∧
      ExactlyRealise c' .capacitor "C" "C" caps s.capacitances ∧
      ExactlyRealise c' .resistor "R" "R" ress s.resistances ∧
      c'.nets = c.nets ++ ["FC_GND", "VSUBS"] ++ new ∧ new.Nodup ∧
      (∀ n ∈ new, n ∉ c.nets ++ ["FC_GND", "VSUBS"] ∧
        ∃ kv, (kv ∈ s.capacitances ∨ kv ∈ s.resistances) ∧ (n = kv.1.net1 ∨ n = kv.1.net2)) := by
  obtain ⟨c', caps, ress, new, h1, h2, h3, h4, -, -, -, -, h5, h6, h7⟩ := expand_exact cf c cells bb s hs
  refine ⟨c', _, caps, ress, new, h1, h2, ?_, h3, h4, h5, h6, h7⟩
  unfold dropCaps
  cases bb with
  | true => simp
  | false =>
    simp only [Bool.false_eq_true, if_false]

/-- Expansion fails exactly when the results cannot be summarised. -/
theorem expand_fails_iff (cf : String → String) (c : Circuit) (cells : Dict String CellResults) (bb : Bool) :
    (∃ e, expand cf c cells bb = .error e) ↔ ∃ e, summarizeAll cells = .error e := by
  constructor
  · rintro ⟨e, he⟩
    cases h : summarizeAll cells with
    | error e => exact ⟨e, rfl⟩
    | ok s =>
      obtain ⟨c', -, -, -, h1, -⟩ := expand_exact cf c cells bb s h
      rw [h1] at he; cases he
  · rintro ⟨e, he⟩
    refine ⟨e, ?_⟩
    unfold expand
    simp only [he, bind, Except.bind]

/-- Net names stay unique if the circuit had unique names and neither `FC_GND` nor `VSUBS`. -/
theorem net_names_unique_partial (cf : String → String) (c c' : Circuit) (cells : Dict String CellResults) (bb : Bool)
    (h : expand cf c cells bb = .ok c') (hu : c.nets.Nodup) (h1 : "FC_GND" ∉ c.nets) (h2 : "VSUBS" ∉ c.nets) :
    c'.nets.Nodup := by
  cases hs : summarizeAll cells with
  | error e =>
    obtain ⟨e', he'⟩ := (expand_fails_iff cf c cells bb).2 ⟨e, hs⟩
    rw [he'] at h; cases h
  | ok s =>
    obtain ⟨c'', caps, ress, new, e1, -, -, -, -, -, -, -, e2, e3, e4⟩ := expand_exact cf c cells bb s hs
    rw [e1] at h; cases h
    rw [e2, List.nodup_append]
    refine ⟨?_, e3, ?_⟩
    · rw [List.nodup_append]
      refine ⟨hu, by decide, ?_⟩
      intro a ha b hb
      simp only [List.mem_cons, List.not_mem_nil, or_false] at hb
      rintro rfl
      rcases hb with rfl | rfl
      · exact h1 ha
      · exact h2 ha
    · rintro a ha b hb rfl
      exact (e4 a hb).1 ha

private theorem realise_sum {c : Circuit} {ds : List Device} {items : List (NetCoupleKey × ℚ)} (a b : String)
    (h : List.Forall₂ (Realises c .capacitor "C" "C") ds items) :
    (ds.map fun d => match netAt c d "A", netAt c d "B" with
      | some x, some y => if SamePair x y a b then d.params.getD "C" 0 else 0
      | _, _ => 0).sum =
    ((items.filter fun kv => SamePair kv.1.net1 kv.1.net2 a b).map Prod.snd).sum := by
  induction h with
  | nil => rfl
  | @cons d kv _ _ h1 _ ih =>
    rw [List.map_cons, List.sum_cons, ih, List.filter_cons]
    have hv := h1.value
    simp only [h1.endA, h1.endB]
    by_cases hp : SamePair kv.1.net1 kv.1.net2 a b
    · rw [if_pos hp, if_pos (by simpa using hp)]
      simp only [List.map_cons, List.sum_cons, Dict.getD, hv, Option.getD_some]
    · rw [if_neg hp, if_neg (by simpa using hp), zero_add]

/-- **End to end** (C01 and C05): for every history of recordings per cell, the capacitors of the final netlist between
the nets named `a` and `b` add up to exactly what was recorded between these nets. -/
theorem netlist_total_matches_recordings (cf : String → String) (c c' : Circuit) (hs : List (String × List Op))
    (hd : (hs.map Prod.fst).Nodup) (bb : Bool) (hno : ∀ d ∈ c.devices, d.clsName ≠ "C")
    (h : expand cf c (runCells hs) bb = .ok c') (a b : String) :
    parasiticCap c' a b = (hs.map fun nh => recorded a b nh.2).sum := by
  cases hsum : summarizeAll (runCells hs) with
  | error e =>
    obtain ⟨e', he'⟩ := (expand_fails_iff cf c _ bb).2 ⟨e, hsum⟩
    rw [he'] at h; cases h
  | ok s =>
    obtain ⟨c'', caps, ress, new, e1, e2, ⟨-, items, hperm, hF⟩, ⟨-, ritems, -, hR⟩, -⟩ :=
      expand_exact cf c _ bb s hsum
    rw [e1] at h; cases h
    have hcons := (summary_conserves_capacitance_all_cells hs hd s hsum a b).1
    rw [← hcons]
    unfold parasiticCap
    have hk : ((dropCaps c bb).devices).filter (fun d => decide (d.clsName = "C")) = [] := by
      rw [List.filter_eq_nil_iff]
      intro d hdm
      have : d ∈ c.devices := by
        unfold dropCaps at hdm
        cases bb with
        | true => exact hdm
        | false => exact (List.mem_filter.1 hdm).1
      simpa using hno d this
    have hc : caps.filter (fun d => decide (d.clsName = "C")) = caps := by
      rw [List.filter_eq_self]
      intro d hdm
      obtain ⟨kv, -, hr⟩ := List.forall₂_iff_get.1 hF |> fun _ => (by
        obtain ⟨i, hi, rfl⟩ := List.mem_iff_getElem.1 hdm
        have hi2 : i < items.length := by rw [← hF.length_eq]; exact hi
        exact ⟨items[i], List.getElem_mem _, hF.get hi hi2⟩ : ∃ kv, kv ∈ items ∧ Realises c' .capacitor "C" "C" d kv)
      simpa using hr.cls
    have hr : ress.filter (fun d => decide (d.clsName = "C")) = [] := by
      rw [List.filter_eq_nil_iff]
      intro d hdm
      obtain ⟨i, hi, rfl⟩ := List.mem_iff_getElem.1 hdm
      have hi2 : i < ritems.length := by rw [← hR.length_eq]; exact hi
      have := (hR.get hi hi2).cls
      simp only [List.get_eq_getElem] at this
      rw [this]; decide
    rw [e2, List.filter_append, List.filter_append, hk, hc, hr, List.nil_append, List.append_nil]
    rw [realise_sum a b hF]
    unfold reported
    exact ((hperm.filter _).map _).sum_eq

/-! ## C51: the CSV report -/

/-- The rows, in the order written. -/
theorem csv_rows_match_netlist (cf : String → String) (round3 : ℚ → ℚ) (c c' : Circuit) (cells : Dict String CellResults)
    (bb : Bool) (s : ExtractionSummary) (hs : summarizeAll cells = .ok s) (h : expand cf c cells bb = .ok c') :
    ∃ (rows : List CsvRow) (kept caps ress : List Device), csvRows cf round3 cells = .ok rows ∧
      c'.devices = kept ++ caps ++ ress ∧
      rows.length = s.capacitances.length + s.resistances.length ∧
      caps.length = s.capacitances.length ∧ ress.length = s.resistances.length ∧
      (∀ i (hi : i < caps.length), ∃ row v, rows[i]? = some row ∧ row.device = "C" ++ toString (i + 1) ∧
        caps[i].name = "ext_" ++ toString (i + 1) ∧ netAt c' caps[i] "A" = some row.net1 ∧
        netAt c' caps[i] "B" = some row.net2 ∧ caps[i].params.get? "C" = some v ∧
        row.cap = some (round3 v) ∧ row.res = none ∧ (⟨row.net1, row.net2⟩, v) ∈ s.capacitances) ∧
      (∀ i (hi : i < ress.length), ∃ row v, rows[caps.length + i]? = some row ∧ row.device = "R" ++ toString (i + 1) ∧
        ress[i].name = "ext_" ++ toString (i + 1) ∧ netAt c' ress[i] "A" = some row.net1 ∧
        netAt c' ress[i] "B" = some row.net2 ∧ ress[i].params.get? "R" = some v ∧
        row.res = some (round3 v) ∧ row.cap = none ∧ (⟨row.net1, row.net2⟩, v) ∈ s.resistances) := by
  obtain ⟨c'', caps, ress, new, e1, e2, -, -, fc, fr, nc, nr, -⟩ := expand_exact cf c cells bb s hs
  rw [e1] at h; cases h
  have pc := sorted_perm cf s.capacitances
  have pr := sorted_perm cf s.resistances
  have lc : caps.length = (sortedItems cf s.capacitances).length := fc.length_eq
  have lr : ress.length = (sortedItems cf s.resistances).length := fr.length_eq
  have hrows : csvRows cf round3 cells = .ok (rowsOf cf round3 s) := by
    unfold csvRows
    simp only [hs, bind, Except.bind, pure, Except.pure]
  refine ⟨_, _, caps, ress, hrows, e2, ?_, by rw [lc, pc.length_eq], by rw [lr, pr.length_eq], ?_, ?_⟩
  · simp [rowsOf, pc.length_eq, pr.length_eq]
  · intro i hi
    have hi2 : i < (sortedItems cf s.capacitances).length := lc ▸ hi
    have hr := fc.get hi hi2
    have hname : caps[i].name = "ext_" ++ toString (i + 1) := by
      have := congrArg (fun l : List String => l[i]?) nc
      simpa [hi] using this
    refine ⟨⟨"C" ++ toString (i + 1), (sortedItems cf s.capacitances)[i].1.net1, (sortedItems cf s.capacitances)[i].1.net2,
      some (round3 (sortedItems cf s.capacitances)[i].2), none⟩, (sortedItems cf s.capacitances)[i].2, ?_, rfl, hname,
      hr.endA, hr.endB, hr.value, rfl, rfl, ?_⟩
    · rw [rowsOf, List.getElem?_append_left (by simpa using hi2)]
      simp [hi2]
    · exact pc.mem_iff.1 (List.getElem_mem hi2)
  · intro i hi
    have hi2 : i < (sortedItems cf s.resistances).length := lr ▸ hi
    have hr := fr.get hi hi2
    have hname : ress[i].name = "ext_" ++ toString (i + 1) := by
      have := congrArg (fun l : List String => l[i]?) nr
      simpa [hi] using this
    refine ⟨⟨"R" ++ toString (i + 1), (sortedItems cf s.resistances)[i].1.net1, (sortedItems cf s.resistances)[i].1.net2,
      none, some (round3 (sortedItems cf s.resistances)[i].2)⟩, (sortedItems cf s.resistances)[i].2, ?_, rfl, hname,
      hr.endA, hr.endB, hr.value, rfl, rfl, ?_⟩
    · rw [rowsOf, List.getElem?_append_right (by simp [lc])]
      simp [lc, hi2]
    · exact pr.mem_iff.1 (List.getElem_mem hi2)

/-! ## Witnesses -/

/-- One cell with a coupling of 3 fF between `A` and `B`, another of 4 fF between `B` and `VSUBS`. -/
def exHistory : List (String × List Op) :=
  [("TOP", [.overlap ⟨⟨"m2", "B", "m1", "A"⟩, 3, 0, 0⟩, .sidewall ⟨⟨"m1", "VSUBS", "B"⟩, 4, 0, 0⟩])]

def exCircuit : Circuit := ⟨["A", "VSUBS"], [⟨.mos4, "nfet", "M1", [("S", 0), ("B", 1)], []⟩]⟩

/-- **C05 is violated** (net names): a circuit that already has a net `VSUBS` ends up with two of them, and the parasitic
capacitor is connected to the second one, not to the substrate of the existing transistor. -/
theorem net_names_unique_fails : ∃ c', expand id exCircuit (runCells exHistory) true = .ok c' ∧ exCircuit.nets.Nodup ∧
    ¬ c'.nets.Nodup ∧ (∃ d ∈ c'.devices, d.clsName = "C" ∧ netAt c' d "B" = some "VSUBS") ∧
    ∀ d ∈ c'.devices, d.clsName = "C" → d.terms.get? "A" ≠ some 1 ∧ d.terms.get? "B" ≠ some 1 := by
  have key : (match expand id exCircuit (runCells exHistory) true with
    | .ok c' => decide (exCircuit.nets.Nodup ∧
        ¬ c'.nets.Nodup ∧ (∃ d ∈ c'.devices, d.clsName = "C" ∧ netAt c' d "B" = some "VSUBS") ∧
        ∀ d ∈ c'.devices, d.clsName = "C" → d.terms.get? "A" ≠ some 1 ∧ d.terms.get? "B" ≠ some 1)
    | .error _ => false) = true := by decide +kernel
  cases h : expand id exCircuit (runCells exHistory) true with
  | error e => rw [h] at key; cases key
  | ok c' =>
    rw [h] at key
    simp only [decide_eq_true_eq] at key
    exact ⟨c', rfl, key⟩

/-- **C05 is violated** (unit): KLayout's parameter `C` is in farad, summary values are in femtofarad; the number is
stored without the factor 1e-15. -/
theorem cap_unit_fails : ∃ c' d v, expand id exCircuit (runCells exHistory) true = .ok c' ∧ d ∈ c'.devices ∧
    netAt c' d "A" = some "A" ∧ netAt c' d "B" = some "B" ∧ recorded "A" "B" (exHistory.head!.2) = v ∧
    d.params.get? "C" = some v ∧ d.params.get? "C" ≠ some (v / 10 ^ 15) := by
  have key : (match expand id exCircuit (runCells exHistory) true with
    | .ok c' => decide (∃ d ∈ c'.devices, netAt c' d "A" = some "A" ∧ netAt c' d "B" = some "B" ∧
        recorded "A" "B" (exHistory.head!.2) = 3 ∧ d.params.get? "C" = some 3 ∧ d.params.get? "C" ≠ some (3 / 10 ^ 15))
    | .error _ => false) = true := by decide +kernel
  cases h : expand id exCircuit (runCells exHistory) true with
  | error e => rw [h] at key; cases key
  | ok c' =>
    rw [h] at key
    simp only [decide_eq_true_eq] at key
    obtain ⟨d, hd, k1, k2, k3, k4, k5⟩ := key
    exact ⟨c', d, 3, rfl, hd, k1, k2, k3, k4, k5⟩

/-- Non-vacuity: the example can be summarised and expanded. -/
example : (match summarizeAll (runCells exHistory) with | .ok s => s.capacitances.length | .error _ => 0) = 2 := by
  decide +kernel

end Verif.Rcx25Netlist
