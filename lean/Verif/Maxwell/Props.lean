import Verif.Maxwell.Lemmas

/-!
# The netlist of the field solver's capacitance matrix (C07, C08)
-/

namespace Verif.Maxwell

open Netlist

/-! ## Proofs -/

private theorem parasitics_eq {c : Circuit} {added : List Device} {bb : Bool} {ns : List String} {s1 s2 : Device}
    (hf : ∀ d ∈ c.devices, d.clsName ≠ "PEX_CAP") (ha : ∀ d ∈ added, d.clsName = "PEX_CAP")
    (h1 : s1.clsName ≠ "PEX_CAP") (h2 : s2.clsName ≠ "PEX_CAP") :
    parasitics ⟨ns, ((if bb then c.devices else []) ++ added) ++ [s1, s2]⟩ = added := by
  unfold parasitics
  simp only [List.filter_append]
  have e1 : (if bb then c.devices else []).filter (fun d => decide (d.clsName = "PEX_CAP")) = [] := by
    rw [List.filter_eq_nil_iff]
    intro d hd
    cases bb
    · cases hd
    · simpa using hf d hd
  have e2 : added.filter (fun d => decide (d.clsName = "PEX_CAP")) = added := by
    rw [List.filter_eq_self]
    intro d hd
    simpa using ha d hd
  rw [e1, e2]
  simp [h1, h2]

private theorem added_cls {n : Nat} {nets : List Nat} {M : Nat → Nat → ℚ} {k : Nat} :
    ∀ d ∈ (List.range k).flatMap (outerList n nets M), d.clsName = "PEX_CAP" := by
  intro d hd
  obtain ⟨i, _, hi⟩ := List.mem_flatMap.1 hd
  unfold outerList at hi
  rcases List.mem_append.1 hi with h | h
  · obtain ⟨j, _, hj⟩ := List.mem_flatMap.1 h
    unfold innerList capIf at hj
    split at hj
    · split at hj
      · simp only [List.mem_singleton] at hj; subst hj; rfl
      · cases hj
    · cases hj
  · split at h
    · unfold capIf at h
      split at h
      · simp only [List.mem_singleton] at h; subst h; rfl
      · cases h
    · cases h

/-- For labelled square matrices the run succeeds and adds exactly the listed capacitors. -/
private theorem expand_exact {c : Circuit} {m : CapMatrix} {num : Nat → Nat} {nm : Nat → String} (bb : Bool)
    (hs : Square m) (ha : AxesNamed c m num nm) (hf : ∀ d ∈ c.devices, d.clsName ≠ "PEX_CAP") :
    ∃ c' nets, expand c m bb = .ok c' ∧ nets.length = m.dimension ∧ nets.Nodup ∧ c'.nets = finalNets c ∧
      (∀ i < m.dimension, c'.nets[nets.getD i 0]? = some (nm i)) ∧
      parasitics c' = (List.range m.dimension).flatMap (outerList m.dimension nets m.entry) := by
  obtain ⟨nets, h1, h2, h3, h4⟩ := axes_nets (bb := bb) ha
  have h5 := outer_fold (ds := (prepare c bb).devices) hs h3 h2 m.dimension (le_refl _)
  obtain ⟨g, hg, he⟩ := expand_eq h1 h5
  refine ⟨_, nets, he, h2, h3, rfl, ?_, ?_⟩
  · intro i hi
    have := h4 i hi
    rw [prepare_nets] at this
    unfold finalNets
    rw [List.getElem?_append_left]
    · exact this
    · exact (List.getElem?_eq_some_iff.1 this).1
  · rw [prepare_devices]
    exact parasitics_eq hf added_cls (show ¬ "PEX_RES" = "PEX_CAP" by decide) (show ¬ "PEX_RES" = "PEX_CAP" by decide)

private theorem getD_inj {nets : List Nat} {n : Nat} (hl : nets.length = n) (hn : nets.Nodup) {i j : Nat} (hi : i < n)
    (hj : j < n) : nets.getD i 0 = nets.getD j 0 ↔ i = j := by
  constructor
  · intro h
    by_contra hne
    exact nets_ne hn (by omega) (by omega) hne h
  · rintro rfl; rfl

/-! ## C07 -/

/-- **C07** For a labelled Maxwell matrix the expander succeeds, and there is for every axis a net of the result with the
axis' name such that the nodal capacitance matrix of the added capacitors, over all conductors except conductor 0, is
exactly the given matrix. Conductor 0 carries the opposite charge: all rows sum to zero. -/
theorem netlist_reproduces_maxwell (c : Circuit) (m : CapMatrix) (num : Nat → Nat) (nm : Nat → String) (bb : Bool)
    (hm : IsMaxwell m) (ha : AxesNamed c m num nm) (hf : ∀ d ∈ c.devices, d.clsName ≠ "PEX_CAP") :
    ∃ (c' : Circuit) (net : Nat → Nat), expand c m bb = .ok c' ∧ (∀ i < m.dimension, c'.nets[net i]? = some (nm i)) ∧
      (∀ i j, 0 < i → i < m.dimension → 0 < j → j < m.dimension →
        nodal (parasitics c') (net i) (net j) = m.entry i j) ∧
      (∀ i, 0 < i → i < m.dimension →
        ∑ j ∈ Finset.range m.dimension, nodal (parasitics c') (net i) (net j) = 0) := by
  obtain ⟨c', nets, he, hl, hn, -, hnm, hp⟩ := expand_exact bb hm.square ha hf
  set n := m.dimension with hnd
  -- couplings
  have hcpl : ∀ p q, p < q → q < n →
      ((parasitics c').map fun d => if Joins d (nets.getD p 0) (nets.getD q 0) then d.params.getD "C" 0 else 0).sum =
        -m.entry p q + if p = 0 then rowSum n m.entry q else 0 := by
    intro p q hpq hq
    rw [hp, sum_added n nets m.entry _ (fun i j => (i = p ∧ j = q) ∨ (i = q ∧ j = p)) ?_ hm.nonpos hm.remainder,
      Finset.sum_add_distrib, sum_pick (by omega) hq hpq (fun i j => -m.entry i j)]
    · congr 1
      rw [Finset.sum_eq_single q]
      · by_cases h0 : p = 0
        · simp [h0, show 0 < q by omega]
        · simp only [h0, if_false, show 0 < q by omega, if_true]
          rw [if_neg]
          rintro (⟨h, h'⟩ | ⟨h, h'⟩) <;> omega
      · intro i _ hi
        by_cases h0 : 0 < i
        · rw [if_pos h0, if_neg]
          rintro (⟨h, h'⟩ | ⟨h, h'⟩) <;> omega
        · rw [if_neg h0]
      · intro h; simp at h; omega
    · intro i j v i' j' hi' hj' _
      rw [capDevice_joins, getD_inj hl hn hi' (by omega), getD_inj hl hn hj' hq, getD_inj hl hn hi' hq,
        getD_inj hl hn hj' (by omega)]
  have hcomm : ∀ a b, ((parasitics c').map fun d => if Joins d a b then d.params.getD "C" 0 else 0).sum =
      ((parasitics c').map fun d => if Joins d b a then d.params.getD "C" 0 else 0).sum := by
    intro a b
    congr 1
    refine List.map_congr_left fun d _ => ?_
    have : Joins d a b ↔ Joins d b a := by unfold Joins; exact Or.comm
    simp only [this]
  -- loads
  have hld : ∀ p, 0 < p → p < n →
      ((parasitics c').map fun d => if Loads d (nets.getD p 0) then d.params.getD "C" 0 else 0).sum = m.entry p p := by
    intro p h0 hpn
    rw [hp, sum_added n nets m.entry _ (fun i j => i = p ∨ j = p) ?_ hm.nonpos hm.remainder,
      Finset.sum_add_distrib, sum_star hpn (fun i j => -m.entry i j)]
    · have e1 : (∑ i ∈ Finset.range n, if 0 < i then (if i = p ∨ 0 = p then rowSum n m.entry i else 0) else 0) =
          rowSum n m.entry p := by
        rw [Finset.sum_eq_single p]
        · simp [h0]
        · intro i _ hi
          by_cases h : 0 < i
          · rw [if_pos h, if_neg]; rintro (h | h) <;> omega
          · rw [if_neg h]
        · intro h; simp at h; omega
      rw [e1]
      unfold rowSum
      rw [← Finset.sum_add_distrib, Finset.sum_eq_single p]
      · simp
      · intro j hj hjp
        rw [Finset.mem_range] at hj
        by_cases h : p < j
        · rw [if_pos h]; ring
        · rw [if_neg h, if_pos (by omega), hm.symm j p hj hpn]; ring
      · intro h; simp at h; omega
    · intro i j v i' j' hi' hj' hne
      rw [capDevice_loads _ _ _ _ _ (nets_ne hn (by omega) (by omega) hne), getD_inj hl hn hi' hpn,
        getD_inj hl hn hj' hpn]
  have hmain : ∀ i j, 0 < i → i < n → 0 < j → j < n →
      nodal (parasitics c') (nets.getD i 0) (nets.getD j 0) = m.entry i j := by
    intro i j hi hin hj hjn
    unfold nodal
    by_cases hij : i = j
    · subst hij
      rw [if_pos rfl]; exact hld i hi hin
    · rw [if_neg (nets_ne hn (by omega) (by omega) hij)]
      rcases lt_or_gt_of_ne hij with h | h
      · rw [hcpl i j h hjn, if_neg (by omega)]; ring
      · rw [hcomm, hcpl j i h hin, if_neg (by omega), hm.symm j i hjn hin]; ring
  refine ⟨c', fun i => nets.getD i 0, he, hnm, hmain, ?_⟩
  intro i hi hin
  have h0 : nodal (parasitics c') (nets.getD i 0) (nets.getD 0 0) = m.entry i 0 - rowSum n m.entry i := by
    unfold nodal
    rw [if_neg (nets_ne hn (by omega) (by omega) (by omega)), hcomm, hcpl 0 i hi hin, if_pos rfl,
      hm.symm 0 i (by omega) hin]
    ring
  have hn1 : n = (n - 1) + 1 := by omega
  have e2 : ∑ j ∈ Finset.range n, nodal (parasitics c') (nets.getD i 0) (nets.getD j 0) =
      ∑ j ∈ Finset.range n, (m.entry i j + if j = 0 then - rowSum n m.entry i else 0) := by
    refine Finset.sum_congr rfl fun j hj => ?_
    rw [Finset.mem_range] at hj
    by_cases hj0 : j = 0
    · subst hj0; rw [if_pos rfl, h0]; ring
    · rw [if_neg hj0, hmain i j hi hin (by omega) hj, add_zero]
  simp only
  rw [e2, Finset.sum_add_distrib, Finset.sum_ite_eq', if_pos (by rw [Finset.mem_range]; omega)]
  unfold rowSum
  ring

/-- For matrices that are not symmetric (raw solver output) the coupling of two conductors is taken from the upper
triangle alone, and dropped if it is not positive. -/
theorem coupling_from_upper_triangle (c : Circuit) (m : CapMatrix) (num : Nat → Nat) (nm : Nat → String) (bb : Bool)
    (hs : Square m) (ha : AxesNamed c m num nm) (hf : ∀ d ∈ c.devices, d.clsName ≠ "PEX_CAP") :
    ∃ (c' : Circuit) (net : Nat → Nat), expand c m bb = .ok c' ∧ (∀ i < m.dimension, c'.nets[net i]? = some (nm i)) ∧
      ∀ i j, 0 < i → i < j → j < m.dimension →
        nodal (parasitics c') (net i) (net j) = min 0 (m.entry i j) := by
  obtain ⟨c', nets, he, hl, hn, -, hnm, hp⟩ := expand_exact bb hs ha hf
  refine ⟨c', fun i => nets.getD i 0, he, hnm, ?_⟩
  intro p q h0 hpq hq
  set n := m.dimension with hnd
  unfold nodal
  simp only
  rw [if_neg (nets_ne hn (by omega) (by omega) (by omega)), hp, sum_flatMap_range, Finset.sum_eq_single p]
  · unfold outerList
    rw [List.map_append, List.sum_append, sum_flatMap_range, Finset.sum_eq_single q, if_pos h0]
    · have e2 : ((capIf p p (nets.getD p 0) (nets.getD 0 0) (rowSum n m.entry p)).map fun d =>
          if Joins d (nets.getD p 0) (nets.getD q 0) then d.params.getD "C" 0 else 0).sum = 0 := by
        unfold capIf
        split
        · simp only [List.map_cons, List.map_nil, List.sum_cons, List.sum_nil, add_zero]
          rw [if_neg]
          rw [capDevice_joins, getD_inj hl hn (by omega) (by omega), getD_inj hl hn (by omega) hq,
            getD_inj hl hn (by omega) hq, getD_inj hl hn (by omega) (by omega)]
          omega
        · rfl
      rw [e2]
      unfold innerList
      rw [if_pos hpq]
      unfold capIf
      by_cases hv : -m.entry p q > 0
      · rw [if_pos hv]
        have : Joins (capDevice p q (nets.getD p 0) (nets.getD q 0) (-m.entry p q)) (nets.getD p 0) (nets.getD q 0) := by
          rw [capDevice_joins]; exact Or.inl ⟨rfl, rfl⟩
        simp only [List.map_cons, List.map_nil, List.sum_cons, List.sum_nil, add_zero, this, if_true, capDevice_value]
        rw [min_eq_right (by linarith)]; ring
      · rw [if_neg hv, min_eq_left (by linarith)]; simp
    · intro j hj hne
      rw [Finset.mem_range] at hj
      unfold innerList capIf
      split
      · split
        · simp only [List.map_cons, List.map_nil, List.sum_cons, List.sum_nil, add_zero]
          rw [if_neg]
          rw [capDevice_joins, getD_inj hl hn (by omega) (by omega), getD_inj hl hn hj hq,
            getD_inj hl hn (by omega) hq, getD_inj hl hn hj (by omega)]
          omega
        · rfl
      · rfl
    · intro h; simp at h; omega
  · intro i hi hne
    rw [Finset.mem_range] at hi
    unfold outerList
    rw [List.map_append, List.sum_append, sum_flatMap_range, Finset.sum_eq_zero, zero_add]
    · split
      · unfold capIf
        split
        · simp only [List.map_cons, List.map_nil, List.sum_cons, List.sum_nil, add_zero]
          rw [if_neg]
          rw [capDevice_joins, getD_inj hl hn hi (by omega), getD_inj hl hn (by omega) hq,
            getD_inj hl hn hi hq, getD_inj hl hn (by omega) (by omega)]
          omega
        · rfl
      · rfl
    · intro j hj
      rw [Finset.mem_range] at hj
      unfold innerList capIf
      split
      · split
        · simp only [List.map_cons, List.map_nil, List.sum_cons, List.sum_nil, add_zero]
          rw [if_neg]
          rw [capDevice_joins, getD_inj hl hn hi (by omega), getD_inj hl hn hj hq,
            getD_inj hl hn hi hq, getD_inj hl hn hj (by omega)]
          omega
        · rfl
      · rfl
  · intro h; simp at h; omega

/-! ## C08 -/

/-- **C08** Whatever the matrix and the labels: if expansion succeeds, the result consists of the kept devices,
capacitors with positive value between distinct nets, and two 0 Ω resistors that tie `FC_GND` and `VSUBS` to `GND`. -/
theorem only_positive_caps (c c' : Circuit) (m : CapMatrix) (bb : Bool) (h : expand c m bb = .ok c') :
    ∃ added gnd, c'.devices = (if bb then c.devices else []) ++ added ++
        [⟨.resistor, "PEX_RES", "Rext_FC_GND_GND", [("A", c.nets.length), ("B", gnd)], [("R", 0)]⟩,
         ⟨.resistor, "PEX_RES", "Rext_VSUBS_GND", [("A", c.nets.length + 1), ("B", gnd)], [("R", 0)]⟩] ∧
      (∀ d ∈ added, GoodCap d) ∧ c'.nets[gnd]? = some "GND" ∧
      c'.nets[c.nets.length]? = some "FC_GND" ∧ c'.nets[c.nets.length + 1]? = some "VSUBS" := by
  obtain ⟨nets, ds, h1, h2⟩ := expand_inv h
  obtain ⟨g, hg, he⟩ := expand_eq h1 h2
  rw [he] at h
  cases h
  obtain ⟨added, e1, g1⟩ := foldlM_added (fun s : List Device => s) _ (fun s x s' => outer_good) _ _ _ h2
  rw [prepare_devices] at e1
  refine ⟨added, g, by rw [e1]; rfl, g1, hg, ?_, ?_⟩ <;> simp [finalNets]

/-- The nets of the result: those of the input, then `FC_GND`, `VSUBS`, and `GND` if there was none. In particular an
existing net keeps its identity and name. -/
theorem expand_nets (c c' : Circuit) (m : CapMatrix) (bb : Bool) (h : expand c m bb = .ok c') :
    c'.nets = c.nets ++ ["FC_GND", "VSUBS"] ++ if "GND" ∈ c.nets then [] else ["GND"] := by
  obtain ⟨nets, ds, h1, h2⟩ := expand_inv h
  obtain ⟨g, hg, he⟩ := expand_eq h1 h2
  rw [he] at h
  cases h
  rfl

/-- The added capacitors have distinct names. -/
theorem cap_names_distinct (c c' : Circuit) (m : CapMatrix) (num : Nat → Nat) (nm : Nat → String) (bb : Bool)
    (hs : Square m) (ha : AxesNamed c m num nm) (hf : ∀ d ∈ c.devices, d.clsName ≠ "PEX_CAP")
    (h : expand c m bb = .ok c') : ((parasitics c').map Device.name).Nodup := by
  obtain ⟨c'', nets, he, hl, hn, -, hnm, hp⟩ := expand_exact bb hs ha hf
  rw [he] at h
  cases h
  rw [hp]
  exact all_names _ _ _ _

/-- **C07** The added capacitors, one by one: for `i < j` with a negative entry a capacitor `Cext_i_j` of the opposite value
between the nets of the conductors `i` and `j`; for `i > 0` with a positive row sum a capacitor `Cext_i_i` of that value between
conductor `i` and conductor 0; and no others. -/
theorem cap_devices_exact (c : Circuit) (m : CapMatrix) (num : Nat → Nat) (nm : Nat → String) (bb : Bool)
    (hs : Square m) (ha : AxesNamed c m num nm) (hf : ∀ d ∈ c.devices, d.clsName ≠ "PEX_CAP") :
    ∃ (c' : Circuit) (net : Nat → Nat), expand c m bb = .ok c' ∧ (∀ i < m.dimension, c'.nets[net i]? = some (nm i)) ∧
      ∀ d, d ∈ parasitics c' ↔
        (∃ i j, i < j ∧ j < m.dimension ∧ m.entry i j < 0 ∧ d = ⟨.capacitor, "PEX_CAP",
          "Cext_" ++ toString i ++ "_" ++ toString j, [("A", net i), ("B", net j)], [("C", -m.entry i j)]⟩) ∨
        (∃ i, 0 < i ∧ i < m.dimension ∧ 0 < ∑ j ∈ Finset.range m.dimension, m.entry i j ∧ d = ⟨.capacitor, "PEX_CAP",
          "Cext_" ++ toString i ++ "_" ++ toString i, [("A", net i), ("B", net 0)],
          [("C", ∑ j ∈ Finset.range m.dimension, m.entry i j)]⟩) := by
  obtain ⟨c', nets, he, hl, hn, -, hnm, hp⟩ := expand_exact bb hs ha hf
  refine ⟨c', fun i => nets.getD i 0, he, hnm, fun d => ?_⟩
  rw [hp, List.mem_flatMap]
  constructor
  · rintro ⟨i, hi, hd⟩
    rw [List.mem_range] at hi
    unfold outerList at hd
    rcases List.mem_append.1 hd with h | h
    · obtain ⟨j, hj, hd⟩ := List.mem_flatMap.1 h
      rw [List.mem_range] at hj
      unfold innerList capIf at hd
      split at hd
      · rename_i hij
        split at hd
        · rename_i hv
          rw [List.mem_singleton] at hd
          exact Or.inl ⟨i, j, hij, hj, by linarith, hd⟩
        · cases hd
      · cases hd
    · split at h
      · rename_i h0
        unfold capIf at h
        split at h
        · rename_i hv
          rw [List.mem_singleton] at h
          exact Or.inr ⟨i, h0, hi, hv, h⟩
        · cases h
      · cases h
  · rintro (⟨i, j, hij, hj, hv, rfl⟩ | ⟨i, h0, hi, hv, rfl⟩)
    · refine ⟨i, List.mem_range.2 (by omega), ?_⟩
      unfold outerList
      refine List.mem_append_left _ (List.mem_flatMap.2 ⟨j, List.mem_range.2 hj, ?_⟩)
      unfold innerList capIf
      rw [if_pos hij, if_pos (by linarith), List.mem_singleton]
      rfl
    · refine ⟨i, List.mem_range.2 hi, ?_⟩
      unfold outerList
      apply List.mem_append_right
      rw [if_pos h0]
      unfold capIf
      rw [if_pos (show rowSum m.dimension m.entry i > 0 from hv), List.mem_singleton]
      rfl

/-- An axis whose name no net has is reported as an error. -/
theorem unknown_axis_rejected (c : Circuit) (m : CapMatrix) (bb : Bool) (k : Nat) (s : String)
    (hn : "g" ++ toString k ++ "_" ++ s ∈ m.names) (hs : '\n' ∉ s.toList) (h : s ∉ c.nets ++ ["FC_GND", "VSUBS"]) : ∀ c', expand c m bb ≠ .ok c' := by
  intro c' he
  obtain ⟨nets, ds, h1, -⟩ := expand_inv he
  obtain ⟨i, hi, hi'⟩ := List.mem_iff_getElem.1 hn
  obtain ⟨s', n, e1, e2, -⟩ := (mapM_axisNet h1).2 i _ (List.getElem?_eq_getElem hi)
  rw [hi', axisName_g _ _ hs] at e1
  cases e1
  have := List.mem_of_getElem? (name2net_get e2)
  rw [prepare_nets] at this
  exact h this

/-! ## Witnesses -/

/-- Example circuit with nets `VDD`, `OUT`, `VSUBS` and a transistor. -/
def exCircuit : Circuit :=
  ⟨["VDD", "OUT", "VSUBS"], [⟨.mos4, "nfet", "M1", [("S", 0), ("D", 1), ("B", 2)], []⟩]⟩

/-- Example matrix: substrate, `VDD`, `OUT`. -/
def exMatrix : CapMatrix := ⟨["g1_VSUBS", "g2_VDD", "g3_OUT"], [[5, -2, -1], [-2, 7, -3], [-1, -3, 6]]⟩

private def exNames : Nat → String
  | 0 => "VSUBS" | 1 => "VDD" | _ => "OUT"

/-- Non-vacuity of C07 and C08: the example meets all hypotheses. -/
theorem example_meets_hypotheses : IsMaxwell exMatrix ∧ AxesNamed exCircuit exMatrix (· + 1) exNames ∧
    (∀ d ∈ exCircuit.devices, d.clsName ≠ "PEX_CAP") := by
  have lt3 : ∀ i, i < exMatrix.dimension → i = 0 ∨ i = 1 ∨ i = 2 := by
    intro i hi
    have : exMatrix.dimension = 3 := rfl
    omega
  refine ⟨⟨⟨rfl, by decide⟩, ?_, ?_, ?_⟩, ⟨?_, ?_, ?_, ?_⟩, by decide⟩
  · intro i j hi hj
    rcases lt3 i hi with rfl | rfl | rfl <;> rcases lt3 j hj with rfl | rfl | rfl <;> decide +kernel
  · intro i j hi hj h
    rcases lt3 i hi with rfl | rfl | rfl <;> rcases lt3 j hj with rfl | rfl | rfl <;>
      first | exact absurd rfl h | decide +kernel
  · intro i hi
    rcases lt3 i hi with rfl | rfl | rfl <;> decide +kernel
  · intro i hi
    rcases lt3 i hi with rfl | rfl | rfl <;> decide +kernel
  · intro i hi
    rcases lt3 i hi with rfl | rfl | rfl <;> decide +kernel
  · intro i j hi hj h
    rcases lt3 i hi with rfl | rfl | rfl <;> rcases lt3 j hj with rfl | rfl | rfl <;>
      first | rfl | (revert h; decide +kernel)
  · intro i hi
    rcases lt3 i hi with rfl | rfl | rfl <;> decide +kernel

/-- **Finding**: if the circuit already has a net `VSUBS`, the substrate capacitors are connected to a second net of the
same name and not to the existing one: in the example no parasitic touches net 2, the transistor's substrate. -/
theorem vsubs_is_duplicated : ∃ c', expand exCircuit exMatrix true = .ok c' ∧
    (c'.nets.count "VSUBS" = 2) ∧ (∀ d ∈ parasitics c', d.terms.get? "A" ≠ some 2 ∧ d.terms.get? "B" ≠ some 2) ∧
    (∃ d ∈ parasitics c', d.terms.get? "B" = some 4) := by
  have key : (match expand exCircuit exMatrix true with
    | .ok c' => decide (c'.nets.count "VSUBS" = 2 ∧
        (∀ d ∈ parasitics c', d.terms.get? "A" ≠ some 2 ∧ d.terms.get? "B" ≠ some 2) ∧
        (∃ d ∈ parasitics c', d.terms.get? "B" = some 4))
    | .error _ => false) = true := by decide +kernel
  cases h : expand exCircuit exMatrix true with
  | error e => rw [h] at key; cases key
  | ok c' =>
    rw [h] at key
    simp only [decide_eq_true_eq] at key
    exact ⟨c', rfl, key⟩

/-- **Finding**: two conductors that resolve to the same net, with a positive coupling, make the expansion fail. -/
theorem same_net_twice_fails :
    expand exCircuit ⟨["g1_VDD", "g2_OUT", "g3_OUT"], [[5, -2, -1], [-2, 7, -3], [-1, -3, 6]]⟩ true =
      .error "Invalid attempt to create cap between same net" := by decide +kernel

end Verif.Maxwell
