import Verif.Reduce.Model
import Mathlib.Data.List.Basic
import Mathlib.Data.List.Forall2

/-!
# Properties of netlist reduction (C13) and of the netlist CSV report (C52)
-/

namespace Verif.Reduce

open Netlist

/-! ## Specification -/

/-- A capacitor (with or without bulk terminal) whose capacitance is below the threshold. -/
def Negligible (thr : ℚ) (d : Device) : Prop :=
  (d.kind = .capacitor ∨ d.kind = .capacitorWithBulk) ∧ ∃ v, d.params.get? "C" = some v ∧ v < thr

instance (thr : ℚ) (d : Device) : Decidable (Negligible thr d) := by
  unfold Negligible
  cases h : d.params.get? "C" with
  | none => exact isFalse fun ⟨_, v, hv, _⟩ => by cases hv
  | some w =>
    exact decidable_of_iff ((d.kind = .capacitor ∨ d.kind = .capacitorWithBulk) ∧ w < thr)
      ⟨fun ⟨a, b⟩ => ⟨a, w, rfl, b⟩, fun ⟨a, v, hv, b⟩ => ⟨a, by cases hv; exact b⟩⟩

/-- Every capacitor has a capacitance. -/
def CapsHaveValue (c : Circuit) : Prop :=
  ∀ d ∈ c.devices, (d.kind = .capacitor ∨ d.kind = .capacitorWithBulk) → ∃ v, d.params.get? "C" = some v

theorem isCapacitor_iff (k : Kind) : k.isCapacitor = true ↔ k = .capacitor ∨ k = .capacitorWithBulk := by
  cases k <;> simp [Kind.isCapacitor]

/-! ## C13 -/

theorem collect_eq (thr : ℚ) (ds : Tagged) (acc : List Nat)
    (h : ∀ d ∈ ds, (d.1.kind = .capacitor ∨ d.1.kind = .capacitorWithBulk) → ∃ v, d.1.params.get? "C" = some v) :
    ds.foldlM (collectStep thr) acc = .ok (acc ++ (ds.filter fun d => Negligible thr d.1).map Prod.snd) := by
  induction ds generalizing acc with
  | nil => simp; rfl
  | cons d ds ih =>
    rw [List.foldlM_cons]
    have ih := fun acc => ih acc (fun x hx => h x (by simp [hx]))
    by_cases hk : d.1.kind.isCapacitor = true
    · obtain ⟨v, hv⟩ := h d (by simp) ((isCapacitor_iff _).1 hk)
      by_cases hlt : v < thr
      · have hn : Negligible thr d.1 := ⟨(isCapacitor_iff _).1 hk, v, hv, hlt⟩
        have hs : collectStep thr acc d = .ok (acc ++ [d.2]) := by
          unfold collectStep; rw [if_pos hk]; simp only [hv]; rw [if_pos hlt]
        rw [hs]
        simp only [bind, Except.bind]
        rw [ih, List.filter_cons, if_pos (by simpa using hn)]
        simp
      · have hn : ¬ Negligible thr d.1 := by
          rintro ⟨_, w, hw, hlt'⟩
          rw [hv] at hw; cases hw; exact hlt hlt'
        have hs : collectStep thr acc d = .ok acc := by
          unfold collectStep; rw [if_pos hk]; simp only [hv]; rw [if_neg hlt]
        rw [hs]
        simp only [bind, Except.bind]
        rw [ih, List.filter_cons, if_neg (by simpa using hn)]
    · have hn : ¬ Negligible thr d.1 := fun hn => hk ((isCapacitor_iff _).2 hn.1)
      have hs : collectStep thr acc d = .ok acc := by unfold collectStep; rw [if_neg hk]
      rw [hs]
      simp only [bind, Except.bind]
      rw [ih, List.filter_cons, if_neg (by simpa using hn)]

theorem remove_all (ids : List Nat) (ds : Tagged) : ids.foldl removeDevice ds = ds.filter fun d => d.2 ∉ ids := by
  induction ids generalizing ds with
  | nil => simp
  | cons i ids ih =>
    rw [List.foldl_cons, ih]
    unfold removeDevice
    rw [List.filter_filter]
    apply List.filter_congr
    intro d _
    simp only [List.mem_cons, not_or, Bool.decide_and]
    rw [Bool.and_comm]

theorem zipIdx_inj {ds : List Device} {a b : Device × Nat} (ha : a ∈ ds.zipIdx) (hb : b ∈ ds.zipIdx) (h : a.2 = b.2) :
    a = b := by
  have h1 := List.mem_zipIdx_iff_getElem?.1 ha
  have h2 := List.mem_zipIdx_iff_getElem?.1 hb
  rw [h, h2] at h1
  exact Prod.ext (Option.some.inj h1).symm h

theorem dropSmall_eq (thr : ℚ) (c : Circuit) (h : CapsHaveValue c) :
    dropSmall thr c.devices = .ok (c.devices.filter fun d => ¬ Negligible thr d) := by
  unfold dropSmall
  have hmem : ∀ d ∈ c.devices.zipIdx, d.1 ∈ c.devices := by
    intro d hd
    exact List.mem_of_getElem? (List.mem_zipIdx_iff_getElem?.1 hd)
  rw [collect_eq thr _ _ (fun d hd => h d.1 (hmem d hd))]
  simp only [bind, Except.bind, List.nil_append, pure, Except.pure]
  rw [remove_all]
  congr 1
  have e : (c.devices.zipIdx.filter fun d => d.2 ∉ (c.devices.zipIdx.filter fun d => Negligible thr d.1).map Prod.snd) =
      c.devices.zipIdx.filter fun d => ¬ Negligible thr d.1 := by
    apply List.filter_congr
    intro d hd
    apply decide_eq_decide.2
    apply not_congr
    simp only [List.mem_map, List.mem_filter, decide_eq_true_eq]
    constructor
    · rintro ⟨x, ⟨hx, hn⟩, he⟩
      rw [← zipIdx_inj hx hd he]; exact hn
    · intro hn
      exact ⟨d, ⟨hd, hn⟩, rfl⟩
  rw [e]
  have : (fun d : Device × Nat => decide ¬ Negligible thr d.1) = (fun d => decide ¬ Negligible thr d) ∘ Prod.fst := rfl
  rw [this, ← List.filter_map, List.zipIdx_map_fst]

/-- C13: if the combined netlist has the top circuit, reduction succeeds with a new netlist object, which is the combined
input with exactly the negligible capacitors removed from the top circuit, all other devices, their order, the nets and all
other circuits as before; no existing netlist object, in particular not the input, is modified. -/
theorem reduction_exact (combine : NL → NL) (st : Store) (fresh netlist : Nat) (top : String) (thr : ℚ)
    (pre post : NL) (c : Circuit) (hf : fresh ≠ netlist) (hc : combine (st netlist) = pre ++ (top, c) :: post)
    (hpre : ∀ p ∈ pre, p.1 ≠ top) (hcap : CapsHaveValue c) :
    ∃ st', reduce combine st fresh netlist top thr = .ok (st', fresh) ∧
      st' fresh = pre ++ (top, ⟨c.nets, c.devices.filter fun d => ¬ Negligible thr d⟩) :: post ∧
      st' netlist = st netlist ∧ ∀ r, r ≠ fresh → st' r = st r := by
  have hfind : ∀ pre : NL, (∀ p ∈ pre, p.1 ≠ top) → circuitByName (pre ++ (top, c) :: post) top = some c := by
    intro pre
    induction pre with
    | nil => intro _; simp [circuitByName]
    | cons p ps ih =>
      intro h
      have := ih (fun x hx => h x (by simp [hx]))
      unfold circuitByName at this ⊢
      rw [List.cons_append, List.find?_cons, show decide (p.1 = top) = false by simpa using h p (by simp)]
      exact this
  have hmod : ∀ (f : Circuit → Circuit) (pre : NL), (∀ p ∈ pre, p.1 ≠ top) →
      modifyCircuit (pre ++ (top, c) :: post) top f = pre ++ (top, f c) :: post := by
    intro f pre
    induction pre with
    | nil => intro _; simp [modifyCircuit]
    | cons p ps ih =>
      intro h
      rw [List.cons_append, modifyCircuit, if_neg (h p (by simp)), ih (fun x hx => h x (by simp [hx]))]
      rfl
  unfold reduce
  simp only [Function.update_self, hc, hfind pre hpre, dropSmall_eq thr c hcap, bind, Except.bind, pure, Except.pure]
  refine ⟨_, rfl, ?_, ?_, ?_⟩
  · rw [Function.update_self, hmod _ pre hpre]
  · rw [Function.update_of_ne hf.symm, Function.update_of_ne hf.symm, Function.update_of_ne hf.symm]
  · intro r hr
    rw [Function.update_of_ne hr, Function.update_of_ne hr, Function.update_of_ne hr]

/-- C13: without a threshold being given it is 0.05 fF. -/
theorem reduction_default (combine : NL → NL) (st : Store) (fresh netlist : Nat) (top : String)
    (pre post : NL) (c : Circuit) (hf : fresh ≠ netlist) (hc : combine (st netlist) = pre ++ (top, c) :: post)
    (hpre : ∀ p ∈ pre, p.1 ≠ top) (hcap : CapsHaveValue c) :
    ∃ st', reduce combine st fresh netlist top defaultThreshold = .ok (st', fresh) ∧
      st' fresh = pre ++ (top, ⟨c.nets, c.devices.filter fun d => ¬ Negligible (0.05 / 10 ^ 15) d⟩) :: post := by
  obtain ⟨st', h1, h2, _⟩ := reduction_exact combine st fresh netlist top defaultThreshold pre post c hf hc hpre hcap
  have e : (0.05 / 10 ^ 15 : ℚ) = defaultThreshold := by decide +kernel
  exact ⟨st', h1, by rw [e]; exact h2⟩

/-- C13: a top cell that does not exist is an error. -/
theorem reduction_unknown_top (combine : NL → NL) (st : Store) (fresh netlist : Nat) (top : String) (thr : ℚ)
    (h : ∀ p ∈ combine (st netlist), p.1 ≠ top) :
    reduce combine st fresh netlist top thr = .error "AttributeError" := by
  unfold reduce
  have : circuitByName (combine (st netlist)) top = none := by
    unfold circuitByName
    rw [Option.map_eq_none_iff, List.find?_eq_none]
    intro p hp
    simpa using h p hp
  simp only [Function.update_self, this]

/-- Example circuit: capacitors below, at and above the threshold, and a resistor of small value. -/
def exCircuit : Circuit := ⟨["a", "b"],
  [twoTerminal .capacitor "C" "c1" 0 1 "C" (1 / 100000000000000000), twoTerminal .capacitor "C" "c2" 0 1 "C" defaultThreshold,
    twoTerminal .resistor "R" "r1" 0 1 "R" 0, twoTerminal .capacitorWithBulk "C" "c3" 0 1 "C" 0,
    twoTerminal .capacitor "C" "c4" 0 1 "C" 1]⟩

example : CapsHaveValue exCircuit ∧
    (exCircuit.devices.filter fun d => ¬ Negligible defaultThreshold d).map Device.name = ["c2", "r1", "c4"] := by
  constructor
  · intro d hd _
    simp only [exCircuit, List.mem_cons, List.not_mem_nil, or_false] at hd
    rcases hd with rfl | rfl | rfl | rfl | rfl
    · exact ⟨_, rfl⟩
    · exact ⟨_, rfl⟩
    · rename_i h; rcases h with h | h <;> cases h
    · exact ⟨_, rfl⟩
    · exact ⟨_, rfl⟩
  · decide +kernel

/-! ## C52: the CSV report -/

/-- The row shows this device of the circuit: its name, the names of the nets at its two ends, and its value in fF. -/
def Shows (round2 : ℚ → ℚ) (c : Circuit) (d : Device) (r : Row) : Prop :=
  ∃ a b v, d.terms.get? "A" = some a ∧ c.nets[a]? = some r.net1 ∧ d.terms.get? "B" = some b ∧ c.nets[b]? = some r.net2 ∧
    d.params.get? "C" = some v ∧ r.femto = round2 (v * 1000000000000000) ∧ r.device = d.name

/-- The device is a capacitor added by the field-solver flow. -/
def IsPexCap (d : Device) : Prop := (d.kind = .capacitor ∨ d.kind = .capacitorWithBulk) ∧ d.clsName = "PEX_CAP"

instance (d : Device) : Decidable (IsPexCap d) := by unfold IsPexCap; infer_instance

theorem netName_ok {c : Circuit} {d : Device} {t s : String} (h : netName c d t = .ok s) :
    ∃ n, d.terms.get? t = some n ∧ c.nets[n]? = some s := by
  unfold netName at h
  split at h
  · cases h
  · rename_i n hn
    split at h
    · cases h
    · rename_i s' hs
      cases h
      exact ⟨n, hn, hs⟩

theorem csv_fold (round2 : ℚ → ℚ) (c : Circuit) (ds : List Device) (acc rows : List Row)
    (h : ds.foldlM (csvStep round2 c) acc = .ok rows) :
    ∃ new, rows = acc ++ new ∧ List.Forall₂ (Shows round2 c) (ds.filter fun d => IsPexCap d) new := by
  induction ds generalizing acc with
  | nil => cases h; exact ⟨[], by simp, by simp⟩
  | cons d ds ih =>
    rw [List.foldlM_cons] at h
    cases hs : csvStep round2 c acc d with
    | error e => rw [hs] at h; cases h
    | ok acc' =>
      rw [hs] at h
      obtain ⟨new, hnew, hall⟩ := ih acc' h
      unfold csvStep at hs
      split at hs
      · rename_i hk
        split at hs
        · rename_i hcls
          cases hs
          refine ⟨new, hnew, ?_⟩
          rw [List.filter_cons, if_neg (by simp only [decide_eq_true_eq]; exact fun hp => hcls hp.2)]
          exact hall
        · rename_i hcls
          split at hs
          · cases hs
          · rename_i v hv
            cases h1 : netName c d "A" with
            | error e => rw [h1] at hs; cases hs
            | ok n1 =>
              cases h2 : netName c d "B" with
              | error e => rw [h1, h2] at hs; cases hs
              | ok n2 =>
                rw [h1, h2] at hs
                cases hs
                obtain ⟨a, ha1, ha2⟩ := netName_ok h1
                obtain ⟨b, hb1, hb2⟩ := netName_ok h2
                refine ⟨⟨d.name, n1, n2, round2 (v * 1000000000000000)⟩ :: new, by rw [hnew]; simp, ?_⟩
                rw [List.filter_cons, if_pos (by
                  simp only [decide_eq_true_eq]
                  exact ⟨(isCapacitor_iff _).1 hk, not_not.1 hcls⟩)]
                exact .cons ⟨a, b, v, ha1, ha2, hb1, hb2, hv, rfl, rfl⟩ hall
      · rename_i hk
        cases hs
        refine ⟨new, hnew, ?_⟩
        rw [List.filter_cons, if_neg (by
          simp only [decide_eq_true_eq]
          exact fun hp => hk ((isCapacitor_iff _).2 hp.1))]
        exact hall

/-- C52: whenever the report is written, its rows show exactly the parasitic capacitors of the top circuit, in netlist order. -/
theorem csv_shows_parasitics (round2 : ℚ → ℚ) (nl : NL) (top : String) (rows : List Row)
    (h : writeCsv round2 nl top = .ok rows) :
    ∃ c, circuitByName nl top = some c ∧ List.Forall₂ (Shows round2 c) (c.devices.filter fun d => IsPexCap d) rows := by
  unfold writeCsv at h
  cases hc : circuitByName nl top with
  | none => rw [hc] at h; cases h
  | some c =>
    rw [hc] at h
    obtain ⟨new, hn, ha⟩ := csv_fold round2 c _ _ _ h
    refine ⟨c, rfl, ?_⟩
    rw [hn]; exact ha

/-- C52: writing succeeds if every parasitic capacitor has a value and both ends connected. -/
theorem csv_written (round2 : ℚ → ℚ) (nl : NL) (top : String) (c : Circuit) (hc : circuitByName nl top = some c)
    (h : ∀ d ∈ c.devices, IsPexCap d → (∃ v, d.params.get? "C" = some v) ∧
      (∃ a s, d.terms.get? "A" = some a ∧ c.nets[a]? = some s) ∧ (∃ b s, d.terms.get? "B" = some b ∧ c.nets[b]? = some s)) :
    ∃ rows, writeCsv round2 nl top = .ok rows := by
  unfold writeCsv
  simp only [hc]
  suffices ∀ (ds : List Device) (acc : List Row), (∀ d ∈ ds, d ∈ c.devices) →
      ∃ rows, ds.foldlM (csvStep round2 c) acc = .ok rows from this _ _ fun _ h => h
  intro ds
  induction ds with
  | nil => intro acc _; exact ⟨acc, rfl⟩
  | cons d ds ih =>
    intro acc hd
    rw [List.foldlM_cons]
    have : ∃ acc', csvStep round2 c acc d = .ok acc' := by
      unfold csvStep
      by_cases hk : d.kind.isCapacitor = true
      · rw [if_pos hk]
        by_cases hcls : d.clsName ≠ "PEX_CAP"
        · rw [if_pos hcls]; exact ⟨_, rfl⟩
        · rw [if_neg hcls]
          obtain ⟨⟨v, hv⟩, ⟨a, s, ha, hs⟩, ⟨b, t, hb, ht⟩⟩ := h d (hd d (by simp)) ⟨(isCapacitor_iff _).1 hk, not_not.1 hcls⟩
          simp only [hv]
          unfold netName
          simp only [ha, hs, hb, ht]
          exact ⟨_, rfl⟩
      · rw [if_neg hk]; exact ⟨_, rfl⟩
    obtain ⟨acc', ha⟩ := this
    rw [ha]
    exact ih acc' fun x hx => hd x (by simp [hx])

/-- Example: a capacitor of another class and a resistor are not listed. -/
example : writeCsv id [("top", ⟨["x", "y"], [twoTerminal .capacitor "PEX_CAP" "c1" 0 1 "C" (1 / 1000000000000000),
    twoTerminal .capacitor "mim" "m1" 0 1 "C" 1, twoTerminal .resistor "PEX_RES" "r1" 0 1 "R" 0,
    twoTerminal .capacitor "PEX_CAP" "c2" 1 0 "C" (3 / 1000000000000000)]⟩)] "top" =
      .ok [⟨"c1", "x", "y", 1⟩, ⟨"c2", "y", "x", 3⟩] := by decide +kernel

end Verif.Reduce
