import Verif.Common.Exc
import Verif.Summary.Lemmas

/-!
# Properties of extraction summaries (C01–C04)

The specification below talks about recorded contributions and unordered pairs of nets only.
-/

namespace Verif.Summary

/-! ## Specification -/

/-- `{a, b} = {c, d}` as unordered pairs of net names. -/
def SamePair (a b c d : String) : Prop := (a = c ∧ b = d) ∨ (a = d ∧ b = c)

instance (a b c d : String) : Decidable (SamePair a b c d) := by unfold SamePair; infer_instance

/-- The recording `op` is a capacitance between the nets `a` and `b` (in either orientation). -/
def Op.Couples (a b : String) : Op → Prop
  | .overlap c => SamePair c.key.netTop c.key.netBot a b
  | .sidewall c => SamePair c.key.net1 c.key.net2 a b
  | .sideoverlap c => SamePair c.key.netInside c.key.netOutside a b
  | .network _ => False

instance (a b : String) (op : Op) : Decidable (op.Couples a b) := by
  cases op <;> simp only [Op.Couples] <;> infer_instance

/-- The recorded capacitance value. -/
def Op.cap : Op → ℚ
  | .overlap c => c.capValue
  | .sidewall c => c.capValue
  | .sideoverlap c => c.capValue
  | .network _ => 0

/-- Total capacitance recorded between `a` and `b` in a history. -/
def recorded (a b : String) (h : List Op) : ℚ :=
  ((h.filter fun op => op.Couples a b).map Op.cap).sum

/-- Everything a summary table lists for the unordered pair `{a, b}`, added up. -/
def reported (table : Dict NetCoupleKey ℚ) (a b : String) : ℚ :=
  ((table.filter fun kv => SamePair kv.1.net1 kv.1.net2 a b).map Prod.snd).sum

/-- A summary table lists the unordered pair `{a, b}`. -/
def Lists (table : Dict NetCoupleKey ℚ) (a b : String) : Prop :=
  ∃ kv ∈ table, SamePair kv.1.net1 kv.1.net2 a b

/-- Name of the node with a given id in a network: the last node carrying this id counts. -/
def nodeName? (n : RNetwork) (i : Nat) : Option String :=
  (n.nodes.reverse.find? fun x => x.nodeId = i).map RNode.netName

/-- All resistor elements recorded in a history, each with the names of its two ends. -/
def elements (h : List Op) : List (Option String × Option String × ℚ) :=
  h.flatMap fun
    | .network n => n.elements.map fun e => (nodeName? n e.nodeA, nodeName? n e.nodeB, e.resistance)
    | _ => []

/-- The resistances of all elements directly connecting nodes named `a` and `b`. -/
def resistorsBetween (h : List Op) (a b : String) : List ℚ :=
  (elements h).filterMap fun
    | (some x, some y, r) => if SamePair x y a b then some r else none
    | _ => none

/-- Resistance of resistors connected in parallel. -/
def parallelResistance (rs : List ℚ) : ℚ := 1 / (rs.map fun r => 1 / r).sum

/-! ## Auxiliary facts connecting the specification to the helper lemmas -/

private def pairP (a b : String) : NetCoupleKey → Bool := fun k => decide (SamePair k.net1 k.net2 a b)

theorem samePair_swap {a b c d : String} : SamePair a b c d ↔ SamePair b a c d := by
  unfold SamePair; tauto

private theorem sym_pairP (a b : String) : Sym (pairP a b) := by
  intro x y; simp only [pairP, decide_eq_decide]; exact samePair_swap

theorem samePair_iff_normed (x y a b : String) :
    SamePair x y a b ↔ NetCoupleKey.normed ⟨x, y⟩ = NetCoupleKey.normed ⟨a, b⟩ := by
  constructor
  · rintro (⟨rfl, rfl⟩ | ⟨rfl, rfl⟩)
    · rfl
    · exact normed_swap _ _
  · intro h
    rcases normed_cases ⟨x, y⟩ with h1 | h1 <;> rcases normed_cases ⟨a, b⟩ with h2 | h2 <;>
      rw [h1, h2] at h <;> simp only [NetCoupleKey.mk.injEq] at h <;> unfold SamePair <;> tauto

private theorem reported_eq_wsum (t : Dict NetCoupleKey ℚ) (a b : String) :
    reported t a b = wsum (pairP a b) t := by
  unfold reported wsum pairP
  induction t with
  | nil => simp
  | cons p t ih =>
    by_cases h : SamePair p.1.net1 p.1.net2 a b <;> simp [h, ih]

private theorem recorded_cons (a b : String) (op : Op) (h : List Op) :
    recorded a b (op :: h) = (if op.Couples a b then op.cap else 0) + recorded a b h := by
  unfold recorded
  by_cases hc : op.Couples a b <;> simp [hc]

/-- The capacitance part of a cell, as a weighted total of its three tables. -/
private def cellTotal (P : NetCoupleKey → Bool) (r : CellResults) : ℚ :=
  tsum P (fun k => ⟨k.netBot, k.netTop⟩) OverlapCap.capValue r.overlapTable
  + tsum P (fun k => ⟨k.net1, k.net2⟩) SidewallCap.capValue r.sidewallTable
  + tsum P (fun k => ⟨k.netInside, k.netOutside⟩) SideOverlapCap.capValue r.sideoverlapTable

private theorem cellTotal_apply (a b : String) (r : CellResults) (op : Op) :
    cellTotal (pairP a b) (r.apply op) = cellTotal (pairP a b) r + if op.Couples a b then op.cap else 0 := by
  cases op with
  | overlap c =>
    have e : SamePair c.key.netBot c.key.netTop a b ↔ (Op.overlap c).Couples a b := samePair_swap
    simp only [CellResults.apply, CellResults.addOverlapCap, cellTotal, tsum_upd, pairP, decide_eq_true_eq]
    by_cases h : (Op.overlap c).Couples a b
    · rw [if_pos h, if_pos (e.2 h)]; simp only [Op.cap]; ring
    · rw [if_neg h, if_neg (mt e.1 h)]; ring
  | sidewall c =>
    have e : SamePair c.key.net1 c.key.net2 a b ↔ (Op.sidewall c).Couples a b := Iff.rfl
    simp only [CellResults.apply, CellResults.addSidewallCap, cellTotal, tsum_upd, pairP, decide_eq_true_eq]
    by_cases h : (Op.sidewall c).Couples a b
    · rw [if_pos h, if_pos (e.2 h)]; simp only [Op.cap]; ring
    · rw [if_neg h, if_neg (mt e.1 h)]; ring
  | sideoverlap c =>
    have e : SamePair c.key.netInside c.key.netOutside a b ↔ (Op.sideoverlap c).Couples a b := Iff.rfl
    simp only [CellResults.apply, CellResults.addSideoverlapCap, cellTotal, tsum_upd, pairP, decide_eq_true_eq]
    by_cases h : (Op.sideoverlap c).Couples a b
    · rw [if_pos h, if_pos (e.2 h)]; simp only [Op.cap]; ring
    · rw [if_neg h, if_neg (mt e.1 h)]; ring
  | network n =>
    have h : ¬ (Op.network n).Couples a b := id
    rw [if_neg h]; simp [CellResults.apply, cellTotal]

private theorem cellTotal_run (a b : String) (h : List Op) (r : CellResults) :
    cellTotal (pairP a b) (h.foldl CellResults.apply r) = cellTotal (pairP a b) r + recorded a b h := by
  induction h generalizing r with
  | nil => simp [recorded]
  | cons op h ih => rw [List.foldl_cons, ih, cellTotal_apply, recorded_cons]; ring

theorem summarize_ok {r : CellResults} {s : ExtractionSummary} (h : r.summarize = .ok s) :
    ∃ res, summarizeNetworks r.networks = .ok res ∧
      s = ExtractionSummary.merged
        [⟨summarizeTable (fun k => ⟨k.netBot, k.netTop⟩) OverlapCap.capValue r.overlapTable, []⟩,
         ⟨summarizeTable (fun k => ⟨k.net1, k.net2⟩) SidewallCap.capValue r.sidewallTable, []⟩,
         ⟨summarizeTable (fun k => ⟨k.netInside, k.netOutside⟩) SideOverlapCap.capValue r.sideoverlapTable, []⟩,
         ⟨[], res⟩] := by
  unfold CellResults.summarize at h
  cases hr : summarizeNetworks r.networks with
  | error e => rw [hr] at h; cases h
  | ok res => rw [hr] at h; cases h; exact ⟨res, rfl, rfl⟩

private theorem wsum_cell {r : CellResults} {s : ExtractionSummary} (h : r.summarize = .ok s)
    {P : NetCoupleKey → Bool} (hP : Sym P) : wsum P s.capacitances = cellTotal P r := by
  obtain ⟨res, -, rfl⟩ := summarize_ok h
  simp only [ExtractionSummary.merged, wsum_foldl_addNormed hP]
  simp only [List.map_cons, List.map_nil, List.sum_cons, List.sum_nil, wsum_summarizeTable hP, cellTotal]
  simp [wsum, add_assoc]

/-- The nets coupled by the keys present in the three tables of a cell. -/
private def cellCouples (a b : String) (r : CellResults) : Prop :=
  (∃ k ∈ r.overlapTable.keys, SamePair k.netTop k.netBot a b) ∨
  (∃ k ∈ r.sidewallTable.keys, SamePair k.net1 k.net2 a b) ∨
  (∃ k ∈ r.sideoverlapTable.keys, SamePair k.netInside k.netOutside a b)

private theorem cellCouples_apply (a b : String) (r : CellResults) (op : Op) :
    cellCouples a b (r.apply op) ↔ cellCouples a b r ∨ op.Couples a b := by
  cases op <;>
    simp only [CellResults.apply, CellResults.addOverlapCap, CellResults.addSidewallCap,
      CellResults.addSideoverlapCap, cellCouples, Dict.mem_keys_upd, exists_eq_or_imp, Op.Couples, or_false] <;>
    simp only [or_assoc, or_comm, or_left_comm]

private theorem cellCouples_run (a b : String) (h : List Op) (r : CellResults) :
    cellCouples a b (h.foldl CellResults.apply r) ↔ cellCouples a b r ∨ ∃ op ∈ h, op.Couples a b := by
  induction h generalizing r with
  | nil => simp
  | cons op h ih =>
    rw [List.foldl_cons, ih, cellCouples_apply]
    simp only [List.mem_cons, exists_eq_or_imp, or_assoc]

private theorem merged_caps (l : List ExtractionSummary) :
    (ExtractionSummary.merged l).capacitances = l.foldl (fun d s => addNormed d s.capacitances) [] := rfl

private theorem merged_res (l : List ExtractionSummary) :
    (ExtractionSummary.merged l).resistances = l.foldl (fun d s => addNormed d s.resistances) [] := rfl

private theorem keys_cell {r : CellResults} {s : ExtractionSummary} (h : r.summarize = .ok s) (a b : String) :
    NetCoupleKey.normed ⟨a, b⟩ ∈ s.capacitances.keys ↔ cellCouples a b r := by
  obtain ⟨res, -, rfl⟩ := summarize_ok h
  rw [merged_caps, keys_foldl_addNormed (fun s : ExtractionSummary => s.capacitances)]
  simp only [Dict.keys_nil, List.not_mem_nil, false_or, List.mem_cons, exists_eq_or_imp, exists_eq_left,
    keys_summarizeTable, or_false, cellCouples, false_and, exists_false, exists_exists_and_eq_and, normed_normed,
    samePair_iff_normed]
  refine or_congr ?_ Iff.rfl
  simp only [normed_swap]

private theorem keys_normed_merged (l : List ExtractionSummary) (k : NetCoupleKey)
    (hk : k ∈ (ExtractionSummary.merged l).capacitances.keys) : k.normed = k := by
  rw [merged_caps, keys_foldl_addNormed (fun s : ExtractionSummary => s.capacitances)] at hk
  simp only [Dict.keys_nil, List.not_mem_nil, false_or] at hk
  obtain ⟨s, -, k', -, rfl⟩ := hk
  exact normed_normed _

private theorem keys_normed_merged_res (l : List ExtractionSummary) (k : NetCoupleKey)
    (hk : k ∈ (ExtractionSummary.merged l).resistances.keys) : k.normed = k := by
  rw [merged_res, keys_foldl_addNormed (fun s : ExtractionSummary => s.resistances)] at hk
  simp only [Dict.keys_nil, List.not_mem_nil, false_or] at hk
  obtain ⟨s, -, k', -, rfl⟩ := hk
  exact normed_normed _

private theorem lists_iff_of_normed {t : Dict NetCoupleKey ℚ} (hn : ∀ k ∈ t.keys, k.normed = k) (a b : String) :
    Lists t a b ↔ NetCoupleKey.normed ⟨a, b⟩ ∈ t.keys := by
  unfold Lists
  constructor
  · rintro ⟨⟨k, v⟩, hm, hs⟩
    have hk : k ∈ t.keys := (Dict.mem_keys _ _).2 ⟨v, hm⟩
    have h2 : k.normed = NetCoupleKey.normed ⟨a, b⟩ := (samePair_iff_normed k.net1 k.net2 a b).1 hs
    rw [hn k hk] at h2
    rw [← h2]; exact hk
  · intro h
    obtain ⟨v, hv⟩ := (Dict.mem_keys _ _).1 h
    refine ⟨(_, v), hv, ?_⟩
    rw [samePair_iff_normed]
    exact normed_normed _

theorem merged_of_summarizeAll {cells : Dict String CellResults} {s : ExtractionSummary}
    (h : summarizeAll cells = .ok s) :
    ∃ subs, cells.values.mapM CellResults.summarize = .ok subs ∧ s = ExtractionSummary.merged subs := by
  unfold summarizeAll at h
  cases hr : cells.values.mapM CellResults.summarize with
  | error e => rw [hr] at h; cases h
  | ok res => rw [hr] at h; cases h; exact ⟨res, rfl, rfl⟩

private theorem mapM_ok {α β : Type} (f : α → Except String β) :
    ∀ (l : List α) (r : List β), l.mapM f = .ok r → List.Forall₂ (fun a b => f a = .ok b) l r := by
  intro l
  induction l with
  | nil => intro r h; simp [pure, Except.pure] at h; subst h; exact .nil
  | cons x l ih =>
    intro r h
    rw [List.mapM_cons] at h
    cases hx : f x with
    | error e => rw [hx] at h; cases h
    | ok y =>
      cases hl : l.mapM f with
      | error e => rw [hx, hl] at h; cases h
      | ok ys => rw [hx, hl] at h; cases h; exact .cons hx (ih _ hl)

theorem runCells_eq (hs : List (String × List Op)) (hd : (hs.map Prod.fst).Nodup) :
    runCells hs = hs.map fun nh => (nh.1, runCell nh.1 nh.2) := by
  suffices ∀ (d : Dict String CellResults), (∀ nh ∈ hs, nh.1 ∉ d.keys) →
      hs.foldl (fun d nh => d.set nh.1 (runCell nh.1 nh.2)) d = d ++ hs.map fun nh => (nh.1, runCell nh.1 nh.2) by
    simpa [runCells] using this [] (by simp)
  induction hs with
  | nil => intro d _; simp
  | cons nh hs ih =>
    intro d hdk
    have hset : ∀ (d : Dict String CellResults) (k : String) (v : CellResults), k ∉ d.keys →
        d.set k v = d ++ [(k, v)] := by
      intro d k v
      induction d with
      | nil => intro _; rfl
      | cons p d ih2 =>
        intro hk
        simp only [Dict.keys_cons, List.mem_cons, not_or] at hk
        obtain ⟨k₀, v₀⟩ := p
        have : ¬ k₀ = k := fun h => hk.1 h.symm
        simp only [Dict.set, this, if_false, List.cons_append]
        rw [ih2 hk.2]
    simp only [List.map_cons, List.nodup_cons] at hd
    rw [List.foldl_cons, hset _ _ _ (hdk nh (by simp)), ih hd.2]
    · simp
    · intro nh' hm
      simp only [Dict.keys, List.map_append, List.map_cons, List.map_nil, List.mem_append, List.mem_singleton]
      rintro (h | h)
      · exact hdk nh' (List.mem_cons_of_mem _ hm) h
      · exact hd.1 (h ▸ List.mem_map_of_mem hm)

private theorem reported_merged (l : List ExtractionSummary) (a b : String) :
    reported (ExtractionSummary.merged l).capacitances a b = (l.map fun s => reported s.capacitances a b).sum := by
  simp only [reported_eq_wsum, merged_caps]
  rw [wsum_foldl_addNormed (sym_pairP a b) (fun s : ExtractionSummary => s.capacitances)]
  simp [wsum]

/-! ## C01: conservation -/

/-- **C01** (one cell).  After any history of recordings, the summary reports for every unordered pair of nets exactly
the sum of the values recorded between them, and lists the pair iff something was recorded for it. -/
theorem summary_conserves_capacitance (cell : String) (h : List Op) (s : ExtractionSummary)
    (hs : (runCell cell h).summarize = .ok s) (a b : String) :
    reported s.capacitances a b = recorded a b h ∧
    (Lists s.capacitances a b ↔ ∃ op ∈ h, op.Couples a b) := by
  refine ⟨?_, ?_⟩
  · rw [reported_eq_wsum, wsum_cell hs (sym_pairP a b)]
    unfold runCell
    rw [cellTotal_run]
    simp [cellTotal, tsum]
  · rw [lists_iff_of_normed, keys_cell hs]
    · unfold runCell
      rw [cellCouples_run]
      simp [cellCouples]
    · obtain ⟨res, -, rfl⟩ := summarize_ok hs
      exact keys_normed_merged _

/-- **C01** (all cells).  The overall summary of any number of cells with any recording histories reports for every
unordered pair of nets exactly the total recorded in all cells, and lists exactly the recorded pairs. -/
theorem summary_conserves_capacitance_all_cells (hs : List (String × List Op)) (hd : (hs.map Prod.fst).Nodup)
    (s : ExtractionSummary) (hok : summarizeAll (runCells hs) = .ok s) (a b : String) :
    reported s.capacitances a b = (hs.map fun nh => recorded a b nh.2).sum ∧
    (Lists s.capacitances a b ↔ ∃ nh ∈ hs, ∃ op ∈ nh.2, op.Couples a b) := by
  obtain ⟨subs, hsubs, rfl⟩ := merged_of_summarizeAll hok
  rw [runCells_eq hs hd] at hsubs
  have hf := mapM_ok _ _ _ hsubs
  simp only [Dict.values, List.map_map] at hf
  rw [List.forall₂_map_left_iff] at hf
  refine ⟨?_, ?_⟩
  · rw [reported_merged]
    clear hsubs hok hd
    induction hf with
    | nil => simp
    | cons hx _ ih =>
      simp only [List.map_cons, List.sum_cons, ih]
      rw [(summary_conserves_capacitance _ _ _ hx a b).1]
  · rw [lists_iff_of_normed (keys_normed_merged _), merged_caps,
      keys_foldl_addNormed (fun s : ExtractionSummary => s.capacitances)]
    simp only [Dict.keys_nil, List.not_mem_nil, false_or]
    clear hsubs hok hd
    induction hf with
    | nil => simp
    | @cons x y _ _ hx _ ih =>
      simp only [List.mem_cons, exists_eq_or_imp, ih]
      refine or_congr ?_ Iff.rfl
      rw [← (summary_conserves_capacitance _ _ _ hx a b).2]
      have hn : ∀ k ∈ y.capacitances.keys, k.normed = k := by
        obtain ⟨res, -, rfl⟩ := summarize_ok hx
        exact keys_normed_merged _
      rw [lists_iff_of_normed hn]
      constructor
      · rintro ⟨k', hk', he⟩; rw [← he, hn k' hk']; exact hk'
      · intro h; exact ⟨_, h, normed_normed _⟩

/-- Non-vacuity of C01: a history that uses all tables and both orientations of the pair. -/
example : ∃ s, (runCell "TOP"
    [.overlap ⟨⟨"met2", "A", "met1", "B"⟩, 2, 0, 1⟩, .sidewall ⟨⟨"met1", "B", "A"⟩, 3, 1, 1⟩,
     .sideoverlap ⟨⟨"met1", "A", "met2", "C"⟩, 5⟩]).summarize = .ok s ∧
    reported s.capacitances "B" "A" = 5 ∧ reported s.capacitances "A" "C" = 5 ∧
    reported s.capacitances "B" "C" = 0 := by
  refine ⟨_, rfl, ?_, ?_, ?_⟩ <;> decide +kernel

/-! ## C02: order independence -/

/-- The value a summary table holds under a key, `none` if the key is missing. -/
def lookup (t : Dict NetCoupleKey ℚ) (a b : String) : Option ℚ := t.get? ⟨a, b⟩

private theorem get?_merged_caps (l : List ExtractionSummary) (k : NetCoupleKey) :
    (ExtractionSummary.merged l).capacitances.get? k =
      if k ∈ (ExtractionSummary.merged l).capacitances.keys then
        some (reported (ExtractionSummary.merged l).capacitances k.net1 k.net2) else none := by
  have hnod : (ExtractionSummary.merged l).capacitances.keys.Nodup := by
    rw [merged_caps]
    exact nodup_foldl_addNormed (fun s : ExtractionSummary => s.capacitances) l [] (by simp)
  split
  · rename_i hk
    obtain ⟨v, hv⟩ := Option.isSome_iff_exists.1 ((Dict.mem_keys_iff _ _).1 hk)
    rw [hv, reported_eq_wsum]
    have hcongr : wsum (pairP k.net1 k.net2) (ExtractionSummary.merged l).capacitances =
        wsum (fun k' => decide (k' = k)) (ExtractionSummary.merged l).capacitances := by
      unfold wsum
      congr 1
      apply List.map_congr_left
      intro kv hkv
      have h1 := keys_normed_merged l kv.1 ((Dict.mem_keys _ _).2 ⟨kv.2, hkv⟩)
      have h2 := keys_normed_merged l k hk
      have : SamePair kv.1.net1 kv.1.net2 k.net1 k.net2 ↔ kv.1 = k := by
        rw [samePair_iff_normed]
        show kv.1.normed = k.normed ↔ _
        rw [h1, h2]
      simp only [pairP, this]
    rw [hcongr, wsum_single hnod]
    unfold Dict.getD
    rw [hv]; rfl
  · rename_i hk
    exact Dict.get?_eq_none.2 hk

/-- **C02** (recording order).  Recording the same contributions in another order yields the same value (or the same
absence of a value) under every key. -/
theorem summary_order_independent (cell : String) (h₁ h₂ : List Op) (hp : h₁.Perm h₂) (s₁ s₂ : ExtractionSummary)
    (hs₁ : (runCell cell h₁).summarize = .ok s₁) (hs₂ : (runCell cell h₂).summarize = .ok s₂) (a b : String) :
    lookup s₁.capacitances a b = lookup s₂.capacitances a b := by
  have hr : ∀ a b, recorded a b h₁ = recorded a b h₂ := fun a b =>
    ((hp.filter _).map _).sum_eq
  have hl : ∀ a b, Lists s₁.capacitances a b ↔ Lists s₂.capacitances a b := fun a b => by
    rw [(summary_conserves_capacitance cell h₁ s₁ hs₁ a b).2, (summary_conserves_capacitance cell h₂ s₂ hs₂ a b).2]
    simp only [hp.mem_iff]
  have hrep : reported s₁.capacitances a b = reported s₂.capacitances a b := by
    rw [(summary_conserves_capacitance cell h₁ s₁ hs₁ a b).1, (summary_conserves_capacitance cell h₂ s₂ hs₂ a b).1, hr]
  obtain ⟨_, -, e₁⟩ := summarize_ok hs₁
  obtain ⟨_, -, e₂⟩ := summarize_ok hs₂
  have hl' := hl a b
  rw [e₁] at hrep hl'
  rw [e₂] at hrep hl'
  rw [lists_iff_of_normed (keys_normed_merged _), lists_iff_of_normed (keys_normed_merged _)] at hl'
  rw [e₁, e₂]
  unfold lookup
  rw [get?_merged_caps, get?_merged_caps, hrep]
  by_cases hord : NetCoupleKey.normed ⟨a, b⟩ = ⟨a, b⟩
  · rw [hord] at hl'
    simp only [hl']
  · rw [if_neg (fun h => hord (keys_normed_merged _ _ h)), if_neg (fun h => hord (keys_normed_merged _ _ h))]

/-- **C02** (cell order).  Visiting the cells in another order yields the same value under every key. -/
theorem summary_cell_order_independent (hs₁ hs₂ : List (String × List Op)) (hp : hs₁.Perm hs₂)
    (hd : (hs₁.map Prod.fst).Nodup) (s₁ s₂ : ExtractionSummary) (ho₁ : summarizeAll (runCells hs₁) = .ok s₁)
    (ho₂ : summarizeAll (runCells hs₂) = .ok s₂) (a b : String) :
    lookup s₁.capacitances a b = lookup s₂.capacitances a b := by
  have hd₂ : (hs₂.map Prod.fst).Nodup := (hp.map _).nodup_iff.1 hd
  have c₁ := summary_conserves_capacitance_all_cells hs₁ hd s₁ ho₁ a b
  have c₂ := summary_conserves_capacitance_all_cells hs₂ hd₂ s₂ ho₂ a b
  have hrep : reported s₁.capacitances a b = reported s₂.capacitances a b := by
    rw [c₁.1, c₂.1]; exact (hp.map _).sum_eq
  have hl' : Lists s₁.capacitances a b ↔ Lists s₂.capacitances a b := by
    rw [c₁.2, c₂.2]; simp only [hp.mem_iff]
  obtain ⟨_, -, e₁⟩ := merged_of_summarizeAll ho₁
  obtain ⟨_, -, e₂⟩ := merged_of_summarizeAll ho₂
  rw [e₁] at hrep hl'
  rw [e₂] at hrep hl'
  rw [lists_iff_of_normed (keys_normed_merged _), lists_iff_of_normed (keys_normed_merged _)] at hl'
  rw [e₁, e₂]
  unfold lookup
  rw [get?_merged_caps, get?_merged_caps, hrep]
  by_cases hord : NetCoupleKey.normed ⟨a, b⟩ = ⟨a, b⟩
  · rw [hord] at hl'
    simp only [hl']
  · rw [if_neg (fun h => hord (keys_normed_merged _ _ h)), if_neg (fun h => hord (keys_normed_merged _ _ h))]

/-! ## C03: canonical keys -/

/-- **C03**.  A merged summary (hence every summary the tool produces) lists every unordered pair at most once, in
alphabetical order — for capacitances and resistances. -/
theorem summary_keys_canonical (l : List ExtractionSummary) (t : Dict NetCoupleKey ℚ)
    (ht : t = (ExtractionSummary.merged l).capacitances ∨ t = (ExtractionSummary.merged l).resistances) :
    (∀ kv ∈ t, kv.1.net1 ≤ kv.1.net2) ∧
    t.Pairwise (fun x y => ¬ SamePair x.1.net1 x.1.net2 y.1.net1 y.1.net2) := by
  have hn : ∀ k ∈ t.keys, k.normed = k := by
    rcases ht with rfl | rfl
    · exact keys_normed_merged l
    · exact keys_normed_merged_res l
  have hd : t.keys.Nodup := by
    rcases ht with rfl | rfl
    · exact nodup_foldl_addNormed (fun s : ExtractionSummary => s.capacitances) l [] (by simp)
    · exact nodup_foldl_addNormed (fun s : ExtractionSummary => s.resistances) l [] (by simp)
  refine ⟨?_, ?_⟩
  · intro kv hkv
    have := hn kv.1 ((Dict.mem_keys _ _).2 ⟨kv.2, hkv⟩)
    rw [← this]; exact normed_le _
  · unfold Dict.keys at hd
    rw [List.nodup_iff_pairwise_ne, List.pairwise_map] at hd
    refine hd.imp_of_mem ?_
    intro x y hx hy hne hs
    have h2 : x.1.normed = y.1.normed := (samePair_iff_normed _ _ _ _).1 hs
    rw [hn x.1 ((Dict.mem_keys _ _).2 ⟨x.2, hx⟩), hn y.1 ((Dict.mem_keys _ _).2 ⟨y.2, hy⟩)] at h2
    exact hne h2

/-- **C03** (merging).  Merging adds: the capacitance reported for a pair by a merged summary is the sum of those
reported by its parts; in particular merging a single summary (or adding an empty one) changes nothing. -/
theorem merged_reports_sum (l : List ExtractionSummary) (a b : String) :
    reported (ExtractionSummary.merged l).capacitances a b = (l.map fun s => reported s.capacitances a b).sum ∧
    reported (ExtractionSummary.merged l).resistances a b = (l.map fun s => reported s.resistances a b).sum := by
  refine ⟨reported_merged l a b, ?_⟩
  simp only [reported_eq_wsum, merged_res]
  rw [wsum_foldl_addNormed (sym_pairP a b) (fun s : ExtractionSummary => s.resistances)]
  simp [wsum]

/-- Non-vacuity of C03: a merge with clashing orientations gives one canonical entry. -/
example : (ExtractionSummary.merged [⟨[(⟨"B", "A"⟩, 1), (⟨"A", "B"⟩, 2)], []⟩]).capacitances
    = [(⟨"A", "B"⟩, 3)] := by decide +kernel

/-! ## C04: resistances -/

private theorem nodeById_get? (n : RNetwork) (i : Nat) :
    ((Dict.ofList (n.nodes.map fun x => (x.nodeId, x))).get? i).map RNode.netName = nodeName? n i := by
  rw [Dict.get?_ofList, ← List.map_reverse]
  unfold nodeName?
  rw [List.find?_map, Option.map_map, Option.map_map]
  rfl

private def elementsOf (n : RNetwork) : List (Option String × Option String × ℚ) :=
  n.elements.map fun e => (nodeName? n e.nodeA, nodeName? n e.nodeB, e.resistance)

private def selectR (a b : String) : Option String × Option String × ℚ → Option ℚ
  | (some x, some y, r) => if SamePair x y a b then some r else none
  | _ => none

private theorem selectR_eq (h : List Op) (a b : String) :
    resistorsBetween h a b = (elements h).filterMap (selectR a b) := rfl

private theorem wsum_elements (n : RNetwork) (a b : String) :
    ∀ (es : List RElement) (d d' : Dict NetCoupleKey ℚ),
      es.foldlM (addElement (Dict.ofList (n.nodes.map fun x => (x.nodeId, x)))) d = .ok d' →
      wsum (pairP a b) d' = wsum (pairP a b) d +
        ((es.map fun e => (nodeName? n e.nodeA, nodeName? n e.nodeB, e.resistance)).filterMap (selectR a b)).sum := by
  intro es
  induction es with
  | nil => intro d d' h; simp [pure, Except.pure] at h; subst h; simp
  | cons e es ih =>
    intro d d' h
    rw [List.foldlM_cons] at h
    unfold addElement at h
    have ha := nodeById_get? n e.nodeA
    have hb := nodeById_get? n e.nodeB
    cases hA : (Dict.ofList (n.nodes.map fun x => (x.nodeId, x))).get? e.nodeA with
    | none => rw [hA] at h; cases h
    | some x =>
      cases hB : (Dict.ofList (n.nodes.map fun x => (x.nodeId, x))).get? e.nodeB with
      | none => rw [hA, hB] at h; cases h
      | some y =>
        rw [hA, hB] at h
        rw [hA] at ha; rw [hB] at hb
        have := ih _ _ h
        rw [this, wsum_upd, (sym_pairP a b).normed]
        simp only [List.map_cons, ← ha, ← hb, Option.map_some, List.filterMap_cons, selectR, pairP, decide_eq_true_eq]
        split <;> simp [*]
        ring

private theorem wsum_networks (a b : String) :
    ∀ (ns : List RNetwork) (d d' : Dict NetCoupleKey ℚ),
      ns.foldlM (fun d n =>
        n.elements.foldlM (addElement (Dict.ofList (n.nodes.map fun x => (x.nodeId, x)))) d) d = .ok d' →
      wsum (pairP a b) d' = wsum (pairP a b) d + ((ns.flatMap elementsOf).filterMap (selectR a b)).sum := by
  intro ns
  induction ns with
  | nil => intro d d' h; simp [pure, Except.pure] at h; subst h; simp
  | cons n ns ih =>
    intro d d' h
    rw [List.foldlM_cons] at h
    cases hx : n.elements.foldlM (addElement (Dict.ofList (n.nodes.map fun x => (x.nodeId, x)))) d with
    | error e => rw [hx] at h; cases h
    | ok d1 =>
      rw [hx] at h
      rw [ih d1 d' h, wsum_elements n a b _ _ _ hx]
      simp only [List.flatMap_cons, List.filterMap_append, List.sum_append, elementsOf]
      ring

private theorem networks_run (h : List Op) (r : CellResults) :
    ((h.foldl CellResults.apply r).networks).flatMap elementsOf = r.networks.flatMap elementsOf ++ elements h := by
  induction h generalizing r with
  | nil => simp [elements]
  | cons op h ih =>
    rw [List.foldl_cons, ih]
    cases op <;>
      simp [CellResults.apply, CellResults.addOverlapCap, CellResults.addSidewallCap, CellResults.addSideoverlapCap,
        elements, elementsOf]

/-- What the summary actually reports for resistances: the arithmetic sum of all elements between the two names. -/
theorem resistance_summary_adds (cell : String) (h : List Op) (s : ExtractionSummary)
    (hs : (runCell cell h).summarize = .ok s) (a b : String) :
    reported s.resistances a b = (resistorsBetween h a b).sum := by
  obtain ⟨res, hres, rfl⟩ := summarize_ok hs
  rw [(merged_reports_sum _ a b).2]
  simp only [reported_eq_wsum, List.map_cons, List.map_nil, List.sum_cons, List.sum_nil]
  have := wsum_networks a b _ _ _ hres
  rw [this]
  have h2 := networks_run h { cellName := cell }
  simp only [List.flatMap_nil, List.nil_append] at h2
  unfold runCell
  rw [h2, selectR_eq]
  simp [wsum]

/-- **C04** (partial).  Whenever exactly one element connects nodes of the two names, the summary reports its
resistance.  Missing with respect to C04: several elements between the same two names, where the code adds
(`resistance_summary_adds`) instead of combining in parallel; see `resistance_summary_fails`. -/
theorem resistance_summary_single_partial (cell : String) (h : List Op) (s : ExtractionSummary)
    (hs : (runCell cell h).summarize = .ok s) (a b : String) (r : ℚ) (h1 : resistorsBetween h a b = [r]) :
    reported s.resistances a b = parallelResistance [r] := by
  rw [resistance_summary_adds cell h s hs a b, h1]
  simp [parallelResistance]

/-- **C04 is violated**: two 2 Ω elements between the same two nodes are reported as 4 Ω, although together they
present 1 Ω. -/
theorem resistance_summary_fails : ∃ (h : List Op) (s : ExtractionSummary),
    (runCell "TOP" h).summarize = .ok s ∧ resistorsBetween h "A" "B" = [2, 2] ∧
    parallelResistance (resistorsBetween h "A" "B") = 1 ∧ reported s.resistances "A" "B" = 4 := by
  refine ⟨[.network ⟨[⟨0, "A"⟩, ⟨1, "B"⟩], [⟨0, 1, 2⟩, ⟨1, 0, 2⟩]⟩], _, rfl, ?_, ?_, ?_⟩ <;> decide +kernel

/-- Summarising fails (`KeyError`) exactly if some element refers to a node id its network does not declare. -/
theorem summarize_fails_iff (cell : String) (h : List Op) :
    (∃ s, (runCell cell h).summarize = .ok s) ↔
      ∀ e ∈ elements h, e.1.isSome ∧ e.2.1.isSome := by
  have key : ∀ (n : RNetwork) (es : List RElement) (d : Dict NetCoupleKey ℚ),
      (∃ d', es.foldlM (addElement (Dict.ofList (n.nodes.map fun x => (x.nodeId, x)))) d = .ok d') ↔
        ∀ e ∈ es, (nodeName? n e.nodeA).isSome ∧ (nodeName? n e.nodeB).isSome := by
    intro n es
    induction es with
    | nil => intro d; simp [pure, Except.pure]
    | cons e es ih =>
      intro d
      rw [List.foldlM_cons]
      unfold addElement
      have ha := nodeById_get? n e.nodeA
      have hb := nodeById_get? n e.nodeB
      cases hA : (Dict.ofList (n.nodes.map fun x => (x.nodeId, x))).get? e.nodeA with
      | none =>
        rw [hA] at ha
        simp only [List.mem_cons, forall_eq_or_imp, ← ha, Option.map_none, Option.isSome_none]
        constructor
        · rintro ⟨_, h⟩; cases h
        · simp
      | some x =>
        cases hB : (Dict.ofList (n.nodes.map fun x => (x.nodeId, x))).get? e.nodeB with
        | none =>
          rw [hB] at hb
          simp only [List.mem_cons, forall_eq_or_imp, ← hb, Option.map_none, Option.isSome_none]
          constructor
          · rintro ⟨_, h⟩; cases h
          · simp
        | some y =>
          rw [hA] at ha; rw [hB] at hb
          simp only [List.mem_cons, forall_eq_or_imp, ← ha, ← hb, Option.map_some, Option.isSome_some, and_self,
            true_and]
          rw [← ih]; rfl
  have key2 : ∀ (ns : List RNetwork) (d : Dict NetCoupleKey ℚ),
      (∃ d', ns.foldlM (fun d n =>
        n.elements.foldlM (addElement (Dict.ofList (n.nodes.map fun x => (x.nodeId, x)))) d) d = .ok d') ↔
        ∀ e ∈ ns.flatMap elementsOf, e.1.isSome ∧ e.2.1.isSome := by
    intro ns
    induction ns with
    | nil => intro d; simp [pure, Except.pure]
    | cons n ns ih =>
      intro d
      rw [List.foldlM_cons]
      have hk := key n n.elements d
      simp only [List.flatMap_cons, List.mem_append, or_imp, forall_and]
      simp only [forall_and] at ih
      cases hx : n.elements.foldlM (addElement (Dict.ofList (n.nodes.map fun x => (x.nodeId, x)))) d with
      | error e =>
        rw [hx] at hk
        simp only [reduceCtorEq, exists_false, false_iff] at hk
        constructor
        · rintro ⟨_, h⟩; cases h
        · intro h
          refine absurd ?_ hk
          intro e he
          exact ⟨h.1.1 _ (List.mem_map_of_mem he), h.2.1 _ (List.mem_map_of_mem he)⟩
      | ok d1 =>
        rw [hx] at hk
        have hk' := hk.1 ⟨d1, rfl⟩
        have hself : (∀ x ∈ elementsOf n, x.1.isSome = true) ∧ (∀ x ∈ elementsOf n, x.2.1.isSome = true) := by
          unfold elementsOf
          simp only [List.mem_map, forall_exists_index, and_imp, forall_apply_eq_imp_iff₂]
          exact ⟨fun e he => (hk' e he).1, fun e he => (hk' e he).2⟩
        have := ih d1
        constructor
        · intro h
          have h3 := this.1 h
          exact ⟨⟨hself.1, h3.1⟩, ⟨hself.2, h3.2⟩⟩
        · intro h
          exact this.2 ⟨h.1.2, h.2.2⟩
  have h2 := networks_run h { cellName := cell }
  simp only [List.flatMap_nil, List.nil_append] at h2
  have h3 := key2 (runCell cell h).networks []
  unfold runCell at h3 ⊢
  rw [h2] at h3
  rw [← h3]
  constructor
  · rintro ⟨s, hs⟩
    obtain ⟨res, hres, -⟩ := summarize_ok hs
    exact ⟨res, hres⟩
  · rintro ⟨d', hd'⟩
    unfold CellResults.summarize summarizeNetworks
    rw [hd']
    exact ⟨_, rfl⟩

/-- Non-vacuity: a network with a declared and an undeclared node. -/
example : (∃ s, (runCell "T" [.network ⟨[⟨0, "A"⟩, ⟨1, "B"⟩], [⟨0, 1, 2⟩]⟩]).summarize = .ok s) ∧
    ¬ ∃ s, (runCell "T" [.network ⟨[⟨0, "A"⟩], [⟨0, 7, 2⟩]⟩]).summarize = .ok s := by
  constructor
  · exact ⟨_, rfl⟩
  · rw [summarize_fails_iff]
    intro h
    exact absurd (h _ (List.mem_cons_self ..)).2 (by decide)

/-- Summarising all cells succeeds exactly if summarising each of them does. -/
theorem summarize_all_fails_iff (hs : List (String × List Op)) (hd : (hs.map Prod.fst).Nodup) :
    (∃ s, summarizeAll (runCells hs) = .ok s) ↔
      ∀ nh ∈ hs, ∀ e ∈ elements nh.2, e.1.isSome ∧ e.2.1.isSome := by
  have hv : (runCells hs).values = hs.map fun nh => runCell nh.1 nh.2 := by
    rw [runCells_eq hs hd]; simp [Dict.values]
  have hm : (∃ s, summarizeAll (runCells hs) = .ok s) ↔
      ∃ r, (hs.map fun nh => runCell nh.1 nh.2).mapM CellResults.summarize = .ok r := by
    unfold summarizeAll
    rw [hv]
    cases (hs.map fun nh => runCell nh.1 nh.2).mapM CellResults.summarize with
    | ok r => exact ⟨fun _ => ⟨_, rfl⟩, fun _ => ⟨_, rfl⟩⟩
    | error e =>
      constructor
      · rintro ⟨_, h⟩; cases h
      · rintro ⟨_, h⟩; cases h
  rw [hm]
  clear hm hv hd
  induction hs with
  | nil => simp [pure, Except.pure]
  | cons nh hs ih =>
    rw [List.forall_mem_cons]
    refine Iff.trans ?_ (Iff.and (summarize_fails_iff nh.1 nh.2) ih)
    simp only [List.map_cons, Exc.mapM_ok]
    constructor
    · rintro ⟨r, hr⟩
      cases hr with
      | cons h1 h2 => exact ⟨⟨_, h1⟩, _, h2⟩
    · rintro ⟨⟨s, h1⟩, r, h2⟩
      exact ⟨s :: r, .cons h1 h2⟩

/-- **C02** (success). Whether there is a summary does not depend on the order of the recordings either. -/
theorem summary_exists_in_any_order (cell : String) (h₁ h₂ : List Op) (hp : h₁.Perm h₂) :
    (∃ s, (runCell cell h₁).summarize = .ok s) ↔ ∃ s, (runCell cell h₂).summarize = .ok s := by
  rw [summarize_fails_iff, summarize_fails_iff]
  unfold elements
  simp only [(hp.flatMap_right _).mem_iff]

/-- **C02** (success). Whether there is a summary of all cells does not depend on the order of the cells. -/
theorem summary_exists_in_any_cell_order (hs₁ hs₂ : List (String × List Op)) (hp : hs₁.Perm hs₂)
    (hd : (hs₁.map Prod.fst).Nodup) :
    (∃ s, summarizeAll (runCells hs₁) = .ok s) ↔ ∃ s, summarizeAll (runCells hs₂) = .ok s := by
  rw [summarize_all_fails_iff hs₁ hd, summarize_all_fails_iff hs₂ ((hp.map _).nodup_iff.1 hd)]
  simp only [hp.mem_iff]

end Verif.Summary
