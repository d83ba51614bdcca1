import Verif.Summary.Props

/-!
# Summaries of the same recordings in another order have the same entries (C117)
-/

namespace Verif.Summary

/-! ## Specification -/

/-- Two runs of the extraction that record the same: the cells come in another order, and in each cell the recordings
come in another order. -/
def SameRecordings (hs₁ hs₂ : List (String × List Op)) : Prop :=
  ∃ hs, hs₁.Perm hs ∧ List.Forall₂ (fun x y => x.1 = y.1 ∧ x.2.Perm y.2) hs hs₂

/-! ## Resistances of all cells -/

private theorem node_get? (n : RNetwork) (i : Nat) :
    ((Dict.ofList (n.nodes.map fun x => (x.nodeId, x))).get? i).map RNode.netName = nodeName? n i := by
  rw [Dict.get?_ofList, ← List.map_reverse]
  unfold nodeName?
  rw [List.find?_map, Option.map_map, Option.map_map]
  rfl

private def elems (n : RNetwork) : List (Option String × Option String × ℚ) :=
  n.elements.map fun e => (nodeName? n e.nodeA, nodeName? n e.nodeB, e.resistance)

private def Joins (k : NetCoupleKey) (e : Option String × Option String × ℚ) : Prop :=
  ∃ x y, e.1 = some x ∧ e.2.1 = some y ∧ NetCoupleKey.normed ⟨x, y⟩ = k

private theorem keys_elements (n : RNetwork) (k : NetCoupleKey) :
    ∀ (es : List RElement) (d d' : Dict NetCoupleKey ℚ),
      es.foldlM (addElement (Dict.ofList (n.nodes.map fun x => (x.nodeId, x)))) d = .ok d' →
      (k ∈ d'.keys ↔ k ∈ d.keys ∨
        ∃ e ∈ es.map fun e => (nodeName? n e.nodeA, nodeName? n e.nodeB, e.resistance), Joins k e) := by
  intro es
  induction es with
  | nil => intro d d' h; simp [pure, Except.pure] at h; subst h; simp
  | cons e es ih =>
    intro d d' h
    rw [List.foldlM_cons] at h
    unfold addElement at h
    have ha := node_get? n e.nodeA
    have hb := node_get? n e.nodeB
    cases hA : (Dict.ofList (n.nodes.map fun x => (x.nodeId, x))).get? e.nodeA with
    | none => rw [hA] at h; cases h
    | some x =>
      cases hB : (Dict.ofList (n.nodes.map fun x => (x.nodeId, x))).get? e.nodeB with
      | none => rw [hA, hB] at h; cases h
      | some y =>
        rw [hA, hB] at h
        rw [hA] at ha; rw [hB] at hb
        rw [ih _ _ h, Dict.mem_keys_upd]
        simp only [List.map_cons, ← ha, ← hb, Option.map_some, List.mem_cons, exists_eq_or_imp]
        have : Joins k (some x.netName, some y.netName, e.resistance) ↔
            k = NetCoupleKey.normed ⟨x.netName, y.netName⟩ := by
          unfold Joins
          constructor
          · rintro ⟨_, _, h1, h2, h3⟩
            simp only [Option.some.injEq] at h1 h2
            rw [h1, h2, h3]
          · intro h; exact ⟨_, _, rfl, rfl, h.symm⟩
        rw [this]
        tauto

private theorem keys_networks (k : NetCoupleKey) :
    ∀ (ns : List RNetwork) (d d' : Dict NetCoupleKey ℚ),
      ns.foldlM (fun d n =>
        n.elements.foldlM (addElement (Dict.ofList (n.nodes.map fun x => (x.nodeId, x)))) d) d = .ok d' →
      (k ∈ d'.keys ↔ k ∈ d.keys ∨ ∃ e ∈ ns.flatMap elems, Joins k e) := by
  intro ns
  induction ns with
  | nil => intro d d' h; simp [pure, Except.pure] at h; subst h; simp
  | cons n ns ih =>
    intro d d' h
    rw [List.foldlM_cons] at h
    cases hx : n.elements.foldlM (addElement (Dict.ofList (n.nodes.map fun x => (x.nodeId, x)))) d with
    | error e => rw [hx] at h; cases h
    | ok d1 =>
      rw [hx] at h
      rw [ih d1 d' h, keys_elements n k _ _ _ hx]
      simp only [List.flatMap_cons, List.mem_append, or_and_right, exists_or, elems, or_assoc]

private theorem networks_run' (h : List Op) (r : CellResults) :
    ((h.foldl CellResults.apply r).networks).flatMap elems = r.networks.flatMap elems ++ elements h := by
  induction h generalizing r with
  | nil => simp [elements]
  | cons op h ih =>
    rw [List.foldl_cons, ih]
    cases op <;>
      simp [CellResults.apply, CellResults.addOverlapCap, CellResults.addSidewallCap, CellResults.addSideoverlapCap,
        elements, elems]

private theorem merged_res_keys (l : List ExtractionSummary) (k : NetCoupleKey) :
    k ∈ (ExtractionSummary.merged l).resistances.keys ↔ ∃ s ∈ l, ∃ k' ∈ s.resistances.keys, k'.normed = k := by
  show k ∈ (l.foldl (fun d s => addNormed d s.resistances) []).keys ↔ _
  rw [keys_foldl_addNormed (fun s : ExtractionSummary => s.resistances)]
  simp

private theorem lists_iff {t : Dict NetCoupleKey ℚ} (hn : ∀ k ∈ t.keys, k.normed = k) (a b : String) :
    Lists t a b ↔ NetCoupleKey.normed ⟨a, b⟩ ∈ t.keys := by
  unfold Lists
  constructor
  · rintro ⟨⟨k, v⟩, hm, hs⟩
    have hk : k ∈ t.keys := (Dict.mem_keys _ _).2 ⟨v, hm⟩
    have h2 : k.normed = NetCoupleKey.normed ⟨a, b⟩ := (samePair_iff_normed k.net1 k.net2 a b).1 hs
    rw [hn k hk] at h2
    rw [← h2]; exact hk
  · intro h
    obtain ⟨v, hv⟩ := (Dict.mem_keys _ _).1 h
    refine ⟨(_, v), hv, ?_⟩
    rw [samePair_iff_normed]
    exact normed_normed _

private theorem joins_between (h : List Op) (a b : String) :
    (∃ e ∈ elements h, Joins (NetCoupleKey.normed ⟨a, b⟩) e) ↔ resistorsBetween h a b ≠ [] := by
  unfold resistorsBetween
  rw [ne_eq, List.filterMap_eq_nil_iff]
  push Not
  refine exists_congr fun e => and_congr_right fun _ => ?_
  obtain ⟨x, y, r⟩ := e
  unfold Joins
  cases x with
  | none => simp
  | some x =>
    cases y with
    | none => simp
    | some y =>
      simp only [Option.some.injEq]
      rw [show (∃ x_1 y_1, x = x_1 ∧ y = y_1 ∧ NetCoupleKey.normed ⟨x_1, y_1⟩ = NetCoupleKey.normed ⟨a, b⟩) ↔
        SamePair x y a b from ?_]
      · split <;> simp [*]
      · rw [samePair_iff_normed]
        constructor
        · rintro ⟨_, _, rfl, rfl, h⟩; exact h
        · intro h; exact ⟨_, _, rfl, rfl, h⟩

/-- A pair of nets is listed in the resistances of a cell iff an element joins nodes of these names. -/
theorem resistance_listed (cell : String) (h : List Op) (s : ExtractionSummary)
    (hs : (runCell cell h).summarize = .ok s) (a b : String) :
    Lists s.resistances a b ↔ resistorsBetween h a b ≠ [] := by
  obtain ⟨res, hres, rfl⟩ := summarize_ok hs
  have hk : ∀ k ∈ (ExtractionSummary.merged
      [⟨summarizeTable (fun k => ⟨k.netBot, k.netTop⟩) OverlapCap.capValue (runCell cell h).overlapTable, []⟩,
       ⟨summarizeTable (fun k => ⟨k.net1, k.net2⟩) SidewallCap.capValue (runCell cell h).sidewallTable, []⟩,
       ⟨summarizeTable (fun k => ⟨k.netInside, k.netOutside⟩) SideOverlapCap.capValue (runCell cell h).sideoverlapTable, []⟩,
       ⟨[], res⟩]).resistances.keys, k.normed = k := by
    intro k hk
    obtain ⟨s, -, k', -, rfl⟩ := (merged_res_keys _ _).1 hk
    exact normed_normed _
  rw [lists_iff hk, merged_res_keys]
  simp only [List.mem_cons, exists_eq_or_imp, List.not_mem_nil, false_and, exists_false, or_false, Dict.keys_nil,
    false_or, exists_eq_left]
  rw [← joins_between]
  have h1 : ∀ k, k ∈ res.keys ↔ ∃ e ∈ elements h, Joins k e := by
    intro k
    have := keys_networks k _ _ _ hres
    simp only [Dict.keys_nil, List.not_mem_nil, false_or] at this
    rw [this]
    have h2 := networks_run' h { cellName := cell }
    simp only [List.flatMap_nil, List.nil_append] at h2
    unfold runCell
    rw [h2]
  constructor
  · rintro ⟨k', hk', he⟩
    obtain ⟨e, hm, x, y, e1, e2, e3⟩ := (h1 k').1 hk'
    refine ⟨e, hm, x, y, e1, e2, ?_⟩
    rw [← he, ← e3, normed_normed]
  · intro h
    exact ⟨_, (h1 _).2 h, normed_normed _⟩

/-- Resistances of all cells: the sum over the cells, listed iff some cell has an element between the nets. -/
theorem resistance_all_cells (hs : List (String × List Op)) (hd : (hs.map Prod.fst).Nodup)
    (s : ExtractionSummary) (hok : summarizeAll (runCells hs) = .ok s) (a b : String) :
    reported s.resistances a b = (hs.map fun nh => (resistorsBetween nh.2 a b).sum).sum ∧
    (Lists s.resistances a b ↔ ∃ nh ∈ hs, resistorsBetween nh.2 a b ≠ []) := by
  obtain ⟨subs, hsubs, rfl⟩ := merged_of_summarizeAll hok
  rw [runCells_eq hs hd, Exc.mapM_ok] at hsubs
  simp only [Dict.values, List.map_map] at hsubs
  rw [List.forall₂_map_left_iff] at hsubs
  refine ⟨?_, ?_⟩
  · rw [(merged_reports_sum _ a b).2]
    clear hok hd
    induction hsubs with
    | nil => simp
    | cons hx _ ih =>
      simp only [List.map_cons, List.sum_cons, ih]
      rw [resistance_summary_adds _ _ _ hx a b]
  · rw [lists_iff (fun k hk => by
      obtain ⟨s, -, k', -, rfl⟩ := (merged_res_keys _ _).1 hk
      exact normed_normed _), merged_res_keys]
    clear hok hd
    induction hsubs with
    | nil => simp
    | @cons x y _ _ hx _ ih =>
      simp only [List.mem_cons, exists_eq_or_imp, ih]
      refine or_congr ?_ Iff.rfl
      rw [← resistance_listed _ _ _ hx a b]
      have hn : ∀ k ∈ y.resistances.keys, k.normed = k := by
        obtain ⟨res, -, rfl⟩ := summarize_ok hx
        intro k hk
        obtain ⟨s, -, k', -, rfl⟩ := (merged_res_keys _ _).1 hk
        exact normed_normed _
      rw [lists_iff hn]
      constructor
      · rintro ⟨k', hk', he⟩; rw [← he, hn k' hk']; exact hk'
      · intro h; exact ⟨_, h, normed_normed _⟩

/-! ## Equal content -/

private theorem mem_iff_reported {t : Dict NetCoupleKey ℚ} (hle : ∀ kv ∈ t, kv.1.net1 ≤ kv.1.net2)
    (hp : t.Pairwise (fun x y => ¬ SamePair x.1.net1 x.1.net2 y.1.net1 y.1.net2)) (k : NetCoupleKey) (v : ℚ) :
    (k, v) ∈ t ↔ k.net1 ≤ k.net2 ∧ Lists t k.net1 k.net2 ∧ v = reported t k.net1 k.net2 := by
  have hin : ∀ v, (k, v) ∈ t → v = reported t k.net1 k.net2 := by
    intro v
    clear hle
    induction t with
    | nil => simp
    | cons x t ih =>
      intro hm
      rw [List.pairwise_cons] at hp
      rcases List.mem_cons.1 hm with rfl | hm
      · unfold reported
        have : t.filter (fun kv => SamePair kv.1.net1 kv.1.net2 k.net1 k.net2) = [] := by
          rw [List.filter_eq_nil_iff]
          intro y hy
          have := hp.1 y hy
          simp only [decide_eq_true_eq]
          intro h
          apply this
          unfold SamePair at h ⊢
          tauto
        rw [List.filter_cons, this]
        simp [SamePair]
      · rw [ih hp.2 hm]
        unfold reported
        rw [List.filter_cons, if_neg]
        simpa using hp.1 _ hm
  constructor
  · intro hm
    exact ⟨hle _ hm, ⟨_, hm, Or.inl ⟨rfl, rfl⟩⟩, hin v hm⟩
  · rintro ⟨h1, ⟨kv, hm, hs⟩, rfl⟩
    have hk : kv.1 = k := by
      have h2 := (samePair_iff_normed _ _ _ _).1 hs
      have h3 : kv.1.normed = k.normed := h2
      rwa [normed_of_le (hle _ hm), normed_of_le h1] at h3
    obtain ⟨k', v'⟩ := kv
    cases hk
    rw [← hin v' hm]
    exact hm

private theorem nodup_of_pairs {t : Dict NetCoupleKey ℚ}
    (hp : t.Pairwise (fun x y => ¬ SamePair x.1.net1 x.1.net2 y.1.net1 y.1.net2)) : t.Nodup := by
  refine List.Pairwise.imp ?_ hp
  rintro x y h rfl
  exact h (Or.inl ⟨rfl, rfl⟩)

private theorem perm_of_same {t t' : Dict NetCoupleKey ℚ} (hle : ∀ kv ∈ t, kv.1.net1 ≤ kv.1.net2)
    (hp : t.Pairwise (fun x y => ¬ SamePair x.1.net1 x.1.net2 y.1.net1 y.1.net2))
    (hle' : ∀ kv ∈ t', kv.1.net1 ≤ kv.1.net2)
    (hp' : t'.Pairwise (fun x y => ¬ SamePair x.1.net1 x.1.net2 y.1.net1 y.1.net2))
    (hr : ∀ a b, reported t a b = reported t' a b) (hl : ∀ a b, Lists t a b ↔ Lists t' a b) : t.Perm t' := by
  rw [List.perm_ext_iff_of_nodup (nodup_of_pairs hp) (nodup_of_pairs hp')]
  rintro ⟨k, v⟩
  rw [mem_iff_reported hle hp, mem_iff_reported hle' hp', hr, hl]

private theorem recorded_perm {h h' : List Op} (hp : h.Perm h') (a b : String) : recorded a b h = recorded a b h' :=
  ((hp.filter _).map _).sum_eq

private theorem between_perm {h h' : List Op} (hp : h.Perm h') (a b : String) :
    (resistorsBetween h a b).Perm (resistorsBetween h' a b) := by
  unfold resistorsBetween elements
  exact (hp.flatMap_right _).filterMap _

private theorem elements_perm {h h' : List Op} (hp : h.Perm h') : (elements h).Perm (elements h') :=
  hp.flatMap_right _

private theorem names_same {hs₁ hs₂ : List (String × List Op)} (h : SameRecordings hs₁ hs₂) :
    (hs₁.map Prod.fst).Perm (hs₂.map Prod.fst) := by
  obtain ⟨hs, hp, hf⟩ := h
  refine (hp.map _).trans ?_
  have : hs.map Prod.fst = hs₂.map Prod.fst := by
    clear hp
    induction hf with
    | nil => rfl
    | cons hx _ ih => rw [List.map_cons, List.map_cons, hx.1, ih]
  rw [this]

private theorem sum_same {hs₁ hs₂ : List (String × List Op)} (h : SameRecordings hs₁ hs₂) (f : List Op → ℚ)
    (hf : ∀ x y : List Op, x.Perm y → f x = f y) :
    (hs₁.map fun nh => f nh.2).sum = (hs₂.map fun nh => f nh.2).sum := by
  obtain ⟨hs, hp, hF⟩ := h
  rw [(hp.map _).sum_eq]
  clear hp
  induction hF with
  | nil => rfl
  | cons hx _ ih => rw [List.map_cons, List.map_cons, List.sum_cons, List.sum_cons, ih, hf _ _ hx.2]

private theorem exists_same {hs₁ hs₂ : List (String × List Op)} (h : SameRecordings hs₁ hs₂) (P : List Op → Prop)
    (hP : ∀ x y : List Op, x.Perm y → (P x ↔ P y)) : (∃ nh ∈ hs₁, P nh.2) ↔ ∃ nh ∈ hs₂, P nh.2 := by
  obtain ⟨hs, hp, hF⟩ := h
  simp only [hp.mem_iff]
  clear hp
  induction hF with
  | nil => simp
  | cons hx _ ih => simp only [List.mem_cons, exists_eq_or_imp, ih, hP _ _ hx.2]

/-- Two runs that record the same have summaries with the same entries, or both have none. -/
theorem same_entries (hs₁ hs₂ : List (String × List Op)) (hd : (hs₁.map Prod.fst).Nodup)
    (h : SameRecordings hs₁ hs₂) (s₁ : ExtractionSummary) (h₁ : summarizeAll (runCells hs₁) = .ok s₁) :
    ∃ s₂, summarizeAll (runCells hs₂) = .ok s₂ ∧ s₁.capacitances.Perm s₂.capacitances ∧
      s₁.resistances.Perm s₂.resistances := by
  have hd₂ := (names_same h).nodup_iff.1 hd
  obtain ⟨s₂, h₂⟩ : ∃ s₂, summarizeAll (runCells hs₂) = .ok s₂ := by
    have := (summarize_all_fails_iff hs₁ hd).1 ⟨_, h₁⟩
    rw [summarize_all_fails_iff hs₂ hd₂]
    by_contra hc
    push Not at hc
    obtain ⟨nh, hnh, e, he, hx⟩ := hc
    obtain ⟨nh', hnh', e', he', hx'⟩ := (exists_same h
      (fun l => ∃ e ∈ elements l, e.1.isSome → ¬ e.2.1.isSome) (fun x y hp => by
        simp only [(elements_perm hp).mem_iff])).2 ⟨nh, hnh, e, he, hx⟩
    exact hx' (this nh' hnh' e' he').1 (this nh' hnh' e' he').2
  refine ⟨s₂, h₂, ?_, ?_⟩
  · obtain ⟨l₁, -, e₁⟩ := merged_of_summarizeAll h₁
    obtain ⟨l₂, -, e₂⟩ := merged_of_summarizeAll h₂
    have c₁ := summary_keys_canonical l₁ s₁.capacitances (Or.inl (by rw [e₁]))
    have c₂ := summary_keys_canonical l₂ s₂.capacitances (Or.inl (by rw [e₂]))
    refine perm_of_same c₁.1 c₁.2 c₂.1 c₂.2 (fun a b => ?_) fun a b => ?_
    · rw [(summary_conserves_capacitance_all_cells hs₁ hd s₁ h₁ a b).1,
        (summary_conserves_capacitance_all_cells hs₂ hd₂ s₂ h₂ a b).1]
      exact sum_same h (recorded a b) fun x y hp => recorded_perm hp a b
    · rw [(summary_conserves_capacitance_all_cells hs₁ hd s₁ h₁ a b).2,
        (summary_conserves_capacitance_all_cells hs₂ hd₂ s₂ h₂ a b).2]
      exact exists_same h (fun l => ∃ op ∈ l, op.Couples a b) fun x y hp => by simp only [hp.mem_iff]
  · obtain ⟨l₁, -, e₁⟩ := merged_of_summarizeAll h₁
    obtain ⟨l₂, -, e₂⟩ := merged_of_summarizeAll h₂
    have c₁ := summary_keys_canonical l₁ s₁.resistances (Or.inr (by rw [e₁]))
    have c₂ := summary_keys_canonical l₂ s₂.resistances (Or.inr (by rw [e₂]))
    refine perm_of_same c₁.1 c₁.2 c₂.1 c₂.2 (fun a b => ?_) fun a b => ?_
    · rw [(resistance_all_cells hs₁ hd s₁ h₁ a b).1, (resistance_all_cells hs₂ hd₂ s₂ h₂ a b).1]
      exact sum_same h (fun l => (resistorsBetween l a b).sum) fun x y hp => (between_perm hp a b).sum_eq
    · rw [(resistance_all_cells hs₁ hd s₁ h₁ a b).2, (resistance_all_cells hs₂ hd₂ s₂ h₂ a b).2]
      exact exists_same h (fun l => resistorsBetween l a b ≠ []) fun x y hp => by
        rw [ne_eq, ne_eq, ← List.length_eq_zero_iff, ← List.length_eq_zero_iff, (between_perm hp a b).length_eq]

end Verif.Summary
