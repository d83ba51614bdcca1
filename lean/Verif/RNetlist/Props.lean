import Verif.RNetlist.Model
import Verif.RRequest.Props
import Verif.PexMode.Props
import Verif.Rcx25Netlist.Props
import Verif.Summary.Order
import Mathlib.Logic.Relation

/-!
# Resistors of the netlist and the nets of the layout (C122)
-/

namespace Verif.RNetlist

open RRequest (RexInput KNode KElement ResNetwork Request NetworkFor NodeFor prepareRequest rexInput Config)
open TechInfo (Tech)
open Lvs (DbLayer DbDevice Env prepare)
open Shapes (Pt)
open Netlist Summary
open Rcx25Netlist (netAt)

/-! ## Specification -/

/-- The node of the netlist that stands for node `k` of the network of net `n`: the net itself if the node is a port, a
node with the name that KLayout gives to the node if it is an inner node. -/
def StandsFor (n : String) (k : KNode) (s : String) : Prop :=
  (k.type = .internal ∧ s = k.name) ∨ (k.type ≠ .internal ∧ s = n)

/-- An element of the network `out` of net `n` joins the nodes of the netlist `a` and `b`. -/
def ElementJoins (n : String) (out : List KNode × List KElement) (a b : String) : Prop :=
  ∃ e ∈ out.2, ∃ ka ∈ out.1, ∃ kb ∈ out.1, ka.id = e.a ∧ kb.id = e.b ∧ StandsFor n ka a ∧ StandsFor n kb b

/-- An extracted resistor of the circuit has its ends at the nets with the numbers `i` and `j`. -/
def Bridge (c : Circuit) (i j : Nat) : Prop :=
  ∃ d ∈ c.devices, d.kind = .resistor ∧ d.clsName = "R" ∧
    ((d.terms.get? "A" = some i ∧ d.terms.get? "B" = some j) ∨ (d.terms.get? "A" = some j ∧ d.terms.get? "B" = some i))

/-- The names of inner nodes are proper: inner nodes of different nets have different names, and no inner node has the name
of a net of the request. -/
structure ProperNames (q : Request) (out : RRequest.NetRequest → List KNode × List KElement) : Prop where
  apart : ∀ e ∈ q.nets, ∀ e' ∈ q.nets, ∀ k ∈ (out e.2).1, ∀ k' ∈ (out e'.2).1,
    k.type = .internal → k'.type = .internal → k.name = k'.name → e.1 = e'.1
  noNet : ∀ e ∈ q.nets, ∀ e' ∈ q.nets, ∀ k ∈ (out e.2).1, k.type = .internal → k.name ≠ e'.1

/-! ## From the request to the summary -/

private theorem find_last {α : Type} (p : α → Bool) (l : List α) (x : α) (hx : x ∈ l) (hp : p x = true)
    (hu : ∀ y ∈ l, p y = true → y = x) : l.reverse.find? p = some x := by
  cases h : l.reverse.find? p with
  | none =>
    rw [List.find?_eq_none] at h
    exact absurd hp (h x (List.mem_reverse.2 hx))
  | some y =>
    rw [hu y (List.mem_reverse.1 (List.mem_of_find?_eq_some h)) (List.find?_some h)]

/-- The name that the summary gives to a node of a network. -/
theorem nodeName_message {tech : RRequest.RTech} {n : String} {out : List KNode × List KElement} {R : ResNetwork}
    (h : NetworkFor tech n out R) (hid : (out.1.map (·.id)).Nodup) (i : Nat) (s : String) :
    nodeName? (message R) i = some s ↔ ∃ k ∈ out.1, k.id = i ∧ StandsFor n k s := by
  obtain ⟨-, hF, -⟩ := h
  obtain ⟨ks, es⟩ := out
  simp only at hF hid ⊢
  have hstand : ∀ k r, NodeFor tech n k r → ∀ s, r.net = s ↔ StandsFor n k s := by
    rintro k r ⟨_, _, _, h1, h2⟩ s
    unfold StandsFor
    by_cases ht : k.type = .internal
    · rw [h1 ht]; simp [ht, eq_comm]
    · rw [h2 ht]; simp [ht, eq_comm]
  have hids : R.nodes.map (·.id) = ks.map (·.id) := by
    generalize R.nodes = rs at hF
    clear hid
    induction hF with
    | nil => rfl
    | cons h _ ih => rw [List.map_cons, List.map_cons, ih, h.1]
  unfold nodeName? message
  simp only
  rw [Option.map_eq_some_iff]
  constructor
  · rintro ⟨x, hx, rfl⟩
    have hm := List.mem_reverse.1 (List.mem_of_find?_eq_some hx)
    have hp := List.find?_some hx
    simp only [decide_eq_true_eq] at hp
    obtain ⟨r, hr, rfl⟩ := List.mem_map.1 hm
    obtain ⟨j, hj, rfl⟩ := List.getElem_of_mem hr
    have hl := hF.length_eq
    have := (List.forall₂_iff_get.1 hF).2 j (by omega) hj
    simp only [List.get_eq_getElem] at this
    refine ⟨ks[j]'(by omega), List.getElem_mem _, ?_, (hstand _ _ this _).1 rfl⟩
    rw [← this.1]; exact hp
  · rintro ⟨k, hk, rfl, hs⟩
    obtain ⟨j, hj, rfl⟩ := List.getElem_of_mem hk
    have hl := hF.length_eq
    have hj' : j < R.nodes.length := by omega
    have := (List.forall₂_iff_get.1 hF).2 j hj hj'
    simp only [List.get_eq_getElem] at this
    refine ⟨⟨R.nodes[j].id, R.nodes[j].net⟩, ?_, (hstand _ _ this _).2 hs⟩
    refine find_last _ _ _ (List.mem_map.2 ⟨_, List.getElem_mem _, rfl⟩) (by simpa using this.1) ?_
    intro y hy hp
    obtain ⟨r, hr, rfl⟩ := List.mem_map.1 hy
    obtain ⟨j2, hj2, rfl⟩ := List.getElem_of_mem hr
    simp only [decide_eq_true_eq] at hp
    rw [← this.1] at hp
    have hnd : (R.nodes.map (·.id)).Nodup := by rw [hids]; exact hid
    have : j2 = j := by
      have := (List.Nodup.getElem_inj_iff hnd (i := j2) (j := j) (hi := by simpa using hj2) (hj := by simpa using hj')).1
        (by simpa using hp)
      exact this
    subst this; rfl

/-- The history that a run with resistances leaves in the results. -/
theorem run_ok {cf : String → String} {mode : PexMode.Mode} (hmode : mode = .R ∨ mode = .RC) {cell : String}
    {overlap fringe : Except String (List PexMode.CapOp)} {norm : List Pt → List Pt}
    {rex : RexInput → List KNode × List KElement} {q : Request} {c c' : Circuit} {bb : Bool}
    (h : run cf mode cell overlap fringe norm rex q c bb = .ok c') :
    ∃ (res : List ResNetwork) (caps : List PexMode.CapOp), RRequest.extract norm rex q = .ok res ∧
      Rcx25Netlist.expand cf c (runCells [(cell, caps.map PexMode.recording ++ (res.map message).map Op.network)]) bb = .ok c' := by
  unfold run at h
  cases hr : RRequest.extract norm rex q with
  | error e =>
    rw [hr] at h
    rcases hmode with rfl | rfl
    · cases h
    · cases overlap <;> cases fringe <;> cases h
  | ok res =>
    rw [hr] at h
    have key : ∀ ov fr, PexMode.extract mode cell (.ok ov) (.ok fr) (.ok (res.map message)) =
        .ok (runCells [(cell, (PexMode.wantedCaps mode (ov ++ fr)).map PexMode.recording ++ (res.map message).map Op.network)]) := by
      intro ov fr
      rw [PexMode.mode_selects]
      have : PexMode.wantedNetworks mode (res.map message) = res.map message := by
        unfold PexMode.wantedNetworks
        rcases hmode with rfl | rfl <;> simp
      rw [this]; rfl
    rcases hmode with rfl | rfl
    · rw [(PexMode.unselected_ignored cell overlap (.ok []) fringe (.ok []) _ (.ok [])).1] at h
      have := key [] []
      change (PexMode.extract .R cell (.ok []) (.ok []) (.ok (res.map message))).bind _ = _ at h
      rw [this] at h
      exact ⟨res, _, rfl, h⟩
    · cases overlap with
      | error e => cases h
      | ok ov =>
        cases fringe with
        | error e => cases h
        | ok fr =>
          have := key ov fr
          change (PexMode.extract .RC cell (.ok ov) (.ok fr) (.ok (res.map message))).bind _ = _ at h
          rw [this] at h
          exact ⟨res, _, rfl, h⟩

theorem between_iff (caps : List PexMode.CapOp) (ns : List RNetwork) (a b : String) :
    resistorsBetween (caps.map PexMode.recording ++ ns.map Op.network) a b ≠ [] ↔
      ∃ n ∈ ns, ∃ e ∈ n.elements, ∃ x y, nodeName? n e.nodeA = some x ∧ nodeName? n e.nodeB = some y ∧
        SamePair x y a b := by
  have h0 : elements (caps.map PexMode.recording) = [] := by
    induction caps with
    | nil => rfl
    | cons o caps ih => cases o <;> simpa [elements, PexMode.recording] using ih
  have h1 : elements (caps.map PexMode.recording ++ ns.map Op.network) =
      ns.flatMap fun n => n.elements.map fun e => (nodeName? n e.nodeA, nodeName? n e.nodeB, e.resistance) := by
    unfold elements at h0 ⊢
    rw [List.flatMap_append, h0, List.nil_append, List.flatMap_map]
  unfold resistorsBetween
  rw [h1, ne_eq, List.filterMap_eq_nil_iff]
  push Not
  constructor
  · rintro ⟨t, ht, hne⟩
    obtain ⟨n, hn, ht⟩ := List.mem_flatMap.1 ht
    obtain ⟨e, he, rfl⟩ := List.mem_map.1 ht
    refine ⟨n, hn, e, he, ?_⟩
    cases hx : nodeName? n e.nodeA with
    | none => rw [hx] at hne; simp at hne
    | some x =>
      cases hy : nodeName? n e.nodeB with
      | none => rw [hx, hy] at hne; simp at hne
      | some y =>
        refine ⟨x, y, rfl, rfl, ?_⟩
        rw [hx, hy] at hne
        by_contra hs
        simp [hs] at hne
  · rintro ⟨n, hn, e, he, x, y, hx, hy, hs⟩
    refine ⟨_, List.mem_flatMap.2 ⟨n, hn, List.mem_map.2 ⟨e, he, rfl⟩⟩, ?_⟩
    rw [hx, hy]
    simp [hs]

/-- The ends of an extracted resistor are nets of the circuit. -/
private theorem resistor_ends {cf : String → String} {cells : Dict String CellResults} {c c' : Circuit} {bb : Bool}
    (hno : ∀ d ∈ c.devices, d.clsName ≠ "R") (h : Rcx25Netlist.expand cf c cells bb = .ok c') (d : Device)
    (hdm : d ∈ c'.devices) (hcls : d.clsName = "R") : ∃ a b, netAt c' d "A" = some a ∧ netAt c' d "B" = some b := by
  cases hsum : summarizeAll cells with
  | error e =>
    obtain ⟨e', he'⟩ := (Rcx25Netlist.expand_fails_iff cf c _ bb).2 ⟨e, hsum⟩
    rw [he'] at h; cases h
  | ok s =>
    obtain ⟨c'', kept, cs, rs, new, e1, e2, e3, ⟨-, citems, -, hC⟩, ⟨-, items, -, hR⟩, -⟩ :=
      Rcx25Netlist.netlist_contains_the_parasitics_partial cf c _ bb s hsum
    rw [e1] at h; cases h
    rw [e2, List.mem_append, List.mem_append] at hdm
    rcases hdm with (hk | hk) | hk
    · exfalso
      refine hno d ?_ hcls
      cases bb with
      | true => simp only [if_true] at e3; rwa [← e3]
      | false =>
        simp only [Bool.false_eq_true, if_false] at e3
        rw [e3] at hk
        exact (List.mem_filter.1 hk).1
    · exfalso
      obtain ⟨i, hi, rfl⟩ := List.mem_iff_getElem.1 hk
      have := (hC.get hi (by rw [← hC.length_eq]; exact hi)).cls
      simp only [List.get_eq_getElem] at this
      rw [this] at hcls
      exact absurd hcls (by decide)
    · obtain ⟨i, hi, rfl⟩ := List.mem_iff_getElem.1 hk
      have hr := hR.get hi (by rw [← hR.length_eq]; exact hi)
      exact ⟨_, _, hr.endA, hr.endB⟩

/-! ## C122 -/

/-- **C122, the resistors.** The netlist has a resistor between nodes named `a` and `b` iff an element of the network that
KLayout extracts for some net of the request joins nodes for which `a` and `b` stand. -/
theorem resistor_iff_element (t : Tech) (dbb : Bool) (db : List DbLayer) (hd : (db.map (·.index)).Nodup) (v : Env)
    (cfg : Config) (skipEmpty : Bool) (ds : List DbDevice) (nets : List String) (hn : nets.Nodup) (q : Request)
    (hq : prepareRequest (prepare t dbb db) v cfg skipEmpty ds (some nets) = .ok q) (norm : List Pt → List Pt)
    (rex : RexInput → List KNode × List KElement)
    (hid : ∀ e ∈ q.nets, ((rex (rexInput norm e.2)).1.map (·.id)).Nodup)
    (cf : String → String) (mode : PexMode.Mode) (hmode : mode = .R ∨ mode = .RC) (cell : String)
    (overlap fringe : Except String (List PexMode.CapOp)) (c c' : Circuit) (bb : Bool)
    (hno : ∀ d ∈ c.devices, d.clsName ≠ "R")
    (h : run cf mode cell overlap fringe norm rex q c bb = .ok c') (a b : String) :
    (∃ d ∈ c'.devices, d.kind = .resistor ∧ d.clsName = "R" ∧
      ((netAt c' d "A" = some a ∧ netAt c' d "B" = some b) ∨ (netAt c' d "A" = some b ∧ netAt c' d "B" = some a))) ↔
    ∃ e ∈ q.nets, ElementJoins e.1 (rex (rexInput norm e.2)) a b ∨ ElementJoins e.1 (rex (rexInput norm e.2)) b a := by
  obtain ⟨res, caps, hres, hx⟩ := run_ok hmode h
  have hnets := RRequest.results_exact t dbb db hd v cfg skipEmpty ds nets hn q hq norm rex res hres
  cases hsum : summarizeAll (runCells [(cell, caps.map PexMode.recording ++ (res.map message).map Op.network)]) with
  | error e =>
    obtain ⟨e', he'⟩ := (Rcx25Netlist.expand_fails_iff cf c _ bb).2 ⟨e, hsum⟩
    rw [he'] at hx; cases hx
  | ok s =>
    have hl := (resistance_all_cells _ (by simp) s hsum a b).2
    simp only [List.mem_singleton, exists_eq_left] at hl
    rw [between_iff] at hl
    obtain ⟨c'', kept, cs, rs, new, e1, e2, e3, ⟨-, citems, -, hC⟩, ⟨-, items, hperm, hR⟩, -⟩ :=
      Rcx25Netlist.netlist_contains_the_parasitics_partial cf c _ bb s hsum
    rw [e1] at hx; cases hx
    have hdev : (∃ d ∈ c'.devices, d.kind = .resistor ∧ d.clsName = "R" ∧
      ((netAt c' d "A" = some a ∧ netAt c' d "B" = some b) ∨ (netAt c' d "A" = some b ∧ netAt c' d "B" = some a))) ↔
        Lists s.resistances a b := by
      constructor
      · rintro ⟨d, hdm, -, hcls, hends⟩
        have : d ∈ rs := by
          rw [e2, List.mem_append, List.mem_append] at hdm
          rcases hdm with (hk | hk) | hk
          · exfalso
            refine hno d ?_ hcls
            cases bb with
            | true => simp only [if_true] at e3; rwa [← e3]
            | false =>
              simp only [Bool.false_eq_true, if_false] at e3
              rw [e3] at hk
              exact (List.mem_filter.1 hk).1
          · exfalso
            obtain ⟨i, hi, rfl⟩ := List.mem_iff_getElem.1 hk
            have := (hC.get hi (by rw [← hC.length_eq]; exact hi)).cls
            simp only [List.get_eq_getElem] at this
            rw [this] at hcls
            exact absurd hcls (by decide)
          · exact hk
        obtain ⟨i, hi, rfl⟩ := List.mem_iff_getElem.1 this
        have hi2 : i < items.length := by rw [← hR.length_eq]; exact hi
        have hr := hR.get hi hi2
        simp only [List.get_eq_getElem] at hr
        refine ⟨items[i], hperm.mem_iff.1 (List.getElem_mem _), ?_⟩
        have hA := hr.endA
        have hB := hr.endB
        rcases hends with ⟨h1, h2⟩ | ⟨h1, h2⟩
        · rw [h1] at hA; rw [h2] at hB
          exact Or.inl ⟨(Option.some.inj hA).symm, (Option.some.inj hB).symm⟩
        · rw [h1] at hA; rw [h2] at hB
          exact Or.inr ⟨(Option.some.inj hA).symm, (Option.some.inj hB).symm⟩
      · rintro ⟨kv, hkv, hp⟩
        obtain ⟨i, hi, rfl⟩ := List.mem_iff_getElem.1 (hperm.mem_iff.2 hkv)
        have hi2 : i < rs.length := by rw [hR.length_eq]; exact hi
        have hr := hR.get hi2 hi
        simp only [List.get_eq_getElem] at hr
        refine ⟨rs[i], by rw [e2]; simp, hr.kind, hr.cls, ?_⟩
        rcases hp with ⟨h1, h2⟩ | ⟨h1, h2⟩
        · exact Or.inl ⟨by rw [hr.endA, h1], by rw [hr.endB, h2]⟩
        · exact Or.inr ⟨by rw [hr.endA, h1], by rw [hr.endB, h2]⟩
    rw [hdev, hl]
    clear hl hdev hR hC e1 e2 e3 hperm h
    have hjoin : ∀ (e : String × RRequest.NetRequest) (R : ResNetwork), NetworkFor q.tech e.1 (rex (rexInput norm e.2)) R →
        ((rex (rexInput norm e.2)).1.map (·.id)).Nodup → ∀ a b : String,
        (∃ el ∈ (message R).elements, nodeName? (message R) el.nodeA = some a ∧ nodeName? (message R) el.nodeB = some b) ↔
          ElementJoins e.1 (rex (rexInput norm e.2)) a b := by
      intro e R hN hnd a b
      have hel := hN.2.2
      simp only [nodeName_message hN hnd]
      unfold ElementJoins
      simp only [message, hel, List.map_map, List.mem_map, Function.comp]
      constructor
      · rintro ⟨_, ⟨el, he, rfl⟩, ⟨ka, hka, i1, s1⟩, ⟨kb, hkb, i2, s2⟩⟩
        exact ⟨el, he, ka, hka, kb, hkb, i1, i2, s1, s2⟩
      · rintro ⟨el, he, ka, hka, kb, hkb, i1, i2, s1, s2⟩
        exact ⟨_, ⟨el, he, rfl⟩, ⟨ka, hka, i1, s1⟩, ⟨kb, hkb, i2, s2⟩⟩
    constructor
    · rintro ⟨m, hm, el, hel, x, y, hx, hy, hp⟩
      obtain ⟨R, hR, rfl⟩ := List.mem_map.1 hm
      obtain ⟨i, hi, rfl⟩ := List.mem_iff_getElem.1 hR
      have hi2 : i < q.nets.length := by rw [hnets.length_eq]; exact hi
      have hN := hnets.get hi2 hi
      simp only [List.get_eq_getElem] at hN
      have hmem : q.nets[i] ∈ q.nets := List.getElem_mem hi2
      refine ⟨_, hmem, ?_⟩
      have hj := hjoin _ _ hN (hid _ hmem)
      rcases hp with ⟨rfl, rfl⟩ | ⟨rfl, rfl⟩
      · exact Or.inl ((hj _ _).1 ⟨el, hel, hx, hy⟩)
      · exact Or.inr ((hj _ _).1 ⟨el, hel, hx, hy⟩)
    · rintro ⟨e, he, hj⟩
      obtain ⟨i, hi, rfl⟩ := List.mem_iff_getElem.1 he
      have hi2 : i < res.length := by rw [← hnets.length_eq]; exact hi
      have hN := hnets.get hi hi2
      simp only [List.get_eq_getElem] at hN
      have hJ := hjoin _ _ hN (hid _ he)
      refine ⟨message res[i], List.mem_map.2 ⟨_, List.getElem_mem hi2, rfl⟩, ?_⟩
      rcases hj with hj | hj
      · obtain ⟨el, hel, hx, hy⟩ := (hJ _ _).2 hj
        exact ⟨el, hel, _, _, hx, hy, Or.inl ⟨rfl, rfl⟩⟩
      · obtain ⟨el, hel, hx, hy⟩ := (hJ _ _).2 hj
        exact ⟨el, hel, _, _, hx, hy, Or.inr ⟨rfl, rfl⟩⟩

/-- **C122, first part** (partial: it needs proper names of the inner nodes, see `inner_names_join_nets`). No chain of
extracted resistors leads from a net of the request to another one. -/
theorem nets_stay_apart_partial (t : Tech) (dbb : Bool) (db : List DbLayer) (hd : (db.map (·.index)).Nodup) (v : Env)
    (cfg : Config) (skipEmpty : Bool) (ds : List DbDevice) (nets : List String) (hn : nets.Nodup) (q : Request)
    (hq : prepareRequest (prepare t dbb db) v cfg skipEmpty ds (some nets) = .ok q) (norm : List Pt → List Pt)
    (rex : RexInput → List KNode × List KElement)
    (hid : ∀ e ∈ q.nets, ((rex (rexInput norm e.2)).1.map (·.id)).Nodup)
    (hnames : ProperNames q fun r => rex (rexInput norm r))
    (cf : String → String) (mode : PexMode.Mode) (hmode : mode = .R ∨ mode = .RC) (cell : String)
    (overlap fringe : Except String (List PexMode.CapOp)) (c c' : Circuit) (bb : Bool)
    (hno : ∀ d ∈ c.devices, d.clsName ≠ "R")
    (h : run cf mode cell overlap fringe norm rex q c bb = .ok c') (n m : String) (hm : n ∈ q.nets.map Prod.fst)
    (hm' : m ∈ q.nets.map Prod.fst) (i j : Nat) (hi : c'.nets[i]? = some n) (hj : c'.nets[j]? = some m)
    (hchain : Relation.ReflTransGen (Bridge c') i j) : n = m := by
  -- the net that a name belongs to
  let Owns (n x : String) : Prop := x = n ∨ ∃ e ∈ q.nets, e.1 = n ∧ ∃ k ∈ (rex (rexInput norm e.2)).1, k.type = .internal ∧ x = k.name
  have hstands : ∀ e ∈ q.nets, ∀ k ∈ (rex (rexInput norm e.2)).1, ∀ x, StandsFor e.1 k x → Owns e.1 x := by
    rintro e he k hk x (⟨h1, h2⟩ | ⟨-, h2⟩)
    · exact Or.inr ⟨e, he, rfl, k, hk, h1, h2⟩
    · exact Or.inl h2
  have huniq : ∀ a ∈ q.nets.map Prod.fst, ∀ b ∈ q.nets.map Prod.fst, ∀ x, Owns a x → Owns b x → a = b := by
    rintro a ha b hb x (rfl | ⟨e, he, rfl, k, hk, hki, rfl⟩) (rfl | ⟨e', he', rfl, k', hk', hki', hx⟩)
    · rfl
    · obtain ⟨ea, hea, hae⟩ := List.mem_map.1 ha
      exact absurd (hx.symm.trans hae.symm) (hnames.noNet e' he' ea hea k' hk' hki')
    · obtain ⟨eb, heb, hbe⟩ := List.mem_map.1 hb
      exact absurd hbe.symm (hnames.noNet e he eb heb k hk hki)
    · exact hnames.apart e he e' he' k hk k' hk' hki hki' hx
  have hres := resistor_iff_element t dbb db hd v cfg skipEmpty ds nets hn q hq norm rex hid cf mode hmode cell overlap
    fringe c c' bb hno h
  -- both ends of every resistor have names
  obtain ⟨_, _, -, hx⟩ := run_ok hmode h
  have hstep : ∀ i j, Bridge c' i j → ∀ x, c'.nets[i]? = some x → Owns n x → ∃ y, c'.nets[j]? = some y ∧ Owns n y := by
    rintro i j ⟨d, hdm, hk, hcls, hends⟩ x hi hown
    obtain ⟨a, b, ha, hb⟩ := resistor_ends hno hx d hdm hcls
    have hy : ∃ y, c'.nets[j]? = some y := by
      unfold netAt at ha hb
      rcases hends with ⟨h1, h2⟩ | ⟨h1, h2⟩
      · rw [h2] at hb; exact ⟨b, hb⟩
      · rw [h1] at ha; exact ⟨a, ha⟩
    obtain ⟨y, hy⟩ := hy
    refine ⟨y, hy, ?_⟩
    have hd2 : (netAt c' d "A" = some x ∧ netAt c' d "B" = some y) ∨ (netAt c' d "A" = some y ∧ netAt c' d "B" = some x) := by
      unfold netAt
      rcases hends with ⟨h1, h2⟩ | ⟨h1, h2⟩
      · left; rw [h1, h2]; exact ⟨hi, hy⟩
      · right; rw [h1, h2]; exact ⟨hy, hi⟩
    obtain ⟨e, he, hj⟩ := (hres x y).1 ⟨d, hdm, hk, hcls, hd2⟩
    have hboth : Owns e.1 x ∧ Owns e.1 y := by
      rcases hj with ⟨el, -, ka, hka, kb, hkb, -, -, s1, s2⟩ | ⟨el, -, ka, hka, kb, hkb, -, -, s1, s2⟩
      · exact ⟨hstands e he ka hka x s1, hstands e he kb hkb y s2⟩
      · exact ⟨hstands e he kb hkb x s2, hstands e he ka hka y s1⟩
    have := huniq n hm e.1 (List.mem_map.2 ⟨e, he, rfl⟩) x hown hboth.1
    rw [this]; exact hboth.2
  have hend : ∃ y, c'.nets[j]? = some y ∧ Owns n y := by
    clear hj
    induction hchain with
    | refl => exact ⟨n, hi, Or.inl rfl⟩
    | tail _ hb ih =>
      obtain ⟨x, hx1, hx2⟩ := ih
      exact hstep _ _ hb x hx1 hx2
  obtain ⟨y, hy, hown⟩ := hend
  rw [hj] at hy; cases hy
  exact huniq n hm m hm' m hown (Or.inl rfl)

/-- **C122 is violated (second part)**: an element between two ports of a net becomes a resistor with both ends at the net
itself, and every device terminal stays where it was.  So no resistance of the netlist lies between two terminals of a
net, whatever the extractor found between them. -/
theorem ports_of_a_net_merged (t : Tech) (dbb : Bool) (db : List DbLayer) (hd : (db.map (·.index)).Nodup) (v : Env)
    (cfg : Config) (skipEmpty : Bool) (ds : List DbDevice) (nets : List String) (hn : nets.Nodup) (q : Request)
    (hq : prepareRequest (prepare t dbb db) v cfg skipEmpty ds (some nets) = .ok q) (norm : List Pt → List Pt)
    (rex : RexInput → List KNode × List KElement)
    (hid : ∀ e ∈ q.nets, ((rex (rexInput norm e.2)).1.map (·.id)).Nodup)
    (cf : String → String) (mode : PexMode.Mode) (hmode : mode = .R ∨ mode = .RC) (cell : String)
    (overlap fringe : Except String (List PexMode.CapOp)) (c c' : Circuit) (bb : Bool)
    (hno : ∀ d ∈ c.devices, d.clsName ≠ "R") (hu : c.nets.Nodup) (h1 : "FC_GND" ∉ c.nets) (h2 : "VSUBS" ∉ c.nets)
    (h : run cf mode cell overlap fringe norm rex q c bb = .ok c') :
    (∀ e ∈ q.nets, ∀ el ∈ (rex (rexInput norm e.2)).2, ∀ ka ∈ (rex (rexInput norm e.2)).1,
      ∀ kb ∈ (rex (rexInput norm e.2)).1, ka.id = el.a → kb.id = el.b → ka.type ≠ .internal → kb.type ≠ .internal →
        ∃ i, c'.nets[i]? = some e.1 ∧ ∃ d ∈ c'.devices, d.clsName = "R" ∧ d.terms.get? "A" = some i ∧
          d.terms.get? "B" = some i) ∧
    (bb = true → ∀ d ∈ c.devices, d ∈ c'.devices) ∧ (∀ (i : Nat) (n : String), c.nets[i]? = some n → c'.nets[i]? = some n) := by
  obtain ⟨res, caps, hres, hx⟩ := run_ok hmode h
  have hnd := Rcx25Netlist.net_names_unique_partial cf c c' _ bb hx hu h1 h2
  refine ⟨?_, ?_⟩
  · intro e he el hel ka hka kb hkb ia ib ta tb
    obtain ⟨d, hdm, -, hcls, hends⟩ := (resistor_iff_element t dbb db hd v cfg skipEmpty ds nets hn q hq norm rex hid cf
      mode hmode cell overlap fringe c c' bb hno h e.1 e.1).2
      ⟨e, he, Or.inl ⟨el, hel, ka, hka, kb, hkb, ia, ib, Or.inr ⟨ta, rfl⟩, Or.inr ⟨tb, rfl⟩⟩⟩
    have hends : netAt c' d "A" = some e.1 ∧ netAt c' d "B" = some e.1 := hends.elim id id
    obtain ⟨hA, hB⟩ := hends
    unfold netAt at hA hB
    rw [Option.bind_eq_some_iff] at hA hB
    obtain ⟨i, hi, hi'⟩ := hA
    obtain ⟨j, hj, hj'⟩ := hB
    have : i = j := by
      obtain ⟨li, ei⟩ := List.getElem?_eq_some_iff.1 hi'
      obtain ⟨lj, ej⟩ := List.getElem?_eq_some_iff.1 hj'
      exact (hnd.getElem_inj_iff).1 (ei.trans ej.symm)
    subst this
    exact ⟨i, hi', d, hdm, hcls, hi, hj⟩
  · cases hsum : summarizeAll (runCells [(cell, caps.map PexMode.recording ++ (res.map message).map Op.network)]) with
    | error e =>
      obtain ⟨e', he'⟩ := (Rcx25Netlist.expand_fails_iff cf c _ bb).2 ⟨e, hsum⟩
      rw [he'] at hx; cases hx
    | ok s =>
      obtain ⟨c'', kept, cs, rs, new, e1, e2, e3, -, -, e4, -⟩ :=
        Rcx25Netlist.netlist_contains_the_parasitics_partial cf c _ bb s hsum
      rw [e1] at hx; cases hx
      refine ⟨?_, ?_⟩
      · rintro rfl d hd
        simp only [if_true] at e3
        rw [e2, e3]; simp [hd]
      · intro i n hi
        rw [e4, List.append_assoc, List.getElem?_append_left (List.getElem?_eq_some_iff.1 hi).1]
        exact hi

end Verif.RNetlist
