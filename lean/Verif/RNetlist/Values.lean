import Verif.RNetlist.Examples
import Mathlib.Algebra.Order.BigOperators.Group.List
import Mathlib.Tactic.Linarith

/-!
# Values of the resistors of the netlist (C122, C04)
-/

namespace Verif.RNetlist

open RRequest (RexInput KNode KElement ResNetwork Request NetRequest NetworkFor NodeFor prepareRequest rexInput Config)
open TechInfo (Tech)
open Lvs (DbLayer DbDevice Env prepare)
open Shapes (Pt)
open Netlist Summary
open Rcx25Netlist (netAt)

/-! ## Specification -/

/-- The element `el` of the network `out` of net `n` joins the nodes `a` and `b` of the netlist, in either direction. -/
def Joins (n : String) (out : List KNode × List KElement) (a b : String) (el : KElement) : Prop :=
  ∃ ka ∈ out.1, ∃ kb ∈ out.1, ka.id = el.a ∧ kb.id = el.b ∧
    ((StandsFor n ka a ∧ StandsFor n kb b) ∨ (StandsFor n ka b ∧ StandsFor n kb a))

instance (n : String) (k : KNode) (s : String) : Decidable (StandsFor n k s) := by unfold StandsFor; infer_instance

instance (n : String) (out : List KNode × List KElement) (a b : String) : DecidablePred (Joins n out a b) := by
  intro el; unfold Joins; infer_instance

/-- All elements of all networks that join the nodes `a` and `b` of the netlist. -/
def elementsBetween (q : Request) (out : NetRequest → List KNode × List KElement) (a b : String) : List KElement :=
  q.nets.flatMap fun e => (out e.2).2.filter fun el => Joins e.1 (out e.2) a b el

/-- The device lies between the nets named `a` and `b`. -/
def Between (c : Circuit) (a b : String) (d : Device) : Prop :=
  (netAt c d "A" = some a ∧ netAt c d "B" = some b) ∨ (netAt c d "A" = some b ∧ netAt c d "B" = some a)

instance (c : Circuit) (a b : String) (d : Device) : Decidable (Between c a b d) := by unfold Between; infer_instance

/-! ## Proofs -/

private theorem network_resistors {tech : RRequest.RTech} {n : String} {out : List KNode × List KElement} {R : ResNetwork}
    (h : NetworkFor tech n out R) (hid : (out.1.map (·.id)).Nodup) (a b : String) [DecidablePred (Joins n out a b)] :
    (((message R).elements.map fun e => (nodeName? (message R) e.nodeA, nodeName? (message R) e.nodeB, e.resistance)).filterMap fun
      | (some x, some y, r) => if SamePair x y a b then some r else none
      | _ => none) = (out.2.filter fun el => Joins n out a b el).map (·.resistance) := by
  have hel := h.2.2
  have hm : (message R).elements = out.2.map fun e => ⟨e.a, e.b, e.resistance⟩ := by
    simp only [message, hel, List.map_map]; rfl
  rw [hm]
  generalize hes : out.2 = es
  clear hes hm hel
  induction es with
  | nil => rfl
  | cons e es ih =>
    simp only [List.map_cons, List.filterMap_cons, List.filter_cons]
    have key : (∃ x y, nodeName? (message R) e.a = some x ∧ nodeName? (message R) e.b = some y ∧ SamePair x y a b) ↔
        Joins n out a b e := by
      simp only [nodeName_message h hid]
      constructor
      · rintro ⟨x, y, ⟨ka, hka, ia, sa⟩, ⟨kb, hkb, ib, sb⟩, hs⟩
        refine ⟨ka, hka, kb, hkb, ia, ib, ?_⟩
        rcases hs with ⟨rfl, rfl⟩ | ⟨rfl, rfl⟩
        · exact Or.inl ⟨sa, sb⟩
        · exact Or.inr ⟨sa, sb⟩
      · rintro ⟨ka, hka, kb, hkb, ia, ib, ⟨sa, sb⟩ | ⟨sa, sb⟩⟩
        · exact ⟨a, b, ⟨ka, hka, ia, sa⟩, ⟨kb, hkb, ib, sb⟩, Or.inl ⟨rfl, rfl⟩⟩
        · exact ⟨b, a, ⟨ka, hka, ia, sa⟩, ⟨kb, hkb, ib, sb⟩, Or.inr ⟨rfl, rfl⟩⟩
    rw [ih]
    cases hx : nodeName? (message R) e.a with
    | none =>
      have : ¬ Joins n out a b e := by rw [← key, hx]; simp
      simp [this]
    | some x =>
      cases hy : nodeName? (message R) e.b with
      | none =>
        have : ¬ Joins n out a b e := by rw [← key, hx, hy]; simp
        simp [this]
      | some y =>
        have : Joins n out a b e ↔ SamePair x y a b := by
          rw [← key, hx, hy]
          constructor
          · rintro ⟨_, _, h1, h2, hs⟩; cases h1; cases h2; exact hs
          · intro hs; exact ⟨x, y, rfl, rfl, hs⟩
        by_cases hs : SamePair x y a b
        · simp [this, hs]
        · simp [this, hs]

private theorem all_resistors {tech : RRequest.RTech} {out : NetRequest → List KNode × List KElement}
    {qs : List (String × NetRequest)} {res : List ResNetwork}
    (h : List.Forall₂ (fun e R => NetworkFor tech e.1 (out e.2) R) qs res)
    (hid : ∀ e ∈ qs, ((out e.2).1.map (·.id)).Nodup) (caps : List PexMode.CapOp) (a b : String)
    [∀ n o, DecidablePred (Joins n o a b)] :
    resistorsBetween (caps.map PexMode.recording ++ (res.map message).map Op.network) a b =
      (qs.flatMap fun e => (out e.2).2.filter fun el => Joins e.1 (out e.2) a b el).map (·.resistance) := by
  have h0 : elements (caps.map PexMode.recording) = [] := by
    induction caps with
    | nil => rfl
    | cons o caps ih => cases o <;> simpa [elements, PexMode.recording] using ih
  have h1 : elements (caps.map PexMode.recording ++ (res.map message).map Op.network) =
      (res.map message).flatMap fun n => n.elements.map fun e => (nodeName? n e.nodeA, nodeName? n e.nodeB, e.resistance) := by
    unfold elements at h0 ⊢
    rw [List.flatMap_append, h0, List.nil_append, List.flatMap_map]
  unfold resistorsBetween
  rw [h1]
  clear h0 h1
  induction h with
  | nil => rfl
  | @cons e R qs res hN _ ih =>
    simp only [List.map_cons, List.flatMap_cons, List.filterMap_append, List.map_append]
    exact congrArg₂ (· ++ ·) (network_resistors hN (hid e (by simp)) a b) (ih (fun e' he' => hid e' (by simp [he'])))

private theorem filter_map_eq {α β γ : Type} {P : α → Bool} {Q : β → Bool} {f : α → γ} {g : β → γ} {l : List α} {m : List β}
    (h : List.Forall₂ (fun x y => (P x = Q y) ∧ f x = g y) l m) : (l.filter P).map f = (m.filter Q).map g := by
  induction h with
  | nil => rfl
  | cons h _ ih =>
    rw [List.filter_cons, List.filter_cons, h.1]
    split
    · rw [List.map_cons, List.map_cons, ih, h.2]
    · exact ih

/-- **C122, the values.** Between two nodes of the netlist there is one extracted resistor if any element of the networks joins
them, and none otherwise. Its value is the sum of the resistances of all elements that join the two nodes. -/
theorem resistor_values (t : Tech) (dbb : Bool) (db : List DbLayer) (hd : (db.map (·.index)).Nodup) (v : Env)
    (cfg : Config) (skipEmpty : Bool) (ds : List DbDevice) (nets : List String) (hn : nets.Nodup) (q : Request)
    (hq : prepareRequest (prepare t dbb db) v cfg skipEmpty ds (some nets) = .ok q) (norm : List Pt → List Pt)
    (rex : RexInput → List KNode × List KElement)
    (hid : ∀ e ∈ q.nets, ((rex (rexInput norm e.2)).1.map (·.id)).Nodup)
    (cf : String → String) (mode : PexMode.Mode) (hmode : mode = .R ∨ mode = .RC) (cell : String)
    (overlap fringe : Except String (List PexMode.CapOp)) (c c' : Circuit) (bb : Bool)
    (hno : ∀ d ∈ c.devices, d.clsName ≠ "R")
    (h : run cf mode cell overlap fringe norm rex q c bb = .ok c') (a b : String) :
    let els := elementsBetween q (fun r => rex (rexInput norm r)) a b
    (els = [] → ∀ d ∈ c'.devices, d.clsName = "R" → ¬ Between c' a b d) ∧
    (els ≠ [] → ∃ d, c'.devices.filter (fun d => d.clsName = "R" ∧ Between c' a b d) = [d] ∧ d.kind = .resistor ∧
      d.params.get? "R" = some (els.map (·.resistance)).sum) := by
  intro els
  obtain ⟨res, caps, hres, hx⟩ := run_ok hmode h
  have hnets := RRequest.results_exact t dbb db hd v cfg skipEmpty ds nets hn q hq norm rex res hres
  cases hsum : summarizeAll (runCells [(cell, caps.map PexMode.recording ++ (res.map message).map Op.network)]) with
  | error e =>
    obtain ⟨e', he'⟩ := (Rcx25Netlist.expand_fails_iff cf c _ bb).2 ⟨e, hsum⟩
    rw [he'] at hx; cases hx
  | ok s =>
    obtain ⟨hv, hl⟩ := resistance_all_cells _ (by simp) s hsum a b
    simp only [List.mem_singleton, exists_eq_left, List.map_cons, List.map_nil, List.sum_cons, List.sum_nil, add_zero] at hv hl
    have hels := all_resistors (out := fun r => rex (rexInput norm r)) hnets hid caps a b
    have hels' : resistorsBetween (caps.map PexMode.recording ++ (res.map message).map Op.network) a b =
        els.map (·.resistance) := by rw [hels]; rfl
    rw [hels'] at hv hl
    obtain ⟨c'', kept, cs, rs, new, e1, e2, e3, ⟨-, citems, -, hC⟩, ⟨-, items, hperm, hR⟩, -⟩ :=
      Rcx25Netlist.netlist_contains_the_parasitics_partial cf c _ bb s hsum
    rw [e1] at hx; cases hx
    obtain ⟨subs, -, hs⟩ := merged_of_summarizeAll hsum
    have hpw := (summary_keys_canonical subs s.resistances (Or.inr (by rw [hs]))).2
    let P : Device → Bool := fun d => decide (d.clsName = "R" ∧ Between c' a b d)
    let Q : NetCoupleKey × ℚ → Bool := fun kv => decide (SamePair kv.1.net1 kv.1.net2 a b)
    have hfilt : c'.devices.filter P = rs.filter P := by
      rw [e2, List.filter_append, List.filter_append]
      have k1 : kept.filter P = [] := by
        rw [List.filter_eq_nil_iff]
        intro d hdm
        have : d ∈ c.devices := by
          cases bb with
          | true => simp only [if_true] at e3; rwa [← e3]
          | false =>
            simp only [Bool.false_eq_true, if_false] at e3
            rw [e3] at hdm
            exact (List.mem_filter.1 hdm).1
        simp [P, hno d this]
      have k2 : cs.filter P = [] := by
        rw [List.filter_eq_nil_iff]
        intro d hdm
        obtain ⟨i, hi, rfl⟩ := List.mem_iff_getElem.1 hdm
        have := (hC.get hi (by rw [← hC.length_eq]; exact hi)).cls
        simp only [List.get_eq_getElem] at this
        have hne : ("C" : String) ≠ "R" := by decide
        simp [P, this, hne]
      rw [k1, k2, List.nil_append, List.nil_append]
    have hmap : (rs.filter P).map (fun d => (d.kind, d.params.get? "R")) =
        (items.filter Q).map (fun kv => (Kind.resistor, some kv.2)) := by
      apply filter_map_eq
      refine hR.imp ?_
      intro d kv hr
      refine ⟨?_, by rw [hr.kind, hr.value]⟩
      simp only [P, Q, decide_eq_decide]
      unfold Between SamePair
      rw [hr.cls, hr.endA, hr.endB]
      simp
    have hlen : (s.resistances.filter Q).length ≤ 1 := by
      have hp2 : (s.resistances.filter Q).Pairwise (fun x y => ¬ SamePair x.1.net1 x.1.net2 y.1.net1 y.1.net2) :=
        hpw.sublist List.filter_sublist
      have hall : ∀ kv ∈ s.resistances.filter Q, SamePair kv.1.net1 kv.1.net2 a b := by
        intro kv hk
        simpa [Q] using (List.mem_filter.1 hk).2
      match hf : s.resistances.filter Q with
      | [] => simp
      | [_] => simp
      | x :: y :: r =>
        exfalso
        rw [hf] at hp2 hall
        have h1 := hall x (by simp)
        have h2 := hall y (by simp)
        have h3 := (List.pairwise_cons.1 hp2).1 y (by simp)
        apply h3
        unfold SamePair at h1 h2 ⊢
        rcases h1 with ⟨h1, h1'⟩ | ⟨h1, h1'⟩ <;> rcases h2 with ⟨h2, h2'⟩ | ⟨h2, h2'⟩ <;> rw [h1, h1', h2, h2'] <;> simp
    have hrep : reported s.resistances a b = ((s.resistances.filter Q).map Prod.snd).sum := rfl
    have hperm' := (hperm.filter Q)
    constructor
    · intro h0 d hdm hcls hb
      have hnl : ¬ Lists s.resistances a b := by rw [hl, h0]; simp
      have hempty : s.resistances.filter Q = [] := by
        rw [List.filter_eq_nil_iff]
        intro kv hk hq'
        exact hnl ⟨kv, hk, by simpa [Q] using hq'⟩
      rw [hempty] at hperm'
      have h1 := hperm'.eq_nil
      rw [h1, List.map_nil, List.map_eq_nil_iff] at hmap
      have : d ∈ c'.devices.filter P := List.mem_filter.2 ⟨hdm, by simp [P, hcls, hb]⟩
      rw [hfilt, hmap] at this
      simp at this
    · intro h0
      have hnl : Lists s.resistances a b := by rw [hl]; simpa using h0
      obtain ⟨kv, hk, hkp⟩ := hnl
      have hmem : kv ∈ s.resistances.filter Q := List.mem_filter.2 ⟨hk, by simpa [Q] using hkp⟩
      have hone : s.resistances.filter Q = [kv] := by
        match hf : s.resistances.filter Q with
        | [] => rw [hf] at hmem; simp at hmem
        | [x] => rw [hf] at hmem; rw [List.mem_singleton.1 hmem]
        | x :: y :: r => rw [hf] at hlen; simp at hlen
      rw [hone] at hperm' hrep
      have h1 : items.filter Q = [kv] := List.perm_singleton.1 hperm'
      rw [h1] at hmap
      obtain ⟨d, hdd, hd1⟩ : ∃ d, rs.filter P = [d] ∧ (d.kind, d.params.get? "R") = (Kind.resistor, some kv.2) := by
        match hf : rs.filter P with
        | [] => rw [hf] at hmap; simp at hmap
        | [x] => rw [hf] at hmap; exact ⟨x, rfl, by simpa using hmap⟩
        | x :: y :: r => rw [hf] at hmap; simp at hmap
      refine ⟨d, by rw [← hdd, ← hfilt], (Prod.mk.inj hd1).1, ?_⟩
      rw [(Prod.mk.inj hd1).2, ← hv, hrep]
      simp

private theorem lt_sum {l : List ℚ} (hp : ∀ x ∈ l, 0 < x) (h2 : 2 ≤ l.length) {x : ℚ} (hx : x ∈ l) : x < l.sum := by
  obtain ⟨l1, l2, rfl⟩ := List.append_of_mem hx
  have h1 : 0 ≤ l1.sum := List.sum_nonneg fun y hy => (hp y (by simp [hy])).le
  have h3 : 0 ≤ l2.sum := List.sum_nonneg fun y hy => (hp y (by simp [hy])).le
  rw [List.sum_append, List.sum_cons]
  rcases l1 with _ | ⟨y, l1⟩
  · rcases l2 with _ | ⟨y, l2⟩
    · simp at h2
    · have := hp y (by simp)
      have h4 : 0 ≤ l2.sum := List.sum_nonneg fun z hz => (hp z (by simp [hz])).le
      simp only [List.sum_nil, List.sum_cons]
      linarith
  · have := hp y (by simp)
    have h4 : 0 ≤ l1.sum := List.sum_nonneg fun z hz => (hp z (by simp [hz])).le
    rw [List.sum_cons]
    linarith

/-- **C04 is violated in the netlist**: if several elements with positive resistances join two nodes of the netlist, so that
the current has several ways, the resistor of the netlist has a larger resistance than each of these ways alone. -/
theorem parallel_ways_enlarge (t : Tech) (dbb : Bool) (db : List DbLayer) (hd : (db.map (·.index)).Nodup) (v : Env)
    (cfg : Config) (skipEmpty : Bool) (ds : List DbDevice) (nets : List String) (hn : nets.Nodup) (q : Request)
    (hq : prepareRequest (prepare t dbb db) v cfg skipEmpty ds (some nets) = .ok q) (norm : List Pt → List Pt)
    (rex : RexInput → List KNode × List KElement)
    (hid : ∀ e ∈ q.nets, ((rex (rexInput norm e.2)).1.map (·.id)).Nodup)
    (cf : String → String) (mode : PexMode.Mode) (hmode : mode = .R ∨ mode = .RC) (cell : String)
    (overlap fringe : Except String (List PexMode.CapOp)) (c c' : Circuit) (bb : Bool)
    (hno : ∀ d ∈ c.devices, d.clsName ≠ "R")
    (h : run cf mode cell overlap fringe norm rex q c bb = .ok c') (a b : String)
    (hmany : 2 ≤ (elementsBetween q (fun r => rex (rexInput norm r)) a b).length)
    (hpos : ∀ el ∈ elementsBetween q (fun r => rex (rexInput norm r)) a b, 0 < el.resistance) :
    ∃ d ∈ c'.devices, d.clsName = "R" ∧ Between c' a b d ∧ ∃ r, d.params.get? "R" = some r ∧
      ∀ el ∈ elementsBetween q (fun r => rex (rexInput norm r)) a b, el.resistance < r := by
  obtain ⟨-, h2⟩ := resistor_values t dbb db hd v cfg skipEmpty ds nets hn q hq norm rex hid cf mode hmode cell overlap fringe
    c c' bb hno h a b
  obtain ⟨d, hf, -, hr⟩ := h2 (by intro h0; rw [h0] at hmany; simp at hmany)
  have hm : d ∈ c'.devices.filter (fun d => d.clsName = "R" ∧ Between c' a b d) := by rw [hf]; simp
  obtain ⟨hm1, hm2⟩ := List.mem_filter.1 hm
  simp only [decide_eq_true_eq] at hm2
  refine ⟨d, hm1, hm2.1, hm2.2, _, hr, fun el hel => lt_sum ?_ (by simpa using hmany) (List.mem_map.2 ⟨el, hel, rfl⟩)⟩
  intro x hx
  obtain ⟨el, hel, rfl⟩ := List.mem_map.1 hx
  exact hpos el hel

/-- A concrete run: net `A` has two ports, each joined with the inner node by 5 Ω. All ports of the net are the same node of the
netlist, so two ways of 5 Ω lead from it to the inner node; the netlist says 10 Ω. -/
theorem parallel_ways_ex : ∃ q c', request = .ok q ∧
    run id .R "TOP" (.ok []) (.ok []) id (starRex byCount) q circuit true = .ok c' ∧
    2 ≤ (elementsBetween q (fun r => starRex byCount (rexInput id r)) "A" "$2").length ∧
    (c'.devices.filter fun d => d.clsName = "R" ∧ Between c' "A" "$2" d).map (·.params) = [[("R", 10)]] := by
  exact ⟨_, _, rfl, rfl, by decide +kernel, by decide +kernel⟩

end Verif.RNetlist
