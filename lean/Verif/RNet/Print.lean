import Verif.RNet.Props

/-!
# Printing a resistor network and finding its nodes (C110)

Model of `ResistorNetwork.to_string`, resistor_network.py 102–132, and `ResistorNetworks.find_network_nodes`, 338–353, with `Conductance.__str__`
and `res`, conductance.py 37–41. The text of a number (`%.6g`), of a point and of an identifier are parameters.
-/

namespace Verif.RNet

/-! ### Model -/

/-- The texts of numbers, points and identifiers. -/
structure Texts where
  num : ℚ → String
  point : Point → String
  id : Nat → String

/-- The name of a node, or its identifier; resistor_network.py 114, 121–122, 129–130. -/
def Net.label (t : Texts) (n : Net) (i : Nat) : String := (n.nodeNames.get? i).getD (t.id i)

/-- The order of tuples in Python. -/
def pairLe (p q : Nat × Nat) : Bool := p.1 < q.1 || (p.1 == q.1 && p.2 ≤ q.2)

/-- `sorted(self.s.keys())` without the pairs that are seen from their other end; 119–120, 127–128. -/
def Net.edges (n : Net) : List (Nat × Nat) := (n.s.keys.insertionSort (fun p q => pairLe p q)).filter fun ab => ab.1 < ab.2

/-- The lines of the nodes, 112–115. A missing key is an exception. -/
def Net.nodeLines (t : Texts) (n : Net) : Except String (List String) :=
  (n.locations.keys.insertionSort (· ≤ ·)).mapM fun i =>
    match n.locations.get? i with
    | some p => .ok ("  " ++ n.label t i ++ ": " ++ t.point p)
    | none => .error "KeyError"

/-- The text of the value: conductance, or resistance, which divides; conductance.py 37–41. -/
def valueText (t : Texts) (resistance : Bool) (c : ℚ) : Except String String :=
  if resistance then if c = 0 then .error "ZeroDivisionError" else .ok (t.num (1 / c)) else .ok (t.num c)

/-- The lines of the resistors, 119–123 and 127–131. -/
def Net.edgeLines (t : Texts) (n : Net) (resistance : Bool) : Except String (List String) :=
  n.edges.mapM fun ab =>
    match n.s.get? ab with
    | some r => (valueText t resistance (n.heap r)).map fun v => "  " ++ n.label t ab.1 ++ "," ++ n.label t ab.2 ++ ": " ++ v
    | none => .error "KeyError"

/-- `to_string`, resistor_network.py 105–132. -/
def Net.toStr (t : Texts) (n : Net) (resistance : Bool) : Except String String := do
  let ns ← n.nodeLines t
  let es ← n.edgeLines t resistance
  return "\n".intercalate (["Nodes:"] ++ ns ++ [if resistance then "Resistors:" else "Conductors:"] ++ es)

/-- `find_network_nodes`, resistor_network.py 344–353; a network is given by its place in the list. -/
def findNodes (inside : Point → Bool) (nets : List Net) : List (Nat × Nat) :=
  nets.zipIdx.flatMap fun nk => (nk.1.nodes.filter fun pn => inside pn.1).map fun pn => (nk.2, pn.2)

/-! ### Specification -/

/-- The name of a node, if it has one, or else its identifier. -/
def Called (t : Texts) (n : Net) (i : Nat) (name : String) : Prop :=
  n.nodeNames.get? i = some name ∨ n.nodeNames.get? i = none ∧ name = t.id i

/-- A line for a node: name and place. -/
def NodeLine (t : Texts) (n : Net) (i : Nat) (line : String) : Prop :=
  ∃ p name, n.locations.get? i = some p ∧ Called t n i name ∧ line = "  " ++ name ++ ": " ++ t.point p

/-- Two nodes are connected with a conductance. -/
def Conducts (n : Net) (a b : Nat) (c : ℚ) : Prop := ∃ r, n.s.get? (a, b) = some r ∧ n.heap r = c

/-- A line for a resistor: both nodes and the conductance or resistance. -/
def EdgeLine (t : Texts) (n : Net) (resistance : Bool) (ab : Nat × Nat) (line : String) : Prop :=
  ∃ c name1 name2, Conducts n ab.1 ab.2 c ∧ Called t n ab.1 name1 ∧ Called t n ab.2 name2 ∧
    line = "  " ++ name1 ++ "," ++ name2 ++ ": " ++ t.num (if resistance then 1 / c else c)

/-! ### Theorems -/

theorem mapM_exact {α β : Type} (f : α → Except String β) (P : α → β → Prop) (l : List α)
    (h : ∀ a ∈ l, ∃ b, f a = .ok b ∧ P a b) : ∃ bs, l.mapM f = .ok bs ∧ List.Forall₂ P l bs := by
  induction l with
  | nil => exact ⟨[], rfl, .nil⟩
  | cons a l ih =>
    obtain ⟨b, hb, hp⟩ := h a (by simp)
    obtain ⟨bs, hbs, hps⟩ := ih (fun x hx => h x (by simp [hx]))
    refine ⟨b :: bs, ?_, .cons hp hps⟩
    rw [List.mapM_cons, hb, hbs]
    rfl

theorem mapM_error {α β : Type} (f : α → Except String β) (m : String) (l : List α) (h : ∀ a ∈ l, (∃ b, f a = .ok b) ∨ f a = .error m)
    (hx : ∃ a ∈ l, f a = .error m) : l.mapM f = .error m := by
  induction l with
  | nil => obtain ⟨a, ha, _⟩ := hx; cases ha
  | cons a l ih =>
    rw [List.mapM_cons]
    rcases h a (by simp) with ⟨b, hb⟩ | hb
    · rw [hb]
      obtain ⟨a', ha', he⟩ := hx
      rcases List.mem_cons.1 ha' with rfl | ha'
      · rw [hb] at he; cases he
      · rw [show (Except.ok b >>= fun b => l.mapM f >>= fun bs => pure (b :: bs)) = (l.mapM f >>= fun bs => pure (b :: bs)) from rfl,
          ih (fun x hx => h x (by simp [hx])) ⟨a', ha', he⟩]
        rfl
    · rw [hb]; rfl

theorem mem_edges {n : Net} (a b : Nat) : (a, b) ∈ n.edges ↔ a < b ∧ ∃ c, Conducts n a b c := by
  unfold Net.edges Conducts
  rw [List.mem_filter, List.mem_insertionSort, Dict.mem_keys_iff, Option.isSome_iff_exists]
  simp only [decide_eq_true_eq]
  constructor
  · rintro ⟨⟨r, hr⟩, hl⟩; exact ⟨hl, _, r, hr, rfl⟩
  · rintro ⟨hl, _, r, hr, _⟩; exact ⟨⟨r, hr⟩, hl⟩

theorem label_called (t : Texts) (n : Net) (i : Nat) : Called t n i (n.label t i) := by
  unfold Called Net.label
  cases n.nodeNames.get? i with
  | none => exact Or.inr ⟨rfl, rfl⟩
  | some s => exact Or.inl rfl

theorem conducts_symm {n : Net} (h : Inv n) {a b : Nat} {c : ℚ} (hc : Conducts n a b c) : Conducts n b a c := by
  obtain ⟨r, hr, he⟩ := hc
  exact ⟨r, (h.g.sym b a).trans hr, he⟩

theorem conducts_unique {n : Net} {a b : Nat} {c c' : ℚ} (h : Conducts n a b c) (h' : Conducts n a b c') : c = c' := by
  obtain ⟨r, hr, he⟩ := h
  obtain ⟨r', hr', he'⟩ := h'
  rw [hr] at hr'
  cases hr'
  exact he.symm.trans he'

instance : Std.Total (fun p q : Nat × Nat => pairLe p q = true) where
  total := by
    rintro ⟨a, b⟩ ⟨c, d⟩
    simp only [pairLe, Bool.or_eq_true, Bool.and_eq_true, decide_eq_true_eq, beq_iff_eq]
    omega

instance : IsTrans (Nat × Nat) (fun p q => pairLe p q = true) where
  trans := by
    rintro ⟨a, b⟩ ⟨c, d⟩ ⟨e, f⟩
    simp only [pairLe, Bool.or_eq_true, Bool.and_eq_true, decide_eq_true_eq, beq_iff_eq]
    omega

/-- **C110.** The printed network has one line for every node, in the order of the identifiers, and one line for every pair of connected
nodes with its value, in the order of the pairs, whatever operations have been performed. Printing resistances fails exactly if a
conductance is 0. -/
theorem print_exact (t : Texts) (n : Net) (hn : Reachable n) (resistance : Bool) :
    ∃ (ids : List Nat) (ps : List (Nat × Nat)), ids.Pairwise (· < ·) ∧ (∀ i, i ∈ ids ↔ ∃ p, n.locations.get? i = some p) ∧
      ps.Pairwise (fun p q => p.1 < q.1 ∨ p.1 = q.1 ∧ p.2 < q.2) ∧ (∀ p ∈ ps, p.1 < p.2) ∧
      (∀ a b, (a, b) ∈ ps ∨ (b, a) ∈ ps ↔ ∃ c, Conducts n a b c) ∧
      ((resistance = true ∧ ∃ a b, Conducts n a b 0) → n.toStr t resistance = .error "ZeroDivisionError") ∧
      (¬ (resistance = true ∧ ∃ a b, Conducts n a b 0) → ∃ ns es, List.Forall₂ (NodeLine t n) ids ns ∧
        List.Forall₂ (EdgeLine t n resistance) ps es ∧
        n.toStr t resistance = .ok ("\n".intercalate (["Nodes:"] ++ ns ++ [if resistance then "Resistors:" else "Conductors:"] ++ es))) := by
  have h := reachable_inv hn
  have hloop : ∀ a c, ¬ Conducts n a a c := by
    rintro a c ⟨r, hr, _⟩
    rw [show n.s.get? (a, a) = none from h.g.noloop a] at hr
    cases hr
  -- lines of the nodes
  obtain ⟨ns, hns, hnl⟩ : ∃ ns, n.nodeLines t = .ok ns ∧ List.Forall₂ (NodeLine t n) (n.locations.keys.insertionSort (· ≤ ·)) ns := by
    unfold Net.nodeLines
    refine mapM_exact _ _ _ fun i hi => ?_
    rw [List.mem_insertionSort, Dict.mem_keys_iff, Option.isSome_iff_exists] at hi
    obtain ⟨p, hp⟩ := hi
    exact ⟨_, by rw [hp], p, _, hp, label_called t n i, rfl⟩
  refine ⟨n.locations.keys.insertionSort (· ≤ ·), n.edges, ?_, fun i => ?_, ?_, ?_, fun a b => ?_, ?_, ?_⟩
  · have h1 : (n.locations.keys.insertionSort (· ≤ ·)).Pairwise (· ≤ ·) := List.pairwise_insertionSort _ _
    have h2 : (n.locations.keys.insertionSort (· ≤ ·)).Nodup := (List.perm_insertionSort _ _).nodup_iff.2 h.base.lKeys
    exact (h1.and h2).imp fun h => lt_of_le_of_ne h.1 h.2
  · rw [List.mem_insertionSort, Dict.mem_keys_iff, Option.isSome_iff_exists]
  · have h1 : (n.s.keys.insertionSort (fun p q => pairLe p q)).Pairwise (fun p q => pairLe p q = true) := List.pairwise_insertionSort _ _
    have h2 : (n.s.keys.insertionSort (fun p q => pairLe p q)).Nodup := (List.perm_insertionSort _ _).nodup_iff.2 h.base.sKeys
    unfold Net.edges
    refine List.Pairwise.filter _ ((h1.and h2).imp ?_)
    rintro ⟨a, b⟩ ⟨c, d⟩ ⟨h1, h2⟩
    simp only [pairLe, Bool.or_eq_true, Bool.and_eq_true, decide_eq_true_eq, beq_iff_eq] at h1
    simp only [ne_eq, Prod.mk.injEq] at h2
    show a < c ∨ a = c ∧ b < d
    omega
  · rintro ⟨a, b⟩ hp
    exact ((mem_edges a b).1 hp).1
  · rw [mem_edges, mem_edges]
    constructor
    · rintro (⟨_, c, hc⟩ | ⟨_, c, hc⟩)
      · exact ⟨c, hc⟩
      · exact ⟨c, conducts_symm h hc⟩
    · rintro ⟨c, hc⟩
      rcases Nat.lt_trichotomy a b with hl | rfl | hl
      · exact Or.inl ⟨hl, c, hc⟩
      · exact absurd hc (hloop a c)
      · exact Or.inr ⟨hl, c, conducts_symm h hc⟩
  · rintro ⟨rfl, a, b, hc⟩
    obtain ⟨p, hp, h0⟩ : ∃ p ∈ n.edges, Conducts n p.1 p.2 0 := by
      rcases Nat.lt_trichotomy a b with hl | rfl | hl
      · exact ⟨(a, b), (mem_edges a b).2 ⟨hl, 0, hc⟩, hc⟩
      · exact absurd hc (hloop a 0)
      · exact ⟨(b, a), (mem_edges b a).2 ⟨hl, 0, conducts_symm h hc⟩, conducts_symm h hc⟩
    have he : n.edgeLines t true = .error "ZeroDivisionError" := by
      unfold Net.edgeLines
      refine mapM_error _ _ _ ?_ ⟨p, hp, ?_⟩
      · rintro ⟨x, y⟩ hq
        obtain ⟨_, c, r, hr, hrc⟩ := (mem_edges x y).1 hq
        rw [hr]
        unfold valueText
        by_cases hz : n.heap r = 0
        · right; simp only [hz, if_true]; rfl
        · left; exact ⟨_, by simp only [hz, if_true, if_false]; rfl⟩
      · obtain ⟨r, hr, hz⟩ := h0
        rw [show n.s.get? p = some r from hr]
        unfold valueText
        simp only [hz, if_true]
        rfl
    unfold Net.toStr
    rw [hns, he]
    rfl
  · intro hnz
    obtain ⟨es, hes, hel⟩ : ∃ es, n.edgeLines t resistance = .ok es ∧ List.Forall₂ (EdgeLine t n resistance) n.edges es := by
      unfold Net.edgeLines
      refine mapM_exact _ _ _ ?_
      rintro ⟨a, b⟩ hp
      obtain ⟨_, c, r, hr, hrc⟩ := (mem_edges a b).1 hp
      refine ⟨"  " ++ n.label t a ++ "," ++ n.label t b ++ ": " ++ t.num (if resistance then 1 / c else c), ?_,
        c, _, _, ⟨r, hr, hrc⟩, label_called t n a, label_called t n b, rfl⟩
      simp only [hr, hrc, valueText]
      cases resistance with
      | false => rfl
      | true =>
        have : c ≠ 0 := fun h0 => hnz ⟨rfl, a, b, r, hr, hrc.trans h0⟩
        simp only [if_true, if_neg this]
        rfl
    refine ⟨ns, es, hnl, hel, ?_⟩
    unfold Net.toStr
    rw [hns, hes]
    rfl

/-- **C110, search.** The nodes found are exactly those of the networks whose points lie in the area, each once. -/
theorem find_exact (inside : Point → Bool) (nets : List Net) (hn : ∀ n ∈ nets, Reachable n) :
    (findNodes inside nets).Nodup ∧
      ∀ k i, (k, i) ∈ findNodes inside nets ↔ ∃ n p, nets[k]? = some n ∧ n.locations.get? i = some p ∧ inside p = true := by
  have hz : ∀ x : Net × Nat, x ∈ nets.zipIdx ↔ nets[x.2]? = some x.1 := fun x => List.mem_zipIdx_iff_getElem?
  constructor
  · unfold findNodes
    rw [List.nodup_flatMap]
    constructor
    · rintro ⟨n, k⟩ hk
      have hi := reachable_inv (hn n (List.mem_of_getElem? ((hz _).1 hk)))
      have hi' : (n.nodes.map Prod.snd).Nodup := by
        rw [List.Nodup, List.pairwise_map]
        have hk' : (n.nodes.map Prod.fst).Nodup := hi.base.nKeys
        rw [List.Nodup, List.pairwise_map] at hk'
        refine hk'.imp_of_mem ?_
        rintro ⟨p, i⟩ ⟨q, j⟩ h1 h2 hne he
        have e1 := (hi.base.loc p i).1 (Dict.get?_of_mem hi.base.nKeys h1)
        have e2 := (hi.base.loc q j).1 (Dict.get?_of_mem hi.base.nKeys h2)
        have he : i = j := he
        rw [he, e2] at e1
        exact hne (Option.some.inj e1).symm
      have hf : ((n.nodes.filter fun pn => inside pn.1).map Prod.snd).Nodup := List.Nodup.sublist (List.Sublist.map _ List.filter_sublist) hi'
      rw [List.Nodup, List.pairwise_map] at hf ⊢
      exact hf.imp fun h he => h (Prod.mk.inj he).2
    · have hk : (nets.zipIdx.map Prod.snd).Nodup := by
        rw [List.zipIdx_map_snd]
        exact List.nodup_range'
      rw [List.Nodup, List.pairwise_map] at hk
      refine hk.imp ?_
      rintro ⟨n, k⟩ ⟨n', k'⟩ hne x hx hx'
      obtain ⟨_, _, rfl⟩ := List.mem_map.1 hx
      obtain ⟨_, _, he⟩ := List.mem_map.1 hx'
      exact hne (Prod.mk.inj he).1.symm
  · intro k i
    unfold findNodes
    rw [List.mem_flatMap]
    constructor
    · rintro ⟨⟨n, k'⟩, hk, hm⟩
      obtain ⟨⟨p, i'⟩, hp, he⟩ := List.mem_map.1 hm
      obtain ⟨rfl, rfl⟩ := Prod.mk.inj he
      have hk := (hz _).1 hk
      have hi := reachable_inv (hn n (List.mem_of_getElem? hk))
      obtain ⟨hp, hin⟩ := List.mem_filter.1 hp
      exact ⟨n, p, hk, (hi.base.loc p i').1 (Dict.get?_of_mem hi.base.nKeys hp), hin⟩
    · rintro ⟨n, p, hk, hp, hin⟩
      have hi := reachable_inv (hn n (List.mem_of_getElem? hk))
      refine ⟨(n, k), (hz _).2 hk, List.mem_map.2 ⟨(p, i), List.mem_filter.2 ⟨Dict.mem_of_get? ((hi.base.loc p i).2 hp), hin⟩, rfl⟩⟩

/-! ### Examples -/

/-- Short texts. -/
def exTexts : Texts := ⟨fun q => toString q.num ++ "/" ++ toString q.den, fun p => toString p.1 ++ "," ++ toString p.2, fun i => "$" ++ toString i⟩

/-- The network of the example of C23 is printed with one resistor. -/
example : (match run (sampleHistory ++ [.name 2 "OUT"]) with
    | .ok n => (n.toStr exTexts true).toOption
    | .error _ => none) = some "Nodes:\n  $0: 0,0\n  OUT: 20,0\nResistors:\n  $0,OUT: 2/3" := by decide +kernel

/-- A conductance of 0 cannot be printed as a resistance. -/
example : (match run [.nodeId (0, 0), .nodeId (10, 0), .addCond 0 1 0] with
    | .ok n => n.toStr exTexts true
    | .error m => .error m) = .error "ZeroDivisionError" := by decide +kernel

example : (match run sampleHistory with
    | .ok n => findNodes (fun p => 5 ≤ p.1) [{}, n]
    | .error _ => []) = [(1, 2)] := by decide +kernel

/-! ### Names -/

/-- The last name that a history gives to a node. -/
def NamedLast (h : List Op) (i : Nat) (name : String) : Prop :=
  ∃ h₁ h₂, h = h₁ ++ .name i name :: h₂ ∧ ∀ name', .name i name' ∉ h₂

theorem foldlM_names {α : Type} {f : Net → α → Except String Net} (hf : ∀ n a n', f n a = .ok n' → n'.nodeNames = n.nodeNames) :
    ∀ (l : List α) (n n' : Net), l.foldlM f n = .ok n' → n'.nodeNames = n.nodeNames
  | [], n, n', h => by cases h; rfl
  | a :: l, n, n', h => by
    rw [List.foldlM_cons] at h
    cases ha : f n a with
    | error e => rw [ha] at h; cases h
    | ok m =>
      rw [ha] at h
      exact (foldlM_names hf l m n' h).trans (hf n a m ha)

theorem addCondRef_names (n : Net) (a b : Nat) (r : Ref) : (n.addCondRef a b r).nodeNames = n.nodeNames := by
  unfold Net.addCondRef
  split <;> rfl

theorem addCond_names (n : Net) (a b : Nat) (c : ℚ) : (n.addCond a b c).nodeNames = n.nodeNames := addCondRef_names _ _ _ _

theorem unlink_names {n n' : Net} {i : Nat} {e : Entry} (h : n.unlink i e = .ok n') : n'.nodeNames = n.nodeNames := by
  unfold Net.unlink at h
  cases h1 : removeEntry n.nodeToS e.2 (e.1, i) with
  | error x => rw [h1] at h; cases h
  | ok t =>
    cases h2 : delKey n.s (i, e.2) with
    | error x => rw [h1] at h; simp only [bind, Except.bind, h2] at h; cases h
    | ok s =>
      cases h3 : delKey s (e.2, i) with
      | error x => rw [h1] at h; simp only [bind, Except.bind, h2, h3] at h; cases h
      | ok s' =>
        rw [h1] at h
        simp only [bind, Except.bind, h2, h3, pure, Except.pure] at h
        cases h; rfl

theorem forget_names {n n' : Net} {i : Nat} (h : n.forget i = .ok n') : n'.nodeNames = n.nodeNames := by
  unfold Net.forget at h
  cases h1 : delKey n.nodeToS i with
  | error x => rw [h1] at h; cases h
  | ok t =>
    rw [h1] at h
    simp only [bind, Except.bind, pure, Except.pure] at h
    split at h
    · cases h
    · split at h
      · cases h
      · cases h; rfl

theorem removeNode_names {n n' : Net} {i : Nat} (h : n.removeNode i = .ok n') : n'.nodeNames = n.nodeNames := by
  unfold Net.removeNode at h
  split at h
  · cases h; rfl
  · rename_i star _
    cases h1 : star.foldlM (fun n e => n.unlink i e) n with
    | error x => rw [h1] at h; cases h
    | ok m =>
      rw [h1] at h
      exact (forget_names h).trans (foldlM_names (fun _ _ _ => unlink_names) _ _ _ h1)

theorem connectNodes_names {n n' : Net} {a b : Nat} (h : n.connectNodes a b = .ok n') : n'.nodeNames = n.nodeNames := by
  unfold Net.connectNodes at h
  split at h
  · cases h; rfl
  · rename_i star _
    cases h1 : star.foldlM (fun n e => n.moveEntry a b e) n with
    | error x => rw [h1] at h; cases h
    | ok m =>
      rw [h1] at h
      refine (forget_names h).trans (foldlM_names (fun k e k' hk => ?_) _ _ _ h1)
      unfold Net.moveEntry at hk
      rw [unlink_names hk]
      split
      · exact addCondRef_names _ _ _ _
      · rfl

theorem meshStep_names (sSum : ℚ) : ∀ (l : List (Entry × Entry)) (n : Net),
    (l.foldl (Net.meshStep sSum) n).nodeNames = n.nodeNames
  | [], _ => rfl
  | _ :: l, n => (meshStep_names sSum l _).trans (addCond_names _ _ _ _)

theorem eliminateNode_names {n n' : Net} {i : Nat} (h : n.eliminateNode i = .ok n') : n'.nodeNames = n.nodeNames := by
  unfold Net.eliminateNode at h
  split at h
  · cases h; rfl
  · rw [removeNode_names h]
    split
    · exact meshStep_names _ _ _
    · rfl

theorem elimLoop_names : ∀ (fuel nmax : Nat) (n n' : Net), Net.elimLoop fuel nmax n = .ok (some n') → n'.nodeNames = n.nodeNames
  | 0, _, _, _, h => by cases h
  | fuel + 1, _, n, n', h => by
    unfold Net.elimLoop at h
    split at h
    · split at h
      · cases h; rfl
      · exact elimLoop_names fuel _ _ _ h
    · rename_i i is _
      cases h1 : (i :: is).foldlM (fun n i => n.eliminateNode i) n with
      | error x => rw [h1] at h; cases h
      | ok m =>
        rw [h1] at h
        exact (elimLoop_names fuel _ _ _ h).trans (foldlM_names (fun _ _ _ => eliminateNode_names) _ _ _ h1)

theorem eliminateAll_names {n n' : Net} (h : n.eliminateAll = .ok n') : n'.nodeNames = n.nodeNames := by
  unfold Net.eliminateAll at h
  cases h1 : Net.elimLoop (2 * n.nodeToS.length + 1) 3 n with
  | error x => rw [h1] at h; cases h
  | ok o =>
    rw [h1] at h
    cases o with
    | none => cases h
    | some m => cases h; exact elimLoop_names _ _ _ _ h1

theorem step_names {n n' : Net} {op : Op} (h : n.step op = .ok n') (i : Nat) :
    n'.nodeNames.get? i = match op with
      | .name j nm => if j = i then some nm else n.nodeNames.get? i
      | _ => n.nodeNames.get? i := by
  cases op with
  | nodeId p =>
    have : (n.nodeId p).1.nodeNames = n.nodeNames := by unfold Net.nodeId; split <;> rfl
    cases h; simp only [this]
  | name j nm => cases h; simp only [Net.name, Dict.get?_set]
  | markPrecious j => cases h; rfl
  | addCond a b c => cases h; simp only [addCond_names]
  | connectNodes a b => simp only [connectNodes_names h]
  | removeNode j => simp only [removeNode_names h]
  | eliminateNode j => simp only [eliminateNode_names h]
  | eliminateAll => simp only [eliminateAll_names h]

theorem run_names (i : Nat) : ∀ (h : List Op) (n n' : Net), h.foldlM Net.step n = .ok n' →
    (∀ name, n'.nodeNames.get? i = some name ↔
      NamedLast h i name ∨ (∀ name', .name i name' ∉ h) ∧ n.nodeNames.get? i = some name)
  | [], n, n', h, name => by
    cases h
    constructor
    · exact fun h => .inr ⟨fun _ => List.not_mem_nil, h⟩
    · rintro (⟨h₁, h₂, h, _⟩ | h)
      · simp at h
      · exact h.2
  | op :: h, n, n', hr, name => by
    rw [List.foldlM_cons] at hr
    cases ha : n.step op with
    | error e => rw [ha] at hr; cases hr
    | ok m =>
      rw [ha] at hr
      rw [run_names i h m n' hr name, step_names ha i]
      have cons : NamedLast (op :: h) i name ↔ NamedLast h i name ∨ op = .name i name ∧ ∀ name', .name i name' ∉ h := by
        constructor
        · rintro ⟨h₁, h₂, he, hl⟩
          cases h₁ with
          | nil => simp only [List.nil_append, List.cons.injEq] at he; exact .inr ⟨he.1, he.2 ▸ hl⟩
          | cons o h₁ => simp only [List.cons_append, List.cons.injEq] at he; exact .inl ⟨h₁, h₂, he.2, hl⟩
        · rintro (⟨h₁, h₂, rfl, hl⟩ | ⟨rfl, hl⟩)
          · exact ⟨op :: h₁, h₂, rfl, hl⟩
          · exact ⟨[], h, rfl, hl⟩
      rw [cons]
      cases op with
      | name j nm =>
        by_cases hj : j = i
        · subst hj
          simp only [if_true, Option.some.injEq, Op.name.injEq, true_and]
          constructor
          · rintro (h | ⟨h1, rfl⟩)
            · exact .inl (.inl h)
            · exact .inl (.inr ⟨rfl, h1⟩)
          · rintro ((h | ⟨rfl, h1⟩) | ⟨h, _⟩)
            · exact .inl h
            · exact .inr ⟨h1, rfl⟩
            · exact absurd (List.mem_cons_self) (h nm)
        · have : ∀ x, Op.name i x ≠ Op.name j nm := fun x hx => by cases hx; exact hj rfl
          simp [hj, this]
      | _ => simp

/-- **C110, names.** A node is called by the name that it was given last, and by its identifier if it was never given one;
no other operation changes a name. -/
theorem names_kept (t : Texts) (h : List Op) (n : Net) (hr : run h = .ok n) (i : Nat) (name : String) :
    Called t n i name ↔ NamedLast h i name ∨ (∀ name', .name i name' ∉ h) ∧ name = t.id i := by
  have key := run_names i h {} n hr
  have k0 : ∀ x, (({} : Net).nodeNames.get? i = some x) ↔ False := fun x => ⟨nofun, False.elim⟩
  simp only [k0, and_false, or_false] at key
  unfold Called
  rw [key]
  refine or_congr Iff.rfl (and_congr ?_ Iff.rfl)
  rw [Option.eq_none_iff_forall_not_mem]
  constructor
  · intro hn
    by_contra hc
    push Not at hc
    obtain ⟨nm, hm⟩ := hc
    have last : ∀ (h : List Op) (nm : String), .name i nm ∈ h → ∃ nm', NamedLast h i nm' := by
      intro h
      induction h with
      | nil => intro _ hm; cases hm
      | cons op h ih =>
        intro nm hm
        by_cases hex : ∃ x, Op.name i x ∈ h
        · obtain ⟨x, hx⟩ := hex
          obtain ⟨nm', h₁, h₂, rfl, hl⟩ := ih x hx
          exact ⟨nm', op :: h₁, h₂, rfl, hl⟩
        · push Not at hex
          rcases List.mem_cons.1 hm with rfl | hm
          · exact ⟨nm, [], h, rfl, hex⟩
          · exact absurd hm (hex nm)
    obtain ⟨nm', hn'⟩ := last h nm hm
    exact hn nm' ((key nm').2 hn')
  · intro hn x hx
    obtain ⟨h₁, h₂, rfl, _⟩ := (key x).1 hx
    exact hn x (by simp)

/-- C110: names in a history. -/
theorem names_ex : ∃ n, run [.nodeId (0, 0), .nodeId (5, 0), .name 0 "A", .addCond 0 1 2, .name 1 "B", .name 0 "C"] = .ok n ∧
    NamedLast [.nodeId (0, 0), .nodeId (5, 0), .name 0 "A", .addCond 0 1 2, .name 1 "B", .name 0 "C"] 0 "C" :=
  ⟨_, rfl, [.nodeId (0, 0), .nodeId (5, 0), .name 0 "A", .addCond 0 1 2, .name 1 "B"], [], rfl, fun _ => List.not_mem_nil⟩

end Verif.RNet
