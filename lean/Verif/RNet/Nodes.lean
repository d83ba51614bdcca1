import Verif.RNet.Print

/-!
# Identity of nodes (C119)
-/

namespace Verif.RNet

/-! ## Model -/

/-- `ResistorNetwork.has_node`, resistor_network.py 197–201. -/
def Net.hasNode (n : Net) (p : Point) : Bool := n.nodes.has p

/-- `ResistorNetwork.location`, resistor_network.py 217–224. -/
def Net.location (n : Net) (i : Nat) : Option Point := n.locations.get? i

/-- `ResistorNetwork.node_ids`, resistor_network.py 178–182; `contains` is KLayout's `edge.contains`. -/
def Net.nodeIds (n : Net) (contains : Point → Bool) : List Nat :=
  (n.nodes.filter fun e => contains e.1).map Prod.snd

/-! ## What the operations do to nodes -/

/-- From `n` to `n'` no node is created and none disappears, except possibly those of `E`. -/
def Keeps (E : Nat → Prop) (n n' : Net) : Prop :=
  n'.nextId = n.nextId ∧ (n.locations.keys.Nodup → n'.locations.keys.Nodup ∧
    ∀ i, n'.locations.get? i = n.locations.get? i ∨ (E i ∧ n'.locations.get? i = none))

theorem Keeps.refl (E : Nat → Prop) (n : Net) : Keeps E n n := ⟨rfl, fun h => ⟨h, fun _ => Or.inl rfl⟩⟩

theorem Keeps.trans {E : Nat → Prop} {n n' n'' : Net} (h : Keeps E n n') (h' : Keeps E n' n'') : Keeps E n n'' := by
  refine ⟨h'.1.trans h.1, fun hn => ?_⟩
  obtain ⟨a, b⟩ := h.2 hn
  obtain ⟨a', b'⟩ := h'.2 a
  refine ⟨a', fun i => ?_⟩
  rcases b' i with h2 | h2
  · rw [h2]; exact b i
  · exact Or.inr h2

theorem Keeps.mono {E F : Nat → Prop} (hE : ∀ i, E i → F i) {n n' : Net} (h : Keeps E n n') : Keeps F n n' :=
  ⟨h.1, fun hn => ⟨(h.2 hn).1, fun i => ((h.2 hn).2 i).imp_right fun ⟨a, b⟩ => ⟨hE i a, b⟩⟩⟩

theorem foldlM_keeps {E : Nat → Prop} {α : Type} {f : Net → α → Except String Net} (l : List α)
    (hf : ∀ n, ∀ x ∈ l, ∀ n', f n x = .ok n' → Keeps E n n') :
    ∀ n n', l.foldlM f n = .ok n' → Keeps E n n' := by
  induction l with
  | nil => intro n n' h; cases h; exact Keeps.refl _ _
  | cons x l ih =>
    intro n n' h
    rw [List.foldlM_cons, Exc.bind_ok] at h
    obtain ⟨n1, h1, h2⟩ := h
    exact (hf _ x (by simp) _ h1).trans (ih (fun n y hy => hf n y (by simp [hy])) _ _ h2)

theorem unlink_keeps {E : Nat → Prop} {n n' : Net} {i : Nat} {e : Entry} (h : n.unlink i e = .ok n') : Keeps E n n' := by
  unfold Net.unlink at h
  rw [Exc.bind_ok] at h
  obtain ⟨t, -, h⟩ := h
  rw [Exc.bind_ok] at h
  obtain ⟨s, -, h⟩ := h
  rw [Exc.bind_ok] at h
  obtain ⟨s', -, h⟩ := h
  cases h
  exact ⟨rfl, fun h => ⟨h, fun _ => Or.inl rfl⟩⟩

theorem forget_keeps {n n' : Net} {i : Nat} (h : n.forget i = .ok n') : Keeps (· = i) n n' := by
  unfold Net.forget at h
  rw [Exc.bind_ok] at h
  obtain ⟨t, -, h⟩ := h
  split at h
  · cases h
  · rw [Exc.bind_ok] at h
    obtain ⟨s, -, h⟩ := h
    cases h
    refine ⟨rfl, fun hn => ⟨Dict.nodup_keys_del _ _ hn, fun j => ?_⟩⟩
    show (n.locations.del i).get? j = _ ∨ _ ∧ (n.locations.del i).get? j = none
    rw [Dict.get?_del _ _ hn]
    by_cases hj : i = j
    · exact Or.inr ⟨hj.symm, if_pos hj⟩
    · exact Or.inl (if_neg hj)

theorem addCondRef_keeps (E : Nat → Prop) (n : Net) (a b : Nat) (r : Ref) : Keeps E n (n.addCondRef a b r) := by
  unfold Net.addCondRef
  split <;> exact ⟨rfl, fun h => ⟨h, fun _ => Or.inl rfl⟩⟩

theorem addCond_keeps (E : Nat → Prop) (n : Net) (a b : Nat) (c : ℚ) : Keeps E n (n.addCond a b c) :=
  (show Keeps E n { n with heap := Function.update n.heap n.nextRef c, nextRef := n.nextRef + 1 } from
    ⟨rfl, fun h => ⟨h, fun _ => Or.inl rfl⟩⟩).trans (addCondRef_keeps E _ a b n.nextRef)

theorem removeNode_keeps {n n' : Net} {i : Nat} (h : n.removeNode i = .ok n') : Keeps (· = i) n n' := by
  unfold Net.removeNode at h
  split at h
  · cases h; exact Keeps.refl _ _
  · rw [Exc.bind_ok] at h
    obtain ⟨n1, h1, h2⟩ := h
    exact (foldlM_keeps _ (fun _ _ _ _ h => unlink_keeps h) _ _ h1).trans (forget_keeps h2)

theorem connectNodes_keeps {n n' : Net} {a b : Nat} (h : n.connectNodes a b = .ok n') : Keeps (· = b) n n' := by
  unfold Net.connectNodes at h
  split at h
  · cases h; exact Keeps.refl _ _
  · rw [Exc.bind_ok] at h
    obtain ⟨n1, h1, h2⟩ := h
    refine (foldlM_keeps _ (fun m e _ m' h => ?_) _ _ h1).trans (forget_keeps h2)
    unfold Net.moveEntry at h
    refine Keeps.trans ?_ (unlink_keeps h)
    split
    · exact addCondRef_keeps _ _ _ _ _
    · exact Keeps.refl _ _

theorem eliminateNode_keeps {n n' : Net} {i : Nat} (h : n.eliminateNode i = .ok n') : Keeps (· = i) n n' := by
  have hm : ∀ (s : ℚ) (l : List (Entry × Entry)) (n : Net), Keeps (· = i) n (l.foldl (Net.meshStep s) n) := by
    intro s l
    induction l with
    | nil => intro n; exact Keeps.refl _ _
    | cons p l ih =>
      intro n
      rw [List.foldl_cons]
      exact (addCond_keeps _ _ _ _ _).trans (ih _)
  unfold Net.eliminateNode at h
  split at h
  · cases h; exact Keeps.refl _ _
  · refine Keeps.trans ?_ (removeNode_keeps h)
    split
    · exact hm ..
    · exact Keeps.refl _ _

theorem elimLoop_keeps (fuel : Nat) : ∀ (m : Nat) (n n' : Net), Net.elimLoop fuel m n = .ok (some n') →
    Keeps (· ∉ n.precious) n n' := by
  induction fuel with
  | zero => intro m n n' h; cases h
  | succ f ih =>
    intro m n n' h
    unfold Net.elimLoop at h
    split at h
    · split at h
      · cases h; exact Keeps.refl _ _
      · exact ih _ _ _ h
    · rename_i i is hi
      rw [Exc.bind_ok] at h
      obtain ⟨n1, h1, h2⟩ := h
      have hp := foldlM_precious (fun _ _ _ h => eliminateNode_precious h) _ _ _ h1
      have hr := ih _ _ _ h2
      rw [hp] at hr
      refine (foldlM_keeps _ (fun a x hx a' h => (eliminateNode_keeps h).mono ?_) _ _ h1).trans hr
      rintro _ rfl
      rw [← hi] at hx
      exact (of_decide_eq_true (List.mem_filter.1 hx).2).1

/-- The nodes that a call may remove: the one it names, and for a full elimination all that are not precious. -/
def MayRemove (n : Net) : Op → Nat → Prop
  | .connectNodes _ b, i => i = b
  | .removeNode j, i => i = j
  | .eliminateNode j, i => i = j
  | .eliminateAll, i => i ∉ n.precious
  | _, _ => False

theorem step_keeps {n n' : Net} {op : Op} (h : n.step op = .ok n') :
    (∃ p, op = .nodeId p ∧ n' = (n.nodeId p).1) ∨ Keeps (MayRemove n op) n n' := by
  cases op with
  | nodeId p => cases h; exact Or.inl ⟨p, rfl, rfl⟩
  | name j nm => cases h; exact Or.inr ⟨rfl, fun h => ⟨h, fun _ => Or.inl rfl⟩⟩
  | markPrecious j => cases h; exact Or.inr ⟨rfl, fun h => ⟨h, fun _ => Or.inl rfl⟩⟩
  | addCond a b c => cases h; exact Or.inr (addCond_keeps _ _ _ _ _)
  | connectNodes a b => exact Or.inr (connectNodes_keeps h)
  | removeNode j => exact Or.inr (removeNode_keeps h)
  | eliminateNode j => exact Or.inr (eliminateNode_keeps h)
  | eliminateAll =>
    have h : n.eliminateAll = .ok n' := h
    unfold Net.eliminateAll at h
    rw [Exc.bind_ok] at h
    obtain ⟨o, h1, h2⟩ := h
    cases o with
    | none => cases h2
    | some n1 => cases h2; exact Or.inr (elimLoop_keeps _ _ _ _ h1)

/-- An identifier that was given out keeps its point or is gone, and the counter does not go back. -/
theorem step_known {n n' : Net} {op : Op} (h : n.step op = .ok n') (hn : n.locations.keys.Nodup) {i : Nat}
    (hi : i < n.nextId) : n'.locations.keys.Nodup ∧ i < n'.nextId ∧ (n'.locations.get? i = n.locations.get? i ∨ (MayRemove n op i ∧ n'.locations.get? i = none)) := by
  rcases step_keeps h with ⟨p, rfl, rfl⟩ | hk
  · unfold Net.nodeId
    split
    · exact ⟨hn, hi, Or.inl rfl⟩
    · exact ⟨Dict.nodup_keys_set _ _ _ hn, Nat.lt_succ_of_lt hi,
        Or.inl (by simp only [Dict.get?_set]; rw [if_neg (by omega)])⟩
  · exact ⟨(hk.2 hn).1, by rw [hk.1]; exact hi, (hk.2 hn).2 i⟩

theorem run_known (h : List Op) : ∀ (n n' : Net) (i : Nat), n.locations.keys.Nodup →
    h.foldlM Net.step n = .ok n' → i < n.nextId → i < n'.nextId ∧ (n'.locations.get? i = n.locations.get? i ∨ n'.locations.get? i = none) := by
  induction h with
  | nil => intro n n' i _ h hi; cases h; exact ⟨hi, Or.inl rfl⟩
  | cons op h ih =>
    intro n n' i hn hr hi
    rw [List.foldlM_cons, Exc.bind_ok] at hr
    obtain ⟨n1, h1, h2⟩ := hr
    obtain ⟨hn', a, b⟩ := step_known h1 hn hi
    obtain ⟨c, d⟩ := ih n1 n' i hn' h2 a
    refine ⟨c, ?_⟩
    rcases d with d | d
    · rw [d]; rcases b with b | ⟨-, b⟩
      · exact Or.inl b
      · exact Or.inr b
    · exact Or.inr d

theorem nodeId_fact {n : Net} (h : Inv n) (p : Point) :
    (n.nodeId p).2 < (n.nodeId p).1.nextId ∧ (n.nodeId p).1.locations.get? (n.nodeId p).2 = some p := by
  unfold Net.nodeId
  cases hp : n.nodes.get? p with
  | some i =>
    have := (h.base.loc p i).1 hp
    exact ⟨h.base.ids _ _ this, this⟩
  | none => exact ⟨Nat.lt_succ_self _, by simp⟩

theorem legal_prefix (h g : List Op) : ∀ n, LegalHistory n (h ++ g) → LegalHistory n h := by
  induction h with
  | nil => intro n _; trivial
  | cons op h ih => intro n hl; exact ⟨hl.1, fun n' hn => ih n' (hl.2 n' hn)⟩

/-! ## Properties -/

/-- The call at the end of the history `h` can remove node `i`: it names the node, or it is a full elimination and the node was
not marked as precious before. -/
def CanRemove (h : List Op) (i : Nat) : Op → Prop
  | .connectNodes _ b => b = i
  | .removeNode j => j = i
  | .eliminateNode j => j = i
  | .eliminateAll => Op.markPrecious i ∉ h
  | _ => False

/-- **C119.** In any legal history, let `i` be the identifier answered to a request for the point `p`.  However the history goes
on, `i` never stands for another point: its location is `p`, or the node was removed and `i` has no location any more.
A new request for `p` answers `i` exactly if the node still exists, a request for another point never answers `i`.  The node
exists as long as no later call can remove it. -/
theorem node_identity (h₁ h₂ : List Op) (p : Point) (n₁ n₂ : Net) (hl : LegalHistory {} (h₁ ++ .nodeId p :: h₂))
    (hr₁ : run h₁ = .ok n₁) (hr₂ : run (h₁ ++ .nodeId p :: h₂) = .ok n₂) :
    let i := (n₁.nodeId p).2
    (n₂.location i = some p ∨ n₂.location i = none) ∧
    ((n₂.nodeId p).2 = i ↔ n₂.location i = some p) ∧
    (∀ q, q ≠ p → (n₂.nodeId q).2 ≠ i) ∧
    ((∀ g op g', h₂ = g ++ op :: g' → ¬ CanRemove (h₁ ++ .nodeId p :: g) i op) → n₂.location i = some p) := by
  intro i
  have hI₁ : Inv n₁ := reachable_inv ⟨h₁, legal_prefix _ _ _ hl, hr₁⟩
  have hI₂ : Inv n₂ := reachable_inv ⟨_, hl, hr₂⟩
  obtain ⟨f1, f2⟩ := nodeId_fact hI₁ p
  have hN : (n₁.nodeId p).1.locations.keys.Nodup := by
    unfold Net.nodeId; split
    · exact hI₁.base.lKeys
    · exact Dict.nodup_keys_set _ _ _ hI₁.base.lKeys
  have hr₂' : h₂.foldlM Net.step (n₁.nodeId p).1 = .ok n₂ := by
    unfold run at hr₁ hr₂
    rw [List.foldlM_append, hr₁] at hr₂
    exact hr₂
  obtain ⟨k1, k2⟩ := run_known h₂ _ _ i hN hr₂' f1
  have hk : n₂.location i = some p ∨ n₂.location i = none := by
    rcases k2 with k2 | k2
    · exact Or.inl (k2.trans f2)
    · exact Or.inr k2
  have ask : ∀ q, (n₂.nodeId q).2 = i → n₂.location i = some q := by
    intro q hq
    unfold Net.nodeId at hq
    cases hp : n₂.nodes.get? q with
    | some j => rw [hp] at hq; exact (hI₂.base.loc q i).1 (by rw [hp]; exact congrArg some hq)
    | none => rw [hp] at hq; simp only at hq; omega
  refine ⟨hk, ⟨ask p, fun h => ?_⟩, fun q hne hq => ?_, fun hsafe => ?_⟩
  · have := (hI₂.base.loc p i).2 h
    unfold Net.nodeId; rw [this]
  · have := ask q hq
    rcases hk with hk | hk
    · rw [hk] at this; exact hne (Option.some.inj this).symm
    · rw [hk] at this; cases this
  · have main : ∀ (h₂ g₀ : List Op) (n : Net), run g₀ = .ok n → n.locations.keys.Nodup → i < n.nextId → n.locations.get? i = some p →
        h₂.foldlM Net.step n = .ok n₂ →
        (∀ g op g', h₂ = g ++ op :: g' → ¬ CanRemove (g₀ ++ g) i op) → n₂.location i = some p := by
      intro h₂
      induction h₂ with
      | nil => intro g₀ n _ _ _ hn h _; cases h; exact hn
      | cons op h₂ ih =>
        intro g₀ n hg hN hi hn hr hs
        rw [List.foldlM_cons, Exc.bind_ok] at hr
        obtain ⟨n', h1, h2⟩ := hr
        obtain ⟨hN', a, b⟩ := step_known h1 hN hi
        have b' : n'.locations.get? i = some p := by
          rcases b with b | ⟨b, -⟩
          · rw [b]; exact hn
          · exfalso
            have hc := hs [] op h₂ rfl
            rw [List.append_nil] at hc
            apply hc
            cases op with
            | eliminateAll => exact fun h => b ((precious_exact _ _ hg i).2 h)
            | connectNodes x y => exact Eq.symm b
            | removeNode x => exact Eq.symm b
            | eliminateNode x => exact Eq.symm b
            | nodeId _ => exact b.elim
            | name _ _ => exact b.elim
            | markPrecious _ => exact b.elim
            | addCond _ _ _ => exact b.elim
        refine ih (g₀ ++ [op]) n' ?_ hN' a b' h2 ?_
        · unfold run at hg ⊢
          rw [List.foldlM_append, hg]
          simp only [bind, Except.bind, List.foldlM_cons, h1, List.foldlM_nil, pure, Except.pure]
        · intro g op' g' he
          have := hs (op :: g) op' g' (by rw [he]; rfl)
          simpa using this
    refine main h₂ (h₁ ++ [.nodeId p]) (n₁.nodeId p).1 ?_ hN f1 f2 hr₂' ?_
    · unfold run at hr₁ ⊢
      rw [List.foldlM_append, hr₁]; rfl
    · intro g op g' he
      simpa using hsafe g op g' he

/-- **C119, requests.** Asking for a point answers a node at that point; a node that existed keeps its location, no other node is
created and no resistor changes.  If the point already had a node, nothing changes at all. -/
theorem request_effect (n : Net) (hn : Reachable n) (p : Point) :
    (n.nodeId p).1.location (n.nodeId p).2 = some p ∧
    (∀ j, j ≠ (n.nodeId p).2 → (n.nodeId p).1.location j = n.location j) ∧
    (n.location (n.nodeId p).2 = some p ∨ n.location (n.nodeId p).2 = none) ∧
    (n.nodeId p).1.s = n.s ∧ (n.nodeId p).1.heap = n.heap ∧ (n.hasNode p = true → (n.nodeId p).1 = n) := by
  have hI := reachable_inv hn
  refine ⟨(nodeId_fact hI p).2, ?_⟩
  unfold Net.nodeId Net.location Net.hasNode
  cases hp : n.nodes.get? p with
  | some i => exact ⟨fun _ _ => rfl, Or.inl ((hI.base.loc p i).1 hp), rfl, rfl, fun _ => rfl⟩
  | none =>
    refine ⟨fun j hj => ?_, Or.inr ?_, rfl, rfl, fun h => ?_⟩
    · simp only [Dict.get?_set] at hj ⊢; rw [if_neg (Ne.symm hj)]
    · cases hx : n.locations.get? n.nextId with
      | none => rfl
      | some q => exact absurd (hI.base.ids _ _ hx) (Nat.lt_irrefl _)
    · unfold Dict.has at h; rw [hp] at h; cases h

/-- **C119, searching.** A point has a node exactly if some identifier is located there, and then exactly one; the nodes found on
an edge are exactly those located on it, each listed once. -/
theorem nodes_found (n : Net) (hn : Reachable n) (p : Point) (contains : Point → Bool) :
    (n.hasNode p = true ↔ ∃ i, n.location i = some p) ∧
    (∀ i j, n.location i = some p → n.location j = some p → i = j) ∧
    (n.nodeIds contains).Nodup ∧
    (∀ i, i ∈ n.nodeIds contains ↔ ∃ q, n.location i = some q ∧ contains q = true) := by
  have hI := reachable_inv hn
  refine ⟨?_, ?_, ?_, ?_⟩
  · unfold Net.hasNode Dict.has Net.location
    rw [Option.isSome_iff_exists]
    exact exists_congr fun i => hI.base.loc p i
  · intro i j hi hj
    have hi := (hI.base.loc p i).2 hi
    have hj := (hI.base.loc p j).2 hj
    rw [hi] at hj; exact Option.some.inj hj
  · have h1 := (find_exact contains [n] (by simpa using hn)).1
    have e : findNodes contains [n] = (n.nodeIds contains).map fun i => (0, i) := by
      simp [findNodes, Net.nodeIds, List.map_map, Function.comp_def]
    rw [e] at h1
    exact List.Nodup.of_map _ h1
  · intro i
    have h2 := (find_exact contains [n] (by simpa using hn)).2 0 i
    have e : findNodes contains [n] = (n.nodeIds contains).map fun i => (0, i) := by
      simp [findNodes, Net.nodeIds, List.map_map, Function.comp_def]
    rw [e] at h2
    simp only [List.mem_map, Prod.mk.injEq, true_and, exists_eq_right] at h2
    rw [h2]
    simp [Net.location]

/-- Removing a node and asking for its point again gives a new identifier; the old one stays unused. -/
def againHistory : List Op :=
  [.nodeId (0, 0), .nodeId (10, 0), .addCond 0 1 2, .removeNode 1, .nodeId (10, 0)]

example : LegalHistory {} againHistory := legalHistory_of_B _ _ (by decide +kernel)

example : (match run againHistory with
    | .ok n => decide (n.location 1 = none ∧ n.location 2 = some (10, 0) ∧ n.hasNode (10, 0) = true ∧
        n.nodeIds (fun p => p.2 == 0) = [0, 2])
    | .error _ => false) = true := by decide +kernel

end Verif.RNet
