import Verif.RNet.Model
import Mathlib.Tactic.Ring
import Mathlib.Tactic.Linarith

/-! # Helper lemmas about resistor networks: the consistency invariant -/

namespace Verif.RNet

/-- The resistor between two nodes, as stored in `s`. -/
def S (n : Net) (x y : Nat) : Option Ref := n.s.get? (x, y)

/-- The star list of a node, as stored in `node_to_s`. -/
def T (n : Net) (x : Nat) : Option (List Entry) := n.nodeToS.get? x

/-- Consistency of a resistor table with star lists. -/
structure G (S : Nat → Nat → Option Ref) (T : Nat → Option (List Entry)) : Prop where
  sym : ∀ x y, S x y = S y x
  noloop : ∀ x, S x x = none
  star : ∀ x r y, (∃ l, T x = some l ∧ (r, y) ∈ l) ↔ S x y = some r
  nodup : ∀ x l, T x = some l → (l.map Prod.snd).Nodup

/-- Bookkeeping of nodes, identifiers and table keys. -/
structure Base (n : Net) : Prop where
  sKeys : n.s.keys.Nodup
  tKeys : n.nodeToS.keys.Nodup
  nKeys : n.nodes.keys.Nodup
  lKeys : n.locations.keys.Nodup
  loc : ∀ p i, n.nodes.get? p = some i ↔ n.locations.get? i = some p
  ids : ∀ i p, n.locations.get? i = some p → i < n.nextId
  tloc : ∀ i, i ∈ n.nodeToS.keys → i ∈ n.locations.keys
  refs : ∀ x y r, S n x y = some r → r < n.nextRef

/-- Different resistors are different objects. -/
def Inj (S : Nat → Nat → Option Ref) : Prop :=
  ∀ a b c d r, S a b = some r → S c d = some r → (a = c ∧ b = d) ∨ (a = d ∧ b = c)

/-- The invariant of all reachable networks. -/
structure Inv (n : Net) : Prop where
  base : Base n
  g : G (S n) (T n)
  inj : Inj (S n)

/-! ### Function-level steps -/

/-- Resistor table after linking. -/
def linkS (S : Nat → Nat → Option Ref) (a b : Nat) (r : Ref) : Nat → Nat → Option Ref :=
  fun x y => if (x = a ∧ y = b) ∨ (x = b ∧ y = a) then some r else S x y

/-- Star lists after linking. -/
def linkT (T : Nat → Option (List Entry)) (a b : Nat) (r : Ref) : Nat → Option (List Entry) :=
  fun x => if x = a then some ((T a).getD [] ++ [(r, b)]) else
    if x = b then some ((T b).getD [] ++ [(r, a)]) else T x

theorem G.link {S T} (h : G S T) {a b : Nat} (hab : a ≠ b) (hn : S a b = none) (r : Ref) :
    G (linkS S a b r) (linkT T a b r) where
  sym x y := by
    unfold linkS
    rw [h.sym x y]
    by_cases h1 : (x = a ∧ y = b) ∨ (x = b ∧ y = a)
    · rw [if_pos h1, if_pos (by tauto)]
    · rw [if_neg h1, if_neg (by tauto)]
  noloop x := by
    unfold linkS
    rw [if_neg, h.noloop]
    rintro (⟨rfl, h2⟩ | ⟨rfl, h2⟩)
    · exact hab h2
    · exact hab h2.symm
  star x q y := by
    have hstar := h.star
    have hnb : S b a = none := by rw [h.sym]; exact hn
    unfold linkS linkT
    by_cases hxa : x = a
    · subst hxa
      have hx := hstar x q y
      simp only [if_true, Option.some.injEq, exists_eq_left', List.mem_append, List.mem_singleton, Prod.mk.injEq, true_and]
      by_cases hyb : y = b
      · subst hyb
        rw [if_pos (Or.inl rfl)]
        constructor
        · rintro (h1 | h1)
          · exfalso
            cases hT : T x with
            | none => rw [hT] at h1; simp at h1
            | some l =>
              rw [hT] at h1
              have := hx.1 ⟨l, hT, h1⟩
              rw [hn] at this; cases this
          · rw [h1.1]
        · intro h1; right; simp at h1; simp [h1]
      · rw [if_neg (by rintro (h1 | ⟨h1, -⟩); exacts [hyb h1, hab h1]), ← hx]
        constructor
        · rintro (h1 | h1)
          · cases hT : T x with
            | none => rw [hT] at h1; simp at h1
            | some l => rw [hT] at h1; exact ⟨l, rfl, h1⟩
          · exact absurd h1.2 hyb
        · rintro ⟨l, hT, h1⟩; left; rw [hT]; exact h1
    · by_cases hxb : x = b
      · subst hxb
        have hx := hstar x q y
        simp only [hxa, if_false, if_true, Option.some.injEq, exists_eq_left', List.mem_append, List.mem_singleton,
          Prod.mk.injEq, true_and, false_and, false_or]
        by_cases hya : y = a
        · subst hya
          rw [if_pos rfl]
          constructor
          · rintro (h1 | h1)
            · exfalso
              cases hT : T x with
              | none => rw [hT] at h1; simp at h1
              | some l =>
                rw [hT] at h1
                have := hx.1 ⟨l, hT, h1⟩
                rw [hnb] at this; cases this
            · rw [h1.1]
          · intro h1; right; simp at h1; simp [h1]
        · rw [if_neg hya, ← hx]
          constructor
          · rintro (h1 | h1)
            · cases hT : T x with
              | none => rw [hT] at h1; simp at h1
              | some l => rw [hT] at h1; exact ⟨l, rfl, h1⟩
            · exact absurd h1.2 hya
          · rintro ⟨l, hT, h1⟩; left; rw [hT]; exact h1
      · simp only [hxa, hxb, if_false, false_and, or_self]
        exact hstar x q y
  nodup x l hl := by
    have hstar := h.star
    have hnb : S b a = none := by rw [h.sym]; exact hn
    have aux : ∀ (u w : Nat), S u w = none → (((T u).getD [] ++ [(r, w)]).map Prod.snd).Nodup := by
      intro u w huw
      cases hT : T u with
      | none => simp
      | some l =>
        simp only [Option.getD_some, List.map_append, List.map_cons, List.map_nil]
        rw [List.nodup_append]
        refine ⟨h.nodup u l hT, by simp, ?_⟩
        intro z hz z' hz' he
        simp only [List.mem_singleton] at hz'
        subst he; subst hz'
        obtain ⟨⟨q, z2⟩, hq, he⟩ := List.mem_map.1 hz
        simp only at he; subst he
        have := (hstar u q z2).1 ⟨l, hT, hq⟩
        rw [huw] at this; cases this
    unfold linkT at hl
    split at hl
    · cases hl; exact aux _ _ hn
    · split at hl
      · cases hl; exact aux _ _ hnb
      · exact h.nodup x l hl

/-- Resistor table after unlinking. -/
def unlinkS (S : Nat → Nat → Option Ref) (b o : Nat) : Nat → Nat → Option Ref :=
  fun x y => if (x = b ∧ y = o) ∨ (x = o ∧ y = b) then none else S x y

theorem G.unlink {S T} {b o : Nat} {r : Ref} {pend : List Entry} (h : G S T) (hb : T b = some ((r, o) :: pend)) :
    b ≠ o ∧ S b o = some r ∧ ∃ l, T o = some l ∧ (r, b) ∈ l ∧
      G (unlinkS S b o) (Function.update (Function.update T b (some pend)) o (some (l.erase (r, b)))) := by
  have hS : S b o = some r := (h.star b r o).1 ⟨_, hb, by simp⟩
  have hbo : b ≠ o := by rintro rfl; rw [h.noloop] at hS; cases hS
  have hS' : S o b = some r := by rw [h.sym]; exact hS
  obtain ⟨l, hl, hm⟩ := (h.star o r b).2 hS'
  refine ⟨hbo, hS, l, hl, hm, ?_⟩
  have hpn := h.nodup b _ hb
  simp only [List.map_cons, List.nodup_cons] at hpn
  have hln := h.nodup o l hl
  have hlnd : l.Nodup := List.Nodup.of_map _ hln
  constructor
  · intro x y
    unfold unlinkS
    rw [h.sym x y]
    by_cases h1 : (x = b ∧ y = o) ∨ (x = o ∧ y = b)
    · rw [if_pos h1, if_pos (by tauto)]
    · rw [if_neg h1, if_neg (by tauto)]
  · intro x
    unfold unlinkS
    rw [h.noloop]; simp
  · intro x q y
    unfold unlinkS
    by_cases hxo : x = o
    · subst hxo
      rw [Function.update_self]
      simp only [Option.some.injEq, exists_eq_left']
      rw [hlnd.mem_erase_iff]
      have hx := h.star x q y
      rw [hl] at hx
      simp only [Option.some.injEq, exists_eq_left'] at hx
      rw [hx]
      by_cases hyb : y = b
      · subst hyb
        rw [if_pos (by simp), hS']
        simp only [Option.some.injEq, ne_eq, Prod.mk.injEq, and_true, reduceCtorEq, iff_false]
        rintro ⟨h1, h2⟩; exact h1 h2.symm
      · rw [if_neg (by rintro (⟨h1, -⟩ | ⟨-, h1⟩); exacts [hbo h1.symm, hyb h1])]
        constructor
        · exact fun h => h.2
        · exact fun h => ⟨fun h' => hyb (Prod.mk.inj h').2, h⟩
    · rw [Function.update_of_ne hxo]
      by_cases hxb : x = b
      · subst hxb
        rw [Function.update_self]
        simp only [Option.some.injEq, exists_eq_left']
        have hx := h.star x q y
        rw [hb] at hx
        simp only [Option.some.injEq, exists_eq_left', List.mem_cons, Prod.mk.injEq] at hx
        by_cases hyo : y = o
        · subst hyo
          rw [if_pos (by simp)]
          simp only [reduceCtorEq, iff_false]
          intro hm'
          exact hpn.1 (List.mem_map.2 ⟨_, hm', rfl⟩)
        · rw [if_neg (by rintro (⟨-, h1⟩ | ⟨h1, -⟩); exacts [hyo h1, hxo h1]), ← hx]
          simp [hyo]
      · rw [Function.update_of_ne hxb, if_neg (by rintro (⟨h1, -⟩ | ⟨h1, -⟩); exacts [hxb h1, hxo h1])]
        exact h.star x q y
  · intro x l' hl'
    by_cases hxo : x = o
    · subst hxo
      rw [Function.update_self] at hl'
      cases hl'
      exact ((List.erase_sublist).map _).nodup hln
    · rw [Function.update_of_ne hxo] at hl'
      by_cases hxb : x = b
      · subst hxb
        rw [Function.update_self] at hl'
        cases hl'
        exact hpn.2
      · rw [Function.update_of_ne hxb] at hl'
        exact h.nodup x l' hl'

theorem Inj.unlink {S} (h : Inj S) (b o : Nat) : Inj (unlinkS S b o) := by
  intro a1 b1 c d r h1 h2
  unfold unlinkS at h1 h2
  split at h1
  · cases h1
  · split at h2
    · cases h2
    · exact h _ _ _ _ _ h1 h2

theorem Inj.link {S} (h : Inj S) {a b : Nat} {r : Ref} (hr : ∀ x y, S x y ≠ some r) : Inj (linkS S a b r) := by
  intro a1 b1 c d q h1 h2
  unfold linkS at h1 h2
  split at h1
  · cases h1
    split at h2
    · rename_i e1 e2
      omega
    · exact absurd h2 (hr _ _)
  · split at h2
    · cases h2; exact absurd h1 (hr _ _)
    · exact h _ _ _ _ _ h1 h2

/-- Moving a resistor from `b` to `a` keeps objects distinct. -/
theorem Inj.move {S} (h : Inj S) {a b o : Nat} {r : Ref} (hs : S b o = some r) :
    Inj (unlinkS (linkS S a o r) b o) := by
  intro a1 b1 c d q h1 h2
  unfold unlinkS linkS at h1 h2
  split at h1
  · cases h1
  rename_i e1
  split at h2
  · cases h2
  rename_i e2
  split at h1
  · cases h1
    split at h2
    · omega
    · have := h _ _ _ _ _ h2 hs
      omega
  · split at h2
    · cases h2
      have := h _ _ _ _ _ h1 hs
      omega
    · exact h _ _ _ _ _ h1 h2

/-! ### Steps of the model -/

theorem mem_tKeys {n : Net} {x : Nat} : x ∈ n.nodeToS.keys ↔ ∃ l, T n x = some l := by
  rw [Dict.mem_keys_iff, Option.isSome_iff_exists]; rfl

theorem T_addCondRef {n : Net} {a b : Nat} {r : Ref} (hab : a ≠ b) (h : S n a b = none) :
    T (n.addCondRef a b r) = linkT (T n) a b r := by
  funext x
  unfold T Net.addCondRef
  unfold S at h
  rw [h]
  simp only [Dict.get?_upd, Dict.getD_upd]
  unfold linkT Dict.getD
  by_cases hxb : x = b
  · subst hxb; simp [hab, Ne.symm hab]
  · by_cases hxa : x = a
    · subst hxa; simp [Ne.symm hab]
    · simp [hxa, hxb, Ne.symm hxa, Ne.symm hxb]

theorem S_addCondRef {n : Net} {a b : Nat} {r : Ref} (h : S n a b = none) :
    S (n.addCondRef a b r) = linkS (S n) a b r := by
  funext x y
  unfold S Net.addCondRef
  unfold S at h
  rw [h]
  simp only [Dict.get?_set, Prod.mk.injEq]
  unfold linkS
  by_cases h1 : x = a ∧ y = b
  · rw [if_pos (Or.inl h1)]
    obtain ⟨rfl, rfl⟩ := h1
    simp
  · by_cases h2 : x = b ∧ y = a
    · rw [if_pos (Or.inr h2)]
      obtain ⟨rfl, rfl⟩ := h2
      simp
    · rw [if_neg (by tauto), if_neg (by tauto), if_neg (by tauto)]

theorem S_addCondRef_some {n : Net} {a b : Nat} {r r₀ : Ref} (h : S n a b = some r₀) :
    n.addCondRef a b r = { n with heap := n.heap.addParallel r₀ r } := by
  unfold Net.addCondRef
  unfold S at h
  rw [h]

theorem base_heap {n : Net} (h : Base n) (hp : Heap) : Base { n with heap := hp } :=
  ⟨h.sKeys, h.tKeys, h.nKeys, h.lKeys, h.loc, h.ids, h.tloc, h.refs⟩

theorem base_addCondRef {n : Net} (h : Base n) {a b : Nat} {r : Ref} (hab : a ≠ b)
    (ha : a ∈ n.locations.keys) (hb : b ∈ n.locations.keys) (hr : r < n.nextRef) : Base (n.addCondRef a b r) := by
  cases hs : S n a b with
  | some r₀ => rw [S_addCondRef_some hs]; exact base_heap h _
  | none =>
    have hS := S_addCondRef (r := r) hs
    have hs' := hs
    unfold S at hs'
    refine ⟨?_, ?_, ?_, ?_, ?_, ?_, ?_, ?_⟩
    · unfold Net.addCondRef; rw [hs']
      exact Dict.nodup_keys_set _ _ _ (Dict.nodup_keys_set _ _ _ h.sKeys)
    · unfold Net.addCondRef; rw [hs']; dsimp only
      exact Dict.nodup_keys_upd _ _ _ _ (Dict.nodup_keys_upd _ _ _ _ h.tKeys)
    · unfold Net.addCondRef; rw [hs']; exact h.nKeys
    · unfold Net.addCondRef; rw [hs']; exact h.lKeys
    · unfold Net.addCondRef; rw [hs']; exact h.loc
    · unfold Net.addCondRef; rw [hs']; exact h.ids
    · unfold Net.addCondRef; rw [hs']
      intro i hi
      simp only [Dict.mem_keys_upd] at hi
      rcases hi with rfl | rfl | hi
      · exact hb
      · exact ha
      · exact h.tloc i hi
    · intro x y q
      rw [hS]
      unfold linkS
      have : (n.addCondRef a b r).nextRef = n.nextRef := by unfold Net.addCondRef; rw [hs']
      rw [this]
      split
      · intro he; cases he; exact hr
      · exact h.refs x y q

theorem delKey_ok {κ ν : Type} [DecidableEq κ] {d : Dict κ ν} {k : κ} (h : (d.get? k).isSome) :
    delKey d k = .ok (d.del k) := by
  unfold delKey Dict.has; rw [if_pos h]

/-- What `unlink` does, provided the node's star list (seen as the `pending` part) contains the entry. -/
theorem unlink_spec {n : Net} (hB : Base n) {b o : Nat} {r : Ref} {pend : List Entry} (hbk : b ∈ n.nodeToS.keys)
    (hG : G (S n) (Function.update (T n) b (some ((r, o) :: pend)))) :
    ∃ n', n.unlink b (r, o) = .ok n' ∧ Base n' ∧ G (S n') (Function.update (T n') b (some pend)) ∧
      S n' = unlinkS (S n) b o ∧ (∀ x, x ∈ n'.nodeToS.keys ↔ x ∈ n.nodeToS.keys) ∧ n'.heap = n.heap ∧
      n'.nextRef = n.nextRef ∧ n'.precious = n.precious ∧ n'.locations = n.locations := by
  obtain ⟨hbo, hSbo, l, hl, hm, hG'⟩ := hG.unlink (Function.update_self ..)
  rw [Function.update_of_ne hbo.symm] at hl
  have hl' : n.nodeToS.get? o = some l := hl
  have hSob : S n o b = some r := by rw [hG.sym]; exact hSbo
  unfold S at hSbo hSob
  have h1 : removeEntry n.nodeToS o (r, b) = .ok (n.nodeToS.set o (l.erase (r, b))) := by
    unfold removeEntry; rw [hl']; simp [hm]
  have h2 : delKey n.s (b, o) = .ok (n.s.del (b, o)) := delKey_ok (by rw [hSbo]; rfl)
  have hn1 := Dict.nodup_keys_del n.s (b, o) hB.sKeys
  have h3 : delKey (n.s.del (b, o)) (o, b) = .ok ((n.s.del (b, o)).del (o, b)) := by
    refine delKey_ok ?_
    rw [Dict.get?_del _ _ hB.sKeys, if_neg, hSob]
    · rfl
    · simp only [Prod.mk.injEq]; rintro ⟨h, -⟩; exact hbo h
  have hSn : S { n with nodeToS := n.nodeToS.set o (l.erase (r, b)), s := (n.s.del (b, o)).del (o, b) }
      = unlinkS (S n) b o := by
    funext x y
    unfold S unlinkS
    simp only
    rw [Dict.get?_del _ _ hn1, Dict.get?_del _ _ hB.sKeys]
    simp only [Prod.mk.injEq]
    by_cases h1 : x = b ∧ y = o
    · rw [if_pos (Or.inl h1)]; obtain ⟨rfl, rfl⟩ := h1; simp
    · by_cases h2 : x = o ∧ y = b
      · rw [if_pos (Or.inr h2)]; obtain ⟨rfl, rfl⟩ := h2; simp
      · rw [if_neg (by tauto), if_neg (by tauto), if_neg (by tauto)]
  refine ⟨{ n with nodeToS := n.nodeToS.set o (l.erase (r, b)), s := (n.s.del (b, o)).del (o, b) },
    ?_, ?_, ?_, hSn, ?_, rfl, rfl, rfl, rfl⟩
  · unfold Net.unlink
    simp only [h1, h2, h3, bind, Except.bind, pure, Except.pure]
  · refine ⟨Dict.nodup_keys_del _ _ hn1, Dict.nodup_keys_set _ _ _ hB.tKeys, hB.nKeys, hB.lKeys, hB.loc, hB.ids, ?_, ?_⟩
    · intro i hi
      simp only [Dict.mem_keys_set] at hi
      rcases hi with rfl | hi
      · exact hB.tloc _ (mem_tKeys.2 ⟨l, hl⟩)
      · exact hB.tloc i hi
    · intro x y q hq
      rw [hSn] at hq
      unfold unlinkS at hq
      split at hq
      · cases hq
      · exact hB.refs x y q hq
  · rw [hSn]
    have hTeq : Function.update (T { n with nodeToS := n.nodeToS.set o (l.erase (r, b)), s := (n.s.del (b, o)).del (o, b) }) b (some pend)
        = Function.update (Function.update (Function.update (T n) b (some ((r, o) :: pend))) b (some pend)) o (some (l.erase (r, b))) := by
      funext x
      by_cases hxb : x = b
      · subst hxb; rw [Function.update_self, Function.update_of_ne hbo, Function.update_self]
      · rw [Function.update_of_ne hxb]
        by_cases hxo : x = o
        · subst hxo; rw [Function.update_self]; unfold T; simp
        · rw [Function.update_of_ne hxo, Function.update_of_ne hxb, Function.update_of_ne hxb]
          unfold T; simp only; rw [Dict.get?_set_ne _ _ (Ne.symm hxo)]
    rw [hTeq]; exact hG'
  · intro x
    simp only [Dict.mem_keys_set]
    constructor
    · rintro (rfl | h)
      · exact mem_tKeys.2 ⟨l, hl⟩
      · exact h
    · exact Or.inr

/-- What `forget` does to a node whose resistors are all gone. -/
theorem forget_spec {n : Net} (hB : Base n) {b : Nat} (hbk : b ∈ n.nodeToS.keys)
    (hG : G (S n) (Function.update (T n) b (some []))) (hI : Inj (S n)) :
    ∃ n', n.forget b = .ok n' ∧ Inv n' ∧ S n' = S n ∧ (∀ x, x ∈ n'.nodeToS.keys ↔ x ∈ n.nodeToS.keys ∧ x ≠ b) ∧
      n'.heap = n.heap ∧ n'.nextRef = n.nextRef ∧ n'.precious = n.precious ∧
      (∀ x, n'.locations.get? x = if b = x then none else n.locations.get? x) := by
  have hloc := hB.tloc b hbk
  rw [Dict.mem_keys_iff, Option.isSome_iff_exists] at hloc
  obtain ⟨p, hp⟩ := hloc
  have hnp : n.nodes.get? p = some b := (hB.loc p b).2 hp
  have h1 : delKey n.nodeToS b = .ok (n.nodeToS.del b) := delKey_ok ((Dict.mem_keys_iff _ _).1 hbk)
  have h2 : delKey n.nodes p = .ok (n.nodes.del p) := delKey_ok (by rw [hnp]; rfl)
  refine ⟨{ n with nodeToS := n.nodeToS.del b, nodes := n.nodes.del p, locations := n.locations.del b },
    ?_, ⟨⟨hB.sKeys, Dict.nodup_keys_del _ _ hB.tKeys, Dict.nodup_keys_del _ _ hB.nKeys,
      Dict.nodup_keys_del _ _ hB.lKeys, ?_, ?_, ?_, hB.refs⟩, ?_, hI⟩, rfl, ?_, rfl, rfl, rfl, ?_⟩
  · unfold Net.forget
    simp only [h1, h2, hp, bind, Except.bind, pure, Except.pure]
  · intro q i
    simp only
    rw [Dict.get?_del _ _ hB.nKeys, Dict.get?_del _ _ hB.lKeys]
    by_cases hq : p = q
    · subst hq
      rw [if_pos rfl]
      by_cases hi : b = i
      · rw [if_pos hi]; simp
      · rw [if_neg hi]
        simp only [reduceCtorEq, false_iff]
        intro h
        have := (hB.loc p i).2 h
        rw [hnp] at this; exact hi (Option.some.inj this)
    · rw [if_neg hq]
      by_cases hi : b = i
      · subst hi
        rw [if_pos rfl]
        simp only [reduceCtorEq, iff_false]
        intro h
        have := (hB.loc q b).1 h
        rw [hp] at this; exact hq (Option.some.inj this)
      · rw [if_neg hi]; exact hB.loc q i
  · intro i q hi
    simp only at hi
    rw [Dict.get?_del _ _ hB.lKeys] at hi
    split at hi
    · cases hi
    · exact hB.ids i q hi
  · intro i hi
    simp only at hi ⊢
    rw [Dict.keys_del _ _ hB.tKeys] at hi
    rw [Dict.keys_del _ _ hB.lKeys]
    exact ⟨hB.tloc i hi.1, hi.2⟩
  · have hT : T { n with nodeToS := n.nodeToS.del b, nodes := n.nodes.del p, locations := n.locations.del b }
        = Function.update (T n) b none := by
      funext x
      unfold T
      simp only
      rw [Dict.get?_del _ _ hB.tKeys]
      by_cases hx : x = b
      · subst hx; simp
      · rw [Function.update_of_ne hx, if_neg (Ne.symm hx)]
    rw [hT]
    refine ⟨hG.sym, hG.noloop, ?_, ?_⟩
    · intro x q y
      have := hG.star x q y
      by_cases hx : x = b
      · subst hx
        rw [Function.update_self] at this ⊢
        constructor
        · rintro ⟨l, hl, -⟩; cases hl
        · intro hs; obtain ⟨l, hl, hm⟩ := this.2 hs; cases hl; simp at hm
      · rw [Function.update_of_ne hx] at this ⊢
        exact this
    · intro x l hl
      by_cases hx : x = b
      · subst hx; rw [Function.update_self] at hl; cases hl
      · rw [Function.update_of_ne hx] at hl
        exact hG.nodup x l (by rw [Function.update_of_ne hx]; exact hl)
  · intro x
    simp only
    rw [Dict.keys_del _ _ hB.tKeys]
  · intro x
    exact Dict.get?_del _ _ hB.lKeys x

theorem unlinkAll_spec {b : Nat} : ∀ (pend : List Entry) (n : Net), Base n → b ∈ n.nodeToS.keys →
    G (S n) (Function.update (T n) b (some pend)) → Inj (S n) →
    ∃ n', pend.foldlM (fun n e => n.unlink b e) n = .ok n' ∧ Base n' ∧ b ∈ n'.nodeToS.keys ∧
      G (S n') (Function.update (T n') b (some [])) ∧ Inj (S n') ∧
      (∀ x y, S n' x y = if x = b ∨ y = b then none else S n x y) ∧
      (∀ x, x ∈ n'.nodeToS.keys ↔ x ∈ n.nodeToS.keys) ∧ n'.heap = n.heap ∧
      n'.nextRef = n.nextRef ∧ n'.precious = n.precious ∧ n'.locations = n.locations := by
  intro pend
  induction pend with
  | nil =>
    intro n hB hk hG hI
    refine ⟨n, rfl, hB, hk, hG, hI, ?_, fun _ => Iff.rfl, rfl, rfl, rfl, rfl⟩
    intro x y
    split
    · rename_i h
      have hb : ∀ y, S n b y = none := by
        intro y
        cases hs : S n b y with
        | none => rfl
        | some r =>
          obtain ⟨l, hl, hm⟩ := (hG.star b r y).2 hs
          rw [Function.update_self] at hl; cases hl; simp at hm
      rcases h with rfl | rfl
      · exact hb y
      · rw [hG.sym]; exact hb x
    · rfl
  | cons e pend ih =>
    intro n hB hk hG hI
    obtain ⟨n1, h1, hB1, hG1, hS1, hk1, hh1, hr1, hp1, hl1⟩ := unlink_spec hB hk hG
    obtain ⟨n2, h2, hB2, hk2, hG2, hI2, hS2, hkk2, hh2, hr2, hp2, hl2⟩ := ih n1 hB1 ((hk1 b).2 hk) hG1
      (by rw [hS1]; exact hI.unlink _ _)
    refine ⟨n2, ?_, hB2, hk2, hG2, hI2, ?_, ?_, hh2.trans hh1, hr2.trans hr1, hp2.trans hp1, hl2.trans hl1⟩
    · rw [List.foldlM_cons, h1]; exact h2
    · intro x y
      rw [hS2, hS1]
      split
      · rfl
      · rename_i hne
        unfold unlinkS
        rw [if_neg]
        rintro (⟨h, -⟩ | ⟨-, h⟩)
        · exact hne (Or.inl h)
        · exact hne (Or.inr h)
    · intro x; rw [hkk2, hk1]

theorem update_T_self {n : Net} {b : Nat} {l : List Entry} (h : T n b = some l) :
    Function.update (T n) b (some l) = T n := by
  rw [← h]; exact Function.update_eq_self _ _

/-- Specification of `remove_node`. -/
theorem removeNode_spec {n : Net} (h : Inv n) (i : Nat) :
    ∃ n', n.removeNode i = .ok n' ∧ Inv n' ∧
      (∀ x y, S n' x y = if x = i ∨ y = i then none else S n x y) ∧
      (∀ x, x ∈ n'.nodeToS.keys ↔ x ∈ n.nodeToS.keys ∧ x ≠ i) ∧ n'.heap = n.heap ∧ n'.nextRef = n.nextRef ∧
      n'.precious = n.precious ∧
      (∀ x, n'.locations.get? x = if i = x ∧ i ∈ n.nodeToS.keys then none else n.locations.get? x) := by
  cases hT : T n i with
  | none =>
    have hk : i ∉ n.nodeToS.keys := by rw [mem_tKeys, hT]; simp
    refine ⟨n, ?_, h, ?_, ?_, rfl, rfl, rfl, ?_⟩
    · unfold Net.removeNode; unfold T at hT; rw [hT]
    · intro x y
      split
      · rename_i hxy
        have hi : ∀ y, S n i y = none := by
          intro y
          cases hs : S n i y with
          | none => rfl
          | some r => obtain ⟨l, hl, -⟩ := (h.g.star i r y).2 hs; rw [hT] at hl; cases hl
        rcases hxy with rfl | rfl
        · exact hi y
        · rw [h.g.sym]; exact hi x
      · rfl
    · intro x
      constructor
      · intro hx; exact ⟨hx, fun e => hk (e ▸ hx)⟩
      · exact fun hx => hx.1
    · intro x; rw [if_neg (fun hx => hk hx.2)]
  | some star =>
    have hk : i ∈ n.nodeToS.keys := mem_tKeys.2 ⟨star, hT⟩
    obtain ⟨n1, h1, hB1, hk1, hG1, hI1, hS1, hkk1, hh1, hr1, hp1, hl1⟩ :=
      unlinkAll_spec star n h.base hk (by rw [update_T_self hT]; exact h.g) h.inj
    obtain ⟨n2, h2, hV2, hS2, hk2, hh2, hr2, hp2, hl2⟩ := forget_spec hB1 hk1 hG1 hI1
    refine ⟨n2, ?_, hV2, ?_, ?_, hh2.trans hh1, hr2.trans hr1, hp2.trans hp1, ?_⟩
    · unfold Net.removeNode; unfold T at hT; rw [hT]
      simp only [h1, bind, Except.bind]; exact h2
    · intro x y; rw [hS2, hS1]
    · intro x; rw [hk2, hkk1]
    · intro x; rw [hl2, hl1]; simp [hk]

/-! ### add_cond -/

theorem addCond_spec {n : Net} (h : Inv n) {a b : Nat} (hab : a ≠ b) (ha : a ∈ n.locations.keys)
    (hb : b ∈ n.locations.keys) (c : ℚ) :
    Inv (n.addCond a b c) ∧
    (∀ x y, S (n.addCond a b c) x y =
      if ((x = a ∧ y = b) ∨ (x = b ∧ y = a)) ∧ S n a b = none then some n.nextRef else S n x y) ∧
    (n.addCond a b c).heap = (match S n a b with
      | some r₀ => Function.update (Function.update n.heap n.nextRef c) r₀ (n.heap r₀ + c)
      | none => Function.update n.heap n.nextRef c) ∧
    (∀ x, x ∈ (n.addCond a b c).nodeToS.keys ↔ x = a ∨ x = b ∨ x ∈ n.nodeToS.keys) ∧
    (n.addCond a b c).precious = n.precious ∧ (n.addCond a b c).locations = n.locations ∧
    (n.addCond a b c).nextRef = n.nextRef + 1 := by
  have hB0 : Base { n with heap := Function.update n.heap n.nextRef c, nextRef := n.nextRef + 1 } :=
    ⟨h.base.sKeys, h.base.tKeys, h.base.nKeys, h.base.lKeys, h.base.loc, h.base.ids, h.base.tloc,
      fun x y r hr => Nat.lt_succ_of_lt (h.base.refs x y r hr)⟩
  have hfresh : ∀ x y, S n x y ≠ some n.nextRef := fun x y hs => Nat.lt_irrefl _ (h.base.refs x y _ hs)
  have hB := base_addCondRef hB0 hab ha hb (Nat.lt_succ_self n.nextRef)
  cases hs : S n a b with
  | none =>
    have hs0 : S { n with heap := Function.update n.heap n.nextRef c, nextRef := n.nextRef + 1 } a b = none := hs
    have eS := S_addCondRef (r := n.nextRef) hs0
    have eT := T_addCondRef (r := n.nextRef) hab hs0
    refine ⟨⟨hB, ?_, ?_⟩, ?_, ?_, ?_, ?_⟩
    · unfold Net.addCond; rw [eS, eT]; exact h.g.link hab hs _
    · unfold Net.addCond; rw [eS]; exact h.inj.link hfresh
    · intro x y; unfold Net.addCond; rw [eS]; simp only [and_true]; rfl
    · unfold Net.addCond Net.addCondRef; unfold S at hs; simp only [hs]
    · intro x
      rw [mem_tKeys]
      unfold Net.addCond
      rw [eT]
      unfold linkT
      by_cases hxa : x = a
      · simp [hxa]
      · by_cases hxb : x = b
        · subst hxb; simp [hxa]
        · simp only [hxa, hxb, if_false, false_or]; rw [mem_tKeys]; rfl
    · unfold Net.addCond Net.addCondRef; unfold S at hs; simp only [hs, and_self]
  | some r₀ =>
    have hs0 : S { n with heap := Function.update n.heap n.nextRef c, nextRef := n.nextRef + 1 } a b = some r₀ := hs
    have e := S_addCondRef_some (r := n.nextRef) hs0
    have e' : n.addCond a b c = { n with
        heap := Heap.addParallel (Function.update n.heap n.nextRef c) r₀ n.nextRef, nextRef := n.nextRef + 1 } := e
    have hne : r₀ ≠ n.nextRef := fun he => hfresh a b (he ▸ hs)
    refine ⟨⟨hB, ?_, ?_⟩, ?_, ?_, ?_, ?_⟩
    · rw [e']; exact h.g
    · rw [e']; exact h.inj
    · intro x y; rw [e']; simp only [reduceCtorEq, and_false, if_false]; rfl
    · rw [e']; simp only [Heap.addParallel, parallelC, Function.update_self, Function.update_of_ne hne]
    · intro x; rw [e']
      have h1 : a ∈ n.nodeToS.keys := by
        obtain ⟨l, hl, -⟩ := (h.g.star a r₀ b).2 hs; exact mem_tKeys.2 ⟨l, hl⟩
      have h2 : b ∈ n.nodeToS.keys := by
        obtain ⟨l, hl, -⟩ := (h.g.star b r₀ a).2 (by rw [h.g.sym]; exact hs); exact mem_tKeys.2 ⟨l, hl⟩
      constructor
      · exact fun hx => Or.inr (Or.inr hx)
      · rintro (rfl | rfl | hx)
        exacts [h1, h2, hx]
    · rw [e']; exact ⟨rfl, rfl, rfl⟩

/-! ### connect_nodes -/

theorem moveEntry_spec {n : Net} (hB : Base n) {a b o : Nat} {r : Ref} {pend : List Entry} (hbk : b ∈ n.nodeToS.keys)
    (ha : a ∈ n.locations.keys)
    (hG : G (S n) (Function.update (T n) b (some ((r, o) :: pend)))) (hI : Inj (S n)) :
    ∃ n', n.moveEntry a b (r, o) = .ok n' ∧ Base n' ∧ G (S n') (Function.update (T n') b (some pend)) ∧
      Inj (S n') ∧ (∀ x, x ∈ n.nodeToS.keys → x ∈ n'.nodeToS.keys) ∧ n'.precious = n.precious ∧
      n'.locations = n.locations ∧ n'.nextRef = n.nextRef ∧ 
      (∀ h : Heap, h = n.heap → (∀ q, 0 ≤ h q) → ∀ q, 0 ≤ n'.heap q) := by
  obtain ⟨hbo, hSbo, l, hl, hm, -⟩ := hG.unlink (Function.update_self ..)
  rw [Function.update_of_ne hbo.symm] at hl
  have ho : o ∈ n.locations.keys := hB.tloc o (mem_tKeys.2 ⟨l, hl⟩)
  unfold Net.moveEntry
  by_cases hoa : o = a
  · rw [if_neg (by simpa using hoa)]
    obtain ⟨n1, h1, hB1, hG1, hS1, hk1, hh1, hr1, hp1, hl1⟩ := unlink_spec hB hbk hG
    refine ⟨n1, h1, hB1, hG1, by rw [hS1]; exact hI.unlink _ _, fun x => (hk1 x).2, hp1, hl1, hr1, ?_⟩
    intro h he h0 q; rw [hh1, ← he]; exact h0 q
  · rw [if_pos (by simpa using hoa)]
    cases hs : S n a o with
    | some r₀ =>
      simp only
      rw [S_addCondRef_some hs]
      obtain ⟨n1, h1, hB1, hG1, hS1, hk1, hh1, hr1, hp1, hl1⟩ :=
        unlink_spec (n := { n with heap := n.heap.addParallel r₀ r }) (base_heap hB _) hbk hG
      refine ⟨n1, h1, hB1, hG1, ?_, fun x => (hk1 x).2, hp1, hl1, hr1, ?_⟩
      · rw [hS1]; exact hI.unlink _ _
      · intro h he h0 q; rw [hh1]; simp only [Heap.addParallel, parallelC]
        by_cases hq : q = r₀
        · subst hq; rw [Function.update_self, ← he]; exact add_nonneg (h0 _) (h0 _)
        · rw [Function.update_of_ne hq, ← he]; exact h0 q
    | none =>
      have hab : a ≠ b := by rintro rfl; rw [hs] at hSbo; cases hSbo
      have hao : a ≠ o := Ne.symm hoa
      have hB1 := base_addCondRef hB hao ha ho (hB.refs _ _ _ hSbo)
      have eS := S_addCondRef (r := r) hs
      have eT := T_addCondRef (r := r) hao hs
      have hk1 : ∀ x, x ∈ n.nodeToS.keys → x ∈ (n.addCondRef a o r).nodeToS.keys := by
        intro x hx
        rw [mem_tKeys] at hx ⊢
        rw [eT]
        unfold linkT
        split
        · exact ⟨_, rfl⟩
        · split
          · exact ⟨_, rfl⟩
          · exact hx
      have hG1 : G (S (n.addCondRef a o r)) (Function.update (T (n.addCondRef a o r)) b (some ((r, o) :: pend))) := by
        have := hG.link hao hs r
        rw [eS, eT]
        convert this using 1
        funext x
        unfold linkT
        by_cases hxb : x = b
        · subst hxb
          rw [Function.update_self, if_neg (Ne.symm hab), if_neg hbo, Function.update_self]
        · rw [Function.update_of_ne hxb]
          by_cases hxa : x = a
          · subst hxa; simp [Function.update_of_ne hxb]
          · rw [if_neg hxa, if_neg hxa]
            by_cases hxo : x = o
            · subst hxo; simp [Function.update_of_ne hxb]
            · rw [if_neg hxo, if_neg hxo, Function.update_of_ne hxb]
      obtain ⟨n1, h1, hB2, hG2, hS2, hk2, hh2, hr2, hp2, hl2⟩ := unlink_spec hB1 (hk1 b hbk) hG1
      have hs' := hs
      unfold S at hs'
      have hp : (n.addCondRef a o r).precious = n.precious ∧ (n.addCondRef a o r).locations = n.locations ∧
          (n.addCondRef a o r).nextRef = n.nextRef ∧ (n.addCondRef a o r).heap = n.heap := by
        unfold Net.addCondRef; rw [hs']; simp
      refine ⟨n1, h1, hB2, hG2, ?_, fun x hx => (hk2 x).2 (hk1 x hx), hp2.trans hp.1, hl2.trans hp.2.1,
        hr2.trans hp.2.2.1, ?_⟩
      · rw [hS2, eS]; exact hI.move hSbo
      · intro h he h0 q; rw [hh2, hp.2.2.2, ← he]; exact h0 q

theorem moveAll_spec {a b : Nat} : ∀ (pend : List Entry) (n : Net), Base n → b ∈ n.nodeToS.keys →
    a ∈ n.locations.keys → G (S n) (Function.update (T n) b (some pend)) → Inj (S n) →
    ∃ n', pend.foldlM (fun n e => n.moveEntry a b e) n = .ok n' ∧ Base n' ∧ b ∈ n'.nodeToS.keys ∧
      G (S n') (Function.update (T n') b (some [])) ∧ Inj (S n') ∧ n'.precious = n.precious ∧
      n'.locations = n.locations ∧ ((∀ q, 0 ≤ n.heap q) → ∀ q, 0 ≤ n'.heap q) := by
  intro pend
  induction pend with
  | nil => intro n hB hk _ hG hI; exact ⟨n, rfl, hB, hk, hG, hI, rfl, rfl, id⟩
  | cons e pend ih =>
    intro n hB hk ha hG hI
    obtain ⟨n1, h1, hB1, hG1, hI1, hk1, hp1, hl1, -, hn1⟩ := moveEntry_spec hB hk ha hG hI
    obtain ⟨n2, h2, hB2, hk2, hG2, hI2, hp2, hl2, hn2⟩ := ih n1 hB1 (hk1 b hk) (by rw [hl1]; exact ha) hG1 hI1
    refine ⟨n2, ?_, hB2, hk2, hG2, hI2, hp2.trans hp1, hl2.trans hl1, fun h0 => hn2 (hn1 _ rfl h0)⟩
    rw [List.foldlM_cons, h1]; exact h2

/-- Consistency part of the specification of `connect_nodes`. -/
theorem connectNodes_spec {n : Net} (h : Inv n) {a : Nat} (ha : a ∈ n.locations.keys) (b : Nat) :
    ∃ n', n.connectNodes a b = .ok n' ∧ Inv n' ∧ ((∀ q, 0 ≤ n.heap q) → ∀ q, 0 ≤ n'.heap q) := by
  cases hT : T n b with
  | none =>
    refine ⟨n, ?_, h, id⟩
    unfold Net.connectNodes; unfold T at hT; rw [hT]
  | some star =>
    have hk : b ∈ n.nodeToS.keys := mem_tKeys.2 ⟨star, hT⟩
    obtain ⟨n1, h1, hB1, hk1, hG1, hI1, -, -, hn1⟩ :=
      moveAll_spec star n h.base hk ha (by rw [update_T_self hT]; exact h.g) h.inj
    obtain ⟨n2, h2, hV2, -, -, hh2, -⟩ := forget_spec hB1 hk1 hG1 hI1
    refine ⟨n2, ?_, hV2, fun h0 q => by rw [hh2]; exact hn1 h0 q⟩
    unfold Net.connectNodes; unfold T at hT; rw [hT]
    simp only [h1, bind, Except.bind]; exact h2

end Verif.RNet
