import Mathlib.Data.List.Forall2
import Mathlib.Data.List.Perm.Basic
import Mathlib.Data.List.Nodup
import Verif.Common.Exc
import Verif.NetJson.Props
import Verif.LayerMap.Model

/-!
# Lemmas on the conversion of layouts
-/

namespace Verif.LayerMap

/-! ### Renaming layers -/

theorem retarget_go {σ : Type} (pre : Layout σ) (e : Pair × List σ) (post : Layout σ) (ts : List Pair) (n : Nat) (hn : n ≠ 0)
    (extra : Layout σ) :
    (ts.zipIdx n).foldl (fun (l : Layout σ) t =>
      if t.2 = 0 then l.modify pre.length (fun e => (t.1, e.2))
      else l ++ [(t.1, ((l[pre.length]?).map Prod.snd).getD [])]) (pre ++ e :: post ++ extra) =
    pre ++ e :: post ++ (extra ++ ts.map fun t => (t, e.2)) := by
  induction ts generalizing n extra with
  | nil => simp
  | cons t ts ih =>
    rw [List.zipIdx_cons, List.foldl_cons]
    dsimp only
    rw [if_neg hn]
    have hget : (pre ++ e :: post ++ extra)[pre.length]? = some e := by
      rw [List.append_assoc, List.getElem?_append_right (le_refl _)]
      simp
    rw [hget]
    have := ih (n + 1) (by omega) (extra ++ [(t, e.2)])
    simp only [Option.map_some, Option.getD_some, List.append_assoc, List.cons_append, List.nil_append, List.map_cons] at this ⊢
    exact this

theorem modify_at {α : Type} (pre : List α) (e : α) (post : List α) (f : α → α) :
    (pre ++ e :: post).modify pre.length f = pre ++ f e :: post := by
  induction pre with
  | nil => simp
  | cons x pre ih => simp [ih]

theorem retarget_eq {σ : Type} (pre : Layout σ) (e : Pair × List σ) (post : Layout σ) (ts : List Pair) :
    retarget pre.length ts (pre ++ e :: post) =
      pre ++ (ts.headD e.1, e.2) :: post ++ ts.tail.map fun t => (t, e.2) := by
  unfold retarget
  cases ts with
  | nil => simp
  | cons t ts =>
    rw [List.zipIdx_cons, List.foldl_cons]
    dsimp only
    rw [if_pos rfl]
    have hmod : (pre ++ e :: post).modify pre.length (fun e => (t, e.2)) = pre ++ (t, e.2) :: post ++ [] := by
      rw [modify_at, List.append_nil]
    rw [hmod, retarget_go pre (t, e.2) post ts (0 + 1) (by omega) []]
    simp

theorem mapLayers_go {σ : Type} (T : Pair → List Pair) (src pre rest extra : Layout σ) (hs : src = pre ++ rest)
    (hn : (src.map Prod.fst).Nodup) :
    rest.foldl (fun l e => retarget (src.findIdx fun e' => e'.1 = e.1) (T e.1) l)
      ((pre.map fun e => ((T e.1).headD e.1, e.2)) ++ rest ++ extra) =
    (src.map fun e => ((T e.1).headD e.1, e.2)) ++ (extra ++ rest.flatMap fun e => (T e.1).tail.map fun t => (t, e.2)) := by
  induction rest generalizing pre extra with
  | nil => subst hs; simp
  | cons e rest ih =>
    rw [List.foldl_cons]
    have hidx : (src.findIdx fun e' => e'.1 = e.1) = (pre.map fun e => ((T e.1).headD e.1, e.2)).length := by
      rw [List.length_map, hs, List.findIdx_append]
      have hnone : (pre.findIdx fun e' => decide (e'.1 = e.1)) = pre.length := by
        apply List.findIdx_eq_length.2
        intro x hx
        rw [hs, List.map_append, List.nodup_append] at hn
        have := hn.2.2 x.1 (List.mem_map_of_mem hx) e.1 (by simp)
        simpa using this
      rw [hnone, if_neg (by omega), List.findIdx_cons]
      simp
    have hstate : (pre.map fun e => ((T e.1).headD e.1, e.2)) ++ e :: rest ++ extra =
        (pre.map fun e => ((T e.1).headD e.1, e.2)) ++ e :: (rest ++ extra) := by simp
    rw [hidx, hstate, retarget_eq]
    have := ih (pre ++ [e]) (extra ++ (T e.1).tail.map fun t => (t, e.2)) (by rw [hs]; simp)
    rw [List.flatMap_cons, ← List.append_assoc extra, ← this]
    congr 1
    simp

theorem mapLayers_eq {σ : Type} (m : Dict Pair (List Layer)) (src : Layout σ) (hn : (src.map Prod.fst).Nodup) :
    mapLayers m src = (src.map fun e => ((targets m e.1).headD e.1, e.2)) ++
      src.flatMap fun e => (targets m e.1).tail.map fun t => (t, e.2) := by
  have := mapLayers_go (targets m) src [] src [] rfl hn
  simpa [mapLayers] using this

/-- Specification: the shapes on a layer of the file that is written from a layout. -/
def shapesOn {σ : Type} (l : Layout σ) (q : Pair) : List σ := (l.filter fun e => e.1 = q).flatMap Prod.snd

theorem shapesOn_append {σ : Type} (a b : Layout σ) (q : Pair) : shapesOn (a ++ b) q = shapesOn a q ++ shapesOn b q := by
  unfold shapesOn
  rw [List.filter_append, List.flatMap_append]

theorem shapesOn_cons {σ : Type} (e : Pair × List σ) (b : Layout σ) (q : Pair) :
    shapesOn (e :: b) q = (if e.1 = q then e.2 else []) ++ shapesOn b q := by
  unfold shapesOn
  by_cases h : e.1 = q
  · rw [List.filter_cons_of_pos (by simpa using h), if_pos h, List.flatMap_cons]
  · rw [List.filter_cons_of_neg (by simpa using h), if_neg h, List.nil_append]

theorem shapesOn_tail {σ : Type} (ts : List Pair) (s : List σ) (q : Pair) :
    shapesOn (ts.map fun t => (t, s)) q = ts.flatMap fun t => if t = q then s else [] := by
  induction ts with
  | nil => rfl
  | cons t ts ih => rw [List.map_cons, shapesOn_cons, List.flatMap_cons, ih]

theorem shapes_perm {σ : Type} (T : Pair → List Pair) (src : Layout σ) (hT : ∀ e ∈ src, T e.1 ≠ []) (q : Pair) :
    (shapesOn ((src.map fun e => ((T e.1).headD e.1, e.2)) ++ src.flatMap fun e => (T e.1).tail.map fun t => (t, e.2)) q).Perm
      (src.flatMap fun e => (T e.1).flatMap fun t => if t = q then e.2 else []) := by
  induction src with
  | nil => exact List.Perm.refl _
  | cons e src ih =>
    have ih := ih (fun e he => hT e (List.mem_cons_of_mem _ he))
    rw [List.map_cons, List.flatMap_cons, List.flatMap_cons]
    rw [shapesOn_append] at ih ⊢
    rw [shapesOn_cons, shapesOn_append, shapesOn_tail]
    obtain ⟨t, ts, hts⟩ := List.exists_cons_of_ne_nil (hT e List.mem_cons_self)
    simp only [hts, List.headD_cons, List.tail_cons, List.flatMap_cons]
    generalize (if t = q then e.2 else []) = A
    generalize (ts.flatMap fun t => if t = q then e.2 else []) = B
    refine List.Perm.trans ?_ (List.Perm.append_left _ ih)
    simp only [List.append_assoc]
    refine List.Perm.append_left A ?_
    rw [← List.append_assoc, ← List.append_assoc]
    exact List.Perm.append_right _ List.perm_append_comm

/-! ### Dictionaries -/

theorem get?_byLpp (ls : List Layer) (lpp : Str) (l : Layer) : (byLpp ls).get? lpp = some l ↔
    ∃ pre post, ls = pre ++ l :: post ∧ l.lpp = lpp ∧ ∀ x ∈ post, x.lpp ≠ lpp := by
  unfold byLpp
  rw [Dict.get?_ofList, ← List.map_reverse]
  have hf : ((ls.reverse.map fun l => (l.lpp, l)).find? fun p => decide (p.1 = lpp)).map Prod.snd =
      ls.reverse.find? fun l => decide (l.lpp = lpp) := by
    rw [List.find?_map]
    cases h : ls.reverse.find? ((fun p : Str × Layer => decide (p.1 = lpp)) ∘ fun l => (l.lpp, l)) with
    | none => exact h.symm
    | some v => exact h.symm
  rw [hf, List.find?_eq_some_iff_append]
  constructor
  · rintro ⟨h, as, bs, hab, hall⟩
    refine ⟨bs.reverse, as.reverse, ?_, by simpa using h, ?_⟩
    · have := congrArg List.reverse hab
      simpa using this
    · intro x hx
      have := hall x (List.mem_reverse.1 hx)
      simpa using this
  · rintro ⟨pre, post, rfl, h, hall⟩
    refine ⟨by simpa using h, post.reverse, pre.reverse, by simp, ?_⟩
    intro x hx
    have := hall x (List.mem_reverse.1 hx)
    simpa using this

theorem get?_byLpp_none (ls : List Layer) (lpp : Str) : (byLpp ls).get? lpp = none ↔ ∀ x ∈ ls, x.lpp ≠ lpp := by
  unfold byLpp
  rw [Dict.get?_ofList, ← List.map_reverse, Option.map_eq_none_iff, List.find?_eq_none]
  constructor
  · intro h x hx
    have := h (x.lpp, x) (List.mem_map_of_mem (List.mem_reverse.2 hx))
    simpa using this
  · intro h p hp
    obtain ⟨x, hx, rfl⟩ := List.mem_map.1 hp
    simpa using h x (List.mem_reverse.1 hx)

theorem destLayers_go (dest : List Layer) (lpps : List Str) (acc : List Layer) (b : Bool) :
    ((lpps.foldl (fun (acc : List Layer × Bool) lpp => match (byLpp dest).get? lpp with
      | none => (acc.1, true)
      | some l => (acc.1 ++ [l], acc.2)) (acc, b)) = (acc ++ lpps.filterMap (byLpp dest).get?,
        b || lpps.any fun lpp => ((byLpp dest).get? lpp).isNone)) := by
  induction lpps generalizing acc b with
  | nil => simp
  | cons x lpps ih =>
    rw [List.foldl_cons]
    cases h : (byLpp dest).get? x with
    | none =>
      dsimp only
      rw [ih, List.filterMap_cons_none h, List.any_cons, h]
      simp
    | some l =>
      dsimp only
      rw [ih, List.filterMap_cons_some h, List.any_cons, h]
      simp

theorem destLayers_eq (dest : List Layer) (lpps : List Str) :
    destLayers dest lpps = (lpps.filterMap (byLpp dest).get?, lpps.any fun lpp => ((byLpp dest).get? lpp).isNone) := by
  have := destLayers_go dest lpps [] false
  rw [List.nil_append, Bool.false_or] at this
  exact this

/-- The destinations found, if none is missing. -/
theorem destLayers_found (dest : List Layer) (lpps : List Str) (h : (destLayers dest lpps).2 = false) :
    List.Forall₂ (fun lpp l => (byLpp dest).get? lpp = some l) lpps (destLayers dest lpps).1 := by
  rw [destLayers_eq] at h ⊢
  dsimp only at h ⊢
  induction lpps with
  | nil => exact .nil
  | cons x lpps ih =>
    rw [List.any_cons, Bool.or_eq_false_iff] at h
    cases hx : (byLpp dest).get? x with
    | none => rw [hx] at h; cases h.1
    | some l =>
      rw [List.filterMap_cons_some hx]
      exact .cons hx (ih h.2)

theorem destLayers_missing (dest : List Layer) (lpps : List Str) : (destLayers dest lpps).2 = true ↔
    ∃ lpp ∈ lpps, (byLpp dest).get? lpp = none := by
  rw [destLayers_eq]
  simp

theorem layerMapping_go (table : List (Str × List Str)) (src dest : List Layer) (d : Dict Layer (List Layer)) (b : Bool) :
    ((table.foldl (mapRow src dest) (d, b)).2 = true ↔
      b = true ∨ ∃ row ∈ table, (byLpp src).get? row.1 = none ∨ (destLayers dest row.2).2 = true) ∧
    ((∀ row ∈ table, (byLpp src).get? row.1 ≠ none ∧ (destLayers dest row.2).2 = false) →
      ∃ rows : List (Layer × List Layer), List.Forall₂ (fun row r => (byLpp src).get? row.1 = some r.1 ∧
        r.2 = (destLayers dest row.2).1) table rows ∧
      (table.foldl (mapRow src dest) (d, b)).1 = rows.foldl (fun (d : Dict Layer (List Layer)) kv => d.set kv.1 kv.2) d) := by
  induction table generalizing d b with
  | nil =>
    refine ⟨by simp, fun _ => ⟨[], .nil, rfl⟩⟩
  | cons row table ih =>
    rw [List.foldl_cons]
    cases h : (byLpp src).get? row.1 with
    | none =>
      have hs : mapRow src dest (d, b) row = (d, true) := by unfold mapRow; rw [h]
      rw [hs]
      refine ⟨?_, fun hall => absurd h (hall row List.mem_cons_self).1⟩
      rw [(ih d true).1]
      simp only [true_or, true_iff]
      exact Or.inr ⟨row, List.mem_cons_self, Or.inl h⟩
    | some l =>
      have hs : mapRow src dest (d, b) row = (d.set l (destLayers dest row.2).1, b || (destLayers dest row.2).2) := by
        unfold mapRow; rw [h]
      rw [hs]
      constructor
      · rw [(ih _ _).1]
        simp only [Bool.or_eq_true, List.mem_cons, exists_eq_or_imp, h, reduceCtorEq, false_or, or_assoc]
      · intro hall
        obtain ⟨rows, hr, he⟩ := (ih (d.set l (destLayers dest row.2).1) (b || (destLayers dest row.2).2)).2
          (fun r hr => hall r (List.mem_cons_of_mem _ hr))
        exact ⟨(l, (destLayers dest row.2).1) :: rows, .cons ⟨h, rfl⟩ hr, by rw [he, List.foldl_cons]⟩

/-! ### Technology -/

theorem foldl_max_le (l : List Nat) (a b : Nat) : l.foldl max a ≤ b ↔ a ≤ b ∧ ∀ x ∈ l, x ≤ b := by
  induction l generalizing a with
  | nil => simp
  | cons x l ih => rw [List.foldl_cons, ih, Nat.max_le]; simp only [List.mem_cons, forall_eq_or_imp, and_assoc]

theorem argmax_spec (l : List Nat) (hl : l ≠ []) : ∃ v, l[argmax l]? = some v ∧ (∀ x ∈ l, x ≤ v) ∧
    ∀ (j w : Nat), j < argmax l → l[j]? = some w → w < v := by
  induction l with
  | nil => exact absurd rfl hl
  | cons x l ih =>
    cases l with
    | nil => exact ⟨x, rfl, by simp, fun j w h => by simp [argmax] at h⟩
    | cons y l =>
      unfold argmax
      by_cases h : (y :: l).foldl max 0 ≤ x
      · rw [if_pos h]
        refine ⟨x, rfl, ?_, fun j w h => by omega⟩
        intro z hz
        rcases List.mem_cons.1 hz with rfl | hz
        · exact le_refl _
        · exact ((foldl_max_le _ _ _).1 h).2 z hz
      · rw [if_neg h]
        obtain ⟨v, h1, h2, h3⟩ := ih (by simp)
        have hxv : x < v := by
          by_contra hc
          exact h ((foldl_max_le _ _ _).2 ⟨Nat.zero_le _, fun z hz => le_trans (h2 z hz) (by omega)⟩)
        refine ⟨v, by simpa using h1, ?_, ?_⟩
        · intro z hz
          rcases List.mem_cons.1 hz with rfl | hz
          · exact le_of_lt hxv
          · exact h2 z hz
        · intro j w hj hw
          cases j with
          | zero => simp at hw; omega
          | succ j => exact h3 j w (by omega) (by simpa using hw)

/-! ### Inversion -/

theorem invert_row (s : Str) (lpps : List Str) (n : Dict Str (List Str)) (k : Str) :
    (lpps.foldl (fun (n : Dict Str (List Str)) lpp => n.upd lpp [] (· ++ [s])) n).get? k =
      if lpps.count k = 0 then n.get? k else some (n.getD k [] ++ List.replicate (lpps.count k) s) := by
  induction lpps generalizing n with
  | nil => simp
  | cons x lpps ih =>
    rw [List.foldl_cons, ih, List.count_cons]
    by_cases hx : x = k
    · subst hx
      simp only [beq_self_eq_true, if_true, Nat.add_eq_zero_iff, Nat.one_ne_zero, and_false, if_false]
      rw [Dict.get?_upd, if_pos rfl, Dict.getD_upd, if_pos rfl]
      by_cases hc : lpps.count x = 0
      · rw [if_pos hc, hc]; rfl
      · rw [if_neg hc, List.append_assoc, List.replicate_succ]; rfl
    · have : (x == k) = false := by simpa using hx
      rw [this]
      simp only [Bool.false_eq_true, if_false, Nat.add_zero]
      rw [Dict.get?_upd, if_neg hx, Dict.getD_upd, if_neg hx]

theorem invert_nodup_row (s : Str) (lpps : List Str) (n : Dict Str (List Str)) (hn : n.keys.Nodup) :
    (lpps.foldl (fun (n : Dict Str (List Str)) lpp => n.upd lpp [] (· ++ [s])) n).keys.Nodup := by
  induction lpps generalizing n with
  | nil => exact hn
  | cons x lpps ih => exact ih _ (Dict.nodup_keys_upd _ _ _ _ hn)

theorem invert_go (d : List (Str × List Str)) (n : Dict Str (List Str)) (k : Str) :
    (d.foldl (fun n row => row.2.foldl (fun (n : Dict Str (List Str)) lpp => n.upd lpp [] (· ++ [row.1])) n) n).get? k =
      if (d.flatMap fun row => List.replicate (row.2.count k) row.1) = [] then n.get? k
      else some (n.getD k [] ++ d.flatMap fun row => List.replicate (row.2.count k) row.1) := by
  induction d generalizing n with
  | nil => simp
  | cons row d ih =>
    rw [List.foldl_cons, ih, List.flatMap_cons]
    unfold Dict.getD
    rw [invert_row]
    by_cases h1 : row.2.count k = 0
    · rw [if_pos h1, h1]; simp
    · rw [if_neg h1]
      have hne : List.replicate (row.2.count k) row.1 ≠ [] := by
        intro h; exact h1 (by simpa using h)
      rw [if_neg (c := List.replicate _ _ ++ _ = []) (by simp [h1])]
      by_cases h2 : (d.flatMap fun row => List.replicate (row.2.count k) row.1) = []
      · rw [if_pos h2, h2]; simp [Dict.getD]
      · rw [if_neg h2]; simp [Dict.getD]

theorem invert_nodup (d : List (Str × List Str)) (n : Dict Str (List Str)) (hn : n.keys.Nodup) :
    (d.foldl (fun n row => row.2.foldl (fun (n : Dict Str (List Str)) lpp => n.upd lpp [] (· ++ [row.1])) n) n).keys.Nodup := by
  induction d generalizing n with
  | nil => exact hn
  | cons row d ih => exact ih _ (invert_nodup_row _ _ _ hn)

end Verif.LayerMap
