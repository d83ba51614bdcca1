import Verif.Rdb.Path

/-!
# Repair of the category tree (C41)
-/

namespace Verif.Rdb

/-! ### Specification -/

/-- A category with the given name: a `category` element that has a `name` element with this text. -/
def IsCategory (e : Elem) (name : Str) : Prop :=
  e.tag = "category" ∧ ∃ n ∈ e.children, n.tag = "name" ∧ n.text = name

/-- `x` is reached from `e` by the path: each step goes to a category with the name in a `categories` list of the element. -/
def At (e : Elem) : List Str → Elem → Prop
  | [], x => x = e
  | c :: p, x => ∃ cats ∈ e.children, cats.tag = "categories" ∧ ∃ s ∈ cats.children, IsCategory s c ∧ At s p x

/-- The path exists in the category tree. -/
def HasPath (root : Elem) (p : List Str) : Prop := ∃ x, At root p x

/-- An item in the file is filed under the category path with this text. -/
def Referenced (root : Elem) (text : Str) : Prop :=
  ∃ items ∈ root.children, items.tag = "items" ∧ ∃ item ∈ items.children, item.tag = "item" ∧
    ∃ cat ∈ item.children, cat.tag = "category" ∧ cat.text = text

/-- `Grown e e'`: `e'` arises from `e` by appending new categories at the end of `categories` lists; everything else is
unchanged and keeps its place. -/
inductive Grown : Elem → Elem → Prop where
  | same (e : Elem) : Grown e e
  | trans {a b c : Elem} : Grown a b → Grown b c → Grown a c
  | inside (tag : String) (text : Str) (pre post : List Elem) (e e' : Elem) :
      Grown e e' → Grown (.mk tag text (pre ++ e :: post)) (.mk tag text (pre ++ e' :: post))
  | append (text : Str) (cs : List Elem) (new : Elem) :
      new.tag = "category" → Grown (.mk "categories" text cs) (.mk "categories" text (cs ++ [new]))

/-! ### Lists -/

theorem mem_itemCategories (root : Elem) (t : Str) :
    t ∈ (itemCategories root).map Elem.text ↔ Referenced root t := by
  unfold itemCategories Referenced
  simp only [List.mem_map, List.mem_flatMap, List.mem_filter, beq_iff_eq]
  constructor
  · rintro ⟨c, ⟨i, ⟨x, hx, hi⟩, hc⟩, rfl⟩
    exact ⟨x, hx.1, hx.2, i, hi.1, hi.2, c, hc.1, hc.2, rfl⟩
  · rintro ⟨x, hx, tx, i, hi, ti, c, hc, tc, rfl⟩
    exact ⟨c, ⟨i, ⟨x, ⟨hx, tx⟩, ⟨hi, ti⟩⟩, ⟨hc, tc⟩⟩, rfl⟩

theorem mem_insertPath (p q : List Str) (ps : List (List Str)) : q ∈ insertPath p ps ↔ q = p ∨ q ∈ ps := by
  induction ps with
  | nil => simp [insertPath]
  | cons r ps ih =>
    unfold insertPath
    by_cases h : p ≤ r
    · rw [if_pos h, List.mem_cons]
    · rw [if_neg h, List.mem_cons, ih, List.mem_cons]
      constructor
      · rintro (h | h | h)
        · exact .inr (.inl h)
        · exact .inl h
        · exact .inr (.inr h)
      · rintro (h | h | h)
        · exact .inr (.inl h)
        · exact .inl h
        · exact .inr (.inr h)

theorem mem_sortPaths (q : List Str) (ps : List (List Str)) : q ∈ sortPaths ps ↔ q ∈ ps := by
  unfold sortPaths
  induction ps with
  | nil => rfl
  | cons p ps ih => rw [List.foldr_cons, mem_insertPath, ih, List.mem_cons]

theorem mem_categoryPaths (root : Elem) (p : List Str) :
    p ∈ categoryPaths root ↔ ∃ t, Referenced root t ∧ p = parseCategoryPath t := by
  unfold categoryPaths
  rw [mem_sortPaths, List.mem_map]
  constructor
  · rintro ⟨t, ht, rfl⟩; exact ⟨t, (mem_itemCategories _ _).1 ((mem_firsts _ _).1 ht), rfl⟩
  · rintro ⟨t, ht, rfl⟩; exact ⟨t, (mem_firsts _ _).2 ((mem_itemCategories _ _).2 ht), rfl⟩

theorem isNamed_iff (c : Str) (e : Elem) : isNamed c e = true ↔ IsCategory e c := by
  unfold isNamed IsCategory
  simp [List.any_eq_true]

theorem isCats_iff (e : Elem) : isCats e = true ↔ e.tag = "categories" := by unfold isCats; simp

theorem find_split {p : Elem → Bool} {l : List Elem} {x : Elem} (h : l.find? p = some x) :
    ∃ a b, l = a ++ x :: b ∧ p x = true ∧ (∀ y ∈ a, p y = false) ∧ ∀ x', replaceFirst p x' l = a ++ x' :: b := by
  induction l with
  | nil => cases h
  | cons y l ih =>
    by_cases hy : p y = true
    · rw [List.find?_cons_of_pos hy] at h
      cases h
      exact ⟨[], l, rfl, hy, by simp, fun x' => by simp [replaceFirst, hy]⟩
    · rw [List.find?_cons_of_neg hy] at h
      obtain ⟨a, b, rfl, hx, ha, hr⟩ := ih h
      refine ⟨y :: a, b, rfl, hx, ?_, fun x' => ?_⟩
      · intro z hz
        rcases List.mem_cons.1 hz with rfl | hz
        · simpa using hy
        · exact ha z hz
      · simp [replaceFirst, hy, hr x']

theorem find_of_split {p : Elem → Bool} {a b : List Elem} {x : Elem} (hx : p x = true) (ha : ∀ y ∈ a, p y = false) :
    (a ++ x :: b).find? p = some x := by
  rw [List.find?_append, List.find?_eq_none.2 (fun y hy => by rw [ha y hy]; decide), List.find?_cons_of_pos hx]
  rfl

theorem find_replaced {q : Elem → Bool} {a b : List Elem} {x x' y : Elem} (hq : q x' = q x)
    (h : (a ++ x :: b).find? q = some y) :
    (a ++ x' :: b).find? q = some y ∨ (y = x ∧ (a ++ x' :: b).find? q = some x') := by
  rw [List.find?_append] at h ⊢
  cases ha : a.find? q with
  | some z => rw [ha] at h; exact .inl (by simpa using h)
  | none =>
    rw [ha, Option.none_or] at h
    rw [Option.none_or]
    by_cases hx : q x = true
    · rw [List.find?_cons_of_pos hx] at h
      rw [List.find?_cons_of_pos (by rw [hq]; exact hx)]
      cases h
      exact .inr ⟨rfl, rfl⟩
    · rw [List.find?_cons_of_neg hx] at h
      rw [List.find?_cons_of_neg (by rw [hq]; exact hx)]
      exact .inl h

/-! ### One path -/

/-- The two ways in which a step can succeed. -/
theorem addPath_cons {c : Str} {p : List Str} {e e' : Elem} (h : addPath (c :: p) e = .ok e') :
    ∃ a cats b, e = .mk e.tag e.text (a ++ cats :: b) ∧ isCats cats = true ∧ (∀ y ∈ a, isCats y = false) ∧
      c.contains '\'' = false ∧
      ((∃ a' s b' s', cats = .mk cats.tag cats.text (a' ++ s :: b') ∧ isNamed c s = true ∧
          (∀ y ∈ a', isNamed c y = false) ∧ addPath p s = .ok s' ∧
          e' = .mk e.tag e.text (a ++ .mk cats.tag cats.text (a' ++ s' :: b') :: b)) ∨
       (∃ s', cats.children.find? (isNamed c) = none ∧ addPath p (newCategory c) = .ok s' ∧
          e' = .mk e.tag e.text (a ++ .mk cats.tag cats.text (cats.children ++ [s']) :: b))) := by
  obtain ⟨tag, text, children⟩ := e
  unfold addPath at h
  simp only [Elem.children, Elem.tag, Elem.text] at h
  cases hf : children.find? isCats with
  | none => rw [hf] at h; cases h
  | some cats =>
    rw [hf] at h
    obtain ⟨a, b, rfl, hc, ha, hr⟩ := find_split hf
    cases hq : c.contains '\'' with
    | true => simp only [hq, if_true] at h; cases h
    | false =>
      simp only [hq, Bool.false_eq_true, if_false] at h
      refine ⟨a, cats, b, rfl, hc, ha, rfl, ?_⟩
      obtain ⟨ctag, ctext, cs⟩ := cats
      simp only [] at h
      cases hs : cs.find? (isNamed c) with
      | none =>
        rw [hs] at h
        simp only at h
        cases hp : addPath p (newCategory c) with
        | error m => rw [hp] at h; cases h
        | ok s' =>
          rw [hp] at h
          simp only [Except.ok.injEq] at h
          exact .inr ⟨s', hs, rfl, by rw [← h, hr]; rfl⟩
      | some s =>
        rw [hs] at h
        simp only at h
        cases hp : addPath p s with
        | error m => rw [hp] at h; cases h
        | ok s' =>
          rw [hp] at h
          simp only [Except.ok.injEq] at h
          obtain ⟨a', b', rfl, hn, ha', hr'⟩ := find_split hs
          exact .inl ⟨a', s, b', s', rfl, hn, ha', hp, by rw [← h, hr, hr']; rfl⟩

theorem addPath_tag {p : List Str} {e e' : Elem} (h : addPath p e = .ok e') : e'.tag = e.tag ∧ e'.text = e.text := by
  cases p with
  | nil => cases h; exact ⟨rfl, rfl⟩
  | cons c p =>
    obtain ⟨_, _, _, _, _, _, _, h' | h'⟩ := addPath_cons h
    · obtain ⟨_, _, _, _, _, _, _, _, rfl⟩ := h'; exact ⟨rfl, rfl⟩
    · obtain ⟨_, _, _, rfl⟩ := h'; exact ⟨rfl, rfl⟩

/-- Adding a path does not change children other than the `categories`. -/
theorem addPath_children {p : List Str} {e e' : Elem} (h : addPath p e = .ok e') :
    e' = e ∨ ∃ a cats cats' b, e.children = a ++ cats :: b ∧ e'.children = a ++ cats' :: b ∧
      cats.tag = "categories" ∧ cats'.tag = "categories" := by
  cases p with
  | nil => cases h; exact .inl rfl
  | cons c p =>
    obtain ⟨a, cats, b, he, hc, _, _, h' | h'⟩ := addPath_cons h
    · obtain ⟨a', s, b', s', _, _, _, _, rfl⟩ := h'
      exact .inr ⟨a, cats, _, b, by rw [he]; rfl, rfl, (isCats_iff _).1 hc, (isCats_iff _).1 hc⟩
    · obtain ⟨s', _, _, rfl⟩ := h'
      exact .inr ⟨a, cats, _, b, by rw [he]; rfl, rfl, (isCats_iff _).1 hc, (isCats_iff _).1 hc⟩

theorem addPath_named {p : List Str} {e e' : Elem} (h : addPath p e = .ok e') (c : Str) : isNamed c e' = isNamed c e := by
  rcases addPath_children h with rfl | ⟨a, cats, cats', b, h1, h2, t1, t2⟩
  · rfl
  · unfold isNamed
    rw [(addPath_tag h).1, h1, h2, List.any_append, List.any_append, List.any_cons, List.any_cons, t1, t2]
    rfl

theorem newCategory_named (c d : Str) : isNamed d (newCategory c) = decide (c = d) := by
  unfold isNamed newCategory Elem.children Elem.tag Elem.text
  by_cases h : c = d <;> simp [h]

/-- Adding a path grows the tree. -/
theorem addPath_grown (p : List Str) (e e' : Elem) (h : addPath p e = .ok e') : Grown e e' := by
  induction p generalizing e e' with
  | nil => cases h; exact .same _
  | cons c p ih =>
    obtain ⟨a, cats, b, he, hc, _, _, h' | h'⟩ := addPath_cons h
    · obtain ⟨a', s, b', s', hcats, _, _, hs, rfl⟩ := h'
      conv_lhs => rw [he]
      refine .inside _ _ _ _ _ _ ?_
      conv_lhs => rw [hcats]
      exact .inside _ _ _ _ _ _ (ih _ _ hs)
    · obtain ⟨s', _, hs, rfl⟩ := h'
      conv_lhs => rw [he]
      refine .inside _ _ _ _ _ _ ?_
      have ht := (isCats_iff _).1 hc
      obtain ⟨ct, cx, cc⟩ := cats
      change ct = "categories" at ht
      subst ht
      exact .append _ _ _ (addPath_tag hs).1

/-! ### The walk along first matches -/

def FirstAt (e : Elem) : List Str → Prop
  | [] => True
  | c :: p => ∃ cats, e.children.find? isCats = some cats ∧ ∃ s, cats.children.find? (isNamed c) = some s ∧ FirstAt s p

theorem firstAt_hasPath (p : List Str) (e : Elem) (h : FirstAt e p) : HasPath e p := by
  induction p generalizing e with
  | nil => exact ⟨e, rfl⟩
  | cons c p ih =>
    obtain ⟨cats, hc, s, hs, hp⟩ := h
    obtain ⟨x, hx⟩ := ih s hp
    exact ⟨x, cats, List.mem_of_find?_eq_some hc, (isCats_iff _).1 (List.find?_some hc), s, List.mem_of_find?_eq_some hs,
      (isNamed_iff _ _).1 (List.find?_some hs), hx⟩

theorem addPath_firstAt (p : List Str) (e e' : Elem) (h : addPath p e = .ok e') : FirstAt e' p := by
  induction p generalizing e e' with
  | nil => trivial
  | cons c p ih =>
    obtain ⟨a, cats, b, he, hc, ha, _, h' | h'⟩ := addPath_cons h
    · obtain ⟨a', s, b', s', _, hn, ha', hs, rfl⟩ := h'
      exact ⟨_, find_of_split hc ha, s', find_of_split (by rw [addPath_named hs]; exact hn) ha', ih _ _ hs⟩
    · obtain ⟨s', hnone, hs, rfl⟩ := h'
      refine ⟨_, find_of_split hc ha, s', ?_, ih _ _ hs⟩
      refine find_of_split (by rw [addPath_named hs, newCategory_named]; simp) fun y hy => ?_
      have := List.find?_eq_none.1 hnone y hy
      simpa using this

theorem firstAt_kept (q p : List Str) (e e' : Elem) (h : addPath q e = .ok e') (hp : FirstAt e p) : FirstAt e' p := by
  induction q generalizing e e' p with
  | nil => cases h; exact hp
  | cons c q ih =>
    cases p with
    | nil => trivial
    | cons d p =>
      obtain ⟨a, cats, b, he, hc, ha, _, h'⟩ := addPath_cons h
      obtain ⟨cats0, hc0, s0, hs0, hp0⟩ := hp
      have hcats : cats0 = cats := by
        rw [he] at hc0
        have := find_of_split (b := b) hc ha
        change (a ++ cats :: b).find? isCats = some cats0 at hc0
        rw [this] at hc0
        exact (Option.some.inj hc0).symm
      subst hcats
      rcases h' with h' | h'
      · obtain ⟨a', s, b', s', hcs, hn, ha', hs, rfl⟩ := h'
        refine ⟨_, find_of_split hc ha, ?_⟩
        rw [hcs] at hs0
        change (a' ++ s :: b').find? (isNamed d) = some s0 at hs0
        rcases find_replaced (x' := s') (addPath_named hs d) hs0 with h1 | ⟨rfl, h1⟩
        · exact ⟨s0, h1, hp0⟩
        · exact ⟨s', h1, ih _ _ _ hs hp0⟩
      · obtain ⟨s', _, _, rfl⟩ := h'
        refine ⟨_, find_of_split hc ha, s0, ?_, hp0⟩
        show (cats0.children ++ [s']).find? (isNamed d) = some s0
        rw [List.find?_append, hs0]; rfl

theorem firstAt_addPath (p : List Str) (e : Elem) (hp : FirstAt e p) (hq : ∀ c ∈ p, c.contains '\'' = false) :
    addPath p e = .ok e := by
  induction p generalizing e with
  | nil => rfl
  | cons c p ih =>
    obtain ⟨cats, hc, s, hs, hp'⟩ := hp
    unfold addPath
    rw [hc]
    simp only [hq c List.mem_cons_self, Bool.false_eq_true, if_false, hs,
      ih s hp' (fun d hd => hq d (List.mem_cons_of_mem _ hd))]
    obtain ⟨a, b, hab, _, _, hr⟩ := find_split hc
    obtain ⟨a', b', hab', _, _, hr'⟩ := find_split hs
    rw [hr, hr', ← hab']
    obtain ⟨t, x, cs⟩ := e
    obtain ⟨t', x', cs'⟩ := cats
    change cs = _ at hab
    rw [hab]
    rfl

theorem addPath_noQuote (p : List Str) (e e' : Elem) (h : addPath p e = .ok e') : ∀ c ∈ p, c.contains '\'' = false := by
  induction p generalizing e e' with
  | nil => simp
  | cons c p ih =>
    obtain ⟨a, cats, b, he, hc, ha, hq, h'⟩ := addPath_cons h
    intro d hd
    rcases List.mem_cons.1 hd with rfl | hd
    · exact hq
    · rcases h' with h' | h'
      · obtain ⟨_, _, _, _, _, _, _, hs, _⟩ := h'; exact ih _ _ hs d hd
      · obtain ⟨_, _, hs, _⟩ := h'; exact ih _ _ hs d hd

/-! ### All paths -/

theorem addPaths_cons {p : List Str} {ps : List (List Str)} {e e' : Elem} (h : addPaths (p :: ps) e = .ok e') :
    ∃ m, addPath p e = .ok m ∧ addPaths ps m = .ok e' := by
  unfold addPaths at h
  cases hp : addPath p e with
  | error m => rw [hp] at h; cases h
  | ok m => rw [hp] at h; exact ⟨m, rfl, h⟩

theorem addPaths_kept (ps : List (List Str)) (e e' : Elem) (h : addPaths ps e = .ok e') (p : List Str) (hp : FirstAt e p) :
    FirstAt e' p := by
  induction ps generalizing e with
  | nil => cases h; exact hp
  | cons q ps ih =>
    obtain ⟨m, h1, h2⟩ := addPaths_cons h
    exact ih m h2 (firstAt_kept _ _ _ _ h1 hp)

theorem addPaths_firstAt (ps : List (List Str)) (e e' : Elem) (h : addPaths ps e = .ok e') (p : List Str) (hp : p ∈ ps) :
    FirstAt e' p ∧ ∀ c ∈ p, c.contains '\'' = false := by
  induction ps generalizing e with
  | nil => cases hp
  | cons q ps ih =>
    obtain ⟨m, h1, h2⟩ := addPaths_cons h
    rcases List.mem_cons.1 hp with rfl | hp
    · exact ⟨addPaths_kept ps m e' h2 p (addPath_firstAt _ _ _ h1), addPath_noQuote _ _ _ h1⟩
    · exact ih m h2 hp

theorem addPaths_same (ps : List (List Str)) (e : Elem) (h : ∀ p ∈ ps, FirstAt e p ∧ ∀ c ∈ p, c.contains '\'' = false) :
    addPaths ps e = .ok e := by
  induction ps with
  | nil => rfl
  | cons p ps ih =>
    unfold addPaths
    rw [firstAt_addPath p e (h p List.mem_cons_self).1 (h p List.mem_cons_self).2]
    exact ih fun q hq => h q (List.mem_cons_of_mem _ hq)

theorem addPaths_grown (ps : List (List Str)) (e e' : Elem) (h : addPaths ps e = .ok e') : Grown e e' := by
  induction ps generalizing e with
  | nil => cases h; exact .same _
  | cons p ps ih =>
    obtain ⟨m, h1, h2⟩ := addPaths_cons h
    exact .trans (addPath_grown _ _ _ h1) (ih m h2)

/-- The items are not touched. -/
theorem addPath_items (p : List Str) (e e' : Elem) (h : addPath p e = .ok e') : itemCategories e' = itemCategories e := by
  rcases addPath_children h with rfl | ⟨a, cats, cats', b, h1, h2, t1, t2⟩
  · rfl
  · unfold itemCategories
    rw [h1, h2, List.filter_append, List.filter_append, List.filter_cons_of_neg (by rw [t2]; decide),
      List.filter_cons_of_neg (by rw [t1]; decide)]

theorem addPaths_items (ps : List (List Str)) (e e' : Elem) (h : addPaths ps e = .ok e') :
    itemCategories e' = itemCategories e := by
  induction ps generalizing e with
  | nil => cases h; rfl
  | cons p ps ih =>
    obtain ⟨m, h1, h2⟩ := addPaths_cons h
    rw [ih m h2, addPath_items _ _ _ h1]

theorem repair_ok {root root' : Elem} (h : repair root = .ok root') :
    (itemCategories root).any (fun e => e.text.isEmpty) = false ∧ addPaths (categoryPaths root) root = .ok root' := by
  unfold repair at h
  cases hb : (itemCategories root).any (fun e => e.text.isEmpty) with
  | true => rw [hb] at h; cases h
  | false => rw [hb] at h; exact ⟨rfl, h⟩

/-! ### C41 -/

/-- **C41, complete.** After a successful repair the category path of every item exists. -/
theorem repair_complete_partial (root root' : Elem) (h : repair root = .ok root') (t : Str) (ht : Referenced root t) :
    Referenced root' t ∧ HasPath root' (parseCategoryPath t) := by
  obtain ⟨_, h'⟩ := repair_ok h
  constructor
  · rw [← mem_itemCategories, addPaths_items _ _ _ h', mem_itemCategories]; exact ht
  · exact firstAt_hasPath _ _ (addPaths_firstAt _ _ _ h' _ ((mem_categoryPaths _ _).2 ⟨t, ht, rfl⟩)).1

/-- **C41, existing categories keep their place**: the repaired file is the original file with new categories appended to
category lists. -/
theorem repair_keeps (root root' : Elem) (h : repair root = .ok root') : Grown root root' :=
  addPaths_grown _ _ _ (repair_ok h).2

/-- **C41, idempotent.** Repairing a repaired file changes nothing. -/
theorem repair_idempotent (root root' : Elem) (h : repair root = .ok root') : repair root' = .ok root' := by
  obtain ⟨h0, h'⟩ := repair_ok h
  have hi := addPaths_items _ _ _ h'
  have hp : categoryPaths root' = categoryPaths root := by unfold categoryPaths; rw [hi]
  unfold repair
  rw [hi, h0, hp]
  exact addPaths_same _ _ fun p hp => addPaths_firstAt _ _ _ h' p hp

/-! Only what is missing is added. -/

theorem at_newCategory (c : Str) (p : List Str) (x : Elem) (h : At (newCategory c) p x) : p = [] := by
  cases p with
  | nil => rfl
  | cons d p =>
    obtain ⟨cats, hm, ht, s, hs, _⟩ := h
    unfold newCategory Elem.children at hm
    simp only [List.mem_cons, List.not_mem_nil, or_false] at hm
    rcases hm with rfl | rfl | rfl
    · exact absurd ht (by simp [Elem.tag])
    · exact absurd ht (by simp [Elem.tag])
    · cases hs

/-- A path of the new tree exists in the old tree or leads through the category that was walked or added. -/
theorem addPath_at {c : Str} {q : List Str} {e e' : Elem} (h : addPath (c :: q) e = .ok e') {d : Str} {p : List Str} {x : Elem}
    (hp : At e' (d :: p) x) :
    At e (d :: p) x ∨ ∃ s s', ((∃ cats ∈ e.children, cats.tag = "categories" ∧ s ∈ cats.children) ∨ s = newCategory c) ∧
      IsCategory s c ∧ IsCategory s d ∧ addPath q s = .ok s' ∧ At s' p x := by
  obtain ⟨a, cats, b, he, hc, ha, _, h'⟩ := addPath_cons h
  obtain ⟨k, hk, tk, y, hy, hyd, hx⟩ := hp
  have hcm : cats ∈ e.children := by rw [he]; show cats ∈ a ++ cats :: b; simp
  have hct := (isCats_iff _).1 hc
  have other : k ∈ a ∨ k ∈ b → At e (d :: p) x := fun hab =>
    ⟨k, by rw [he]; show k ∈ a ++ cats :: b; rcases hab with h | h <;> simp [h], tk, y, hy, hyd, hx⟩
  rcases h' with h' | h'
  · obtain ⟨a', s, b', s', hcs, hn, ha', hs, rfl⟩ := h'
    change k ∈ a ++ _ :: b at hk
    rw [List.mem_append, List.mem_cons] at hk
    rcases hk with hk | rfl | hk
    · exact .inl (other (.inl hk))
    · change y ∈ a' ++ s' :: b' at hy
      rw [List.mem_append, List.mem_cons] at hy
      have hcc : cats.children = a' ++ s :: b' := by rw [hcs]; rfl
      rcases hy with hy | rfl | hy
      · exact .inl ⟨cats, hcm, hct, y, by rw [hcc]; simp [hy], hyd, hx⟩
      · refine .inr ⟨s, y, .inl ⟨cats, hcm, hct, by rw [hcc]; simp⟩, (isNamed_iff _ _).1 hn, ?_, hs, hx⟩
        rw [← isNamed_iff, ← addPath_named hs d, isNamed_iff]; exact hyd
      · exact .inl ⟨cats, hcm, hct, y, by rw [hcc]; simp [hy], hyd, hx⟩
    · exact .inl (other (.inr hk))
  · obtain ⟨s', hnone, hs, rfl⟩ := h'
    change k ∈ a ++ _ :: b at hk
    rw [List.mem_append, List.mem_cons] at hk
    rcases hk with hk | rfl | hk
    · exact .inl (other (.inl hk))
    · change y ∈ cats.children ++ [s'] at hy
      rw [List.mem_append, List.mem_singleton] at hy
      rcases hy with hy | rfl
      · exact .inl ⟨cats, hcm, hct, y, hy, hyd, hx⟩
      · refine .inr ⟨newCategory c, y, .inr rfl, ?_, ?_, hs, hx⟩
        · rw [← isNamed_iff, newCategory_named]; simp
        · rw [← isNamed_iff, ← addPath_named hs d, isNamed_iff]; exact hyd
    · exact .inl (other (.inr hk))

/-- Every category of the tree has at most one name. -/
def OneName (root : Elem) : Prop := ∀ p x, At root p x → ∀ c d, IsCategory x c → IsCategory x d → c = d

theorem oneName_sub {e cats s : Elem} {c : Str} (he : OneName e) (h1 : cats ∈ e.children) (h2 : cats.tag = "categories")
    (h3 : s ∈ cats.children) (h4 : IsCategory s c) : OneName s :=
  fun p x hx => he (c :: p) x ⟨cats, h1, h2, s, h3, h4, hx⟩

theorem oneName_new (c : Str) : OneName (newCategory c) := by
  intro p x hx d d' hd hd'
  have := at_newCategory c p x hx
  subst this
  have : x = newCategory c := hx
  subst this
  rw [← isNamed_iff, newCategory_named, decide_eq_true_eq] at hd hd'
  rw [← hd, ← hd']

theorem addPath_oneName (q : List Str) (e e' : Elem) (h : addPath q e = .ok e') (he : OneName e) : OneName e' := by
  induction q generalizing e e' with
  | nil => cases h; exact he
  | cons c q ih =>
    intro p x hx
    cases p with
    | nil =>
      have : x = e' := hx
      subst this
      intro d d' hd hd'
      rw [← isNamed_iff, addPath_named h, isNamed_iff] at hd hd'
      exact he [] e rfl d d' hd hd'
    | cons d p =>
      rcases addPath_at h hx with hx | ⟨s, s', hs, hsc, hsd, hs', hx⟩
      · exact he _ x hx
      · refine ih s s' hs' ?_ p x hx
        rcases hs with ⟨cats, h1, h2, h3⟩ | rfl
        · exact oneName_sub he h1 h2 h3 hsc
        · exact oneName_new c

theorem addPath_only (q : List Str) (e e' : Elem) (h : addPath q e = .ok e') (he : OneName e) (p : List Str)
    (hp : HasPath e' p) : HasPath e p ∨ p <+: q := by
  induction q generalizing e e' p with
  | nil => cases h; exact .inl hp
  | cons c q ih =>
    cases p with
    | nil => exact .inr List.nil_prefix
    | cons d p =>
      obtain ⟨x, hx0⟩ := hp
      rcases addPath_at h hx0 with hx | ⟨s, s', hs, hsc, hsd, hs', hx⟩
      · exact .inl ⟨x, hx⟩
      · rcases hs with ⟨cats, h1, h2, h3⟩ | rfl
        · have hcd : c = d := he [c] s ⟨cats, h1, h2, s, h3, hsc, rfl⟩ c d hsc hsd
          subst hcd
          rcases ih s s' hs' (oneName_sub he h1 h2 h3 hsc) p ⟨x, hx⟩ with ⟨z, hz⟩ | hpre
          · exact .inl ⟨z, cats, h1, h2, s, h3, hsc, hz⟩
          · exact .inr (by rw [List.cons_prefix_cons]; exact ⟨rfl, hpre⟩)
        · have hcd : c = d := oneName_new c [] _ rfl c d hsc hsd
          subst hcd
          rcases ih _ s' hs' (oneName_new c) p ⟨x, hx⟩ with ⟨z, hz⟩ | hpre
          · rw [at_newCategory _ _ _ hz]
            exact .inr (by simp)
          · exact .inr (by rw [List.cons_prefix_cons]; exact ⟨rfl, hpre⟩)

theorem addPaths_only (qs : List (List Str)) (e e' : Elem) (h : addPaths qs e = .ok e') (he : OneName e) (p : List Str)
    (hp : HasPath e' p) : HasPath e p ∨ ∃ q ∈ qs, p <+: q := by
  induction qs generalizing e with
  | nil => cases h; exact .inl hp
  | cons q qs ih =>
    obtain ⟨m, h1, h2⟩ := addPaths_cons h
    rcases ih m h2 (addPath_oneName _ _ _ h1 he) with h3 | ⟨r, hr, h3⟩
    · rcases addPath_only _ _ _ h1 he p h3 with h4 | h4
      · exact .inl h4
      · exact .inr ⟨q, List.mem_cons_self, h4⟩
    · exact .inr ⟨r, List.mem_cons_of_mem _ hr, h3⟩

/-- **C41, nothing else is added.** If every category has at most one name, a category path of the repaired file existed
before or is an initial part of the category path of an item. -/
theorem repair_minimal (root root' : Elem) (h : repair root = .ok root') (h1 : OneName root) (p : List Str)
    (hp : HasPath root' p) : HasPath root p ∨ ∃ t, Referenced root t ∧ p <+: parseCategoryPath t := by
  rcases addPaths_only _ _ _ (repair_ok h).2 h1 p hp with h2 | ⟨q, hq, h2⟩
  · exact .inl h2
  · obtain ⟨t, ht, rfl⟩ := (mem_categoryPaths _ _).1 hq
    exact .inr ⟨t, ht, h2⟩

/-! ### When repair succeeds -/

/-- Every category that can be reached, and the root, has a `categories` list. -/
def HasLists (e : Elem) : Prop := ∀ p x, At e p x → ∃ cats ∈ x.children, cats.tag = "categories"

theorem hasLists_sub {e cats s : Elem} {c : Str} (he : HasLists e) (h1 : cats ∈ e.children) (h2 : cats.tag = "categories")
    (h3 : s ∈ cats.children) (h4 : IsCategory s c) : HasLists s :=
  fun p x hx => he (c :: p) x ⟨cats, h1, h2, s, h3, h4, hx⟩

theorem hasLists_new (c : Str) : HasLists (newCategory c) := by
  intro p x hx
  have := at_newCategory c p x hx
  subst this
  have : x = newCategory c := hx
  subst this
  exact ⟨.mk "categories" [] [], by unfold newCategory Elem.children; simp, rfl⟩

theorem addPath_succeeds (p : List Str) (e : Elem) (he : HasLists e) (hq : ∀ c ∈ p, c.contains '\'' = false) :
    ∃ e', addPath p e = .ok e' := by
  induction p generalizing e with
  | nil => exact ⟨e, rfl⟩
  | cons c p ih =>
    unfold addPath
    obtain ⟨k, hk, tk⟩ := he [] e rfl
    cases hf : e.children.find? isCats with
    | none => exact absurd ((isCats_iff _).2 tk) (List.find?_eq_none.1 hf k hk)
    | some cats =>
      simp only [hq c List.mem_cons_self, Bool.false_eq_true, if_false]
      have hq' : ∀ d ∈ p, d.contains '\'' = false := fun d hd => hq d (List.mem_cons_of_mem _ hd)
      cases hs : cats.children.find? (isNamed c) with
      | none =>
        obtain ⟨s', h⟩ := ih _ (hasLists_new c) hq'
        simp only [h]
        exact ⟨_, rfl⟩
      | some s =>
        obtain ⟨s', h⟩ := ih s (hasLists_sub he (List.mem_of_find?_eq_some hf) ((isCats_iff _).1 (List.find?_some hf))
          (List.mem_of_find?_eq_some hs) ((isNamed_iff _ _).1 (List.find?_some hs))) hq'
        simp only [h]
        exact ⟨_, rfl⟩

theorem addPath_hasLists (q : List Str) (e e' : Elem) (h : addPath q e = .ok e') (he : HasLists e) : HasLists e' := by
  induction q generalizing e e' with
  | nil => cases h; exact he
  | cons c q ih =>
    intro p x hx
    cases p with
    | nil =>
      have : x = e' := hx
      subst this
      rcases addPath_children h with rfl | ⟨a, cats, cats', b, _, h2, _, t2⟩
      · exact he [] _ rfl
      · exact ⟨cats', by rw [h2]; simp, t2⟩
    | cons d p =>
      rcases addPath_at h hx with hx | ⟨s, s', hs, hsc, hsd, hs', hx⟩
      · exact he _ x hx
      · refine ih s s' hs' ?_ p x hx
        rcases hs with ⟨cats, h1, h2, h3⟩ | rfl
        · exact hasLists_sub he h1 h2 h3 hsc
        · exact hasLists_new c

theorem addPaths_succeeds (ps : List (List Str)) (e : Elem) (he : HasLists e)
    (hq : ∀ p ∈ ps, ∀ c ∈ p, c.contains '\'' = false) : ∃ e', addPaths ps e = .ok e' := by
  induction ps generalizing e with
  | nil => exact ⟨e, rfl⟩
  | cons p ps ih =>
    obtain ⟨m, hm⟩ := addPath_succeeds p e he (hq p List.mem_cons_self)
    obtain ⟨e', h'⟩ := ih m (addPath_hasLists _ _ _ hm he) fun q hq' => hq q (List.mem_cons_of_mem _ hq')
    unfold addPaths
    rw [hm]
    exact ⟨e', h'⟩

/-- **C41, success.** Repair succeeds if all categories (and the root) have a category list, every item has a category, and no
component of an item's category path has a quote in its name. -/
theorem repair_succeeds (root : Elem) (h1 : HasLists root)
    (h2 : ∀ t, Referenced root t → t ≠ [] ∧ ∀ c ∈ parseCategoryPath t, '\'' ∉ c) : ∃ root', repair root = .ok root' := by
  have hb : (itemCategories root).any (fun e => e.text.isEmpty) = false := by
    rw [← Bool.not_eq_true, List.any_eq_true]
    rintro ⟨e, he, ht⟩
    exact (h2 e.text ((mem_itemCategories _ _).1 (List.mem_map_of_mem he))).1 (List.isEmpty_iff.1 ht)
  unfold repair
  rw [hb]
  refine addPaths_succeeds _ _ h1 fun p hp c hc => ?_
  obtain ⟨t, ht, rfl⟩ := (mem_categoryPaths _ _).1 hp
  rw [← Bool.not_eq_true, List.contains_iff_mem]
  exact (h2 t ht).2 c hc

/-- **C41 fails for names with quotes**: a file with an item in such a category is not repaired, even if the category exists. -/
theorem quote_fails (root : Elem) (t : Str) (ht : Referenced root t) (c : Str) (hc : c ∈ parseCategoryPath t)
    (hq : '\'' ∈ c) (root' : Elem) : repair root ≠ .ok root' := by
  intro h
  have := (addPaths_firstAt _ _ _ (repair_ok h).2 _ ((mem_categoryPaths _ _).2 ⟨t, ht, rfl⟩)).2 c hc
  rw [← Bool.not_eq_true, List.contains_iff_mem] at this
  exact this hq

/-- **C41, success exactly.** A file in which all categories (and the root) have a category list is repaired exactly if every item has
a category and no component of its path has a quote in its name. -/
theorem repair_succeeds_iff (root : Elem) (h1 : HasLists root) : (∃ root', repair root = .ok root') ↔
    ∀ t, Referenced root t → t ≠ [] ∧ ∀ c ∈ parseCategoryPath t, '\'' ∉ c := by
  refine ⟨fun ⟨root', h⟩ t ht => ⟨?_, fun c hc hq => quote_fails root t ht c hc hq root' h⟩, repair_succeeds root h1⟩
  rintro rfl
  obtain ⟨e, he, hte⟩ := List.mem_map.1 ((mem_itemCategories root []).2 ht)
  have : (itemCategories root).any (fun e => e.text.isEmpty) = true := List.any_eq_true.2 ⟨e, he, by rw [hte]; rfl⟩
  unfold repair at h
  rw [this] at h
  cases h

/-! ### Example: a file with the category `drc`, and items in `drc.'met1.width'` and `lvs` -/

def sample : Elem :=
  .mk "report-database" [] [
    .mk "categories" [] [.mk "category" [] [.mk "name" "drc".toList [], .mk "categories" [] []]],
    .mk "items" [] [.mk "item" [] [.mk "category" "drc.'met1.width'".toList []],
      .mk "item" [] [.mk "category" "lvs".toList []]]]

def sampleRepaired : Elem :=
  .mk "report-database" [] [
    .mk "categories" [] [
      .mk "category" [] [.mk "name" "drc".toList [], .mk "categories" [] [newCategory "met1.width".toList]],
      newCategory "lvs".toList],
    .mk "items" [] [.mk "item" [] [.mk "category" "drc.'met1.width'".toList []],
      .mk "item" [] [.mk "category" "lvs".toList []]]]

example : repair sample = .ok sampleRepaired := by
  have h : categoryPaths sample = [["drc".toList, "met1.width".toList], ["lvs".toList]] := by decide +kernel
  unfold repair
  rw [h]
  rfl

example : Referenced sample "lvs".toList := by
  refine ⟨_, List.mem_cons_of_mem _ List.mem_cons_self, rfl, _, List.mem_cons_of_mem _ List.mem_cons_self, rfl,
    _, List.mem_cons_self, rfl, rfl⟩

example : OneName sample ∧ HasLists sample := by
  have key : ∀ p x, At sample p x → x = sample ∨ x = .mk "category" [] [.mk "name" "drc".toList [], .mk "categories" [] []] := by
    intro p x hx
    rcases p with _ | ⟨c, p⟩
    · exact .inl hx
    · obtain ⟨cats, h1, h2, s, h3, h4, h5⟩ := hx
      unfold sample Elem.children at h1
      simp only [List.mem_cons, List.not_mem_nil, or_false] at h1
      rcases h1 with rfl | rfl
      · have hs : s = .mk "category" [] [.mk "name" "drc".toList [], .mk "categories" [] []] := List.mem_singleton.1 h3
        subst hs
        rcases p with _ | ⟨d, p⟩
        · exact .inr h5
        · obtain ⟨cats, h1, h2, s, h3, _⟩ := h5
          unfold Elem.children at h1
          simp only [List.mem_cons, List.not_mem_nil, or_false] at h1
          rcases h1 with rfl | rfl
          · exact absurd h2 (by decide)
          · cases h3
      · exact absurd h2 (by decide)
  constructor
  · intro p x hx c d hc hd
    rcases key p x hx with rfl | rfl
    · exact absurd hc.1 (by decide)
    · obtain ⟨n, hn, tn, rfl⟩ := hc.2
      obtain ⟨m, hm, tm, rfl⟩ := hd.2
      unfold Elem.children at hn hm
      simp only [List.mem_cons, List.not_mem_nil, or_false] at hn hm
      rcases hn with rfl | rfl
      · rcases hm with rfl | rfl
        · rfl
        · exact absurd tm (by decide)
      · exact absurd tn (by decide)
  · intro p x hx
    rcases key p x hx with rfl | rfl
    · exact ⟨_, List.mem_cons_self, rfl⟩
    · exact ⟨_, List.mem_cons_of_mem _ List.mem_cons_self, rfl⟩

end Verif.Rdb
