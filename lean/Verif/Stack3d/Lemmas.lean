import Verif.Stack3d.Spec
import Mathlib.Data.List.Nodup
import Mathlib.Data.List.Perm.Subperm
import Mathlib.Tactic.Linarith

namespace Verif.Stack3d

open Verif.Sweep (Call Drawn Mk z2norm)

variable {P : Type} [DecidableEq P]

/-! ### Layers -/

theorem layer_inj {t : Tech} (hn : (t.layers.map Layer.name).Nodup) {a b : Layer} (ha : a ∈ t.layers)
    (hb : b ∈ t.layers) (h : a.name = b.name) : a = b :=
  List.inj_on_of_nodup_map hn ha hb h

theorem mem_metals {t : Tech} {m : Metal} :
    m ∈ t.metals ↔ ⟨m.name, .metal m.z m.thickness m.contactAbove⟩ ∈ t.layers := by
  rw [Tech.metals, List.mem_filterMap]
  constructor
  · rintro ⟨⟨n, k⟩, hl, h⟩
    cases k <;> simp at h
    subst h
    exact hl
  · intro h
    exact ⟨_, h, rfl⟩

theorem mem_diffusions {t : Tech} {d : String × Contact} :
    d ∈ t.diffusions ↔ ⟨d.1, .diffusion d.2⟩ ∈ t.layers := by
  rw [Tech.diffusions, List.mem_filterMap]
  constructor
  · rintro ⟨⟨n, k⟩, hl, h⟩
    cases k <;> simp at h
    subst h
    exact hl
  · intro h
    exact ⟨_, h, rfl⟩

theorem head_filterMap {α β : Type} {f : α → Option β} {l : List α} {x : β} :
    (l.filterMap f).head? = some x ↔ ∃ pre a post, l = pre ++ a :: post ∧ (∀ b ∈ pre, f b = none) ∧ f a = some x := by
  induction l with
  | nil => simp
  | cons b l ih =>
    cases hb : f b with
    | none =>
      rw [List.filterMap_cons_none hb, ih]
      constructor
      · rintro ⟨pre, a, post, rfl, hp, ha⟩
        refine ⟨b :: pre, a, post, rfl, ?_, ha⟩
        intro c hc
        rcases List.mem_cons.1 hc with rfl | hc
        · exact hb
        · exact hp c hc
      · rintro ⟨pre, a, post, e, hp, ha⟩
        cases pre with
        | nil =>
          simp only [List.nil_append, List.cons.injEq] at e
          rw [← e.1, hb] at ha; simp at ha
        | cons c pre =>
          simp only [List.cons_append, List.cons.injEq] at e
          exact ⟨pre, a, post, e.2, fun x hx => hp x (List.mem_cons_of_mem _ hx), ha⟩
    | some y =>
      rw [List.filterMap_cons_some hb]
      constructor
      · intro h
        simp only [List.head?_cons, Option.some.injEq] at h
        subst h
        exact ⟨[], b, l, rfl, by simp, hb⟩
      · rintro ⟨pre, a, post, e, hp, ha⟩
        cases pre with
        | nil =>
          simp only [List.nil_append, List.cons.injEq] at e
          rw [← e.1, hb] at ha; simpa using ha
        | cons c pre =>
          simp only [List.cons_append, List.cons.injEq] at e
          have := hp c List.mem_cons_self
          rw [← e.1, hb] at this; simp at this

theorem substrate_iff {t : Tech} {x : ℚ × ℚ} : t.substrate = .ok x ↔
    ∃ pre n post, t.layers = pre ++ ⟨n, .substrate x.1 x.2⟩ :: post ∧ ∀ l ∈ pre, ¬ l.kind.isSubstrate := by
  have h1 : t.substrate = .ok x ↔ (t.layers.filterMap (fun l => match l.kind with
      | .substrate h th => some (h, th) | _ => none)).head? = some x := by
    rw [Tech.substrate]
    cases t.layers.filterMap (fun l => match l.kind with | .substrate h th => some (h, th) | _ => none) <;> simp
  rw [h1, head_filterMap]
  constructor
  · rintro ⟨pre, ⟨n, k⟩, post, e, hp, ha⟩
    cases k <;> simp at ha
    subst ha
    refine ⟨pre, n, post, e, ?_⟩
    rintro ⟨n', k'⟩ hb
    have := hp _ hb
    cases k' <;> simp_all [Kind.isSubstrate]
  · rintro ⟨pre, n, post, e, hp⟩
    refine ⟨pre, _, post, e, ?_, rfl⟩
    rintro ⟨n', k'⟩ hb
    have := hp _ hb
    cases k' <;> simp_all [Kind.isSubstrate]

theorem fieldOxide_iff {t : Tech} {x : String × ℚ} : t.fieldOxide = .ok x ↔
    ∃ pre post, t.layers = pre ++ ⟨x.1, .fieldOxide x.2⟩ :: post ∧ ∀ l ∈ pre, ¬ l.kind.isFieldOxide := by
  have h1 : t.fieldOxide = .ok x ↔ (t.layers.filterMap (fun l => match l.kind with
      | .fieldOxide k => some (l.name, k) | _ => none)).head? = some x := by
    rw [Tech.fieldOxide]
    cases t.layers.filterMap (fun l => match l.kind with | .fieldOxide k => some (l.name, k) | _ => none) <;> simp
  rw [h1, head_filterMap]
  constructor
  · rintro ⟨pre, ⟨n, k⟩, post, e, hp, ha⟩
    cases k <;> simp at ha
    subst ha
    refine ⟨pre, post, e, ?_⟩
    rintro ⟨n', k'⟩ hb
    have := hp _ hb
    cases k' <;> simp_all [Kind.isFieldOxide]
  · rintro ⟨pre, post, e, hp⟩
    refine ⟨pre, _, post, e, ?_, rfl⟩
    rintro ⟨n', k'⟩ hb
    have := hp _ hb
    cases k' <;> simp_all [Kind.isFieldOxide]

theorem metals_head {t : Tech} {m : Metal} : t.metals.head? = some m ↔
    ∃ pre post, t.layers = pre ++ ⟨m.name, .metal m.z m.thickness m.contactAbove⟩ :: post ∧
      ∀ l ∈ pre, ¬ l.kind.isMetal := by
  rw [Tech.metals, head_filterMap]
  constructor
  · rintro ⟨pre, ⟨n, k⟩, post, e, hp, ha⟩
    cases k <;> simp at ha
    subst ha
    refine ⟨pre, post, e, ?_⟩
    rintro ⟨n', k'⟩ hb
    have := hp _ hb
    cases k' <;> simp_all [Kind.isMetal]
  · rintro ⟨pre, post, e, hp⟩
    refine ⟨pre, _, post, e, ?_, rfl⟩
    rintro ⟨n', k'⟩ hb
    have := hp _ hb
    cases k' <;> simp_all [Kind.isMetal]

theorem mem_dielectrics {t : Tech} {l : Layer} :
    l ∈ t.dielectrics ↔ l ∈ t.layers ∧ l.kind.dielectricK.isSome ∧ t.included l.name = true := by
  rw [Tech.dielectrics, List.mem_filter]; simp

theorem mem_dielectricByName {t : Tech} {n : String} :
    n ∈ t.dielectricByName.keys ↔ ∃ l ∈ t.dielectrics, l.name = n := by
  have hall : ∀ l ∈ t.dielectrics, l.kind.dielectricK.isSome := fun l hl => (mem_dielectrics.1 hl).2.1
  rw [Tech.dielectricByName]
  generalize t.dielectrics = ds at hall
  induction ds using List.reverseRecOn with
  | nil => simp
  | append_singleton ds l ih =>
    rw [List.foldl_append]
    simp only [List.foldl_cons, List.foldl_nil]
    have hl := hall l (by simp)
    rw [Option.isSome_iff_exists] at hl
    obtain ⟨k, hk⟩ := hl
    simp only [hk]
    have ih' := ih (fun x hx => hall x (List.mem_append_left _ hx))
    refine (Dict.mem_keys_set _ _ _ _).trans ?_
    simp only [List.mem_append, List.mem_singleton]
    constructor
    · rintro (h | h)
      · exact ⟨l, Or.inr rfl, h.symm⟩
      · obtain ⟨x, hx, e⟩ := ih'.1 h
        exact ⟨x, Or.inl hx, e⟩
    · rintro ⟨x, hx | rfl, rfl⟩
      · exact Or.inr (ih'.2 ⟨x, hx, rfl⟩)
      · exact Or.inl rfl

/-! ### Chains of wrapping dielectrics -/

theorem mem_wraps {t : Tech} {n : String} {l : Layer} :
    l ∈ t.dielectrics.filter (fun l => l.kind.reference? = some n) ↔ Wraps t n l := by
  rw [List.mem_filter, mem_dielectrics, Wraps]
  obtain ⟨nm, k⟩ := l
  cases k <;> simp [Kind.dielectricK, Kind.reference?, and_assoc]

theorem sidewallOf_none {t : Tech} {n : String} (h : t.sidewallOf n = .ok none) (l : Layer) : ¬ Wraps t n l := by
  rw [Tech.sidewallOf] at h
  intro hw
  rw [← mem_wraps] at hw
  generalize List.filter (fun l : Layer => decide (l.kind.reference? = some n)) t.dielectrics = fl at h hw
  match fl, h with
  | [], _ => simp at hw
  | [x], h => simp at h
  | x :: y :: r, h => simp at h

theorem sidewallOf_some {t : Tech} {n : String} {l : Layer} (h : t.sidewallOf n = .ok (some l)) :
    Wraps t n l ∧ ∀ l', Wraps t n l' → l' = l := by
  rw [Tech.sidewallOf] at h
  have hw := fun l' : Layer => (mem_wraps (t := t) (n := n) (l := l'))
  generalize List.filter (fun l : Layer => decide (l.kind.reference? = some n)) t.dielectrics = fl at h hw
  match fl, h with
  | [], h => simp at h
  | [x], h =>
    simp only [Except.ok.injEq, Option.some.injEq] at h
    subst h
    refine ⟨(hw x).1 (by simp), ?_⟩
    intro l' hl'
    simpa using (hw l').2 hl'
  | x :: y :: r, h => simp at h

theorem Chain.mem {t : Tech} {a : String} {ls : List Layer} (h : Chain t a ls) : ∀ l ∈ ls, ∃ b, Wraps t b l := by
  induction h with
  | nil => simp
  | cons hw _ ih =>
    intro l hl
    rcases List.mem_cons.1 hl with rfl | hl
    · exact ⟨_, hw⟩
    · exact ih l hl

theorem Chain.prefix {t : Tech} {a : String} {ls ls' : List Layer} (h : Chain t a (ls ++ ls')) : Chain t a ls := by
  induction ls generalizing a with
  | nil => exact .nil
  | cons l ls ih =>
    cases h with
    | cons hw hc => exact .cons hw (ih hc)

/-- The name of the innermost layer a further dielectric would wrap. -/
def lastName (a : String) (ls : List Layer) : String := (ls.getLast?.map Layer.name).getD a

theorem lastName_cons (a : String) (l : Layer) (ls : List Layer) : lastName a (l :: ls) = lastName l.name ls := by
  cases ls with
  | nil => rfl
  | cons x ls =>
    simp only [lastName, List.getLast?_cons_cons]
    rw [List.getLast?_eq_some_getLast (by simp)]; rfl

theorem lastName_snoc (a : String) (ls : List Layer) (l : Layer) : lastName a (ls ++ [l]) = l.name := by
  simp [lastName]

theorem chain_snoc {t : Tech} {a : String} {ls : List Layer} {l : Layer} :
    Chain t a (ls ++ [l]) ↔ Chain t a ls ∧ Wraps t (lastName a ls) l := by
  induction ls generalizing a with
  | nil =>
    constructor
    · intro h
      cases h with
      | cons hw _ => exact ⟨.nil, hw⟩
    · rintro ⟨_, hw⟩
      exact .cons hw .nil
  | cons x ls ih =>
    rw [lastName_cons]
    constructor
    · intro h
      cases h with
      | cons hw hc => exact ⟨.cons hw (ih.1 hc).1, (ih.1 hc).2⟩
    · rintro ⟨h, hw⟩
      cases h with
      | cons hw' hc => exact .cons hw' (ih.2 ⟨hc, hw⟩)

theorem wraps_unique {t : Tech} {a b : String} {l : Layer} (ha : Wraps t a l) (hb : Wraps t b l) : a = b := by
  rcases ha.2.2 with ⟨_, _, _, e⟩ | ⟨_, _, _, _, e⟩ <;> rcases hb.2.2 with ⟨_, _, _, e'⟩ | ⟨_, _, _, _, e'⟩ <;>
    · rw [e] at e'; simp at e' <;> simp [e']

/-- A layer with the name of a metal is this metal. -/
theorem metal_inj {t : Tech} (hn : WellNamed t) {l : Layer} {m : String} {z th : ℚ} {c : Option Contact}
    (hl : l ∈ t.layers) (hm : ⟨m, .metal z th c⟩ ∈ t.layers) (e : l.name = m) : l = ⟨m, .metal z th c⟩ := by
  obtain ⟨pre, post, h⟩ := List.append_of_mem hm
  by_contra hne
  rw [h] at hl
  refine hn.metal pre m z th c post h l ?_ e
  rcases List.mem_append.1 hl with hl | hl
  · exact List.mem_append_left _ hl
  · rcases List.mem_cons.1 hl with hl | hl
    · exact absurd hl hne
    · exact List.mem_append_right _ hl

/-- Distinct names are unambiguous. -/
theorem WellNamed.of_nodup {t : Tech} (hn : (t.layers.map Layer.name).Nodup) : WellNamed t where
  metal := by
    intro pre m z th c post h l hl e
    rw [h, List.map_append, List.map_cons, List.nodup_append, List.nodup_cons] at hn
    obtain ⟨_, ⟨h2, _⟩, h3⟩ := hn
    rcases List.mem_append.1 hl with hl | hl
    · exact h3 _ (List.mem_map_of_mem hl) _ (List.mem_cons_self) e
    · exact h2 (List.mem_map.2 ⟨l, hl, e⟩)
  wrapped := fun _ _ _ _ _ h1 h2 e _ => layer_inj hn h1.1 h2.1 e

theorem chain_unique {t : Tech} (hn : WellNamed t) {m : Metal} (hm : m ∈ t.metals)
    {ls1 ls2 : List Layer} {l : Layer} (h1 : Chain t m.name (ls1 ++ [l])) (h2 : Chain t m.name (ls2 ++ [l])) :
    ls1 = ls2 := by
  have base : ∀ (ls : List Layer) (x : Layer), Chain t m.name (ls ++ [x]) → x.name ≠ m.name := by
    intro ls x hc e
    obtain ⟨_, hw⟩ := chain_snoc.1 hc
    have := metal_inj hn hw.1 (mem_metals.1 hm) e
    rcases hw.2.2 with ⟨_, _, _, e'⟩ | ⟨_, _, _, _, e'⟩ <;> · rw [this] at e'; simp at e'
  induction ls1 using List.reverseRecOn generalizing ls2 l with
  | nil =>
    rcases List.eq_nil_or_concat ls2 with rfl | ⟨ls2', x, rfl⟩
    · rfl
    · rw [List.concat_eq_append] at *
      have e := wraps_unique (chain_snoc.1 h1).2 (chain_snoc.1 h2).2
      rw [lastName_snoc] at e
      exact absurd e.symm (base _ _ (chain_snoc.1 h2).1)
  | append_singleton ls1 y ih =>
    rcases List.eq_nil_or_concat ls2 with rfl | ⟨ls2', x, rfl⟩
    · have e := wraps_unique (chain_snoc.1 h1).2 (chain_snoc.1 h2).2
      rw [lastName_snoc] at e
      exact absurd e (base _ _ (chain_snoc.1 h1).1)
    · rw [List.concat_eq_append] at *
      have e := wraps_unique (chain_snoc.1 h1).2 (chain_snoc.1 h2).2
      rw [lastName_snoc, lastName_snoc] at e
      have c1 := (chain_snoc.1 h1).1
      have c2 := (chain_snoc.1 h2).1
      have hl := (chain_snoc.1 h1).2
      rw [lastName_snoc] at hl
      have := hn.wrapped _ _ _ _ l (chain_snoc.1 c1).2 (chain_snoc.1 c2).2 e hl
      subst this
      rw [ih c1 c2]

theorem chain_nodup {t : Tech} (hn : WellNamed t) {m : Metal} (hm : m ∈ t.metals)
    {ls : List Layer} (h : Chain t m.name ls) : ls.Nodup := by
  induction ls using List.reverseRecOn with
  | nil => simp
  | append_singleton ls l ih =>
    have hc := (chain_snoc.1 h).1
    rw [List.nodup_append]
    refine ⟨ih hc, by simp, ?_⟩
    intro a ha b hb
    simp only [List.mem_singleton] at hb
    subst hb
    rintro rfl
    obtain ⟨pre, post, rfl⟩ := List.append_of_mem ha
    have h1 : Chain t m.name (pre ++ [a]) := by
      have : pre ++ a :: post = (pre ++ [a]) ++ post := by simp
      rw [this] at hc
      exact hc.prefix
    have := chain_unique hn hm h1 h
    have := congrArg List.length this
    simp at this

theorem chain_length {t : Tech} (hn : WellNamed t) {m : Metal} (hm : m ∈ t.metals)
    {ls : List Layer} (h : Chain t m.name ls) : ls.length ≤ t.layers.length := by
  apply List.Subperm.length_le
  apply List.Nodup.subperm (chain_nodup hn hm h)
  intro l hl
  exact (h.mem l hl).choose_spec.1

theorem sideLoop_none {t : Tech} {ly : Layout P} {m : Metal} {fuel : Nat} {a : String} {s : Side P}
    (h : sideLoop t ly m fuel a s = none) : ∃ ls, Chain t a ls ∧ ls.length = fuel := by
  induction fuel generalizing a s with
  | zero => exact ⟨[], .nil, rfl⟩
  | succ fuel ih =>
    rw [sideLoop] at h
    split at h
    · simp at h
    · simp at h
    · rename_i l hl
      obtain ⟨ls, hc, hlen⟩ := ih h
      exact ⟨l :: ls, .cons (sidewallOf_some hl).1 hc, by simp [hlen]⟩

theorem sideLoop_mono {t : Tech} {ly : Layout P} {m : Metal} {fuel fuel' : Nat} (hf : fuel ≤ fuel') {a : String}
    {s : Side P} {r : Except String (Side P)} (h : sideLoop t ly m fuel a s = some r) :
    sideLoop t ly m fuel' a s = some r := by
  induction fuel generalizing fuel' a s with
  | zero => simp [sideLoop] at h
  | succ fuel ih =>
    obtain ⟨f', rfl⟩ : ∃ f', fuel' = f' + 1 := ⟨fuel' - 1, by omega⟩
    rw [sideLoop] at h ⊢
    cases hs : t.sidewallOf a with
    | error e => simpa [hs] using h
    | ok o =>
      cases o with
      | none => simpa [hs] using h
      | some l =>
        simp only [hs] at h ⊢
        exact ih (by omega) h

theorem sideLoop_ok {t : Tech} {ly : Layout P} {m : Metal} {fuel : Nat} {a : String} {s s' : Side P}
    (h : sideLoop t ly m fuel a s = some (.ok s')) :
    ∃ ls, Chain t a ls ∧ (∀ ls', Chain t a ls' → ls' <+: ls) ∧ s' = ls.foldl (sideStep ly m) s := by
  induction fuel generalizing a s with
  | zero => simp [sideLoop] at h
  | succ fuel ih =>
    rw [sideLoop] at h
    split at h
    · simp at h
    · rename_i hl
      simp only [Option.some.injEq, Except.ok.injEq] at h
      subst h
      refine ⟨[], .nil, ?_, rfl⟩
      intro ls' h'
      cases h' with
      | nil => exact List.prefix_rfl
      | cons hw _ => exact absurd hw (sidewallOf_none hl _)
    · rename_i l hl
      obtain ⟨ls, hc, hu, e⟩ := ih h
      refine ⟨l :: ls, .cons (sidewallOf_some hl).1 hc, ?_, e⟩
      intro ls' h'
      cases h' with
      | nil => exact List.nil_prefix
      | cons hw hc' =>
        have := (sidewallOf_some hl).2 _ hw
        subst this
        exact (List.prefix_cons_inj _).2 (hu _ hc')

theorem fullChain_of {t : Tech} {a : String} {ls : List Layer} (hc : Chain t a ls)
    (hu : ∀ ls', Chain t a ls' → ls' <+: ls) : FullChain t a ls := by
  refine ⟨hc, ?_⟩
  intro l h
  have := (hu _ h).length_le
  simp at this

theorem fullChain_eq {t : Tech} {a : String} {ls ls' : List Layer} (hc : Chain t a ls)
    (hu : ∀ ls', Chain t a ls' → ls' <+: ls) (h' : FullChain t a ls') : ls' = ls := by
  obtain ⟨x, rfl⟩ := hu _ h'.1
  cases x with
  | nil => simp
  | cons l x =>
    refine absurd ?_ (h'.2 l)
    have : ls' ++ l :: x = (ls' ++ [l]) ++ x := by simp
    rw [this] at hc
    exact hc.prefix

/-! ### Effect of the sidewall loop -/

theorem grown_snoc (ly : Layout P) (r : Finset P) (ls : List Layer) (l : Layer) :
    grown ly r (ls ++ [l]) = ly.sized ⌊l.kind.width / ly.dbu⌋ (grown ly r ls) := by
  rw [grown, List.foldl_append]; rfl

theorem rise_snoc (th : ℚ) (ls : List Layer) (l : Layer) : rise th (ls ++ [l]) = rise th ls + l.kind.rise th := by
  simp [rise]

theorem floorOf_snoc (ls : List Layer) (l : Layer) : floorOf (ls ++ [l]) = (l.kind.floor).getD (floorOf ls) := by
  rw [floorOf, List.filterMap_append]
  cases h : l.kind.floor with
  | none => simp [h, floorOf]
  | some f => simp [h]

structure SideSpec (ly : Layout P) (m : Metal) (r : Finset P) (ls : List Layer) (s : Side P) : Prop where
  region : s.region = grown ly r ls
  height : s.height = rise m.thickness ls
  noMetal : (s.noMetal = none ∧ floorOf ls = 0) ∨ ∃ q, s.noMetal = some (q, floorOf ls)
  calls : ∀ c, c ∈ s.calls ↔ ∃ pre l post, ls = pre ++ l :: post ∧
    (c = .dielectric l.name (grown ly r (pre ++ [l])) m.z (rise m.thickness (pre ++ [l])) ∨
      ∃ f, l.kind.floor = some f ∧ c = .dielectric l.name (ly.block \ grown ly r (pre ++ [l])) m.z f)

theorem snoc_split {α : Type} {ls pre post : List α} {x l : α} :
    ls ++ [x] = pre ++ l :: post ↔ (∃ post', post = post' ++ [x] ∧ ls = pre ++ l :: post') ∨ (post = [] ∧ l = x ∧ ls = pre) := by
  constructor
  · intro h
    rcases List.eq_nil_or_concat post with rfl | ⟨post', y, rfl⟩
    · right
      have := List.append_inj' h rfl
      exact ⟨rfl, by simpa using this.2.symm, this.1⟩
    · left
      rw [List.concat_eq_append] at *
      have h' : ls ++ [x] = (pre ++ l :: post') ++ [y] := by simpa using h
      have := List.append_inj' h' rfl
      refine ⟨post', ?_, this.1⟩
      have e : x = y := by simpa using this.2
      rw [e]
  · rintro (⟨post', rfl, rfl⟩ | ⟨rfl, rfl, rfl⟩) <;> simp

theorem side_spec {t : Tech} {ly : Layout P} {m : Metal} {a : String} {r : Finset P} {ls : List Layer}
    (h : Chain t a ls) : SideSpec ly m r ls (ls.foldl (sideStep ly m) { region := r }) := by
  induction ls using List.reverseRecOn with
  | nil => exact ⟨rfl, by simp [rise], Or.inl ⟨rfl, rfl⟩, by simp⟩
  | append_singleton ls l ih =>
    obtain ⟨hc, hw⟩ := chain_snoc.1 h
    have ih := ih hc
    rw [List.foldl_append]
    simp only [List.foldl_cons, List.foldl_nil]
    generalize ls.foldl (sideStep ly m) { region := r } = s at ih ⊢
    obtain ⟨h1, h2, h3, h4⟩ := ih
    obtain ⟨nm, kd⟩ := l
    rcases hw.2.2 with ⟨k, ab, w, e⟩ | ⟨k, o, n, sd, e⟩
    · simp only at e
      subst e
      refine ⟨?_, ?_, ?_, ?_⟩
      · rw [grown_snoc, ← h1]; rfl
      · rw [rise_snoc, ← h2]; rfl
      · rw [floorOf_snoc]; exact h3
      · intro c
        simp only [sideStep, List.mem_append, List.mem_singleton, h4]
        constructor
        · rintro (⟨pre, l, post, rfl, hx⟩ | rfl)
          · exact ⟨pre, l, post ++ [_], by rw [List.append_assoc]; rfl, hx⟩
          · refine ⟨ls, _, [], rfl, Or.inl ?_⟩
            rw [grown_snoc, rise_snoc, ← h1, ← h2]; rfl
        · rintro ⟨pre, l, post, e, hx⟩
          rcases snoc_split.1 e with ⟨post', rfl, rfl⟩ | ⟨rfl, rfl, rfl⟩
          · exact Or.inl ⟨pre, l, post', rfl, hx⟩
          · right
            rcases hx with rfl | ⟨f, hf, _⟩
            · rw [grown_snoc, rise_snoc, ← h1, ← h2]; rfl
            · simp [Kind.floor] at hf
    · simp only at e
      subst e
      by_cases hn : n > 0
      · have es : sideStep ly m s ⟨nm, .conformal k o n sd (lastName a ls)⟩ =
            { region := ly.sized ⌊sd / ly.dbu⌋ s.region, height := s.height + (m.thickness + o)
              noMetal := some (ly.block \ ly.sized ⌊sd / ly.dbu⌋ s.region, n)
              calls := s.calls ++ [.dielectric nm (ly.sized ⌊sd / ly.dbu⌋ s.region) m.z (s.height + (m.thickness + o))]
                ++ [.dielectric nm (ly.block \ ly.sized ⌊sd / ly.dbu⌋ s.region) m.z n] } := by
          simp [sideStep, hn]
        rw [es]
        have hg : ly.sized ⌊sd / ly.dbu⌋ s.region = grown ly r (ls ++ [⟨nm, .conformal k o n sd (lastName a ls)⟩]) := by
          rw [grown_snoc, ← h1]; rfl
        have hr : s.height + (m.thickness + o) = rise m.thickness (ls ++ [⟨nm, .conformal k o n sd (lastName a ls)⟩]) := by
          rw [rise_snoc, ← h2]; rfl
        refine ⟨hg, hr, Or.inr ⟨ly.block \ ly.sized ⌊sd / ly.dbu⌋ s.region, ?_⟩, ?_⟩
        · rw [floorOf_snoc]
          have : 0 < n := hn
          simp [Kind.floor, this]
        · intro c
          rw [hg, hr]
          simp only [List.mem_append, List.mem_singleton, h4]
          constructor
          · rintro ((⟨pre, l, post, rfl, hx⟩ | rfl) | rfl)
            · exact ⟨pre, l, post ++ [_], by rw [List.append_assoc]; rfl, hx⟩
            · exact ⟨ls, _, [], rfl, Or.inl rfl⟩
            · exact ⟨ls, _, [], rfl, Or.inr ⟨n, if_pos hn, rfl⟩⟩
          · rintro ⟨pre, l, post, e, hx⟩
            rcases snoc_split.1 e with ⟨post', rfl, rfl⟩ | ⟨rfl, rfl, rfl⟩
            · exact Or.inl (Or.inl ⟨pre, l, post', rfl, hx⟩)
            · rcases hx with rfl | ⟨f, hf, rfl⟩
              · exact Or.inl (Or.inr rfl)
              · right
                have : n = f := by
                  have h0 : 0 < n := hn
                  simpa [Kind.floor, h0] using hf
                rw [this]
      · have hn' : ¬ 0 < n := hn
        refine ⟨?_, ?_, ?_, ?_⟩
        · rw [grown_snoc, ← h1]; simp [sideStep, hn', Kind.width]
        · rw [rise_snoc, ← h2]; simp [sideStep, hn', Kind.rise]
        · rw [floorOf_snoc]; simpa [sideStep, hn', Kind.floor] using h3
        · intro c
          have es : (sideStep ly m s ⟨nm, .conformal k o n sd (lastName a ls)⟩).calls = s.calls ++
              [.dielectric nm (grown ly r (ls ++ [⟨nm, .conformal k o n sd (lastName a ls)⟩])) m.z
                (rise m.thickness (ls ++ [⟨nm, .conformal k o n sd (lastName a ls)⟩]))] := by
            rw [grown_snoc, rise_snoc, ← h1, ← h2]
            simp [sideStep, hn', Kind.width, Kind.rise]
          rw [es]
          simp only [List.mem_append, List.mem_singleton, h4]
          constructor
          · rintro (⟨pre, l, post, rfl, hx⟩ | rfl)
            · exact ⟨pre, l, post ++ [_], by rw [List.append_assoc]; rfl, hx⟩
            · exact ⟨ls, _, [], rfl, Or.inl rfl⟩
          · rintro ⟨pre, l, post, e, hx⟩
            rcases snoc_split.1 e with ⟨post', rfl, rfl⟩ | ⟨rfl, rfl, rfl⟩
            · exact Or.inl ⟨pre, l, post', rfl, hx⟩
            · rcases hx with rfl | ⟨f, hf, _⟩
              · exact Or.inr rfl
              · simp [Kind.floor, hn'] at hf

/-! ### The simple dielectric above a metal -/

/-- Height of a simple dielectric that is followed by `post`. -/
def HeightTo (z : ℚ) (post : List Layer) (h : ℚ) : Prop :=
  (∃ mid' n' z' th' c' post', post = mid' ++ ⟨n', .metal z' th' c'⟩ :: post' ∧ (∀ l ∈ mid', ¬ l.kind.isMetal) ∧
      h = z' - z) ∨
    ((∀ l ∈ post, ¬ l.kind.isMetal) ∧ h = 5)

theorem heightTo_cons {z : ℚ} {l : Layer} {post : List Layer} {h : ℚ} (hl : ¬ l.kind.isMetal) :
    HeightTo z (l :: post) h ↔ HeightTo z post h := by
  constructor
  · rintro (⟨mid', n', z', th', c', post', e, hm, rfl⟩ | ⟨hm, rfl⟩)
    · cases mid' with
      | nil =>
        simp only [List.nil_append, List.cons.injEq] at e
        rw [e.1] at hl
        exact absurd trivial hl
      | cons x mid' =>
        simp only [List.cons_append, List.cons.injEq] at e
        exact Or.inl ⟨mid', n', z', th', c', post', e.2, fun y hy => hm y (List.mem_cons_of_mem _ hy), rfl⟩
    · exact Or.inr ⟨fun y hy => hm y (List.mem_cons_of_mem _ hy), rfl⟩
  · rintro (⟨mid', n', z', th', c', post', rfl, hm, rfl⟩ | ⟨hm, rfl⟩)
    · refine Or.inl ⟨l :: mid', n', z', th', c', post', rfl, ?_, rfl⟩
      intro y hy
      rcases List.mem_cons.1 hy with rfl | hy
      · exact hl
      · exact hm y hy
    · refine Or.inr ⟨?_, rfl⟩
      intro y hy
      rcases List.mem_cons.1 hy with rfl | hy
      · exact hl
      · exact hm y hy

theorem heightTo_metal {z : ℚ} {n : String} {z' th : ℚ} {c : Option Contact} {post : List Layer} {h : ℚ} :
    HeightTo z (⟨n, .metal z' th c⟩ :: post) h ↔ h = z' - z := by
  constructor
  · rintro (⟨mid', n', z'', th', c', post', e, hm, rfl⟩ | ⟨hm, rfl⟩)
    · cases mid' with
      | nil =>
        simp only [List.nil_append, List.cons.injEq, Layer.mk.injEq, Kind.metal.injEq] at e
        rw [e.1.2.1]
      | cons x mid' =>
        simp only [List.cons_append, List.cons.injEq] at e
        have := hm x List.mem_cons_self
        rw [← e.1] at this
        exact absurd trivial this
    · exact absurd trivial (hm _ List.mem_cons_self)
  · rintro rfl
    exact Or.inl ⟨[], n, z', th, c, post, rfl, by simp, rfl⟩

theorem loop_cons (t : Tech) (n : String) (found diel : Option Layer) (l : Layer) (ls : List Layer) :
    simpleAboveLoop t n found diel (l :: ls) =
      if l.name = n then simpleAboveLoop t n (some l) diel ls
      else match found with
        | none => simpleAboveLoop t n none diel ls
        | some f =>
          match diel, l.kind with
          | none, .simple _ =>
            if t.included l.name = false then (none, 0) else simpleAboveLoop t n found (some l) ls
          | _, .metal z _ _ => (diel, z - f.kind.metalZ)
          | _, _ => simpleAboveLoop t n found diel ls := rfl

theorem loop_second {t : Tech} {n : String} {f d : Layer} {post : List Layer} (hp : ∀ l ∈ post, l.name ≠ n) :
    ∃ h, simpleAboveLoop t n (some f) (some d) post = (some d, h) ∧ ∀ h', HeightTo f.kind.metalZ post h' ↔ h' = h := by
  induction post with
  | nil => exact ⟨5, rfl, by intro h'; simp [HeightTo]⟩
  | cons l post ih =>
    obtain ⟨h, e, hh⟩ := ih (fun x hx => hp x (List.mem_cons_of_mem _ hx))
    have hne := hp l List.mem_cons_self
    by_cases hm : l.kind.isMetal
    · obtain ⟨nm, kd⟩ := l
      cases kd <;> simp only [Kind.isMetal] at hm
      rename_i z th c
      refine ⟨z - f.kind.metalZ, ?_, fun h' => heightTo_metal (n := nm) (th := th) (c := c)⟩
      rw [loop_cons]
      rw [if_neg hne]
    · refine ⟨h, ?_, fun h' => by rw [heightTo_cons hm]; exact hh h'⟩
      rw [loop_cons, if_neg hne]
      obtain ⟨nm, kd⟩ := l
      cases kd <;> first | exact e | exact absurd trivial hm

theorem loop_first {t : Tech} {n : String} {f : Layer} {rest : List Layer} (hp : ∀ l ∈ rest, l.name ≠ n) (d : Layer)
    (h : ℚ) : simpleAboveLoop t n (some f) none rest = (some d, h) ↔
      ∃ mid post, rest = mid ++ d :: post ∧ (∀ l ∈ mid, ¬ l.kind.isMetal ∧ ¬ l.kind.isSimple) ∧ d.kind.isSimple ∧
        t.included d.name = true ∧ HeightTo f.kind.metalZ post h := by
  induction rest with
  | nil => simp [simpleAboveLoop]
  | cons l rest ih =>
    have ih := ih (fun x hx => hp x (List.mem_cons_of_mem _ hx))
    have hne := hp l List.mem_cons_self
    by_cases hm : l.kind.isMetal
    · constructor
      · intro e
        rw [loop_cons, if_neg hne] at e
        obtain ⟨nm, kd⟩ := l
        cases kd <;> simp only [Kind.isMetal] at hm
        simp at e
      · rintro ⟨mid, post, e, h1, h2, _⟩
        cases mid with
        | nil =>
          simp only [List.nil_append, List.cons.injEq] at e
          obtain ⟨nm, kd⟩ := l
          cases kd <;> simp only [Kind.isMetal] at hm
          rw [← e.1] at h2
          exact absurd h2 (by simp [Kind.isSimple])
        | cons x mid =>
          simp only [List.cons_append, List.cons.injEq] at e
          have := h1 x List.mem_cons_self
          rw [← e.1] at this
          exact absurd hm this.1
    · by_cases hs : l.kind.isSimple
      · constructor
        · intro e
          rw [loop_cons, if_neg hne] at e
          obtain ⟨nm, kd⟩ := l
          cases kd <;> simp only [Kind.isSimple] at hs
          simp only at e
          by_cases hi : t.included nm = false
          · rw [if_pos hi] at e; simp at e
          · rw [if_neg hi] at e
            obtain ⟨h0, e0, hh⟩ := loop_second (t := t) (n := n) (f := f) (d := ⟨nm, .simple _⟩)
              (fun x hx => hp x (List.mem_cons_of_mem _ hx))
            rw [e0] at e
            simp only [Prod.mk.injEq, Option.some.injEq] at e
            obtain ⟨rfl, rfl⟩ := e
            exact ⟨[], rest, rfl, by simp, trivial, by simpa using hi, (hh _).2 rfl⟩
        · rintro ⟨mid, post, e, h1, h2, h3, h4⟩
          cases mid with
          | nil =>
            simp only [List.nil_append, List.cons.injEq] at e
            obtain ⟨rfl, rfl⟩ := e
            rw [loop_cons, if_neg hne]
            obtain ⟨nm, kd⟩ := l
            cases kd <;> simp only [Kind.isSimple] at hs
            simp only at h3 ⊢
            rw [if_neg (by simp [h3])]
            obtain ⟨h0, e0, hh⟩ := loop_second (t := t) (n := n) (f := f) (d := ⟨nm, .simple _⟩)
              (fun x hx => hp x (List.mem_cons_of_mem _ hx))
            rw [e0, (hh _).1 h4]
          | cons x mid =>
            simp only [List.cons_append, List.cons.injEq] at e
            have := h1 x List.mem_cons_self
            rw [← e.1] at this
            exact absurd hs this.2
      · have e1 : simpleAboveLoop t n (some f) none (l :: rest) = simpleAboveLoop t n (some f) none rest := by
          rw [loop_cons, if_neg hne]
          obtain ⟨nm, kd⟩ := l
          cases kd <;>
            first | rfl | exact absurd trivial hm | exact absurd trivial hs
        rw [e1, ih]
        constructor
        · rintro ⟨mid, post, rfl, h1, h2⟩
          refine ⟨l :: mid, post, rfl, ?_, h2⟩
          intro x hx
          rcases List.mem_cons.1 hx with rfl | hx
          · exact ⟨hm, hs⟩
          · exact h1 x hx
        · rintro ⟨mid, post, e, h1, h2⟩
          cases mid with
          | nil =>
            simp only [List.nil_append, List.cons.injEq] at e
            rw [← e.1] at h2
            exact absurd h2.1 hs
          | cons x mid =>
            simp only [List.cons_append, List.cons.injEq] at e
            exact ⟨mid, post, e.2, fun y hy => h1 y (List.mem_cons_of_mem _ hy), h2⟩

theorem loop_skip {t : Tech} {n : String} {pre rest : List Layer} (hp : ∀ l ∈ pre, l.name ≠ n) :
    simpleAboveLoop t n none none (pre ++ rest) = simpleAboveLoop t n none none rest := by
  induction pre with
  | nil => rfl
  | cons l pre ih =>
    rw [List.cons_append, loop_cons, if_neg (hp l List.mem_cons_self)]
    exact ih (fun x hx => hp x (List.mem_cons_of_mem _ hx))

theorem metal_split {t : Tech} (hn : WellNamed t) {pre post : List Layer} {m : String} {z th : ℚ} {c : Option Contact}
    (h : t.layers = pre ++ ⟨m, .metal z th c⟩ :: post) : (∀ x ∈ pre, x.name ≠ m) ∧ (∀ x ∈ post, x.name ≠ m) :=
  ⟨fun x hx => hn.metal _ _ _ _ _ _ h x (List.mem_append_left _ hx),
   fun x hx => hn.metal _ _ _ _ _ _ h x (List.mem_append_right _ hx)⟩

theorem simpleAbove_iff {t : Tech} (hn : WellNamed t) {m : Metal} (hm : m ∈ t.metals) (d : Layer)
    (h : ℚ) : t.simpleAbove m.name = (some d, h) ↔ SimpleAbove t m.name m.z d h := by
  obtain ⟨pre, post, e⟩ := List.append_of_mem (mem_metals.1 hm)
  obtain ⟨h1, h2⟩ := metal_split hn e
  rw [Tech.simpleAbove]
  have e1 : simpleAboveLoop t m.name none none t.layers = simpleAboveLoop t m.name
      (some ⟨m.name, .metal m.z m.thickness m.contactAbove⟩) none post := by
    conv_lhs => rw [e]
    rw [loop_skip h1, loop_cons, if_pos rfl]
  rw [e1, loop_first h2, SimpleAbove]
  constructor
  · rintro ⟨mid, post', rfl, h3, h4, h5, h6⟩
    exact ⟨pre, m.thickness, m.contactAbove, mid, post', by rw [e]; simp, h3, h4, h5, h6⟩
  · rintro ⟨pre', th, c, mid, post', e', h3, h4, h5, h6⟩
    have e'' : t.layers = pre' ++ ⟨m.name, .metal m.z th c⟩ :: (mid ++ d :: post') := by rw [e']; simp
    have hx : (⟨m.name, .metal m.z th c⟩ : Layer) = ⟨m.name, .metal m.z m.thickness m.contactAbove⟩ :=
      metal_inj hn (by rw [e'']; simp) (mem_metals.1 hm) rfl
    rw [hx] at e''
    have hpp : post = mid ++ d :: post' := by
      have hd := e.symm.trans e''
      have hi := congrArg (List.idxOf (⟨m.name, .metal m.z m.thickness m.contactAbove⟩ : Layer)) hd
      rw [List.idxOf_append_of_notMem, List.idxOf_append_of_notMem] at hi
      · have : pre.length = pre'.length := by simpa using hi
        have := List.append_inj hd this
        simpa using this.2
      · intro hmem
        exact (metal_split hn e'').1 _ hmem rfl
      · intro hmem
        exact h1 _ hmem rfl
    exact ⟨mid, post', hpp, h3, h4, h5, h6⟩

/-! ### All dielectrics -/

theorem allDielectrics_ok {t : Tech} {ly : Layout P} {fuel : Nat} {ms : List Metal} {cs : List (Call P)}
    (h : allDielectrics t ly fuel ms = some (.ok cs)) :
    (∀ m ∈ ms, ∃ cm, metalDielectrics t ly fuel m = some (.ok cm)) ∧
    ∀ c, c ∈ cs ↔ ∃ m ∈ ms, ∃ cm, metalDielectrics t ly fuel m = some (.ok cm) ∧ c ∈ cm := by
  induction ms generalizing cs with
  | nil =>
    simp only [allDielectrics, Option.some.injEq, Except.ok.injEq] at h
    subst h
    simp
  | cons m ms ih =>
    rw [allDielectrics] at h
    cases hm : metalDielectrics t ly fuel m with
    | none => rw [hm] at h; simp at h
    | some r =>
      cases r with
      | error e => rw [hm] at h; simp at h
      | ok cm =>
        rw [hm] at h
        cases hr : allDielectrics t ly fuel ms with
        | none => rw [hr] at h; simp at h
        | some r =>
          cases r with
          | error e => rw [hr] at h; simp at h
          | ok cs' =>
            rw [hr] at h
            simp only [Option.some.injEq, Except.ok.injEq] at h
            subst h
            obtain ⟨h1, h2⟩ := ih hr
            constructor
            · intro x hx
              rcases List.mem_cons.1 hx with rfl | hx
              · exact ⟨cm, hm⟩
              · exact h1 x hx
            · intro c
              rw [List.mem_append, h2]
              constructor
              · rintro (hc | ⟨x, hx, hc⟩)
                · exact ⟨m, List.mem_cons_self, cm, hm, hc⟩
                · exact ⟨x, List.mem_cons_of_mem _ hx, hc⟩
              · rintro ⟨x, hx, cx, hcx, hc⟩
                rcases List.mem_cons.1 hx with rfl | hx
                · rw [hm] at hcx
                  simp only [Option.some.injEq, Except.ok.injEq] at hcx
                  subst hcx
                  exact Or.inl hc
                · exact Or.inr ⟨x, hx, cx, hcx, hc⟩

/-- The dielectric calls of one metal layer. -/
theorem metalDielectrics_ok {t : Tech} {ly : Layout P} {fuel : Nat} {m : Metal} {cm : List (Call P)}
    (h : metalDielectrics t ly fuel m = some (.ok cm)) :
    (ly.ofLayer m.name = none ∧ ∀ c, c ∈ cm ↔ ∃ d h, t.simpleAbove m.name = (some d, h) ∧ c = .dielectric d.name ly.block m.z h) ∨
    ∃ r ls, ly.ofLayer m.name = some r ∧ Chain t m.name ls ∧ (∀ ls', Chain t m.name ls' → ls' <+: ls) ∧
      ((t.simpleAbove m.name).1 ≠ none → 0 ≤ rise m.thickness ls) ∧
      ∀ c, c ∈ cm ↔
        (∃ pre l post, ls = pre ++ l :: post ∧
          (c = .dielectric l.name (grown ly r (pre ++ [l])) m.z (rise m.thickness (pre ++ [l])) ∨
            ∃ f, l.kind.floor = some f ∧ c = .dielectric l.name (ly.block \ grown ly r (pre ++ [l])) m.z f)) ∨
        ∃ d h, t.simpleAbove m.name = (some d, h) ∧
          (c = .dielectric d.name (grown ly r ls) (m.z + rise m.thickness ls) (h - rise m.thickness ls) ∨
            c = .dielectric d.name (ly.block \ grown ly r ls) (m.z + floorOf ls) (h - floorOf ls)) := by
  rw [metalDielectrics] at h
  cases ho : ly.ofLayer m.name with
  | none =>
    rw [ho] at h
    left
    refine ⟨rfl, ?_⟩
    simp only [Option.some.injEq] at h
    rw [simpleCalls] at h
    rcases hs : t.simpleAbove m.name with ⟨_ | d, hh⟩
    · rw [hs] at h
      simp only [Except.ok.injEq] at h
      subst h
      simp
    · rw [hs] at h
      simp only [Except.ok.injEq] at h
      subst h
      intro c
      simp
  | some r =>
    rw [ho] at h
    right
    simp only at h
    cases hl : sideLoop t ly m fuel m.name { region := r } with
    | none => rw [hl] at h; simp at h
    | some x =>
      cases x with
      | error e => rw [hl] at h; simp at h
      | ok s =>
        rw [hl] at h
        simp only at h
        obtain ⟨ls, hc, hu, es⟩ := sideLoop_ok hl
        have sp := side_spec (ly := ly) (m := m) (r := r) hc
        rw [← es] at sp
        obtain ⟨h1, h2, h3, h4⟩ := sp
        refine ⟨r, ls, rfl, hc, hu, ?_⟩
        cases hq : simpleCalls t ly m (some s) with
        | error e => rw [hq] at h; simp at h
        | ok c0 =>
          rw [hq] at h
          simp only [Option.some.injEq, Except.ok.injEq] at h
          subst h
          rw [simpleCalls] at hq
          rcases hs : t.simpleAbove m.name with ⟨_ | d, hh⟩
          · rw [hs] at hq
            simp only [Except.ok.injEq] at hq
            subst hq
            refine ⟨by simp, ?_⟩
            intro c
            rw [List.append_nil, h4]
            simp
          · rw [hs] at hq
            simp only at hq
            by_cases hneg : s.height < 0
            · rw [if_pos hneg] at hq; simp at hq
            · rw [if_neg hneg] at hq
              refine ⟨fun _ => by rw [← h2]; exact not_lt.1 hneg, ?_⟩
              intro c
              rw [List.mem_append, h4]
              apply or_congr Iff.rfl
              rcases h3 with ⟨e, e0⟩ | ⟨q, e⟩
              · rw [e] at hq
                simp only [Except.ok.injEq] at hq
                subst hq
                simp [h1, h2, e0]
              · rw [e] at hq
                simp only [Except.ok.injEq] at hq
                subst hq
                simp [h1, h2]

theorem firstCalls_ok {t : Tech} {ly : Layout P} {cs : List (Call P)} (h : firstCalls t ly = .ok cs) :
    ∃ fox sub gate, t.fieldOxide = .ok fox ∧ t.substrate = .ok sub ∧ t.metals.head? = some gate ∧
      cs = [.material fox.1 fox.2] ++ t.dielectricByName.map (fun d => .material d.1 d.2)
        ++ ly.nets.flatMap (netCalls t ly)
        ++ [.conductor "VSUBS" (substrateRegion t ly) (0 - sub.1 - sub.2) sub.2]
        ++ [.dielectric fox.1 ly.block 0 (gate.z - 0)] := by
  rw [firstCalls] at h
  cases hf : t.fieldOxide with
  | error e => rw [hf] at h; simp [bind, Except.bind] at h
  | ok fox =>
    cases hs : t.substrate with
    | error e => rw [hf, hs] at h; simp [bind, Except.bind] at h
    | ok sub =>
      rw [hf, hs] at h
      simp only [bind, Except.bind] at h
      cases hm : t.metals with
      | nil => rw [hm] at h; simp at h
      | cons gate ms =>
        rw [hm] at h
        simp only [pure, Except.pure, Except.ok.injEq] at h
        exact ⟨fox, sub, gate, rfl, rfl, rfl, h.symm⟩

theorem buildCalls_ok {t : Tech} {ly : Layout P} {fuel : Nat} {calls : List (Call P)}
    (h : buildCalls t ly fuel = some (.ok calls)) :
    ∃ c cs, firstCalls t ly = .ok c ∧ allDielectrics t ly fuel t.metals = some (.ok cs) ∧ calls = c ++ cs := by
  rw [buildCalls] at h
  cases hf : firstCalls t ly with
  | error e => rw [hf] at h; simp at h
  | ok c =>
    rw [hf] at h
    simp only at h
    cases ha : allDielectrics t ly fuel t.metals with
    | none => rw [ha] at h; simp at h
    | some r =>
      cases r with
      | error e => rw [ha] at h; simp at h
      | ok cs =>
        rw [ha] at h
        simp only [Option.some.injEq, Except.ok.injEq] at h
        exact ⟨c, cs, rfl, rfl, h.symm⟩

end Verif.Stack3d
