import Verif.Engine25.Model
import Verif.TechInfo.Props
import Verif.Common.Firsts
import Verif.Common.Exc
import Mathlib.Data.List.Induction

/-!
# The layers of the cell (C65)
-/

namespace Verif.Engine25

open TechInfo (Tech GDSPair StackLayer StackKind substrateName IsLast)
open Overlap (Cell Poly)

/-! ### Specification -/

/-- The technology assigns the GDS pair `g` to a layer name: the last computed layer of that name, or else the last
original one. -/
def PairIs (t : Tech) (name : String) (g : GDSPair) : Prop :=
  (∃ c, IsLast (fun c => c.info.name = name) t.computed c ∧ c.info.drw = g) ∨
  ((∀ c ∈ t.computed, c.info.name ≠ name) ∧ ∃ l, IsLast (fun l => l.name = name) t.layers l ∧ l.drw = g)

/-- `n` is the name under which the shapes of the stack layer `name` are extracted: the original layer of the last
computed layer with its GDS pair. -/
def CanonicalIs (t : Tech) (name n : String) : Prop :=
  ∃ g, PairIs t name g ∧ ∃ c, IsLast (fun c => c.info.drw = g) t.computed c ∧ c.original = n

/-- The stack layer is a metal. -/
def IsMetal (l : StackLayer) : Prop := ∃ c, l.kind = .metal c

/-- The metal layer `l` of the stack has extracted layouts `rs`, and they belong to the layer name `n`. -/
def Gives (t : Tech) (x : Context) (l : StackLayer) (n : String) (rs : List (List Poly)) : Prop :=
  IsMetal l ∧ CanonicalIs t l.name n ∧ ∃ g, PairIs t l.name g ∧ x.extracted.get? g = some rs

/-- The shapes extracted for a layer name, if any, come from at least one source layer. -/
def Sourced (t : Tech) (x : Context) (name : String) : Prop := ∀ g, PairIs t name g → x.extracted.get? g ≠ some []

/-- The area between opposite corners. -/
def Area (b : Box) (a : ℤ) : Prop := a = (b.x2 - b.x1) * (b.y2 - b.y1)

/-- The bounding box of the layout with the larger area, widened by the halo on all sides. -/
def InSubstrate (x : Context) (halo : ℤ) (c : Cell) : Prop := ∀ a i, Area x.annotated a → Area x.internal i →
  (a > i → x.annotated.x1 - halo ≤ c.1 ∧ c.1 < x.annotated.x2 + halo ∧
    x.annotated.y1 - halo ≤ c.2 ∧ c.2 < x.annotated.y2 + halo) ∧
  (a ≤ i → x.internal.x1 - halo ≤ c.1 ∧ c.1 < x.internal.x2 + halo ∧
    x.internal.y1 - halo ≤ c.2 ∧ c.2 < x.internal.y2 + halo)

/-- The layers as they should be handed to the extractors: the substrate first, then every layer name that some metal
of the stack gives, once, in the order of the stack from bottom to top. -/
structure IsStack (t : Tech) (x : Context) (names : List String) : Prop where
  nodup : names.Nodup
  head : names.head? = some "VSUBS"
  mem : ∀ n, n ∈ names ↔ n = "VSUBS" ∨ ∃ l ∈ t.stack, ∃ rs, Gives t x l n rs
  order : ∀ (i j : Nat) (a b : String), i < j → names[i]? = some a → names[j]? = some b → a = "VSUBS" ∨
    ∃ s₁ l s₂, t.stack = s₁ ++ l :: s₂ ∧ (∃ rs, Gives t x l a rs) ∧ ∀ l' ∈ s₁, ∀ rs, ¬ Gives t x l' b rs

/-- A polygon of a layer: the substrate, or a shape of a source layer of a metal that gives the layer. -/
def PolyOf (t : Tech) (x : Context) (halo : ℤ) (n : String) (p : Poly) : Prop :=
  (n = "VSUBS" ∧ p.net = "" ∧ ∀ c, c ∈ p.cells ↔ InSubstrate x halo c) ∨
  ∃ l ∈ t.stack, ∃ rs, Gives t x l n rs ∧ ∃ r ∈ rs, p ∈ r

/-! ### Proofs -/

theorem pairIs_iff (t : Tech) (n : String) (g : GDSPair) : TechInfo.gdsPair t n = some g ↔ PairIs t n g :=
  (TechInfo.gds_pair_precedence t n).1 g

theorem canonical_iff (t : Tech) (name n : String) :
    ((TechInfo.gdsPair t name).bind fun g => (TechInfo.canonicalByPair t).get? g) = some n ↔ CanonicalIs t name n := by
  rw [Option.bind_eq_some_iff]
  constructor
  · rintro ⟨g, h1, h2⟩
    exact ⟨g, (pairIs_iff _ _ _).1 h1, ((TechInfo.single_lookups t).2.2.1 g n).1 h2⟩
  · rintro ⟨g, h1, h2⟩
    exact ⟨g, (pairIs_iff _ _ _).2 h1, ((TechInfo.single_lookups t).2.2.1 g n).2 h2⟩

theorem PairIs.unique {t : Tech} {n : String} {g g' : GDSPair} (h : PairIs t n g) (h' : PairIs t n g') : g = g' := by
  have h1 := (pairIs_iff _ _ _).2 h
  rw [(pairIs_iff _ _ _).2 h'] at h1
  exact (Option.some.inj h1).symm

theorem CanonicalIs.unique {t : Tech} {n a b : String} (h : CanonicalIs t n a) (h' : CanonicalIs t n b) : a = b := by
  have h1 := (canonical_iff _ _ _).2 h
  rw [(canonical_iff _ _ _).2 h'] at h1
  exact (Option.some.inj h1).symm

theorem Gives.unique {t : Tech} {x : Context} {l : StackLayer} {n m : String} {rs ss : List (List Poly)}
    (h : Gives t x l n rs) (h' : Gives t x l m ss) : n = m ∧ rs = ss := by
  obtain ⟨_, h1, g, h2, h3⟩ := h
  obtain ⟨_, k1, g', k2, k3⟩ := h'
  obtain rfl := PairIs.unique h2 k2
  rw [h3] at k3
  exact ⟨CanonicalIs.unique h1 k1, Option.some.inj k3⟩

theorem shapesOfLayer_ok (t : Tech) (x : Context) (name : String) (o : Option (List Poly)) :
    shapesOfLayer t x name = .ok o ↔ Sourced t x name ∧
      ((o = none ∧ ∀ g, PairIs t name g → x.extracted.get? g = none) ∨
        ∃ g rs, PairIs t name g ∧ x.extracted.get? g = some rs ∧ o = some rs.flatten) := by
  unfold shapesOfLayer Sourced
  cases hg : TechInfo.gdsPair t name with
  | none =>
    have hn : ∀ g, ¬ PairIs t name g := fun g h => by
      have := (pairIs_iff _ _ _).2 h
      rw [hg] at this; cases this
    simp only [Except.ok.injEq]
    constructor
    · rintro rfl
      exact ⟨fun g h => absurd h (hn g), Or.inl ⟨rfl, fun g h => absurd h (hn g)⟩⟩
    · rintro ⟨_, ⟨rfl, _⟩ | ⟨g, _, h, _⟩⟩
      · rfl
      · exact absurd h (hn g)
  | some g =>
    have hp : PairIs t name g := (pairIs_iff _ _ _).1 hg
    have hu : ∀ g', PairIs t name g' → g' = g := fun g' h => PairIs.unique h hp
    unfold shapesOfPair
    cases he : x.extracted.get? g with
    | none =>
      simp only [he, Except.ok.injEq]
      constructor
      · rintro rfl
        refine ⟨fun g' h => ?_, Or.inl ⟨rfl, fun g' h => ?_⟩⟩
        · rw [hu g' h, he]; exact fun h => by cases h
        · rw [hu g' h, he]
      · rintro ⟨_, ⟨rfl, _⟩ | ⟨g', rs, h, h', _⟩⟩
        · rfl
        · rw [hu g' h, he] at h'; cases h'
    | some rs =>
      cases rs with
      | nil =>
        simp only [he]
        constructor
        · intro h; cases h
        · rintro ⟨h, _⟩; exact absurd he (h g hp)
      | cons r rs =>
        simp only [he, Except.ok.injEq]
        constructor
        · rintro rfl
          refine ⟨fun g' h => ?_, Or.inr ⟨g, r :: rs, hp, he, rfl⟩⟩
          rw [hu g' h, he]; exact fun h => by cases h
        · rintro ⟨_, ⟨rfl, h⟩ | ⟨g', rs', h, h', rfl⟩⟩
          · have := h g hp; rw [he] at this; cases this
          · rw [hu g' h, he] at h'
            rw [Option.some.inj h']

open Classical in
/-- What a metal contributes. -/
noncomputable def contrib (t : Tech) (x : Context) (l : StackLayer) : Option (String × List Poly) :=
  if h : ∃ e : String × List (List Poly), Gives t x l e.1 e.2 then some (h.choose.1, h.choose.2.flatten) else none

theorem contrib_some {t : Tech} {x : Context} {l : StackLayer} {n : String} {rs : List (List Poly)}
    (h : Gives t x l n rs) : contrib t x l = some (n, rs.flatten) := by
  have hh : ∃ e : String × List (List Poly), Gives t x l e.1 e.2 := ⟨(n, rs), h⟩
  unfold contrib
  rw [dif_pos hh]
  obtain ⟨h1, h2⟩ := Gives.unique hh.choose_spec h
  rw [h1, h2]

theorem contrib_none {t : Tech} {x : Context} {l : StackLayer} (h : ∀ n rs, ¬ Gives t x l n rs) :
    contrib t x l = none := by
  unfold contrib
  rw [dif_neg (fun ⟨e, he⟩ => h e.1 e.2 he)]

theorem contrib_eq_some {t : Tech} {x : Context} {l : StackLayer} {e : String × List Poly} :
    contrib t x l = some e ↔ ∃ rs, Gives t x l e.1 rs ∧ e.2 = rs.flatten := by
  constructor
  · intro h
    by_cases hh : ∃ e : String × List (List Poly), Gives t x l e.1 e.2
    · obtain ⟨⟨n, rs⟩, hg⟩ := hh
      rw [contrib_some hg] at h
      obtain rfl := Option.some.inj h
      exact ⟨rs, hg, rfl⟩
    · rw [contrib_none (fun n rs hg => hh ⟨(n, rs), hg⟩)] at h; cases h
  · rintro ⟨rs, h1, h2⟩
    rw [contrib_some h1, ← h2]

/-- A metal that can be handled: it has a canonical name, its shapes and those of its contact have a source. -/
def Usable (t : Tech) (x : Context) (l : StackLayer) : Prop :=
  (∃ n, CanonicalIs t l.name n) ∧ Sourced t x l.name ∧ ∀ c, l.kind = .metal (some c) → Sourced t x c.name

theorem addMetal_ok (t : Tech) (x : Context) (d d' : Dict String (List Poly)) (l : StackLayer) (hm : IsMetal l) :
    addMetal t x d l = .ok d' ↔
      Usable t x l ∧ d' = (contrib t x l).elim d (fun e => d.upd e.1 [] (· ++ e.2)) := by
  unfold addMetal
  rw [Exc.bind_ok]
  have hshape : ∀ n, CanonicalIs t l.name n → ∀ o, shapesOfLayer t x l.name = .ok o →
      o.elim d (fun ps => d.upd n [] (· ++ ps)) = (contrib t x l).elim d (fun e => d.upd e.1 [] (· ++ e.2)) := by
    intro n hn o ho
    obtain ⟨_, ⟨rfl, hno⟩ | ⟨g, rs, h1, h2, rfl⟩⟩ := (shapesOfLayer_ok _ _ _ _).1 ho
    · rw [contrib_none]
      · rfl
      · rintro m rs ⟨_, _, g, h1, h2⟩
        rw [hno g h1] at h2; cases h2
    · rw [contrib_some ⟨hm, hn, g, h1, h2⟩]; rfl
  have hsome : ∀ name, Sourced t x name → ∃ o, shapesOfLayer t x name = .ok o := by
    intro name hs
    by_cases h : ∃ g rs, PairIs t name g ∧ x.extracted.get? g = some rs
    · obtain ⟨g, rs, h1, h2⟩ := h
      exact ⟨_, (shapesOfLayer_ok _ _ _ _).2 ⟨hs, Or.inr ⟨g, rs, h1, h2, rfl⟩⟩⟩
    · refine ⟨none, (shapesOfLayer_ok _ _ _ _).2 ⟨hs, Or.inl ⟨rfl, fun g hg => ?_⟩⟩⟩
      cases he : x.extracted.get? g with
      | none => rfl
      | some rs => exact absurd ⟨g, rs, hg, he⟩ h
  obtain ⟨c, hc⟩ := hm
  constructor
  · rintro ⟨n, h1, h2⟩
    rw [Exc.elim_ok, canonical_iff] at h1
    rw [Exc.bind_ok] at h2
    obtain ⟨o, h3, h4⟩ := h2
    have hs := ((shapesOfLayer_ok _ _ _ _).1 h3).1
    have he := hshape n h1 o h3
    rw [hc] at h4
    cases c with
    | none =>
      simp only [Exc.pure_ok] at h4
      exact ⟨⟨⟨n, h1⟩, hs, fun c h => by rw [hc] at h; cases h⟩, by rw [← h4, ← he]⟩
    | some c =>
      simp only [Exc.bind_ok, Exc.pure_ok] at h4
      obtain ⟨o', h5, h6⟩ := h4
      refine ⟨⟨⟨n, h1⟩, hs, fun c' h => ?_⟩, by rw [← h6, ← he]⟩
      rw [hc] at h
      cases h
      exact ((shapesOfLayer_ok _ _ _ _).1 h5).1
  · rintro ⟨⟨⟨n, h1⟩, h2, h3⟩, rfl⟩
    refine ⟨n, (Exc.elim_ok _ _ _).2 ((canonical_iff _ _ _).2 h1), ?_⟩
    obtain ⟨o, ho⟩ := hsome _ h2
    rw [Exc.bind_ok]
    refine ⟨o, ho, ?_⟩
    rw [← hshape n h1 o ho, hc]
    cases c with
    | none => rfl
    | some c =>
      obtain ⟨o', ho'⟩ := hsome _ (h3 c hc)
      simp only [Exc.bind_ok, Exc.pure_ok]
      exact ⟨o', ho', trivial⟩

theorem mem_metals (t : Tech) (l : StackLayer) : l ∈ metals t ↔ l ∈ t.stack ∧ IsMetal l := by
  unfold metals IsMetal
  rw [List.mem_filter]
  cases l.kind <;> simp

/-- The dictionary without the exceptions. -/
noncomputable def fill (t : Tech) (x : Context) (d : Dict String (List Poly)) (ls : List StackLayer) : Dict String (List Poly) :=
  ls.foldl (fun d l => (contrib t x l).elim d (fun e => d.upd e.1 [] (· ++ e.2))) d

theorem foldlM_addMetal (t : Tech) (x : Context) (ls : List StackLayer) (hm : ∀ l ∈ ls, IsMetal l)
    (d d' : Dict String (List Poly)) :
    ls.foldlM (addMetal t x) d = .ok d' ↔ (∀ l ∈ ls, Usable t x l) ∧ d' = fill t x d ls := by
  induction ls generalizing d with
  | nil =>
    rw [List.foldlM_nil, Exc.pure_ok]
    simp [fill, eq_comm]
  | cons l ls ih =>
    rw [List.foldlM_cons, Exc.bind_ok]
    constructor
    · rintro ⟨a, h1, h2⟩
      obtain ⟨h3, rfl⟩ := (addMetal_ok _ _ _ _ _ (hm l (by simp))).1 h1
      obtain ⟨h4, rfl⟩ := (ih (fun l hl => hm l (by simp [hl])) _).1 h2
      refine ⟨?_, rfl⟩
      intro l' hl'
      rcases List.mem_cons.1 hl' with rfl | hl'
      · exact h3
      · exact h4 _ hl'
    · rintro ⟨h1, rfl⟩
      exact ⟨_, (addMetal_ok _ _ _ _ _ (hm l (by simp))).2 ⟨h1 l (by simp), rfl⟩,
        (ih (fun l hl => hm l (by simp [hl])) _).2 ⟨fun l hl => h1 l (by simp [hl]), rfl⟩⟩

/-- The substrate polygon. -/
noncomputable def substratePoly (x : Context) (halo : ℤ) : Poly := ⟨"", ((topBox x).enlarged halo).cells⟩

theorem inSubstrate_iff (x : Context) (halo : ℤ) (c : Cell) : InSubstrate x halo c ↔
    (x.annotated.area > x.internal.area → x.annotated.x1 - halo ≤ c.1 ∧ c.1 < x.annotated.x2 + halo ∧
      x.annotated.y1 - halo ≤ c.2 ∧ c.2 < x.annotated.y2 + halo) ∧
    (x.annotated.area ≤ x.internal.area → x.internal.x1 - halo ≤ c.1 ∧ c.1 < x.internal.x2 + halo ∧
      x.internal.y1 - halo ≤ c.2 ∧ c.2 < x.internal.y2 + halo) :=
  ⟨fun h => h _ _ rfl rfl, by rintro h _ _ rfl rfl; exact h⟩

theorem mem_substratePoly (x : Context) (halo : ℤ) (c : Cell) :
    c ∈ (substratePoly x halo).cells ↔ InSubstrate x halo c := by
  rw [inSubstrate_iff]
  unfold substratePoly topBox Box.cells Box.enlarged
  by_cases h : x.annotated.area > x.internal.area
  · simp only [Finset.mem_product, Finset.mem_Ico, h, true_implies]
    constructor
    · rintro ⟨⟨h1, h2⟩, h3, h4⟩
      exact ⟨⟨h1, h2, h3, h4⟩, fun h' => absurd h (not_lt.2 h')⟩
    · rintro ⟨⟨h1, h2, h3, h4⟩, _⟩; exact ⟨⟨h1, h2⟩, h3, h4⟩
  · simp only [Finset.mem_product, Finset.mem_Ico, h, false_implies, true_and]
    constructor
    · rintro ⟨⟨h1, h2⟩, h3, h4⟩ _
      exact ⟨h1, h2, h3, h4⟩
    · intro h'
      obtain ⟨h1, h2, h3, h4⟩ := h' (not_lt.1 h)
      exact ⟨⟨h1, h2⟩, h3, h4⟩

/-- Invariant of the filling. -/
theorem fill_inv (t : Tech) (x : Context) (halo : ℤ) (ls : List StackLayer) :
    (fill t x [("VSUBS", [substratePoly x halo])] ls).keys.Nodup ∧
    (fill t x [("VSUBS", [substratePoly x halo])] ls).keys.head? = some "VSUBS" ∧
    (∀ n, n ∈ (fill t x [("VSUBS", [substratePoly x halo])] ls).keys ↔
      n = "VSUBS" ∨ ∃ l ∈ ls, ∃ rs, Gives t x l n rs) ∧
    (∀ (i j : Nat) (a b : String), i < j → (fill t x [("VSUBS", [substratePoly x halo])] ls).keys[i]? = some a →
      (fill t x [("VSUBS", [substratePoly x halo])] ls).keys[j]? = some b → a = "VSUBS" ∨
      ∃ s₁ l s₂, ls = s₁ ++ l :: s₂ ∧ (∃ rs, Gives t x l a rs) ∧ ∀ l' ∈ s₁, ∀ rs, ¬ Gives t x l' b rs) ∧
    (∀ n p, p ∈ (fill t x [("VSUBS", [substratePoly x halo])] ls).getD n [] ↔
      (n = "VSUBS" ∧ p = substratePoly x halo) ∨ ∃ l ∈ ls, ∃ rs, Gives t x l n rs ∧ ∃ r ∈ rs, p ∈ r) := by
  induction ls using List.reverseRecOn with
  | nil =>
    refine ⟨by simp [fill], by simp [fill], by simp [fill], ?_, ?_⟩
    · intro i j a b hij h1 h2
      exfalso
      have := List.getElem?_eq_some_iff.1 h2
      obtain ⟨h, _⟩ := this
      simp [fill] at h
      omega
    · intro n p
      simp only [fill, List.foldl_nil, Dict.getD, Dict.get?_cons, Dict.get?_nil]
      by_cases hn : n = "VSUBS"
      · subst hn; simp
      · rw [if_neg (fun h => hn h.symm)]; simp [hn]
  | append_singleton ls l ih =>
    have hf : fill t x [("VSUBS", [substratePoly x halo])] (ls ++ [l]) =
        (contrib t x l).elim (fill t x [("VSUBS", [substratePoly x halo])] ls)
          (fun e => (fill t x [("VSUBS", [substratePoly x halo])] ls).upd e.1 [] (· ++ e.2)) := by
      unfold fill; rw [List.foldl_append]; rfl
    rw [hf]
    generalize fill t x [("VSUBS", [substratePoly x halo])] ls = d at *
    obtain ⟨h1, h2, h3, h4, h5⟩ := ih
    have lift : ∀ a b, (∃ s₁ l s₂, ls = s₁ ++ l :: s₂ ∧ (∃ rs, Gives t x l a rs) ∧ ∀ l' ∈ s₁, ∀ rs, ¬ Gives t x l' b rs) →
        ∃ s₁ l' s₂, ls ++ [l] = s₁ ++ l' :: s₂ ∧ (∃ rs, Gives t x l' a rs) ∧ ∀ l' ∈ s₁, ∀ rs, ¬ Gives t x l' b rs := by
      rintro a b ⟨s₁, l', s₂, rfl, h⟩
      exact ⟨s₁, l', s₂ ++ [l], by simp, h⟩
    cases hc : contrib t x l with
    | none =>
      have hno : ∀ n rs, ¬ Gives t x l n rs := fun n rs hg => by rw [contrib_some hg] at hc; cases hc
      simp only [Option.elim]
      refine ⟨h1, h2, ?_, ?_, ?_⟩
      · intro n
        rw [h3]
        constructor
        · rintro (h | ⟨l', hl', h⟩)
          · exact Or.inl h
          · exact Or.inr ⟨l', by simp [hl'], h⟩
        · rintro (h | ⟨l', hl', rs, h⟩)
          · exact Or.inl h
          · rcases List.mem_append.1 hl' with hl' | hl'
            · exact Or.inr ⟨l', hl', rs, h⟩
            · rw [List.mem_singleton] at hl'; subst hl'; exact absurd h (hno _ _)
      · intro i j a b hij ha hb
        rcases h4 i j a b hij ha hb with h | h
        · exact Or.inl h
        · exact Or.inr (lift a b h)
      · intro n p
        rw [h5]
        constructor
        · rintro (h | ⟨l', hl', h⟩)
          · exact Or.inl h
          · exact Or.inr ⟨l', by simp [hl'], h⟩
        · rintro (h | ⟨l', hl', rs, h⟩)
          · exact Or.inl h
          · rcases List.mem_append.1 hl' with hl' | hl'
            · exact Or.inr ⟨l', hl', rs, h⟩
            · rw [List.mem_singleton] at hl'; subst hl'; exact absurd h.1 (hno _ _)
    | some e =>
      obtain ⟨rs, hg, he⟩ := contrib_eq_some.1 hc
      simp only [Option.elim]
      have hkeys : (d.upd e.1 [] (· ++ e.2)).keys = if e.1 ∈ d.keys then d.keys else d.keys ++ [e.1] := by
        rw [Dict.upd, Dict.keys_set]
      refine ⟨Dict.nodup_keys_upd _ _ _ _ h1, ?_, ?_, ?_, ?_⟩
      · rw [hkeys]
        split
        · exact h2
        · cases hk : d.keys with
          | nil => rw [hk] at h2; cases h2
          | cons a k => rw [hk] at h2; simpa using h2
      · intro n
        rw [Dict.mem_keys_upd, h3]
        constructor
        · rintro (h | h | ⟨l', hl', h⟩)
          · subst h; exact Or.inr ⟨l, by simp, rs, hg⟩
          · exact Or.inl h
          · exact Or.inr ⟨l', by simp [hl'], h⟩
        · rintro (h | ⟨l', hl', ss, h⟩)
          · exact Or.inr (Or.inl h)
          · rcases List.mem_append.1 hl' with hl' | hl'
            · exact Or.inr (Or.inr ⟨l', hl', ss, h⟩)
            · rw [List.mem_singleton] at hl'; subst hl'
              exact Or.inl (Gives.unique h hg).1
      · intro i j a b hij ha hb
        by_cases hin : e.1 ∈ d.keys
        · rw [hkeys, if_pos hin] at ha hb
          rcases h4 i j a b hij ha hb with h | h
          · exact Or.inl h
          · exact Or.inr (lift a b h)
        · rw [hkeys, if_neg hin] at ha hb
          have hj := (List.getElem?_eq_some_iff.1 hb).1
          rw [List.length_append, List.length_singleton] at hj
          rw [List.getElem?_append_left (by omega)] at ha
          by_cases hjl : j < d.keys.length
          · rw [List.getElem?_append_left hjl] at hb
            rcases h4 i j a b hij ha hb with h | h
            · exact Or.inl h
            · exact Or.inr (lift a b h)
          · have hje : j = d.keys.length := by omega
            subst hje
            rw [List.getElem?_append_right (le_refl _), Nat.sub_self] at hb
            obtain rfl : e.1 = b := by simpa using hb
            have ham := List.mem_of_getElem? ha
            rcases (h3 a).1 ham with h | ⟨l', hl', ss, h⟩
            · exact Or.inl h
            · refine Or.inr ?_
              obtain ⟨s₁, s₂, rfl⟩ := List.append_of_mem hl'
              refine ⟨s₁, l', s₂ ++ [l], by simp, ⟨ss, h⟩, ?_⟩
              intro l'' hl'' rs' hg'
              exact hin ((h3 _).2 (Or.inr ⟨l'', by simp [hl''], rs', hg'⟩))
      · intro n p
        rw [Dict.getD_upd]
        by_cases hn : e.1 = n
        · subst hn
          rw [if_pos rfl, List.mem_append, h5, he]
          constructor
          · rintro ((h | ⟨l', hl', h⟩) | h)
            · exact Or.inl h
            · exact Or.inr ⟨l', by simp [hl'], h⟩
            · obtain ⟨r, hr, hp⟩ := List.mem_flatten.1 h
              exact Or.inr ⟨l, by simp, rs, hg, r, hr, hp⟩
          · rintro (h | ⟨l', hl', ss, h, h'⟩)
            · exact Or.inl (Or.inl h)
            · rcases List.mem_append.1 hl' with hl' | hl'
              · exact Or.inl (Or.inr ⟨l', hl', ss, h, h'⟩)
              · rw [List.mem_singleton] at hl'; subst hl'
                obtain ⟨_, rfl⟩ := Gives.unique h hg
                obtain ⟨r, hr, hp⟩ := h'
                exact Or.inr (List.mem_flatten.2 ⟨r, hr, hp⟩)
        · rw [if_neg hn, h5]
          constructor
          · rintro (h | ⟨l', hl', h⟩)
            · exact Or.inl h
            · exact Or.inr ⟨l', by simp [hl'], h⟩
          · rintro (h | ⟨l', hl', ss, h⟩)
            · exact Or.inl h
            · rcases List.mem_append.1 hl' with hl' | hl'
              · exact Or.inr ⟨l', hl', ss, h⟩
              · rw [List.mem_singleton] at hl'; subst hl'
                exact absurd (Gives.unique hg h.1).1 hn

/-- The stack order can be read off the metals alone. -/
theorem order_metals {t : Tech} {x : Context} {a b : String}
    (h : ∃ s₁ l s₂, metals t = s₁ ++ l :: s₂ ∧ (∃ rs, Gives t x l a rs) ∧ ∀ l' ∈ s₁, ∀ rs, ¬ Gives t x l' b rs) :
    ∃ s₁ l s₂, t.stack = s₁ ++ l :: s₂ ∧ (∃ rs, Gives t x l a rs) ∧ ∀ l' ∈ s₁, ∀ rs, ¬ Gives t x l' b rs := by
  obtain ⟨s₁, l, s₂, h1, h2, h3⟩ := h
  unfold metals at h1
  obtain ⟨u, v, hu, hu1, hu2⟩ := List.filter_eq_append_iff.1 h1
  obtain ⟨v₁, v₂, hv, hv1, hv2, hv3⟩ := List.filter_eq_cons_iff.1 hu2
  refine ⟨u ++ v₁, l, v₂, by rw [hu, hv]; simp, h2, ?_⟩
  intro l' hl' rs hg
  have hmet : (match l'.kind with | .metal _ => true | _ => false) = true := by
    obtain ⟨c, hc⟩ := hg.1
    rw [hc]
  rcases List.mem_append.1 hl' with hl' | hl'
  · exact h3 l' (by rw [← hu1]; exact List.mem_filter.2 ⟨hl', hmet⟩) rs hg
  · exact hv1 l' hl' hmet

/-- **C65, failure.** The layers can be determined exactly if every metal of the stack has a name for its shapes and no
extracted layer (of a metal or of the contact above it) lacks a source. -/
theorem layers_ok_iff (t : Tech) (x : Context) (halo : ℤ) :
    (∃ d, layerRegions t x halo = .ok d) ↔
      ∀ l ∈ t.stack, IsMetal l → (∃ n, CanonicalIs t l.name n) ∧ Sourced t x l.name ∧
        ∀ c, l.kind = .metal (some c) → Sourced t x c.name := by
  unfold layerRegions
  constructor
  · rintro ⟨d, h⟩ l hl hm
    exact ((foldlM_addMetal t x _ (fun l hl => ((mem_metals t l).1 hl).2) _ _).1 h).1 l ((mem_metals t l).2 ⟨hl, hm⟩)
  · intro h
    exact ⟨_, (foldlM_addMetal t x _ (fun l hl => ((mem_metals t l).1 hl).2) _ _).2
      ⟨fun l hl => h l ((mem_metals t l).1 hl).1 ((mem_metals t l).1 hl).2, rfl⟩⟩

/-- **C65.** The layers handed to the extractors are the substrate and every layer that a metal of the stack gives, in the
order of the stack, each with exactly its shapes. -/
theorem layers_exact (t : Tech) (x : Context) (halo : ℤ) (d : Dict String (List Poly))
    (h : layerRegions t x halo = .ok d) :
    IsStack t x d.keys ∧ ∀ n ps, d.get? n = some ps → ∀ p, p ∈ ps ↔ PolyOf t x halo n p := by
  have hd := ((foldlM_addMetal t x _ (fun l hl => ((mem_metals t l).1 hl).2) _ _).1 h).2
  have h0 : (Dict.set [] substrateName [⟨"", ((topBox x).enlarged halo).cells⟩] : Dict String (List Poly)) =
      [("VSUBS", [substratePoly x halo])] := rfl
  rw [h0] at hd
  obtain ⟨h1, h2, h3, h4, h5⟩ := fill_inv t x halo (metals t)
  rw [← hd] at h1 h2 h3 h4 h5
  have hgive : ∀ n, (∃ l ∈ metals t, ∃ rs, Gives t x l n rs) ↔ ∃ l ∈ t.stack, ∃ rs, Gives t x l n rs := by
    intro n
    constructor
    · rintro ⟨l, hl, h⟩; exact ⟨l, ((mem_metals _ _).1 hl).1, h⟩
    · rintro ⟨l, hl, rs, h⟩; exact ⟨l, (mem_metals _ _).2 ⟨hl, h.1⟩, rs, h⟩
  refine ⟨⟨h1, h2, fun n => by rw [h3, hgive], ?_⟩, ?_⟩
  · intro i j a b hij ha hb
    rcases h4 i j a b hij ha hb with h | h
    · exact Or.inl h
    · exact Or.inr (order_metals h)
  · intro n ps hn p
    have := h5 n p
    rw [Dict.getD, hn, Option.getD_some] at this
    rw [this]
    unfold PolyOf
    constructor
    · rintro (⟨rfl, rfl⟩ | ⟨l, hl, h⟩)
      · exact Or.inl ⟨rfl, rfl, fun c => mem_substratePoly x halo c⟩
      · exact Or.inr ⟨l, ((mem_metals _ _).1 hl).1, h⟩
    · rintro (⟨rfl, h1, h2⟩ | ⟨l, hl, rs, h⟩)
      · refine Or.inl ⟨rfl, ?_⟩
        obtain ⟨net, cells⟩ := p
        have : cells = (substratePoly x halo).cells := by
          ext c; rw [mem_substratePoly]; exact h2 c
        subst this
        simp only at h1
        subst h1
        rfl
      · exact Or.inr ⟨l, (mem_metals _ _).2 ⟨hl, h.1.1⟩, rs, h⟩

/-- The box `a` lies within the box `b`. -/
def Within (a b : Box) : Prop := b.x1 ≤ a.x1 ∧ a.x2 ≤ b.x2 ∧ b.y1 ≤ a.y1 ∧ a.y2 ≤ b.y2

/-- **C65, extent of the substrate.** If one of the two bounding boxes lies within the other, the substrate covers both of
them with the halo around. -/
theorem substrate_covers (t : Tech) (x : Context) (halo : ℤ) (d : Dict String (List Poly))
    (h : layerRegions t x halo = .ok d)
    (hn : Within x.annotated x.internal ∨ Within x.internal x.annotated)
    (h1 : x.annotated.x1 ≤ x.annotated.x2 ∧ x.annotated.y1 ≤ x.annotated.y2)
    (h2 : x.internal.x1 ≤ x.internal.x2 ∧ x.internal.y1 ≤ x.internal.y2)
    (b : Box) (hb : b = x.annotated ∨ b = x.internal) (c : Cell)
    (hc : b.x1 ≤ c.1 ∧ c.1 < b.x2 ∧ b.y1 ≤ c.2 ∧ c.2 < b.y2) (c' : Cell) (hx : |c'.1 - c.1| ≤ halo)
    (hy : |c'.2 - c.2| ≤ halo) :
    ∃ ps p, d.get? "VSUBS" = some ps ∧ p ∈ ps ∧ c' ∈ p.cells := by
  obtain ⟨hs, hp⟩ := layers_exact t x halo d h
  have hk : "VSUBS" ∈ d.keys := (hs.mem _).2 (Or.inl rfl)
  rw [Dict.mem_keys_iff, Option.isSome_iff_exists] at hk
  obtain ⟨ps, hps⟩ := hk
  have hpo : PolyOf t x halo "VSUBS" (substratePoly x halo) := Or.inl ⟨rfl, rfl, mem_substratePoly x halo⟩
  refine ⟨ps, substratePoly x halo, hps, (hp _ _ hps _).2 hpo, ?_⟩
  rw [mem_substratePoly]
  rw [abs_le] at hx hy
  obtain ⟨n, dbu, ⟨ax1, ay1, ax2, ay2⟩, ⟨bx1, by1, bx2, by2⟩, ex⟩ := x
  rw [inSubstrate_iff]
  unfold Within at hn
  simp only [Box.area] at *
  have hb' : (ax1 ≤ c.1 ∧ c.1 < ax2 ∧ ay1 ≤ c.2 ∧ c.2 < ay2) ∨ (bx1 ≤ c.1 ∧ c.1 < bx2 ∧ by1 ≤ c.2 ∧ c.2 < by2) := by
    rcases hb with rfl | rfl
    · exact Or.inl hc
    · exact Or.inr hc
  constructor
  · intro ha
    have : ax1 ≤ c.1 ∧ c.1 < ax2 ∧ ay1 ≤ c.2 ∧ c.2 < ay2 := by
      rcases hn with hn | hn
      · exfalso
        have : (ax2 - ax1) * (ay2 - ay1) ≤ (bx2 - bx1) * (by2 - by1) :=
          mul_le_mul (by omega) (by omega) (by omega) (by omega)
        omega
      · rcases hb' with h | h <;> omega
    omega
  · intro ha
    have : bx1 ≤ c.1 ∧ c.1 < bx2 ∧ by1 ≤ c.2 ∧ c.2 < by2 := by
      rcases hn with hn | hn
      · rcases hb' with h | h <;> omega
      · rcases hb' with h | h
        · have hw : ax2 - ax1 ≤ bx2 - bx1 := by
            by_contra hlt
            have : (bx2 - bx1) * (by2 - by1) < (ax2 - ax1) * (ay2 - ay1) := by
              nlinarith [mul_nonneg (show 0 ≤ bx2 - bx1 by omega) (show 0 ≤ (ay2 - ay1) - (by2 - by1) by omega),
                mul_pos (show 0 < (ax2 - ax1) - (bx2 - bx1) by omega) (show 0 < ay2 - ay1 by omega)]
            omega
          have hh : ay2 - ay1 ≤ by2 - by1 := by
            by_contra hlt
            have : (bx2 - bx1) * (by2 - by1) < (ax2 - ax1) * (ay2 - ay1) := by
              nlinarith [mul_nonneg (show 0 ≤ (ax2 - ax1) - (bx2 - bx1) by omega) (show 0 ≤ by2 - by1 by omega),
                mul_pos (show 0 < (ay2 - ay1) - (by2 - by1) by omega) (show 0 < ax2 - ax1 by omega)]
            omega
          omega
        · exact h
    omega

/-- **C65, uniqueness.** The description of the layers leaves no choice. -/
theorem IsStack.unique {t : Tech} {x : Context} {l₁ l₂ : List String} (h₁ : IsStack t x l₁) (h₂ : IsStack t x l₂) :
    l₁ = l₂ := by
  have hp : l₁.Perm l₂ := (List.perm_ext_iff_of_nodup h₁.nodup h₂.nodup).2 fun n => (h₁.mem n).trans (h₂.mem n).symm
  have hpair : ∀ l, IsStack t x l → l.Pairwise fun a b => b ≠ "VSUBS" ∧ (a = "VSUBS" ∨
      ∃ s₁ l s₂, t.stack = s₁ ++ l :: s₂ ∧ (∃ rs, Gives t x l a rs) ∧ ∀ l' ∈ s₁, ∀ rs, ¬ Gives t x l' b rs) := by
    intro l h
    rw [List.pairwise_iff_getElem]
    intro i j hi hj hij
    refine ⟨?_, h.order i j _ _ hij (List.getElem?_eq_getElem hi) (List.getElem?_eq_getElem hj)⟩
    intro he
    have h0 : l[0]'(by omega) = "VSUBS" := by
      have := h.head
      rw [List.head?_eq_getElem?, List.getElem?_eq_getElem (by omega)] at this
      exact Option.some.inj this
    have := (List.Nodup.getElem_inj_iff h.nodup).1 (h0.trans he.symm)
    omega
  refine List.Perm.eq_of_pairwise ?_ (hpair _ h₁) (hpair _ h₂) hp
  rintro a b _ _ ⟨hb, h⟩ ⟨ha, h'⟩
  rcases h with rfl | ⟨s₁, l, s₂, e1, ⟨rs, g1⟩, n1⟩
  · exact absurd rfl ha
  · rcases h' with rfl | ⟨u₁, m, u₂, e2, ⟨rs', g2⟩, n2⟩
    · exact absurd rfl hb
    · rw [e1] at e2
      rcases List.append_eq_append_iff.1 e2 with ⟨w, rfl, e⟩ | ⟨w, rfl, e⟩
      · cases w with
        | nil =>
          simp only [List.nil_append, List.cons.injEq] at e
          obtain ⟨rfl, _⟩ := e
          exact CanonicalIs.unique g1.2.1 g2.2.1
        | cons y w =>
          simp only [List.cons_append, List.cons.injEq] at e
          obtain ⟨rfl, _⟩ := e
          exact absurd g1 (n2 _ (by simp) rs)
      · cases w with
        | nil =>
          simp only [List.nil_append, List.cons.injEq] at e
          obtain ⟨rfl, _⟩ := e
          exact CanonicalIs.unique g1.2.1 g2.2.1
        | cons y w =>
          simp only [List.cons_append, List.cons.injEq] at e
          obtain ⟨rfl, _⟩ := e
          exact absurd g2 (n1 _ (by simp) rs')

end Verif.Engine25
