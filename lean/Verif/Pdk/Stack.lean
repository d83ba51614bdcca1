import Verif.Stack3d.Check
import Verif.Engine25.Layers
import Verif.Pdk.Sky130A
import Verif.Pdk.Sg13g2

/-!
# The process stacks of the shipped technologies

The theorems about building the 3D model have hypotheses about the process stack.  Here they are discharged for the stacks of
sky130A and ihp_sg13g2, for every layout.
-/

namespace Verif.Pdk

open Stack3d (Layout InSlab Level buildCalls DielectricAt HasPermittivity NamesOk BuildOk PermittivityOk fills lastMetalZ)
open Sweep (Call Drawn z2norm Gen)
open Engine25 (CanonicalIs)

/-- One of the two technologies. -/
def Shipped (t : Technology) : Prop := t = Sky130A.tech ∨ t = Sg13g2.tech

/-- Height of the bottom of the highest metal in µm. -/
def TopMetalAt (t : Technology) (z : ℚ) : Prop :=
  (∃ n th c, ⟨n, .metal z th c⟩ ∈ t.stack) ∧ ∀ l ∈ t.stack, ∀ z' th c, l.kind = .metal z' th c → z' ≤ z

/-! ### Conditions -/

set_option maxRecDepth 4000

theorem names_ok {t : Technology} (ht : Shipped t) : NamesOk (t.stack.map StackLayer.stack) := by
  rcases ht with rfl | rfl <;> decide +kernel

theorem build_ok {t : Technology} (ht : Shipped t) : BuildOk (t.stack.map StackLayer.stack) := by
  rcases ht with rfl | rfl <;> decide +kernel

theorem permittivity_ok {t : Technology} (ht : Shipped t) : PermittivityOk (t.stack.map StackLayer.stack) := by
  rcases ht with rfl | rfl <;> decide +kernel

theorem fills_ok {t : Technology} (ht : Shipped t) : fills (fun _ => true) (t.stack.map StackLayer.stack) = true := by
  rcases ht with rfl | rfl <;> decide +kernel

theorem width_ok {t : Technology} (ht : Shipped t) : ∀ l ∈ t.stack.map StackLayer.stack, 0 ≤ l.kind.width := by
  rcases ht with rfl | rfl <;> decide +kernel

theorem top_ok {t : Technology} (ht : Shipped t) :
    ∃ z, lastMetalZ (t.stack.map StackLayer.stack) = some z ∧
      ∀ l ∈ t.stack.map StackLayer.stack, match l.kind with
        | .metal z' _ _ => z' ≤ z
        | _ => True := by
  rcases ht with rfl | rfl
  · refine ⟨5.3711, by decide +kernel, ?_⟩
    intro l hl
    have h : ∀ l ∈ Sky130A.tech.stack.map StackLayer.stack,
      (match l.kind with | .metal z _ _ => decide (z ≤ 5.3711) | _ => true) = true := by decide +kernel
    have := h l hl
    cases hk : l.kind <;> rw [hk] at this <;> simp_all
  · refine ⟨11.1, by decide +kernel, ?_⟩
    intro l hl
    have h : ∀ l ∈ Sg13g2.tech.stack.map StackLayer.stack,
      (match l.kind with | .metal z _ _ => decide (z ≤ 11.1) | _ => true) = true := by decide +kernel
    have := h l hl
    cases hk : l.kind <;> rw [hk] at this <;> simp_all

theorem mem_stack_metal {t : Technology} {n : String} {z th : ℚ} {c : Option Contact}
    (h : ⟨n, .metal z th c⟩ ∈ t.stack) (inc : String → Bool) :
    (⟨n, .metal z th (c.map Contact.via)⟩ : Stack3d.Layer) ∈ (t.tech3d inc).layers :=
  List.mem_map_of_mem h

theorem mem_metal_stack {t : Technology} {l : Stack3d.Layer} (h : l ∈ t.stack.map StackLayer.stack) {z th : ℚ}
    {c : Option Stack3d.Contact} (hk : l.kind = .metal z th c) : ∃ c', ⟨l.name, .metal z th c'⟩ ∈ t.stack := by
  obtain ⟨⟨n, kd⟩, hs, rfl⟩ := List.mem_map.1 h
  cases kd <;> simp [StackLayer.stack] at hk
  obtain ⟨rfl, rfl, _⟩ := hk
  exact ⟨_, hs⟩

/-! ### C82 -/

variable {P : Type} [DecidableEq P]

/-- **C82.** With a shipped technology the 3D model of every layout, with every filter of the dielectrics, is described
without an exception: the builder ends, and the generator accepts all its calls. -/
theorem shipped_builds {t : Technology} (ht : Shipped t) (included : String → Bool) (ly : Layout P) :
    ∃ calls b, (∀ fuel, t.stack.length < fuel → buildCalls (t.tech3d included) ly fuel = some (.ok calls)) ∧
      Sweep.build ly.dbu calls = .ok b := by
  obtain ⟨calls, h⟩ := Stack3d.build_succeeds_of (t := t.tech3d included) (names_ok ht) (build_ok ht) ly
  obtain ⟨b, hb, _⟩ := Stack3d.materials_last (h _ (Nat.lt_succ_self _))
  refine ⟨calls, b, fun fuel hf => h fuel ?_, hb⟩
  simpa [Technology.tech3d] using hf

/-- A sidewall or conformal dielectric that wraps layer `r`. -/
def IsWrap (kd : Kind) (r : String) : Prop :=
  (∃ k a w, kd = .sidewall k a w r) ∨ ∃ k o w s, kd = .conformal k o w s r

/-- Metal `m` is layer `r`, or is wrapped by a dielectric `r`, directly or around other dielectrics. -/
inductive InsideOf (t : Technology) : String → String → Prop
  | metal {m : String} {z th : ℚ} {c : Option Contact} : ⟨m, .metal z th c⟩ ∈ t.stack → InsideOf t m m
  | layer {n r m : String} {kd : Kind} : ⟨n, kd⟩ ∈ t.stack → IsWrap kd r → InsideOf t r m → InsideOf t n m

/-- The layer that a dielectric wraps. -/
def wrapOf : Kind → Option String
  | .sidewall _ _ _ r => some r
  | .conformal _ _ _ _ r => some r
  | _ => none

theorem wrapOf_iff {kd : Kind} {r : String} : wrapOf kd = some r ↔ IsWrap kd r := by
  cases kd <;> simp [wrapOf, IsWrap]

/-- Follows the references from `r` for at most `fuel` steps. -/
def findMetal (t : Technology) : Nat → String → Option String
  | 0, _ => none
  | fuel + 1, r => t.stack.findSome? fun l => if l.name = r then (match l.kind with
      | .metal _ _ _ => some r
      | kd => (wrapOf kd).bind (findMetal t fuel)) else none

theorem findMetal_sound {t : Technology} {fuel : Nat} {n m : String} (h : findMetal t fuel n = some m) : InsideOf t n m := by
  induction fuel generalizing n with
  | zero => cases h
  | succ fuel ih =>
    unfold findMetal at h
    obtain ⟨⟨n', kd⟩, hl, h2⟩ := List.exists_of_findSome?_eq_some h
    clear h
    dsimp only at h2
    split at h2
    · rename_i hn
      subst hn
      split at h2
      · obtain rfl := Option.some.inj h2
        exact .metal hl
      · rw [Option.bind_eq_some_iff] at h2
        obtain ⟨r, hr, h⟩ := h2
        exact .layer hl (wrapOf_iff.1 hr) (ih h)
    · cases h2

/-- **C82, dielectrics around metals.** Every sidewall and conformal dielectric of a shipped technology wraps a metal of the
technology, directly or around other dielectrics; none of them refers to a layer that does not exist. -/
theorem shipped_wraps {t : Technology} (ht : Shipped t) {l : StackLayer} (hl : l ∈ t.stack) {r : String} (hw : IsWrap l.kind r) :
    ∃ m, InsideOf t r m := by
  have h : ∀ l ∈ t.stack, ∀ r ∈ wrapOf l.kind, (findMetal t 10 r).isSome = true := by
    clear hl
    rcases ht with rfl | rfl <;> decide +kernel
  obtain ⟨m, hm⟩ := Option.isSome_iff_exists.1 (h l hl r (wrapOf_iff.2 hw))
  exact ⟨m, findMetal_sound hm⟩

/-- The oxide above the nitride of met1 wraps it. -/
example : ∃ l ∈ Sky130A.tech.stack, ∃ r, IsWrap l.kind r := by
  have h : ∃ l ∈ Sky130A.tech.stack, (wrapOf l.kind).isSome = true := by decide +kernel
  obtain ⟨l, hl, h⟩ := h
  obtain ⟨r, hr⟩ := Option.isSome_iff_exists.1 h
  exact ⟨l, hl, r, wrapOf_iff.1 hr⟩

/-- **C82, what is drawn.** The dielectrics are exactly those of the specification, and every dielectric name has one
permittivity: the one the technology gives to every layer of this name. -/
theorem shipped_dielectrics {t : Technology} (ht : Shipped t) (included : String → Bool) (ly : Layout P) {fuel : Nat}
    {calls : List (Call P)} (h : buildCalls (t.tech3d included) ly fuel = some (.ok calls)) :
    (∀ n k p, Drawn ly.dbu calls (.mat n) k p ↔ DielectricAt (t.tech3d included) ly k p n) ∧
    ∃ b, Sweep.build ly.dbu calls = .ok b ∧ ∀ n k, b.materials.get? n = some k ↔
      ⟨n, .fieldOxide k⟩ ∈ t.stack ∨
      ∃ l ∈ t.stack, l.name = n ∧ included n = true ∧ ((∃ r, l.kind = .simple k r) ∨
        (∃ o w s r, l.kind = .conformal k o w s r) ∨ ∃ a w r, l.kind = .sidewall k a w r) := by
  refine ⟨fun n k p => Stack3d.dielectrics_exact (NamesOk.wellNamed (t := t.tech3d included) (names_ok ht)) h n k p, ?_⟩
  obtain ⟨b, hb, hm⟩ := Stack3d.materials_exact (PermittivityOk.one (t := t.tech3d included) (permittivity_ok ht)) h
  refine ⟨b, hb, fun n k => (hm n k).trans (or_congr ?_ ?_)⟩
  · have one : ∀ l ∈ t.stack, ∀ l' ∈ t.stack, ∀ k k', l.kind = .fieldOxide k → l'.kind = .fieldOxide k' → l = l' := by
      have : ∀ l ∈ t.stack, ∀ l' ∈ t.stack, (match l.kind with | .fieldOxide _ => true | _ => false) = true →
          (match l'.kind with | .fieldOxide _ => true | _ => false) = true → l = l' := by
        rcases ht with rfl | rfl <;> decide +kernel
      intro l hl l' hl' k k' e e'
      exact this l hl l' hl' (by rw [e]) (by rw [e'])
    constructor
    · rintro ⟨pre, post, e, _⟩
      have hmem : (⟨n, .fieldOxide k⟩ : Stack3d.Layer) ∈ t.stack.map StackLayer.stack := by
        have : (⟨n, .fieldOxide k⟩ : Stack3d.Layer) ∈ (t.tech3d included).layers := by rw [e]; simp
        exact this
      obtain ⟨⟨m, kd⟩, hs, e'⟩ := List.mem_map.1 hmem
      cases kd <;> simp [StackLayer.stack] at e'
      obtain ⟨rfl, rfl⟩ := e'
      exact hs
    · intro hs
      obtain ⟨pre, post, e⟩ := List.append_of_mem hs
      refine ⟨pre.map StackLayer.stack, post.map StackLayer.stack, ?_, ?_⟩
      · simp [Technology.tech3d, e, StackLayer.stack]
      · intro l hl k' hk'
        obtain ⟨⟨m, kd⟩, hl', rfl⟩ := List.mem_map.1 hl
        cases kd <;> simp [StackLayer.stack] at hk'
        subst hk'
        rename_i k'
        have hmem : (⟨m, .fieldOxide k'⟩ : StackLayer) ∈ t.stack := by rw [e]; exact List.mem_append_left _ hl'
        have := one _ hmem _ hs _ _ rfl rfl
        have hcount : t.stack.countP (fun l => decide (l = ⟨n, .fieldOxide k⟩)) ≤ 1 := by
          have : ∀ l ∈ t.stack, (match l.kind with | .fieldOxide _ => true | _ => false) = true →
              t.stack.countP (fun x => decide (x = l)) ≤ 1 := by
            rcases ht with rfl | rfl <;> decide +kernel
          exact this _ hs rfl
        rw [e, List.countP_append, List.countP_cons] at hcount
        have h0 : 0 < pre.countP (fun l => decide (l = ⟨n, .fieldOxide k⟩)) :=
          List.countP_pos_iff.2 ⟨_, hl', by simpa using this⟩
        simp at hcount
        omega
  · constructor
    · rintro ⟨l, hl, rfl, hi, hk⟩
      obtain ⟨⟨m, kd⟩, hs, rfl⟩ := List.mem_map.1 hl
      refine ⟨⟨m, kd⟩, hs, rfl, hi, ?_⟩
      cases kd <;> simp [StackLayer.stack, HasPermittivity] at hk ⊢ <;> exact hk
    · rintro ⟨⟨m, kd⟩, hs, rfl, hi, hk⟩
      refine ⟨_, List.mem_map_of_mem hs, rfl, hi, ?_⟩
      cases kd <;> simp [StackLayer.stack, HasPermittivity] at hk ⊢ <;> exact hk

/-- **C82, field oxide.** In the 3D model of every layout, with every filter of the dielectrics, the field oxide has the
permittivity of the documentation of the process. -/
theorem shipped_field_oxide (included : String → Bool) (ly : Layout P) {fuel : Nat} {calls : List (Call P)} :
    (buildCalls (Sky130A.tech.tech3d included) ly fuel = some (.ok calls) →
      ∃ b, Sweep.build ly.dbu calls = .ok b ∧ b.materials.get? "fox" = some 4.632) ∧
    (buildCalls (Sg13g2.tech.tech3d included) ly fuel = some (.ok calls) →
      ∃ b, Sweep.build ly.dbu calls = .ok b ∧ b.materials.get? "fox" = some 3.95) := by
  constructor
  · intro h
    obtain ⟨b, hb, hm⟩ := (shipped_dielectrics (.inl rfl) included ly h).2
    exact ⟨b, hb, (hm _ _).2 (.inl (by decide +kernel))⟩
  · intro h
    obtain ⟨b, hb, hm⟩ := (shipped_dielectrics (.inr rfl) included ly h).2
    exact ⟨b, hb, (hm _ _).2 (.inl (by decide +kernel))⟩

/-! ### C83 -/

/-- **C83.** With a shipped technology and without a filter, the space over the whole area, from the surface of the silicon
to 5 µm above the bottom of the highest metal, is filled: no point of it is void. -/
theorem shipped_no_gaps {t : Technology} (ht : Shipped t) {ly : Layout P} (hdbu : 0 < ly.dbu)
    (hgrow : ∀ d r, 0 ≤ d → r ⊆ ly.sized d r) {fuel : Nat} {calls : List (Call P)}
    (h : buildCalls (t.tech3d fun _ => true) ly fuel = some (.ok calls)) {top : ℚ} (htop : TopMetalAt t top)
    (k : Int) (p : P) (hp : p ∈ ly.block) (hlow : z2norm ly.dbu 0 ≤ k) (hhigh : k < z2norm ly.dbu (top + 5)) :
    ∃ n, Drawn ly.dbu calls (.mat n) k p := by
  obtain ⟨z, hz, hmax⟩ := top_ok ht
  have hzt : top ≤ z := by
    obtain ⟨⟨n, th, c, hm⟩, _⟩ := htop
    exact hmax _ (mem_stack_metal hm fun _ => true)
  refine Stack3d.no_gaps_of (t := t.tech3d fun _ => true) (names_ok ht) (fills_ok ht) (width_ok ht) hz hdbu hgrow h
    k p hp hlow (lt_of_lt_of_le hhigh ?_)
  exact Stack3d.z2norm_mono hdbu (by linarith)

/-! ### C84 -/

/-- The layers named `a` and `b` are drawn layers of one name. -/
def SameLayer (t : Technology) (a b : String) : Prop := ∃ n, CanonicalIs t.read a n ∧ CanonicalIs t.read b n

/-- `n` is a conducting layer of the stack (diffusion or metal) that reaches from `z` to `z + th` and carries the contact
or via `c`. -/
def Carries (t : Technology) (n : String) (z th : ℚ) (c : Contact) : Prop :=
  ⟨n, .metal z th (some c)⟩ ∈ t.stack ∨ ∃ d r, ⟨n, .diffusion d r (some c)⟩ ∈ t.stack ∧ z = 0 ∧ th = 1 / 10

/-- The name under which the shapes of a layer are extracted. -/
def canonical (t : TechInfo.Tech) (n : String) : Option String :=
  (TechInfo.gdsPair t n).bind fun g => (TechInfo.canonicalByPair t).get? g

/-- The contact of a layer of the stack and the height at which it starts. -/
def carried : StackLayer → Option (Contact × ℚ)
  | ⟨_, .metal z th (some c)⟩ => some (c, z + th)
  | ⟨_, .diffusion _ _ (some c)⟩ => some (c, 0)
  | _ => none

theorem reach_ok {t : Technology} (ht : Shipped t) : ∀ l ∈ t.stack, ∀ m ∈ t.stack, match carried l, m.kind with
    | some (c, z), .metal z' _ _ => canonical t.read m.name = canonical t.read c.metalAbove → z' ≤ z + c.thickness
    | _, _ => True := by
  have : ∀ l ∈ t.stack, ∀ m ∈ t.stack, (match carried l, m.kind with
      | some (c, z), .metal z' _ _ =>
        decide (canonical t.read m.name = canonical t.read c.metalAbove → z' ≤ z + c.thickness)
      | _, _ => true) = true := by
    rcases ht with rfl | rfl <;> decide +kernel
  intro l hl m hm
  have h := this l hl m hm
  cases hc : carried l <;> cases hk : m.kind <;> rw [hc, hk] at h <;>
    (first | exact h | (simp only [decide_eq_true_eq] at h; exact h))

theorem SameLayer.canonical {t : Technology} {a b : String} (h : SameLayer t a b) :
    Pdk.canonical t.read a = Pdk.canonical t.read b := by
  obtain ⟨n, ha, hb⟩ := h
  exact ((Engine25.canonical_iff _ _ _).2 ha).trans ((Engine25.canonical_iff _ _ _).2 hb).symm

/-- **C84.** With a shipped technology, contacts and vias connect without a gap: at every point where a net has shapes on a
layer that carries a contact, on the contact and on the metal named above it, its conductor fills the whole height from the
bottom of the lower layer to the top of the upper one. -/
theorem shipped_vias_connect {t : Technology} (ht : Shipped t) (included : String → Bool) {ly : Layout P}
    (hdbu : 0 < ly.dbu) {fuel : Nat} {calls : List (Call P)}
    (h : buildCalls (t.tech3d included) ly fuel = some (.ok calls)) {n m : String} {z th z' th' : ℚ} {c : Contact}
    {c' : Option Contact} (hc : Carries t n z th c) (hm : ⟨m, .metal z' th' c'⟩ ∈ t.stack)
    (habove : SameLayer t m c.metalAbove) {net : String} (hnet : net ∈ ly.nets) {p : P} {r₁ r₂ r₃ : Finset P}
    (h₁ : ly.ofNet n net = some r₁) (hp₁ : p ∈ r₁) (h₂ : ly.ofNet c.name net = some r₂) (hp₂ : p ∈ r₂)
    (h₃ : ly.ofNet m net = some r₃) (hp₃ : p ∈ r₃) (k : Int) (hlow : z2norm ly.dbu z ≤ k)
    (hhigh : k < z2norm ly.dbu (z' + th')) : Drawn ly.dbu calls (.net net) k p := by
  rw [Stack3d.conductors_exact h]
  refine Or.inl ⟨hnet, ?_⟩
  have hupper : z2norm ly.dbu z' ≤ k → ∃ n z ht, Level (t.tech3d included) n z ht ∧
      (∃ r, ly.ofNet n net = some r ∧ p ∈ r) ∧ InSlab ly.dbu z ht k :=
    fun hk => ⟨m, z', th', .metal (mem_stack_metal hm included), ⟨r₃, h₃, hp₃⟩, hk, hhigh⟩
  rcases hc with hc | ⟨d, r, hc, rfl, rfl⟩
  · have hreach := reach_ok ht _ hc _ hm
    simp only [carried] at hreach
    have hz := hreach habove.canonical
    by_cases k1 : k < z2norm ly.dbu (z + th)
    · exact ⟨n, z, th, .metal (mem_stack_metal hc included), ⟨r₁, h₁, hp₁⟩, hlow, k1⟩
    · by_cases k2 : k < z2norm ly.dbu (z + th + c.thickness)
      · exact ⟨c.name, z + th, c.thickness, .via (c := c.via) (mem_stack_metal hc included), ⟨r₂, h₂, hp₂⟩,
          not_lt.1 k1, k2⟩
      · exact hupper ((Stack3d.z2norm_mono hdbu hz).trans (not_lt.1 k2))
  · have hreach := reach_ok ht _ hc _ hm
    simp only [carried] at hreach
    have hz := hreach habove.canonical
    by_cases k2 : k < z2norm ly.dbu (0 + c.thickness)
    · exact ⟨c.name, 0, c.thickness, .contact (c := c.via) (n := n)
        (List.mem_map.2 ⟨_, hc, rfl⟩), ⟨r₂, h₂, hp₂⟩, hlow, k2⟩
    · exact hupper ((Stack3d.z2norm_mono hdbu hz).trans (not_lt.1 k2))

/-- The heights between which the contact or via `c` of the stack reaches. -/
inductive Spans (t : Technology) : Contact → ℚ → ℚ → Prop
  | metal {n z th c} : ⟨n, .metal z th (some c)⟩ ∈ t.stack → Spans t c (z + th) (z + th + c.thickness)
  | diffusion {n d r c} : ⟨n, .diffusion d r (some c)⟩ ∈ t.stack → Spans t c 0 (0 + c.thickness)

/-- **C84, every contact has its metal.** Every contact and via of a shipped technology names a metal of the stack above it;
it reaches this metal and ends inside of it. -/
theorem shipped_vias_end {t : Technology} (ht : Shipped t) {c : Contact} {lo hi : ℚ} (hc : Spans t c lo hi) :
    ∃ m z' th' c', ⟨m, .metal z' th' c'⟩ ∈ t.stack ∧ SameLayer t m c.metalAbove ∧ lo < z' ∧ z' ≤ hi ∧ hi < z' + th' := by
  have key : ∀ l ∈ t.stack, (match carried l with
      | some (c, z) => t.stack.any fun m => match m.kind with
        | .metal z' th' _ => (canonical t.read m.name).isSome &&
            decide (canonical t.read m.name = canonical t.read c.metalAbove) &&
            decide (z < z' ∧ z' ≤ z + c.thickness ∧ z + c.thickness < z' + th')
        | _ => false
      | none => true) = true := by
    rcases ht with rfl | rfl <;> decide +kernel
  have fin : ∀ l ∈ t.stack, ∀ zc, carried l = some (c, zc) →
      ∃ m z' th' c', ⟨m, .metal z' th' c'⟩ ∈ t.stack ∧ SameLayer t m c.metalAbove ∧
        zc < z' ∧ z' ≤ zc + c.thickness ∧ zc + c.thickness < z' + th' := by
    intro l hl zc e
    have := key l hl
    rw [e] at this
    obtain ⟨⟨m, kd⟩, hm, h⟩ := List.any_eq_true.1 this
    cases kd <;> simp only [Bool.false_eq_true] at h
    simp only [Bool.and_eq_true, decide_eq_true_eq, Option.isSome_iff_exists] at h
    obtain ⟨⟨⟨a, ha⟩, hb⟩, h1⟩ := h
    exact ⟨m, _, _, _, hm, ⟨a, (Engine25.canonical_iff _ _ _).1 ha, (Engine25.canonical_iff _ _ _).1 (hb.symm.trans ha)⟩, h1⟩
  cases hc with
  | metal hc => exact fin _ hc _ rfl
  | diffusion hc => exact fin _ hc _ rfl

/-! ### C85 -/

/-- By how much a wrapping dielectric is meant to be higher than what it wraps. -/
def over : Stack3d.Kind → ℚ
  | .sidewall _ a _ _ => a
  | .conformal _ o _ _ _ => o
  | _ => 0

/-- The height that a chain of dielectrics around a metal of thickness `th` is meant to reach above the bottom of the
metal. -/
def meant (th : ℚ) (ls : List Stack3d.Layer) : ℚ := th + (ls.map fun l => over l.kind).sum

/-- The dielectrics whose height includes the thickness of the metal: conformal ones, and sidewall dielectrics that do not
reach above the metal. -/
def SpansMetal : Stack3d.Kind → Prop
  | .sidewall _ a _ _ => a = 0
  | .conformal .. => True
  | _ => False

instance : DecidablePred SpansMetal
  | .sidewall _ a _ _ => decidable_of_iff (a = 0) Iff.rfl
  | .conformal .. => isTrue trivial
  | .metal .. | .substrate .. | .nwell | .diffusion _ | .fieldOxide _ | .simple _ => isFalse id

theorem rise_one (th : ℚ) (kd : Stack3d.Kind) : kd.rise th = (if SpansMetal kd then th else 0) + over kd := by
  cases kd with
  | sidewall k a w r =>
    by_cases ha : a = 0
    · have : SpansMetal (.sidewall k a w r) := ha
      rw [if_pos this]
      simp [Stack3d.Kind.rise, over, ha]
    · have : ¬ SpansMetal (.sidewall k a w r) := ha
      rw [if_neg this]
      simp [Stack3d.Kind.rise, over, ha]
  | conformal k o w s r =>
    have : SpansMetal (.conformal k o w s r) := trivial
    rw [if_pos this]
    rfl
  | _ => rw [if_neg (by exact id)]; simp [Stack3d.Kind.rise, over]

theorem rise_eq (th : ℚ) (ls : List Stack3d.Layer) :
    Stack3d.rise th ls = (ls.countP fun l => decide (SpansMetal l.kind)) * th + (ls.map fun l => over l.kind).sum := by
  induction ls with
  | nil => simp [Stack3d.rise]
  | cons l ls ih =>
    simp only [Stack3d.rise, List.map_cons, List.sum_cons, List.countP_cons, rise_one] at ih ⊢
    rw [ih]
    by_cases hs : SpansMetal l.kind <;> simp [hs] <;> ring

/-- **C85 (partial).** A dielectric that wraps a metal, directly or around other dielectrics, reaches as high as meant if
exactly one dielectric of the chain is conformal or a sidewall dielectric that does not reach above the metal. Missing:
other chains, for which the claim is false (`topox_too_low`, `pass2_too_high`). -/
theorem wrapped_height_partial {t : Stack3d.Tech} (hn : Stack3d.WellNamed t) {ly : Layout P} {fuel : Nat}
    {calls : List (Call P)} (h : buildCalls t ly fuel = some (.ok calls)) {m : String} {z th : ℚ}
    {c : Option Stack3d.Contact} (hm : ⟨m, .metal z th c⟩ ∈ t.layers) {r : Finset P} (hr : ly.ofLayer m = some r)
    {ls : List Stack3d.Layer} {l : Stack3d.Layer} (hc : Stack3d.Chain t m (ls ++ [l]))
    (hone : (ls ++ [l]).countP (fun l => decide (SpansMetal l.kind)) = 1) {p : P} (hp : p ∈ Stack3d.grown ly r (ls ++ [l]))
    (k : Int) (hk : InSlab ly.dbu z (meant th (ls ++ [l])) k) : Drawn ly.dbu calls (.mat l.name) k p := by
  rw [Stack3d.dielectrics_exact hn h]
  refine .wrap hm hr hc hp ?_
  rw [rise_eq, hone]
  simpa [meant] using hk

/-- **C85 fails for sky130A.** The sidewall dielectric `topox` of the top metal is meant to reach 0.09 µm above the top of
the metal, which is 1.26 µm thick. It ends 0.09 µm above the bottom of the metal, in every layout. -/
theorem topox_too_low (included : String → Bool) {ly : Layout P} {fuel : Nat} {calls : List (Call P)}
    (h : buildCalls (Sky130A.tech.tech3d included) ly fuel = some (.ok calls)) {k : Int} {p : P}
    (hd : Drawn ly.dbu calls (.mat "topox") k p) :
    InSlab ly.dbu 5.3711 0.09 k ∧ (meant 1.26 [⟨"topox", .sidewall 3.9 0.09 0.07 "met5"⟩] = 1.35) := by
  refine ⟨?_, by decide +kernel⟩
  rw [Stack3d.dielectrics_exact (NamesOk.wellNamed (t := Sky130A.tech.tech3d included) (names_ok (.inl rfl))) h] at hd
  have only : ∀ l ∈ Sky130A.tech.stack.map StackLayer.stack, l.name = "topox" →
      l = ⟨"topox", .sidewall 3.9 0.09 0.07 "met5"⟩ := by decide +kernel
  have met5 : ∀ l ∈ Sky130A.tech.stack.map StackLayer.stack, l.name = "met5" →
      l = ⟨"met5", .metal 5.3711 1.26 none⟩ := by decide +kernel
  have nsimple : ∀ {m : String} {z ht : ℚ} {d : Stack3d.Layer},
      Stack3d.SimpleAbove (Sky130A.tech.tech3d included) m z d ht → d.name = "topox" → False := by
    rintro m z ht d ⟨pre, th, c, mid, post, e, _, hs, _⟩ hd
    have := only d (by
      have : d ∈ (Sky130A.tech.tech3d included).layers := by rw [e]; simp
      exact this) hd
    rw [this] at hs
    exact hs
  have wraps : ∀ {m : String} {z th : ℚ} {c : Option Stack3d.Contact} {ls : List Stack3d.Layer} {l : Stack3d.Layer},
      ⟨m, .metal z th c⟩ ∈ (Sky130A.tech.tech3d included).layers →
      Stack3d.Chain (Sky130A.tech.tech3d included) m (ls ++ [l]) → l.name = "topox" →
      ls = [] ∧ z = 5.3711 ∧ l = ⟨"topox", .sidewall 3.9 0.09 0.07 "met5"⟩ := by
    intro m z th c ls l hm hc hl
    obtain ⟨b, hb⟩ := hc.mem l (by simp)
    have hl' := only l hb.1 hl
    have hlast : ∀ (ls : List Stack3d.Layer) (m : String), Stack3d.Chain (Sky130A.tech.tech3d included) m (ls ++ [l]) →
        (ls = [] ∧ m = "met5") ∨ ∃ x a, Stack3d.Wraps (Sky130A.tech.tech3d included) a x ∧ x.name = "met5" := by
      intro ls
      induction ls with
      | nil =>
        intro m hc
        cases hc with
        | cons hw _ =>
          have := hw.mem_wrapping.2
          rw [hl'] at this
          exact Or.inl ⟨rfl, by simpa [Stack3d.Kind.reference?] using this.symm⟩
      | cons x ls ih =>
        intro m hc
        cases hc with
        | cons hw hc =>
          rcases ih _ hc with ⟨_, e⟩ | h
          · exact Or.inr ⟨x, m, hw, e⟩
          · exact Or.inr h
    rcases hlast ls m hc with ⟨rfl, rfl⟩ | ⟨x, a, hx, hn⟩
    · have := met5 _ hm rfl
      simp only [Stack3d.Layer.mk.injEq, Stack3d.Kind.metal.injEq, true_and] at this
      exact ⟨rfl, this.1, hl'⟩
    · have h1 := met5 x hx.1 hn
      have h2 := hx.mem_wrapping.2
      rw [h1] at h2
      simp [Stack3d.Kind.reference?] at h2
  generalize hn : "topox" = n at hd
  cases hd with
  | fieldOxide e _ _ _ _ _ =>
    obtain ⟨x, hx, hk⟩ : ∃ x ∈ (Sky130A.tech.tech3d included).layers, x.name = n ∧ ∃ k, x.kind = .fieldOxide k := by
      rw [e]
      exact ⟨_, List.mem_append_right _ List.mem_cons_self, rfl, _, rfl⟩
    obtain ⟨hk1, k', hk2⟩ := hk
    rw [only x hx (hk1.trans hn.symm)] at hk2
    simp at hk2
  | wrap hm hr hc hp hk =>
    obtain ⟨rfl, rfl, e⟩ := wraps hm hc hn.symm
    rw [e] at hk
    have h9 : (0.09 : ℚ) ≠ 0 := by norm_num
    simpa only [Stack3d.rise, Stack3d.Kind.rise, List.nil_append, List.map_cons, List.map_nil, List.sum_cons,
      List.sum_nil, if_neg h9, add_zero] using hk
  | floor hm hr hc hf =>
    obtain ⟨rfl, rfl, e⟩ := wraps hm hc hn.symm
    rw [e] at hf
    simp [Stack3d.Kind.floor] at hf
  | simple hs => exact (nsimple hs hn.symm).elim
  | above hs => exact (nsimple hs hn.symm).elim
  | beside hs => exact (nsimple hs hn.symm).elim

/-- **C85 fails for ihp_sg13g2.** The passivation `pass2` is meant to reach 0.4 µm above `pass1`, which reaches 1.5 µm above
the top metal of 3 µm thickness. It reaches 3 µm higher, in every layout. -/
theorem pass2_too_high (included : String → Bool) (h1 : included "pass1" = true) (h2 : included "pass2" = true)
    {ly : Layout P} (hgrow : ∀ d r, 0 ≤ d → r ⊆ ly.sized d r) (hdbu : 0 < ly.dbu) {fuel : Nat} {calls : List (Call P)}
    (h : buildCalls (Sg13g2.tech.tech3d included) ly fuel = some (.ok calls)) {r : Finset P}
    (hr : ly.ofLayer "TopMetal2" = some r) {p : P} (hp : p ∈ r) {k : Int} (hk : InSlab ly.dbu 11.1 (3 + 1.5 + 0.4 + 3) k) :
    Drawn ly.dbu calls (.mat "pass2") k p ∧
    meant 3 [⟨"pass1", .conformal 4.1 1.5 1.5 0.3 "TopMetal2"⟩, ⟨"pass2", .conformal 6.6 0.4 0.4 0.3 "pass1"⟩] =
      3 + 1.5 + 0.4 := by
  refine ⟨?_, by decide +kernel⟩
  rw [Stack3d.dielectrics_exact (NamesOk.wellNamed (t := Sg13g2.tech.tech3d included) (names_ok (.inr rfl))) h]
  have hl1 : (⟨"pass1", .conformal 4.1 1.5 1.5 0.3 "TopMetal2"⟩ : Stack3d.Layer) ∈
      Sg13g2.tech.stack.map StackLayer.stack := by decide +kernel
  have hl2 : (⟨"pass2", .conformal 6.6 0.4 0.4 0.3 "pass1"⟩ : Stack3d.Layer) ∈
      Sg13g2.tech.stack.map StackLayer.stack := by decide +kernel
  have hm : (⟨"TopMetal2", .metal 11.1 3 none⟩ : Stack3d.Layer) ∈ Sg13g2.tech.stack.map StackLayer.stack := by
    decide +kernel
  refine .wrap (l := ⟨"pass2", .conformal 6.6 0.4 0.4 0.3 "pass1"⟩)
    (ls := [⟨"pass1", .conformal 4.1 1.5 1.5 0.3 "TopMetal2"⟩]) hm hr ?_ ?_ ?_
  · exact .cons ⟨hl1, h1, .inr ⟨_, _, _, _, rfl⟩⟩ (.cons ⟨hl2, h2, .inr ⟨_, _, _, _, rfl⟩⟩ .nil)
  · have pos : 0 ≤ ⌊(0.3 : ℚ) / ly.dbu⌋ := Int.floor_nonneg.2 (by positivity)
    exact hgrow _ _ pos (hgrow _ _ pos hp)
  · have e : Stack3d.rise 3 ([⟨"pass1", .conformal 4.1 1.5 1.5 0.3 "TopMetal2"⟩] ++
        [⟨"pass2", .conformal 6.6 0.4 0.4 0.3 "pass1"⟩]) = 3 + 1.5 + 0.4 + 3 := by decide +kernel
    rw [e]
    exact hk

/-! ### Examples -/

/-- A layout of one point, at which the net `A` has shapes on all layers. -/
def exLayout : Layout Unit where
  dbu := 1 / 1000
  nets := ["A"]
  ofNet := fun _ _ => some {()}
  ofLayer := fun _ => some {()}
  block := {()}
  sized := fun _ r => r

/-- The example meets the hypotheses of C84: with sky130A the conductor of `A` reaches from the bottom of `li1` through the
contact to the top of `met1`, here shown inside the contact. -/
example {fuel : Nat} {calls : List (Call Unit)}
    (h : buildCalls (Sky130A.tech.tech3d fun _ => true) exLayout fuel = some (.ok calls)) :
    Drawn exLayout.dbu calls (.net "A") 1100 () :=
  shipped_vias_connect (Or.inl rfl) _ (by decide +kernel) h (n := "li1") (m := "met1") (z := 0.9361) (th := 0.1)
    (z' := 1.3761) (th' := 0.36) (c := setContact "mcon_con" "li1" "met1" (1.3761 - (0.9361 + 0.1)) 0.17 0.19 0.0)
    (c' := some (setContact "via1_con" "met1" "met2" 0.27 0.15 0.17 0.055)) (Or.inl (by decide +kernel)) (by decide +kernel)
    ⟨"met1", (Engine25.canonical_iff _ _ _).1 (by decide +kernel), (Engine25.canonical_iff _ _ _).1 (by decide +kernel)⟩
    (by simp [exLayout]) (h₁ := rfl) (p := ()) (by simp) (h₂ := rfl) (by simp) (h₃ := rfl) (by simp) _ (by decide +kernel)
    (by decide +kernel)

/-- The example meets the hypotheses of C85: `lint` reaches 0.075 µm above `li1`. -/
example {fuel : Nat} {calls : List (Call Unit)}
    (h : buildCalls (Sky130A.tech.tech3d fun _ => true) exLayout fuel = some (.ok calls)) :
    Drawn exLayout.dbu calls (.mat "lint") 1105 () :=
  wrapped_height_partial (NamesOk.wellNamed (t := Sky130A.tech.tech3d fun _ => true) (names_ok (.inl rfl))) h (m := "li1")
    (z := 0.9361) (th := 0.1) (c := (setContact "mcon_con" "li1" "met1" (1.3761 - (0.9361 + 0.1)) 0.17 0.19 0.0).via)
    (r := {()}) (show _ ∈ Sky130A.tech.stack.map StackLayer.stack by decide +kernel) rfl
    (l := ⟨"lint", .conformal 7.3 0.075 0.075 0.075 "li1"⟩) (ls := [])
    (.cons ⟨show _ ∈ Sky130A.tech.stack.map StackLayer.stack by decide +kernel, rfl, .inr ⟨_, _, _, _, rfl⟩⟩ .nil)
    (by decide +kernel) (show () ∈ ({()} : Finset Unit) by simp) _ ⟨by decide +kernel, by decide +kernel⟩

/-- The example meets the hypotheses of `pass2_too_high`: 7 µm above the bottom of the top metal there is `pass2`, which
is meant to end 4.9 µm above it. -/
example {fuel : Nat} {calls : List (Call Unit)}
    (h : buildCalls (Sg13g2.tech.tech3d fun _ => true) exLayout fuel = some (.ok calls)) :
    Drawn exLayout.dbu calls (.mat "pass2") 18100 () :=
  (pass2_too_high _ rfl rfl (ly := exLayout) (fun _ r _ => subset_refl r) (by decide +kernel) h rfl
    (show () ∈ ({()} : Finset Unit) by simp) ⟨by decide +kernel, by decide +kernel⟩).1

end Verif.Pdk
