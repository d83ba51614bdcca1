import Verif.Stack3d.Model
import Verif.Sweep.Spec

/-!
# Specification: where conductors and dielectrics of a process stack are
-/

namespace Verif.Stack3d

open Verif.Sweep (Call Drawn Mk z2norm)

variable {P : Type} [DecidableEq P]

/-- Slab `k` lies in the part of space that starts at `z` and is `h` high (after rounding to the grid). -/
def InSlab (dbu z h : ℚ) (k : Int) : Prop := z2norm dbu z ≤ k ∧ k < z2norm dbu (z + h)

/-- Shapes of layer `name` are conductors from height `z` on, `h` high. -/
inductive Level (t : Tech) : String → ℚ → ℚ → Prop
  | metal {n z th c} : ⟨n, .metal z th c⟩ ∈ t.layers → Level t n z th
  | via {n z th c} : ⟨n, .metal z th (some c)⟩ ∈ t.layers → Level t c.name (z + th) c.thickness
  | diffusion {n c} : ⟨n, .diffusion c⟩ ∈ t.layers → Level t n 0 (1 / 10)
  | contact {n c} : ⟨n, .diffusion c⟩ ∈ t.layers → Level t c.name 0 c.thickness

/-- Kinds of layers. -/
def Kind.isMetal : Kind → Prop | .metal .. => True | _ => False
def Kind.isSimple : Kind → Prop | .simple _ => True | _ => False
def Kind.isSubstrate : Kind → Prop | .substrate .. => True | _ => False
def Kind.isFieldOxide : Kind → Prop | .fieldOxide _ => True | _ => False

/-- The substrate plane. -/
def InSubstrate (t : Tech) (ly : Layout P) (k : Int) (p : P) : Prop :=
  p ∈ ly.block ∧
  (∀ net ∈ ly.nets, ∀ n c r, ⟨n, .diffusion c⟩ ∈ t.layers → ly.ofNet n net = some r → r ≠ ∅ →
    p ∉ ly.sized ⌊1 / ly.dbu⌋ r) ∧
  ∃ pre n h th post, t.layers = pre ++ ⟨n, .substrate h th⟩ :: post ∧ (∀ l ∈ pre, ¬ l.kind.isSubstrate) ∧
    InSlab ly.dbu (-h - th) th k

/-- A dielectric that wraps the layer called `below`. -/
def Wraps (t : Tech) (below : String) (l : Layer) : Prop :=
  l ∈ t.layers ∧ t.included l.name = true ∧
    ((∃ k a w, l.kind = .sidewall k a w below) ∨ (∃ k o n s, l.kind = .conformal k o n s below))

/-- The names of a process stack are used without ambiguity: no other layer has the name of a metal, and if a name that is
wrapped belongs to a wrapping dielectric, it belongs to only one of them. (Other names may be repeated.) -/
structure WellNamed (t : Tech) : Prop where
  metal : ∀ pre m z th c post, t.layers = pre ++ ⟨m, .metal z th c⟩ :: post → ∀ l ∈ pre ++ post, l.name ≠ m
  wrapped : ∀ l₁ l₂ a b x, Wraps t a l₁ → Wraps t b l₂ → l₁.name = l₂.name → Wraps t l₁.name x → l₁ = l₂

/-- Dielectrics that wrap one another, starting at the layer called `below`. -/
inductive Chain (t : Tech) : String → List Layer → Prop
  | nil {below} : Chain t below []
  | cons {below l ls} : Wraps t below l → Chain t l.name ls → Chain t below (l :: ls)

/-- A chain that cannot be continued. -/
def FullChain (t : Tech) (below : String) (ls : List Layer) : Prop :=
  Chain t below ls ∧ ∀ l, ¬ Chain t below (ls ++ [l])

/-- By how much a wrapping dielectric grows sideways. -/
def Kind.width : Kind → ℚ
  | .sidewall _ _ w _ => w
  | .conformal _ _ _ s _ => s
  | _ => 0

/-- By how much a wrapping dielectric of a metal with thickness `th` grows in height. -/
def Kind.rise (th : ℚ) : Kind → ℚ
  | .sidewall _ a _ _ => if a = 0 then th else a
  | .conformal _ o _ _ _ => th + o
  | _ => 0

/-- The shapes with all dielectrics of a chain around them. -/
def grown (ly : Layout P) (r : Finset P) (ls : List Layer) : Finset P :=
  ls.foldl (fun r l => ly.sized ⌊l.kind.width / ly.dbu⌋ r) r

/-- Height of a chain around a metal of thickness `th`. -/
def rise (th : ℚ) (ls : List Layer) : ℚ := (ls.map (fun l => l.kind.rise th)).sum

/-- Thickness of a conformal dielectric away from the metal, if there is one. -/
def Kind.floor : Kind → Option ℚ
  | .conformal _ _ n _ _ => if 0 < n then some n else none
  | _ => none

/-- Thickness of the last conformal dielectric of a chain away from the metal, 0 if there is none. -/
def floorOf (ls : List Layer) : ℚ := ((ls.filterMap (fun l => l.kind.floor)).getLast?).getD 0

/-- `d` is the simple dielectric above the metal called `n`: the first one listed after it and before the next metal;
it is `h` high, up to the next metal or 5 µm above the last. -/
def SimpleAbove (t : Tech) (n : String) (z : ℚ) (d : Layer) (h : ℚ) : Prop :=
  ∃ pre th c mid post, t.layers = pre ++ ⟨n, .metal z th c⟩ :: mid ++ d :: post ∧
    (∀ l ∈ mid, ¬ l.kind.isMetal ∧ ¬ l.kind.isSimple) ∧ d.kind.isSimple ∧ t.included d.name = true ∧
    ((∃ mid' n' z' th' c' post', post = mid' ++ ⟨n', .metal z' th' c'⟩ :: post' ∧ (∀ l ∈ mid', ¬ l.kind.isMetal) ∧
        h = z' - z) ∨
      ((∀ l ∈ post, ¬ l.kind.isMetal) ∧ h = 5))

/-- The dielectric called `n` is at point `p` of slab `k`. -/
inductive DielectricAt (t : Tech) (ly : Layout P) (k : Int) (p : P) : String → Prop
  /-- field oxide below the first metal -/
  | fieldOxide {pre post n e pre' post' m z th c} :
      t.layers = pre ++ ⟨n, .fieldOxide e⟩ :: post → (∀ l ∈ pre, ¬ l.kind.isFieldOxide) →
      t.layers = pre' ++ ⟨m, .metal z th c⟩ :: post' → (∀ l ∈ pre', ¬ l.kind.isMetal) →
      p ∈ ly.block → InSlab ly.dbu 0 z k → DielectricAt t ly k p n
  /-- a dielectric wrapped around the shapes of a metal -/
  | wrap {m z th c r ls l} : ⟨m, .metal z th c⟩ ∈ t.layers → ly.ofLayer m = some r → Chain t m (ls ++ [l]) →
      p ∈ grown ly r (ls ++ [l]) → InSlab ly.dbu z (rise th (ls ++ [l])) k → DielectricAt t ly k p l.name
  /-- a conformal dielectric away from the shapes -/
  | floor {m z th c r ls l f} : ⟨m, .metal z th c⟩ ∈ t.layers → ly.ofLayer m = some r → Chain t m (ls ++ [l]) →
      l.kind.floor = some f → p ∈ ly.block → p ∉ grown ly r (ls ++ [l]) → InSlab ly.dbu z f k →
      DielectricAt t ly k p l.name
  /-- the simple dielectric of a metal nothing was extracted for -/
  | simple {m z d h} : SimpleAbove t m z d h → ly.ofLayer m = none → p ∈ ly.block → InSlab ly.dbu z h k →
      DielectricAt t ly k p d.name
  /-- the simple dielectric above the wrapped shapes -/
  | above {m z th c d h r ls} : SimpleAbove t m z d h → ⟨m, .metal z th c⟩ ∈ t.layers → ly.ofLayer m = some r →
      FullChain t m ls → p ∈ grown ly r ls → InSlab ly.dbu (z + rise th ls) (h - rise th ls) k →
      DielectricAt t ly k p d.name
  /-- the simple dielectric beside the wrapped shapes -/
  | beside {m z d h r ls} : SimpleAbove t m z d h → ly.ofLayer m = some r →
      FullChain t m ls → p ∈ ly.block → p ∉ grown ly r ls → InSlab ly.dbu (z + floorOf ls) (h - floorOf ls) k →
      DielectricAt t ly k p d.name

/-- The permittivity of a dielectric layer of the process stack. -/
def HasPermittivity (kd : Kind) (k : ℚ) : Prop :=
  kd = .simple k ∨ (∃ over no side r, kd = .conformal k over no side r) ∨ ∃ above outside r, kd = .sidewall k above outside r

/-- Dielectrics of one name have one permittivity, also if one of them is the field oxide. -/
structure OnePermittivity (t : Tech) : Prop where
  same : ∀ l₁ ∈ t.layers, ∀ l₂ ∈ t.layers, ∀ k₁ k₂, l₁.name = l₂.name → t.included l₁.name = true →
    HasPermittivity l₁.kind k₁ → HasPermittivity l₂.kind k₂ → k₁ = k₂
  fieldOxide : ∀ l₁ ∈ t.layers, ∀ l₂ ∈ t.layers, ∀ k₁ k₂, l₁.name = l₂.name → t.included l₁.name = true →
    l₁.kind = .fieldOxide k₁ → HasPermittivity l₂.kind k₂ → k₁ = k₂

end Verif.Stack3d
