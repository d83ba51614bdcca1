/-!
# The LVS scripts of the shipped technologies

KPEX runs LVS with the scripts pdk/sky130A/libs.tech/kpex/sky130.lvs and pdk/ihp_sg13g2/libs.tech/kpex/sg13g2.lvs
(klayout/lvs_runner.py 46–87). The scripts derive layers from the drawn ones, say with `connect` which layers conduct to
each other, and give names to the layers; KPEX finds the nets and their shapes in the result under these names.

A layer is a set of places. The operations of the scripts that work place by place (`and`, `not`, `or`, `join`, `&`) are
modelled exactly; an operation that selects polygons (`interacting`, `covering`, `with_area`, …) gives some of the places of
its operand (`Expr.some`), and any other operation (`holes`, `sized`, `extents`, …) gives any places, but none if its operand
is empty (`Expr.made`). `CHIP`, `extent` and the layers built polygon by polygon are any places (`Expr.other`).
-/

namespace Verif.LvsRules

/-- A place of the layout. -/
abbrev Cell := Int × Int

/-- A derived layer: the right-hand side of an assignment of the scripts. -/
inductive Expr where
  /-- `polygons(l, d)`, `input(l, d)` or `get_polygons(l, d)` (rule_decks/layers_definitions.lvs 27–33). -/
  | drawn (l d : Nat)
  /-- `labels(l, d)`. -/
  | text (l d : Nat)
  /-- A layer that is not derived from others, such as `CHIP`. -/
  | other (n : String)
  /-- `a.and(b)` or `a & b`. -/
  | and (a b : Expr)
  /-- `a.or(b)` or `a.join(b)`. -/
  | or (a b : Expr)
  /-- `a.not(b)`. -/
  | diff (a b : Expr)
  /-- Selected polygons of `a`; `n` is the text of the expression. -/
  | some (n : String) (a : Expr)
  /-- Another operation on `a`; `n` is the text of the expression. -/
  | made (n : String) (a : Expr)
deriving DecidableEq, Repr

/-- A layout: the places of the drawn shapes and texts, and the outcome of the operations that are not modelled. -/
structure Layout where
  drawn : Nat → Nat → Cell → Prop
  text : Nat → Nat → Cell → Prop
  other : String → Cell → Prop

/-- The places of a derived layer. -/
def holds (L : Layout) : Expr → Cell → Prop
  | .drawn l d, c => L.drawn l d c
  | .text l d, c => L.text l d c
  | .other n, c => L.other n c
  | .and a b, c => holds L a c ∧ holds L b c
  | .or a b, c => holds L a c ∨ holds L b c
  | .diff a b, c => holds L a c ∧ ¬ holds L b c
  | .some n a, c => holds L a c ∧ L.other n c
  | .made n a, c => L.other n c ∧ ∃ c', holds L a c'

/-- A script: the layers by name, the pairs of the `connect` statements and the names given to layers. Left out:
`connect_global` and `connect_implicit`, which join nets by name, and the device extraction. -/
structure Script where
  layers : List (String × Expr)
  connects : List (String × String)
  names : List String

/-- The layer `l` has a shape at the place `c`. -/
def Script.Lies (s : Script) (L : Layout) (l : String) (c : Cell) : Prop := ∃ e, (l, e) ∈ s.layers ∧ holds L e c

/-- Connectivity as KLayout extracts it: shapes that overlap or touch belong to one net if they are on one layer or on two
layers of a `connect` statement. `touch` says which places overlap or touch. -/
inductive SameNet (s : Script) (touch : Cell → Cell → Prop) (L : Layout) : String × Cell → String × Cell → Prop
  | refl (x) : SameNet s touch L x x
  | symm {x y} : SameNet s touch L x y → SameNet s touch L y x
  | trans {x y z} : SameNet s touch L x y → SameNet s touch L y z → SameNet s touch L x z
  | within {l c c'} (ht : touch c c') (hc : s.Lies L l c) (hc' : s.Lies L l c') : SameNet s touch L (l, c) (l, c')
  | across {l m c c'} (hlm : (l, m) ∈ s.connects) (ht : touch c c') (hc : s.Lies L l c) (hc' : s.Lies L m c') :
    SameNet s touch L (l, c) (m, c')

end Verif.LvsRules
