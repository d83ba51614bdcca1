import Mathlib.Algebra.Order.Ring.Rat
import Mathlib.Algebra.Order.Field.Rat
import Mathlib.Data.Fin.VecNotation
import Mathlib.Algebra.Group.Action.Prod

/-!
# Model of `ResistorNetwork.is_skinny_tri` and `expand_skinny_tris` (rcx25/r/resistor_network.py 69–100)

Coordinates are rationals: `kdb.Point` coordinates are integers, and the split point, which KLayout rounds to the integer
grid, is kept exact here.
-/

namespace Verif.Skinny

/-- A point or vector. -/
abbrev Pt := ℚ × ℚ

/-- `kdb.Vector.sq_length`. -/
def sqLength (a : Pt) : ℚ := a.1 * a.1 + a.2 * a.2

/-- `kdb.Vector.sprod`. -/
def sprod (a b : Pt) : ℚ := a.1 * b.1 + a.2 * b.2

/-- A triangle as the list of its three hull points. -/
structure Tri where
  p : Fin 3 → Pt

/-- The test of iteration `i`, resistor_network.py 72–80: `pm1 = pts[i]`, `p0 = pts[(i+1)%3]`, `p1 = pts[(i+2)%3]`. -/
def testAt (t : Tri) (i : Fin 3) : Prop :=
  sqLength (t.p (i + 2) - t.p (i + 1)) + sqLength (t.p i - t.p (i + 2))
    < sqLength (t.p (i + 1) - t.p i) * (1 - 1 / 10000000000)

instance (t : Tri) (i : Fin 3) : Decidable (testAt t i) := by unfold testAt; infer_instance

/-- `is_skinny_tri`, resistor_network.py 70–83: the result is `i != 0`, a `bool`, or `None`. -/
def isSkinnyTri (t : Tri) : Option Bool :=
  if testAt t 0 then some (decide ((0 : Nat) ≠ 0))
  else if testAt t 1 then some (decide ((1 : Nat) ≠ 0))
  else if testAt t 2 then some (decide ((2 : Nat) ≠ 0))
  else none

/-- Python uses a `bool` as an index: `False` is 0, `True` is 1. -/
def boolIndex (b : Bool) : Fin 3 := if b then 1 else 0

/-- The split point `px`, resistor_network.py 93–98, for a given index. -/
def splitPoint (t : Tri) (i : Fin 3) : Pt :=
  let pm1 := t.p i
  let p0 := t.p (i + 1)
  let p1 := t.p (i + 2)
  let lm1 := sqLength (p0 - pm1)
  p0 + (sprod (pm1 - p0) (p1 - p0) / lm1) • (pm1 - p0)

/-- `expand_skinny_tris`, resistor_network.py 86–100, for a triangle. -/
def expandSkinnyTris (t : Tri) : List Tri :=
  match isSkinnyTri t with
  | none => [t]
  | some b =>
    let i := boolIndex b
    let px := splitPoint t i
    [⟨![t.p (i + 1), t.p (i + 2), px]⟩, ⟨![px, t.p (i + 2), t.p i]⟩]

end Verif.Skinny
