import Verif.Finalize.Model
import Mathlib.Data.Rat.Floor

/-!
# What a closed surface is

The sides of the triangles of a surface, on the grid of the database unit, and what it means that they close. Nothing in
this file refers to the model of the checker.
-/

namespace Verif.Checker

open Verif.Finalize (Point Triangle)

/-- The grid point next to a point: coordinates in database units, rounded to the nearest integer (half upwards). -/
def grid (dbu : ℚ) (p : Point ℚ) : Point ℤ := ⟨⌊p.x / dbu + 1 / 2⌋, ⌊p.y / dbu + 1 / 2⌋, ⌊p.z / dbu + 1 / 2⌋⟩

/-- The three directed sides of a triangle, in its sense of rotation. -/
def sidesOf (dbu : ℚ) (t : Triangle ℚ) : List (Point ℤ × Point ℤ) :=
  [(grid dbu t.p0, grid dbu t.p1), (grid dbu t.p1, grid dbu t.p2), (grid dbu t.p2, grid dbu t.p0)]

/-- All directed sides of a surface. -/
def sides (dbu : ℚ) (tris : List (Triangle ℚ)) : List (Point ℤ × Point ℤ) := tris.flatMap (sidesOf dbu)

/-- The point `q` at fraction `s` of the way from `a` to `b`. -/
def IsAt (a b : Point ℤ) (s : ℚ) (q : Point ℚ) : Prop :=
  q.x = a.x + s * (b.x - a.x) ∧ q.y = a.y + s * (b.y - a.y) ∧ q.z = a.z + s * (b.z - a.z)

/-- The point `q` lies on the side from `a` to `b`, ends included. -/
def OnSide (q : Point ℚ) (ab : Point ℤ × Point ℤ) : Prop := ∃ s : ℚ, 0 ≤ s ∧ s ≤ 1 ∧ IsAt ab.1 ab.2 s q

/-- The side `cd` points into direction `k` times the direction of `ab`. -/
def Multiple (k : ℚ) (ab cd : Point ℤ × Point ℤ) : Prop :=
  (cd.2.x - cd.1.x : ℚ) = k * (ab.2.x - ab.1.x) ∧ (cd.2.y - cd.1.y : ℚ) = k * (ab.2.y - ab.1.y) ∧
    (cd.2.z - cd.1.z : ℚ) = k * (ab.2.z - ab.1.z)

/-- Two sides run in the same direction. -/
def SameDirection (ab cd : Point ℤ × Point ℤ) : Prop := ∃ k : ℚ, 0 < k ∧ Multiple k ab cd

/-- Two sides run in opposite directions. -/
def Opposite (ab cd : Point ℤ × Point ℤ) : Prop := ∃ k : ℚ, k < 0 ∧ Multiple k ab cd

/-- Every point of every side (of positive length) lies on a side of opposite direction: no open boundary anywhere. -/
def Closed (ss : List (Point ℤ × Point ℤ)) : Prop :=
  ∀ ab ∈ ss, ab.1 ≠ ab.2 → ∀ q, OnSide q ab → ∃ cd ∈ ss, Opposite ab cd ∧ OnSide q cd

/-- No side is listed twice, and different sides of the same direction have at most one point in common. -/
def Simple (ss : List (Point ℤ × Point ℤ)) : Prop :=
  ss.Nodup ∧ ∀ ab ∈ ss, ∀ cd ∈ ss, ab ≠ cd → SameDirection ab cd → ∀ q r, OnSide q ab → OnSide q cd → OnSide r ab →
    OnSide r cd → q = r

end Verif.Checker
