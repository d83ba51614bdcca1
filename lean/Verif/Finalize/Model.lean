import Verif.Common.PyDict
import Mathlib.Data.Real.Sqrt

/-!
# Triangles, reference points and `finalize`

Model of the triangle data of `FasterCapModelGenerator` (fastercap/fastercap_model_generator.py). Coordinates are taken
from any type `α` (the reference point needs square roots and uses `ℝ`; floating point rounding is not modelled).
The Delaunay triangulation of a region (KLayout, external) is a parameter.
-/

namespace Verif.Finalize

/-- `HDielKey`; fastercap_model_generator.py 210–223. -/
structure HDielKey where
  outside : Option String
  inside : Option String
deriving DecidableEq, Repr

/-- `HDielKey.reversed`; fastercap_model_generator.py 222–223. -/
def HDielKey.reversed (k : HDielKey) : HDielKey := ⟨k.inside, k.outside⟩

/-- `HCondKey`; fastercap_model_generator.py 226–236. -/
structure HCondKey where
  netName : String
  outside : Option String
deriving DecidableEq, Repr

/-- `Point`; fastercap_model_generator.py 246–259. -/
structure Point (α : Type) where
  x : α
  y : α
  z : α
deriving DecidableEq

/-- `Triangle`; fastercap_model_generator.py 276–280. -/
structure Triangle (α : Type) where
  p0 : Point α
  p1 : Point α
  p2 : Point α
deriving DecidableEq

/-- `Triangle.reversed`; fastercap_model_generator.py 282–283. -/
def Triangle.reversed {α : Type} (t : Triangle α) : Triangle α := ⟨t.p2, t.p1, t.p0⟩

/-- `Point.__sub__`; fastercap_model_generator.py 252–253. -/
def Point.sub {α : Type} [Sub α] (a b : Point α) : Point α := ⟨a.x - b.x, a.y - b.y, a.z - b.z⟩

/-- `Triangle.outside_reference_point`; fastercap_model_generator.py 285–295. -/
noncomputable def Triangle.outsideReferencePoint (t : Triangle ℝ) : Point ℝ :=
  let v1 := t.p1.sub t.p0
  let v2 := t.p2.sub t.p0
  let vp : Point ℝ := ⟨v1.y * v2.z - v1.z * v2.y, -v1.x * v2.z + v1.z * v2.x, v1.x * v2.y - v1.y * v2.x⟩
  let vpAbs := Real.sqrt (vp.x ^ 2 + vp.y ^ 2 + vp.z ^ 2)
  ⟨t.p0.x + vp.x / vpAbs, t.p0.y + vp.y / vpAbs, t.p0.z + vp.z / vpAbs⟩

/-- A triangle of the plane, `(x, y)` of each corner in the order of the hull. -/
structure Tri2 (α : Type) where
  a : α × α
  b : α × α
  c : α × α

/-- Triangle of a horizontal dielectric surface or conductor bottom; fastercap_model_generator.py 593–600, 644–651.
The hull points are in database units. -/
def horizontal {α : Type} [Mul α] (dbu z : α) (t : Tri2 α) : Triangle α :=
  ⟨⟨t.a.1 * dbu, t.a.2 * dbu, z⟩, ⟨t.b.1 * dbu, t.b.2 * dbu, z⟩, ⟨t.c.1 * dbu, t.c.2 * dbu, z⟩⟩

/-- Triangle of a conductor top; fastercap_model_generator.py 664–672. -/
def horizontalTop {α : Type} [Mul α] (dbu z : α) (t : Tri2 α) : Triangle α := (horizontal dbu z t).reversed

/-- `triangulate`: a triangle of a vertical surface in the plane through `p0` along `de`;
fastercap_model_generator.py 687–699. -/
def vertical {α : Type} [Add α] [Mul α] (dbu : α) (p0 de : α × α) (t : Tri2 α) : Triangle α :=
  let convert (pt : α × α) : Point α := ⟨(p0.1 + de.1 * pt.1) * dbu, (p0.2 + de.2 * pt.1) * dbu, pt.2 * dbu⟩
  ⟨convert t.a, convert t.b, convert t.c⟩

/-! ### `finalize` -/

variable {α G R : Type}

/-- Body of the first two loops: triangles of a vertical plane are appended to the surfaces of its key;
fastercap_model_generator.py 702–709, 711–718. -/
def addVertical {K : Type} [DecidableEq K] (tri : G → R → List (Triangle α)) (d : Dict K (List (Triangle α)))
    (kr : (K × G) × R) : Dict K (List (Triangle α)) :=
  d.upd kr.1.1 [] (· ++ tri kr.1.2 kr.2)

/-- Body of the loop that selects the keys to keep; fastercap_model_generator.py 722–727. -/
def selectKey (dk : Dict HDielKey (List (Triangle α))) (k : HDielKey) : Dict HDielKey (List (Triangle α)) :=
  if dk.has k.reversed = false then dk.set k [] else dk

/-- Body of the loop that moves the triangles; `dk[...] +=` on a missing key is a `KeyError`;
fastercap_model_generator.py 729–734. -/
def moveTriangles (dk : Dict HDielKey (List (Triangle α))) (kv : HDielKey × List (Triangle α)) :
    Except String (Dict HDielKey (List (Triangle α))) :=
  let kk := kv.1.reversed
  if dk.has kk then .ok (dk.upd kk [] (· ++ kv.2.map Triangle.reversed))
  else if dk.has kv.1 then .ok (dk.upd kv.1 [] (· ++ kv.2))
  else .error "KeyError"

/-- The data of the generator `finalize` works on; fastercap_model_generator.py 350–356. `G` holds the position
`(p0, de)` of a vertical plane, `R` the region in it. -/
structure Data (α G R : Type) where
  diel : Dict HDielKey (List (Triangle α)) := []
  cond : Dict HCondKey (List (Triangle α)) := []
  dielV : Dict (HDielKey × G) R := []
  condV : Dict (HCondKey × G) R := []

/-- `finalize`; fastercap_model_generator.py 701–736. -/
def finalize (tri : G → R → List (Triangle α)) (s : Data α G R) : Except String (Data α G R) := do
  let diel := s.dielV.foldl (addVertical tri) s.diel
  let cond := s.condV.foldl (addVertical tri) s.cond
  let dk := diel.keys.foldl selectKey []
  let dk ← diel.foldlM moveTriangles dk
  return { s with diel := dk, cond := cond }

end Verif.Finalize
