import Verif.Finalize.Model
import Mathlib.Data.Real.Basic
import Mathlib.Algebra.Order.Floor.Ring

/-!
# Vertical surfaces

Model of `generate_v_surface` (fastercap/fastercap_model_generator.py 602–620): an edge of a region becomes a box in the
vertical plane of the edge. Real numbers stand for floats. Two conversions of KLayout are parameters, as they are outside
of the repository: `toInt` converts a number to the integer coordinates of `kdb.Box`, and `conv` is applied to the
coordinates of the `DPoint` and of the `DVector` where the code combines them with an integer `Point` (611–612): either
nothing happens to them (`id`), or they are made integers.
-/

namespace Verif.Wall

/-- An edge of a KLayout region: integer coordinates. -/
structure Edge where
  x1 : ℤ
  y1 : ℤ
  x2 : ℤ
  y2 : ℤ
deriving DecidableEq

/-- The plane of `VKey` (`p0` and `de`); the key of the surface is carried along unchanged;
fastercap_model_generator.py 239–243. -/
structure Plane where
  p0 : ℝ × ℝ
  de : ℝ × ℝ

/-- `kdb.Box(left, bottom, right, top)` -/
structure Box where
  left : ℤ
  bottom : ℤ
  right : ℤ
  top : ℤ

/-- `math.sqrt(edge.sq_length())`; fastercap_model_generator.py 607. -/
noncomputable def len (e : Edge) : ℝ := Real.sqrt (((e.x2 : ℝ) - e.x1) ^ 2 + ((e.y2 : ℝ) - e.y1) ^ 2)

/-- `p0` and `de`; fastercap_model_generator.py 607–613. -/
noncomputable def plane (e : Edge) : Plane :=
  let el := len e
  let de : ℝ × ℝ := (((e.x2 : ℝ) - e.x1) / el, ((e.y2 : ℝ) - e.y1) / el)
  let ne : ℝ × ℝ := (((e.y2 : ℝ) - e.y1) / el, -((e.x2 : ℝ) - e.x1) / el)
  let s := ne.1 * e.x1 + ne.2 * e.y1
  { p0 := (ne.1 * s, ne.2 * s), de := de }

/-- `x1` and `x2`; fastercap_model_generator.py 611–612. -/
noncomputable def ends (conv : ℝ → ℝ) (e : Edge) : ℝ × ℝ :=
  let p := plane e
  (((e.x1 : ℝ) - conv p.p0.1) * conv p.de.1 + ((e.y1 : ℝ) - conv p.p0.2) * conv p.de.2,
    ((e.x2 : ℝ) - conv p.p0.1) * conv p.de.1 + ((e.y2 : ℝ) - conv p.p0.2) * conv p.de.2)

/-- The box of `generate_v_surface`; fastercap_model_generator.py 615–620. -/
noncomputable def box (conv : ℝ → ℝ) (toInt : ℝ → ℤ) (dbu z zz : ℝ) (e : Edge) : Box :=
  { left := toInt (ends conv e).1
    bottom := ⌊z / dbu + 1 / 2⌋
    right := toInt (ends conv e).2
    top := ⌊zz / dbu + 1 / 2⌋ }

/-- A point of the box in space: `convert_point` of `triangulate`; fastercap_model_generator.py 687–691. -/
noncomputable def place (dbu : ℝ) (p : Plane) (x y : ℤ) : Finalize.Point ℝ :=
  ⟨(p.p0.1 + p.de.1 * x) * dbu, (p.p0.2 + p.de.2 * x) * dbu, y * dbu⟩

end Verif.Wall
