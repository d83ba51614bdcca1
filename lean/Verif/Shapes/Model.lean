import Mathlib.Data.Int.Order.Basic

/-!
# Model of `klayout_pex/klayout/shapes_pb2_converter.py`

Messages (`…Pb`) are records with the proto3 defaults (protos/kpex/geometry/shapes.proto).  KLayout's geometry classes are
records too.  `kdb.Polygon(points)` brings the points of a hull into a normal form (start point, orientation, no redundant
points); this is a parameter.  A region is the list of its polygons.
-/

namespace Verif.Shapes

abbrev Pt := ℤ × ℤ

/-- `shapes_pb2.Point`, shapes.proto 28–33. -/
structure PointPb where
  x : ℤ := 0
  y : ℤ := 0
  net : String := ""
deriving DecidableEq, Repr

/-- `shapes_pb2.Box`, shapes.proto 35–40. -/
structure BoxPb where
  lowerLeft : PointPb := {}
  upperRight : PointPb := {}
  net : String := ""
deriving DecidableEq, Repr

/-- `shapes_pb2.Polygon`, shapes.proto 42–46. -/
structure PolygonPb where
  hull : List PointPb := []
  net : String := ""
deriving DecidableEq, Repr

/-- `shapes_pb2.Region`, shapes.proto 48–50. -/
structure RegionPb where
  polygons : List PolygonPb := []
deriving DecidableEq, Repr

/-- `kdb.Polygon` or `kdb.PolygonWithProperties`: hull, holes and the property `net`. -/
structure Polygon where
  hull : List Pt
  holes : List (List Pt) := []
  net : Option String := none
deriving DecidableEq, Repr

/-- `kdb.Box` or `kdb.BoxWithProperties`: lower left and upper right corner and the property `net`. -/
structure Box where
  p1 : Pt
  p2 : Pt
  net : Option String := none
deriving DecidableEq, Repr

/-- `klayout_point`, shapes_pb2_converter.py 33–35. -/
def klayoutPoint (p : PointPb) : Pt := (p.x, p.y)

/-- `klayout_polygon`, shapes_pb2_converter.py 37–42; `norm` is the constructor of `kdb.Polygon`. -/
def klayoutPolygon (norm : List Pt → List Pt) (p : PolygonPb) : Polygon :=
  { hull := norm (p.hull.map klayoutPoint)
    net := if p.net.length ≥ 1 then some p.net else none }

/-- `klayout_region`, shapes_pb2_converter.py 44–48. -/
def klayoutRegion (norm : List Pt → List Pt) (r : RegionPb) : List Polygon :=
  r.polygons.foldl (fun acc p => acc ++ [klayoutPolygon norm p]) []

/-- `klayout_box`, shapes_pb2_converter.py 50–57; the constructor of `kdb.Box` sorts the coordinates. -/
def klayoutBox (b : BoxPb) : Box :=
  { p1 := (min b.lowerLeft.x b.upperRight.x, min b.lowerLeft.y b.upperRight.y)
    p2 := (max b.lowerLeft.x b.upperRight.x, max b.lowerLeft.y b.upperRight.y)
    net := if b.net = "" then none else some b.net }

/-- `klayout_point_to_pb`, shapes_pb2_converter.py 59–63, on a new message. -/
def pointToPb (p : Pt) : PointPb := { x := p.1, y := p.2 }

/-- `klayout_polygon_to_pb`, shapes_pb2_converter.py 65–72, on a new message: `each_point_hull` visits the hull only. -/
def polygonToPb (p : Polygon) : PolygonPb :=
  { hull := p.hull.foldl (fun acc q => acc ++ [pointToPb q]) []
    net := match p.net with
      | none => ""
      | some n => if n = "" then "" else n }

/-- `klayout_region_to_pb`, shapes_pb2_converter.py 74–78: appends to the message. -/
def regionToPb (r : List Polygon) (m : RegionPb) : RegionPb :=
  { polygons := r.foldl (fun acc p => acc ++ [polygonToPb p]) m.polygons }

end Verif.Shapes
