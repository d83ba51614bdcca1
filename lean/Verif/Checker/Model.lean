import Verif.Common.PyDict
import Verif.Common.PyStr
import Verif.Finalize.Model
import Mathlib.Data.Rat.Floor

/-!
# `check`: the validation of the generated surfaces, and `dump_stl`

Model of `FasterCapModelGenerator.check`, `_check_tris`, `_normed_edges`, `_is_antiparallel`, `_split_edges`,
`dump_stl`, `_write_as_stl`, `_collect_diel_tris` and `_collect_cond_tris` (fastercap/fastercap_model_generator.py
848–994, 1030–1050). Coordinates of triangles are rational (floating point rounding is not modelled); normalised
coordinates are integers, as `math.floor` yields Python `int`. A Python `set` is a list without repetition whose
iteration order is arbitrary: every round of `_split_edges` iterates over the order chosen by a parameter `ord`.
-/

namespace Verif.Checker

open Verif.Finalize (Point Triangle HDielKey HCondKey)

/-- `Edge`, between normalised points; fastercap_model_generator.py 313–316. -/
structure Edge where
  p0 : Point ℤ
  p1 : Point ℤ
deriving DecidableEq

/-- `Edge.vector_of_edge`; fastercap_model_generator.py 318–323. -/
def Edge.vec (e : Edge) : Point ℤ := ⟨e.p1.x - e.p0.x, e.p1.y - e.p0.y, e.p1.z - e.p0.z⟩

/-- `Edge.reversed`; fastercap_model_generator.py 325–326. -/
def Edge.reversed (e : Edge) : Edge := ⟨e.p1, e.p0⟩

/-- `Point.sq_length`; fastercap_model_generator.py 255–256. -/
def sqLength (p : Point ℤ) : ℤ := p.x ^ 2 + p.y ^ 2 + p.z ^ 2

/-- `vector_product`; fastercap_model_generator.py 262–268. -/
def vectorProduct (a b : Point ℤ) : Point ℤ :=
  ⟨a.y * b.z - a.z * b.y, a.z * b.x - a.x * b.z, a.x * b.y - a.y * b.x⟩

/-- `dot_product`; fastercap_model_generator.py 271–273. -/
def dotProduct (a b : Point ℤ) : ℤ := a.x * b.x + a.y * b.y + a.z * b.z

/-- `_is_antiparallel`; fastercap_model_generator.py 911–918. -/
def isAntiparallel (a b : Point ℤ) : Bool :=
  let vp := vectorProduct a b
  if |(sqLength vp : ℚ)| > 1 / 2 then false
  else decide (dotProduct a b < 0)

/-- `normed_dbu`; fastercap_model_generator.py 892–894. `dbu` is not zero. -/
def normed (dbu : ℚ) (p : Point ℚ) : Point ℤ := ⟨⌊p.x / dbu + 1 / 2⌋, ⌊p.y / dbu + 1 / 2⌋, ⌊p.z / dbu + 1 / 2⌋⟩

/-- `Triangle.__getitem__`; fastercap_model_generator.py 303–308. Indices are taken modulo 3 by the caller. -/
def corner (t : Triangle ℚ) (i : ℕ) : Point ℚ :=
  match i with
  | 0 => t.p0
  | 1 => t.p1
  | _ => t.p2

/-- Edges of one triangle; fastercap_model_generator.py 897–900. -/
def triEdges (dbu : ℚ) (t : Triangle ℚ) : List Edge :=
  (List.range 3).map fun i => ⟨normed dbu (corner t i), normed dbu (corner t ((i + 1) % 3))⟩

/-- `_normed_edges`; fastercap_model_generator.py 889–902. -/
def normedEdges (dbu : ℚ) (tris : List (Triangle ℚ)) : List Edge := tris.flatMap (triEdges dbu)

/-- What `_check_tris` reports; fastercap_model_generator.py 875, 884. -/
inductive Err where
  | duplicate (e : Edge)
  | openSurface (e : Edge)
deriving DecidableEq

/-- Body of the loop that collects the edges; fastercap_model_generator.py 873–878. -/
def collect (s : List Edge × List Err) (e : Edge) : List Edge × List Err :=
  if e ∈ s.1 then (s.1, s.2 ++ [.duplicate e]) else (s.1 ++ [e], s.2)

/-- The set of edges and the two indices; fastercap_model_generator.py 920–925. -/
structure St where
  edges : List Edge
  byP1 : Dict (Point ℤ) (List Edge)
  byP2 : Dict (Point ℤ) (List Edge)

/-- Body of the loop that builds the indices; fastercap_model_generator.py 923–925. -/
def index (s : St) (e : Edge) : St :=
  { s with byP2 := s.byP2.upd e.p1 [] (· ++ [e]), byP1 := s.byP1.upd e.p0 [] (· ++ [e]) }

/-- Is `eee` a shorter edge antiparallel to `e`?; fastercap_model_generator.py 935–938, 946–949. -/
def shorter (e eee : Edge) : Bool :=
  isAntiparallel e.vec eee.vec && decide ((sqLength eee.vec : ℚ) < (sqLength e.vec : ℚ) - 1 / 2)

/-- Body of the loops over the edges ending at the start of `e`; fastercap_model_generator.py 934–941. -/
def subst1 (e : Edge) (s : Dict Edge (List Edge)) (eee : Edge) : Dict Edge (List Edge) :=
  if shorter e eee then s.upd e [] (· ++ [⟨e.p0, eee.p0⟩, ⟨eee.p0, e.p1⟩]) else s

/-- Body of the loops over the edges starting at the end of `e`; fastercap_model_generator.py 945–952. -/
def subst2 (e : Edge) (s : Dict Edge (List Edge)) (eee : Edge) : Dict Edge (List Edge) :=
  if shorter e eee then s.upd e [] (· ++ [⟨e.p0, eee.p1⟩, ⟨eee.p1, e.p1⟩]) else s

/-- The substitutions of one round; `es` is the set in its iteration order; fastercap_model_generator.py 930–952. -/
def substs (es : List Edge) (st : St) : Dict Edge (List Edge) :=
  let s := es.foldl (fun s e => (st.byP2.getD e.p0 []).foldl (subst1 e) s) []
  es.foldl (fun s e => (st.byP1.getD e.p1 []).foldl (subst2 e) s) s

/-- `edges.add(r)` and the two `append`s; fastercap_model_generator.py 961–964. -/
def addEdge (st : St) (r : Edge) : St :=
  { edges := if r ∈ st.edges then st.edges else st.edges ++ [r]
    byP1 := st.byP1.upd r.p0 [] (· ++ [r])
    byP2 := st.byP2.upd r.p1 [] (· ++ [r]) }

/-- Body of the loop over the substitutions: `list.remove` raises `ValueError` and `set.remove` raises `KeyError` when
the edge is missing; fastercap_model_generator.py 957–964. -/
def applySubst (st : St) (er : Edge × List Edge) : Except String St :=
  if er.1 ∉ st.byP1.getD er.1.p0 [] then .error "ValueError"
  else if er.1 ∉ st.byP2.getD er.1.p1 [] then .error "ValueError"
  else if er.1 ∉ st.edges then .error "KeyError"
  else
    .ok (er.2.foldl addEdge
      { edges := st.edges.erase er.1
        byP1 := st.byP1.upd er.1.p0 [] (·.erase er.1)
        byP2 := st.byP2.upd er.1.p1 [] (·.erase er.1) })

/-- The rounds of `_split_edges`, at most `fuel`; `i` counts them; fastercap_model_generator.py 927–964. -/
def rounds (ord : ℕ → List Edge → List Edge) : ℕ → ℕ → St → Option (Except String St)
  | 0, _, _ => none
  | fuel + 1, i, st =>
    let s := substs (ord (i + 1) st.edges) st
    if s.length = 0 then some (.ok st)
    else match s.foldlM applySubst st with
      | .error m => some (.error m)
      | .ok st' => rounds ord fuel (i + 1) st'

/-- `_split_edges`; fastercap_model_generator.py 920–964. -/
def splitEdges (ord : ℕ → List Edge → List Edge) (fuel : ℕ) (edges : List Edge) : Option (Except String St) :=
  rounds ord fuel 0 ((ord 0 edges).foldl index { edges := edges, byP1 := [], byP2 := [] })

/-- `_check_tris`: the errors it reports, in order; the returned number is their count. The last loop iterates over the
set as well, which only affects the order of the messages; fastercap_model_generator.py 867–887. -/
def checkTris (ord : ℕ → List Edge → List Edge) (fuel : ℕ) (dbu : ℚ) (tris : List (Triangle ℚ)) :
    Option (Except String (List Err)) :=
  let s := (normedEdges dbu tris).foldl collect ([], [])
  (splitEdges ord fuel s.1).map fun r => r.map fun st =>
    s.2 ++ (st.edges.filter fun e => decide (e.reversed ∉ st.edges)).map Err.openSurface

/-- What `check` and `dump_stl` use of the model generator. -/
structure Gen where
  dbu : ℚ
  materials : List String
  netNames : List String
  diel : Dict HDielKey (List (Triangle ℚ))
  cond : Dict HCondKey (List (Triangle ℚ))

/-- Body of the first loop of `_collect_diel_tris`; fastercap_model_generator.py 1033–1037. -/
def dielPart (mn : String) (kv : HDielKey × List (Triangle ℚ)) : List (Triangle ℚ) :=
  if some mn = kv.1.outside then kv.2
  else if some mn = kv.1.inside then kv.2.map Triangle.reversed
  else []

/-- `_collect_diel_tris`; fastercap_model_generator.py 1030–1043. -/
def collectDiel (g : Gen) (mn : String) : List (Triangle ℚ) :=
  let tris := g.diel.foldl (fun tris kv => tris ++ dielPart mn kv) []
  g.cond.foldl (fun tris kv => if some mn = kv.1.outside then tris ++ kv.2 else tris) tris

/-- `_collect_cond_tris`; fastercap_model_generator.py 1045–1050. -/
def collectCond (g : Gen) (nn : String) : List (Triangle ℚ) :=
  g.cond.foldl (fun tris kv => if kv.1.netName = nn then tris ++ kv.2.map Triangle.reversed else tris) []

/-- One step of the loops of `check`; fastercap_model_generator.py 852–860. -/
def checkStep (ord : ℕ → List Edge → List Edge) (fuel : ℕ) (dbu : ℚ) (acc : Option (Except String ℕ))
    (tris : List (Triangle ℚ)) : Option (Except String ℕ) :=
  match acc, checkTris ord fuel dbu tris with
  | some (.ok n), some (.ok errs) => some (.ok (n + errs.length))
  | some (.ok _), some (.error m) => some (.error m)
  | some (.ok _), none => none
  | acc, _ => acc

/-- `check`: the number of errors; 0 prints "No errors found"; fastercap_model_generator.py 848–865. -/
def check (ord : ℕ → List Edge → List Edge) (fuel : ℕ) (g : Gen) : Option (Except String ℕ) :=
  let r := g.materials.foldl (fun acc mn => checkStep ord fuel g.dbu acc (collectDiel g mn)) (some (.ok 0))
  g.netNames.foldl (fun acc nn => checkStep ord fuel g.dbu acc (collectCond g nn)) r

/-! ### `dump_stl` -/

/-- Lines of one facet; `fmt` is the text of a point (`Point.to_fastcap`, `%.12g` of the three coordinates, not
modelled); fastercap_model_generator.py 986–993. -/
def facet (fmt : Point ℚ → Str) (t : Triangle ℚ) : Str :=
  let t := t.reversed
  "  facet normal 0 0 0\n".toList ++ "    outer loop\n".toList ++
    [t.p0, t.p1, t.p2].flatMap (fun p => "   vertex ".toList ++ fmt p ++ "\n".toList) ++
    "  endloop\n".toList ++ " endfacet\n".toList

/-- Text written by `_write_as_stl`; fastercap_model_generator.py 984–994. -/
def stlText (fmt : Point ℚ → Str) (tris : List (Triangle ℚ)) : Str :=
  "solid stl\n".toList ++ tris.flatMap (facet fmt) ++ "endsolid stl\n".toList

/-- `_write_as_stl`: nothing is written for an empty surface. `open` fails when the name has a directory part, as nobody
creates directories below the output directory; fastercap_model_generator.py 977–994. -/
def writeStl (fmt : Point ℚ → Str) (files : Dict Str Str) (name : Str) (tris : List (Triangle ℚ)) :
    Except String (Dict Str Str) :=
  if tris.length = 0 then .ok files
  else if '/' ∈ name then .error "FileNotFoundError"
  else .ok (files.set name (stlText fmt tris))

/-- `dump_stl`: the files of the output directory; fastercap_model_generator.py 966–975. -/
def dumpStl (fmt : Point ℚ → Str) (pre : Str) (g : Gen) (files : Dict Str Str) : Except String (Dict Str Str) := do
  let files ← g.materials.foldlM (fun files mn =>
    writeStl fmt files (pre ++ "diel_".toList ++ mn.toList ++ ".stl".toList) (collectDiel g mn)) files
  g.netNames.foldlM (fun files nn =>
    writeStl fmt files (pre ++ "cond_".toList ++ nn.toList ++ ".stl".toList) (collectCond g nn)) files

end Verif.Checker
