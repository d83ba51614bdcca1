import Verif.Common.PyDict
import Verif.Common.PyStr
import Verif.Common.Text

/-!
# Model of `convert_layout_pdk.py`

A layout (flattened, one top cell) is the list of its layers with their shapes, as `kdb.Layout` keeps them: several layers may
have the same numbers (they end up on the same layer of the GDS file).  Regular expressions are modelled for names without line
breaks and for ASCII letters and digits.
-/

namespace Verif.LayerMap

/-- `GDSPair`, convert_layout_pdk.py 59–65. -/
abbrev Pair := Nat × Nat

/-- `Layer`, convert_layout_pdk.py 68–79. -/
structure Layer where
  layer : Str
  purpose : Option Str
  pair : Pair
deriving DecidableEq

/-- `Layer.lpp`, convert_layout_pdk.py 74–79. -/
def Layer.lpp (l : Layer) : Str := match l.purpose with
  | none => l.layer
  | some [] => l.layer
  | some p => l.layer ++ '.' :: p

/-- `LayerList.layer_by_lpp`, convert_layout_pdk.py 90–92. -/
def byLpp (ls : List Layer) : Dict Str Layer := Dict.ofList (ls.map fun l => (l.lpp, l))

/-- The destinations of one row of the table, convert_layout_pdk.py 125–131: layers found, and was one missing? -/
def destLayers (dest : List Layer) (lpps : List Str) : List Layer × Bool :=
  lpps.foldl (fun (acc : List Layer × Bool) lpp => match (byLpp dest).get? lpp with
    | none => (acc.1, true)
    | some l => (acc.1 ++ [l], acc.2)) ([], false)

/-- One row of the table, convert_layout_pdk.py 119–132: layers, and was a name unknown? -/
def mapRow (src dest : List Layer) (acc : Dict Layer (List Layer) × Bool) (row : Str × List Str) :
    Dict Layer (List Layer) × Bool := match (byLpp src).get? row.1 with
  | none => (acc.1, true)
  | some l => (acc.1.set l (destLayers dest row.2).1, acc.2 || (destLayers dest row.2).2)

/-- `LayerMapping.layer_mapping`, convert_layout_pdk.py 113–137.  The keys are layers. -/
def layerMapping (table : Dict Str (List Str)) (src dest : List Layer) : Except String (Dict Layer (List Layer)) :=
  let r := table.foldl (mapRow src dest) ([], false)
  if r.2 then .error "Unknown source layer" else .ok r.1

/-- `dest_layers_by_source_gds_pair`, convert_layout_pdk.py 139–142. -/
def bySourcePair (m : Dict Layer (List Layer)) : Dict Pair (List Layer) := Dict.ofList (m.map fun e => (e.1.pair, e.2))

/-- A layout. -/
abbrev Layout (σ : Type) := List (Pair × List σ)

/-- `dest_gds_pair_list`, convert_layout_pdk.py 226–241. -/
def targets (m : Dict Pair (List Layer)) (g : Pair) : List Pair := match m.get? g with
  | some ls => ls.map Layer.pair
  | none => [(1000 + g.1, g.2)]

/-- The loop over the targets of one layer, convert_layout_pdk.py 243–249. -/
def retarget {σ : Type} (i : Nat) (ts : List Pair) (l : Layout σ) : Layout σ :=
  (ts.zipIdx).foldl (fun (l : Layout σ) t =>
    if t.2 = 0 then l.modify i (fun e => (t.1, e.2)) else l ++ [(t.1, ((l[i]?).map Prod.snd).getD [])]) l

/-- `map_gds_layers`, convert_layout_pdk.py 218–251. -/
def mapLayers {σ : Type} (m : Dict Pair (List Layer)) (src : Layout σ) : Layout σ :=
  src.foldl (fun l e => retarget (src.findIdx fun e' => e'.1 = e.1) (targets m e.1) l) src

/-- The pairs for which an error is printed, convert_layout_pdk.py 235–239. -/
def reported {σ : Type} (m : Dict Pair (List Layer)) (src : Layout σ) : List Pair :=
  (src.filter fun e => (m.get? e.1).isNone).map Prod.fst

/-- `rank_by_tech[idx]`, convert_layout_pdk.py 205–213. -/
def rank (pairs : List Pair) (tech : List Layer) : Nat := (pairs.filter fun p => p ∈ tech.map Layer.pair).length

/-- `numpy.argmax`: the first position of the greatest value. -/
def argmax : List Nat → Nat
  | [] => 0
  | [_] => 0
  | x :: y :: l => if ((y :: l).foldl max 0) ≤ x then 0 else argmax (y :: l) + 1

/-- `guess_technology`, convert_layout_pdk.py 201–215. -/
def guess (pairs : List Pair) (techs : List (List Layer)) : Nat := argmax (techs.map (rank pairs))

/-- `invert_dict`, convert_layout_pdk.py 294–300. -/
def invert (d : Dict Str (List Str)) : Dict Str (List Str) :=
  d.foldl (fun n row => row.2.foldl (fun (n : Dict Str (List Str)) lpp => n.upd lpp [] (· ++ [row.1])) n) []

/-- The table, convert_layout_pdk.py 352–391. -/
def sky130ToSg13g2 : Dict Str (List Str) :=
  [("boundary", ["prBoundary.boundary"]), ("prBoundary.boundary", ["prBoundary.boundary"]), ("tap.drawing", ["Activ.drawing"]),
   ("diff.drawing", ["Activ.drawing"]), ("nwell.drawing", ["NWell.drawing"]), ("nwell.label", ["NWell.pin", "NWell.label"]),
   ("pwell.drawing", ["PWell.drawing"]), ("pwell.label", ["PWell.pin", "PWell.label"]), ("pwell.pin", ["PWell.pin"]),
   ("nsdm.drawing", ["nSD.drawing"]), ("psdm.drawing", ["pSD.drawing"]), ("poly.drawing", ["GatPoly.drawing"]),
   ("licon1.drawing", ["Cont.drawing"]), ("li1.drawing", ["Metal1.drawing"]), ("li1.pin", ["Metal1.pin"]),
   ("li1.label", ["Metal1.pin", "Metal1.text"]), ("mcon.drawing", ["Via1.drawing"]), ("met1.drawing", ["Metal2.drawing"]),
   ("met1.pin", ["Metal2.pin"]), ("met1.label", ["Metal2.pin", "Metal2.text"]), ("via.drawing", ["Via2.drawing"]),
   ("met2.drawing", ["Metal3.drawing"]), ("met2.pin", ["Metal3.pin"]), ("met2.label", ["Metal3.pin", "Metal3.text"]),
   ("via2.drawing", ["Via3.drawing"]), ("met3.drawing", ["Metal4.drawing"]), ("met3.pin", ["Metal4.pin"]),
   ("met3.label", ["Metal4.pin", "Metal4.text"]), ("via3.drawing", ["Via4.drawing"]), ("met4.drawing", ["Metal5.drawing"]),
   ("met4.pin", ["Metal5.pin"]), ("met4.label", ["Metal5.pin", "Metal5.text"]), ("via4.drawing", ["TopVia1.drawing"]),
   ("met5.drawing", ["TopMetal1.drawing"]), ("met5.pin", ["TopMetal1.pin"]), ("met5.label", ["TopMetal1.pin", "TopMetal1.text"]),
   ("capacitor.drawing", ["Recog.mom"]), ("capm2.drawing", ["MIM.drawing"])].map fun (r : String × List String) =>
     (r.1.toList, r.2.map String.toList)

/-- `main`, convert_layout_pdk.py 336–403, from the layers of the two technologies and the flattened layout. -/
def convert {σ : Type} (tech0 tech1 : List Layer) (src : Layout σ) : Except String (Layout σ) :=
  if guess (src.map Prod.fst) [tech0, tech1] = 1 then
    (layerMapping (invert sky130ToSg13g2) tech1 tech0).map fun m => mapLayers (bySourcePair m) src
  else (layerMapping sky130ToSg13g2 tech0 tech1).map fun m => mapLayers (bySourcePair m) src

/-! ### Layer names (`parse_layers`, convert_layout_pdk.py 254–291) -/

/-- `\w` -/
def isWord (c : Char) : Bool := c.isAlphanum || c = '_'

/-- `^(?P<layer>\w+)(\.(?P<purpose>\w+))?(\s.*)?$`: the three parts exclude each other by their first character, so that there is
no backtracking. -/
def parseName (s : Str) : Option (Str × Option Str) :=
  let name := s.takeWhile isWord
  if name = [] then none
  else match s.dropWhile isWord with
    | [] => some (name, none)
    | c :: rest =>
      if isWs c then some (name, none)
      else if c = '.' then
        let p := rest.takeWhile isWord
        if p = [] then none
        else match rest.dropWhile isWord with
          | [] => some (name, some p)
          | c :: _ => if isWs c then some (name, some p) else none
      else none

/-- `int(…)` of a sequence of digits -/
def number (s : Str) : Nat := Nat.ofDigitChars 10 s 0

/-- `^(?P<gds_layer>\d+)/(?P<gds_datatype>\d+).*$` -/
def parseSource (s : Str) : Option Pair :=
  let a := s.takeWhile Char.isDigit
  if a = [] then none
  else match s.dropWhile Char.isDigit with
    | '/' :: rest =>
      let b := rest.takeWhile Char.isDigit
      if b = [] then none else some (number a, number b)
    | _ => none

/-- One entry, convert_layout_pdk.py 259–289: what cannot be parsed is empty and zero. -/
def parseLayer (name source : Str) : Layer :=
  ⟨((parseName name).map Prod.fst).getD [], (parseName name).elim (some []) Prod.snd, (parseSource source).getD (0, 0)⟩

end Verif.LayerMap
