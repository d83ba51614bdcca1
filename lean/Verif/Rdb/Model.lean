import Verif.Common.PyStr
import Verif.Common.Firsts

/-!
# Model of `klayout_pex/klayout/repair_rdb.py`

XML elements have a tag, a text and children.  Attributes and the text after child elements are not modelled (they are
neither read nor changed; in particular a `name` element is taken to contain text only).
-/

namespace Verif.Rdb

/-! ### Category paths -/

/-- The local variables of `parse_category_path`, repair_rdb.py 49–52. -/
structure Scan where
  esc : Bool := false
  back : Bool := false
  word : Str := []
  done : List Str := []

/-- One iteration of the loop, repair_rdb.py 53–78. -/
def step (s : Scan) (c : Char) : Scan :=
  if c = '.' then
    if s.back then { s with word := s.word ++ [c], back := false }
    else if s.esc then { s with word := s.word ++ [c] }
    else { s with done := s.done ++ [s.word], word := [] }
  else if c = '\\' then
    if s.back then { s with word := s.word ++ [c], back := false }
    else { s with back := true }
  else if c = '\'' then
    if s.back then { s with word := s.word ++ [c], back := false }
    else { s with esc := !s.esc }
  else { s with word := s.word ++ [c] }

/-- The end of the function, repair_rdb.py 79–81. -/
def finish (s : Scan) : List Str := if s.word.length ≥ 1 then s.done ++ [s.word] else s.done

/-- `parse_category_path`, repair_rdb.py 48–81. -/
def parseCategoryPath (path : Str) : List Str := finish (path.foldl step {})

/-! ### Repair -/

/-- An XML element (`text` is empty if there is none). -/
inductive Elem where
  | mk (tag : String) (text : Str) (children : List Elem)

def Elem.tag : Elem → String
  | .mk t _ _ => t

def Elem.text : Elem → Str
  | .mk _ t _ => t

def Elem.children : Elem → List Elem
  | .mk _ _ cs => cs

/-- Replaces the first child with the property. -/
def replaceFirst (p : Elem → Bool) (x' : Elem) : List Elem → List Elem
  | [] => []
  | x :: xs => if p x then x' :: xs else x :: replaceFirst p x' xs

/-- `./categories` -/
def isCats (e : Elem) : Bool := e.tag == "categories"

/-- `./category/name[.='c']/..` -/
def isNamed (c : Str) (e : Elem) : Bool :=
  e.tag == "category" && e.children.any fun n => n.tag == "name" && n.text == c

/-- The new category, repair_rdb.py 100–104. -/
def newCategory (c : Str) : Elem := .mk "category" [] [.mk "name" c [], .mk "description" [] [], .mk "categories" [] []]

/-- The loop over the components of a path, repair_rdb.py 94–107, as a function of the element and the remaining components.
A name with a quote breaks out of the quotes of the search expression; this is modelled as an error (in rare cases the
resulting expression is valid, but searches for something else). -/
def addPath : List Str → Elem → Except String Elem
  | [], e => .ok e
  | c :: p, e =>
    match e.children.find? isCats with
    | none => .error "AttributeError"
    | some cats =>
      if c.contains '\'' then .error "SyntaxError"
      else
        match cats.children.find? (isNamed c) with
        | some sub =>
          match addPath p sub with
          | .error m => .error m
          | .ok sub' => .ok (.mk e.tag e.text (replaceFirst isCats
              (.mk cats.tag cats.text (replaceFirst (isNamed c) sub' cats.children)) e.children))
        | none =>
          match addPath p (newCategory c) with
          | .error m => .error m
          | .ok sub' => .ok (.mk e.tag e.text (replaceFirst isCats
              (.mk cats.tag cats.text (cats.children ++ [sub'])) e.children))

/-- `root.findall('./items/item/category')`, repair_rdb.py 87. -/
def itemCategories (root : Elem) : List Elem :=
  (((root.children.filter fun x => x.tag == "items").flatMap fun x =>
    x.children.filter fun y => y.tag == "item").flatMap fun y => y.children.filter fun z => z.tag == "category")

/-- Sorting of lists of strings (`list.sort`), repair_rdb.py 90. -/
def insertPath (p : List Str) : List (List Str) → List (List Str)
  | [] => [p]
  | q :: qs => if p ≤ q then p :: q :: qs else q :: insertPath p qs

def sortPaths (ps : List (List Str)) : List (List Str) := ps.foldr insertPath []

/-- `categories` and `category_paths`, repair_rdb.py 86–90: the distinct texts, parsed and sorted. -/
def categoryPaths (root : Elem) : List (List Str) :=
  sortPaths ((firsts ((itemCategories root).map Elem.text)).map parseCategoryPath)

/-- The loop over all paths, repair_rdb.py 92–107. -/
def addPaths : List (List Str) → Elem → Except String Elem
  | [], e => .ok e
  | p :: ps, e =>
    match addPath p e with
    | .error m => .error m
    | .ok e' => addPaths ps e'

/-- `repair_rdb_xml`, repair_rdb.py 83–109: from the tree that is read to the tree that is written.  An element without text
has the text `None` in Python, over which `parse_category_path` cannot iterate. -/
def repair (root : Elem) : Except String Elem :=
  if (itemCategories root).any (fun e => e.text.isEmpty) then .error "TypeError"
  else addPaths (categoryPaths root) root

end Verif.Rdb
