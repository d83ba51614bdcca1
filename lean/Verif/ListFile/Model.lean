import Verif.Common.PyDict
import Verif.Common.PyStr
import Verif.Finalize.Model

/-!
# `write_fastcap`: the list file and the geometry files

Model of `FasterCapModelGenerator.write_fastcap` and `_write_fastercap_geo` (fastercap/fastercap_model_generator.py
738–846). Lines of the files are records; the formatting of numbers (`%.12g`) is not modelled. Triangles are taken from
any type `T` (their text is modelled nowhere, their reference points in area `Finalize`). Writing a file is recorded in
order. The md5/base64 digest of a name is a parameter `digest`.
-/

namespace Verif.ListFile

open Verif.Finalize (HDielKey HCondKey)

variable {T : Type}

/-- Lines of the list file; fastercap_model_generator.py 747, 771, 818. `plus` is the trailing collation operator. -/
inductive Line where
  | void (k : ℚ)
  | diel (file : Str) (kOutside kInside : ℚ)
  | cond (file : Str) (kOutside : ℚ) (plus : Bool)
deriving DecidableEq

/-- A geometry file: number of every `T` line, the triangles and the optional `N` line. -/
structure Geo (T : Type) where
  number : Nat
  tris : List T
  rename : Option Str
deriving DecidableEq

/-- Everything written so far. -/
structure Out (T : Type) where
  fileNum : Nat := 0
  lst : List Line := []
  files : List (Str × Geo T) := []

/-- The parameters of a run: `self.materials`, `self.k_void`, `prefix`, `max_filename_length` and the digest. -/
structure Cfg where
  materials : Dict String ℚ
  kVoid : ℚ
  pre : Str
  maxLen : Option Nat
  digest : Str → Str

/-- `self.materials[m] if m else self.k_void`; fastercap_model_generator.py 755–756, 799. -/
def Cfg.perm (c : Cfg) (m : Option String) : Except String ℚ :=
  match m with
  | none => .ok c.kVoid
  | some m =>
    if m = "" then .ok c.kVoid
    else match c.materials.get? m with
      | some k => .ok k
      | none => .error "KeyError"

/-- `m or '(void)'` -/
def orVoid (m : Option String) : Str :=
  match m with
  | none => "(void)".toList
  | some m => if m = "" then "(void)".toList else m.toList

/-- `s[0:j]` -/
def sliceTo (s : Str) (j : Int) : Str := s.take (if j < 0 then (s.length + j).toNat else j.toNat)

/-- `f"{n}"` -/
def dec (n : Nat) : Str := (toString n).toList

/-- `_write_fastercap_geo`; fastercap_model_generator.py 827–846. -/
def geo (tris : List T) (number : Nat) (condName : Option Str) (renameConductor : Bool) : Geo T :=
  { number := number
    tris := tris
    rename := match condName with
      | some n => if n ≠ [] ∧ renameConductor = true then some n else none
      | none => none }

/-- File name of a dielectric surface; fastercap_model_generator.py 760. -/
def dielName (c : Cfg) (num : Nat) (k : HDielKey) : Str :=
  c.pre ++ dec num ++ "_outside=".toList ++ orVoid k.outside ++ "_inside=".toList ++ orVoid k.inside ++ ".geo".toList

/-- File name of a conductor surface; fastercap_model_generator.py 803–810. -/
def condName (c : Cfg) (num : Nat) (outside : Option String) (nn : Str) : Str :=
  let fn := c.pre ++ dec num ++ "_outside=".toList ++ orVoid outside ++ "_net=".toList ++ nn ++ ".geo".toList
  match c.maxLen with
  | none => fn
  | some mx =>
    if fn.length > mx then
      let h := c.digest nn
      let remaining :=
        (c.pre ++ "_".toList ++ dec num ++ "_outside=".toList ++ orVoid outside ++ "_net=.geo".toList).length
      let short := sliceTo nn ((mx : Int) - remaining - h.length - 1) ++ ("_".toList ++ h)
      c.pre ++ dec num ++ "_outside=".toList ++ orVoid outside ++ "_net=".toList ++ short ++ ".geo".toList
    else fn

/-- Body of the loop over the dielectric surfaces; fastercap_model_generator.py 749–771. -/
def dielStep (c : Cfg) (s : Out T) (kv : HDielKey × List T) : Except String (Out T) := do
  if kv.2.length = 0 then return s
  let fileNum := s.fileNum + 1
  let kOutside ← c.perm kv.1.outside
  let kInside ← c.perm kv.1.inside
  let fn := dielName c fileNum kv.1
  return { fileNum := fileNum
           files := s.files ++ [(fn, geo kv.2 fileNum none false)]
           lst := s.lst ++ [.diel fn kOutside kInside] }

/-- `cond_data_grouped_by_net`; fastercap_model_generator.py 786–790. -/
def group (cond : Dict HCondKey (List T)) : Dict String (List (Option String × List T)) :=
  cond.foldl (fun d kv => if kv.2.length = 0 then d else d.upd kv.1.netName [] (· ++ [(kv.1.outside, kv.2)])) []

/-- Body of the loop over the surfaces of a net; fastercap_model_generator.py 797–818. -/
def surfStep (c : Cfg) (condNum last : Nat) (nn : String) (s : Out T) (x : (Option String × List T) × Nat) :
    Except String (Out T) := do
  let fileNum := s.fileNum + 1
  let kOutside ← c.perm x.1.1
  let fn := condName c fileNum x.1.1 nn.toList
  return { fileNum := fileNum
           files := s.files ++ [(fn, geo x.1.2 condNum (some nn.toList) (x.2 == last))]
           lst := s.lst ++ [.cond fn kOutside (!(x.2 == last))] }

/-- Body of the loop over the nets; fastercap_model_generator.py 794–818. -/
def netStep (c : Cfg) (s : Out T × Nat) (kv : String × List (Option String × List T)) :
    Except String (Out T × Nat) := do
  let condNum := s.2 + 1
  let last := kv.2.length - 1
  let o ← kv.2.zipIdx.foldlM (surfStep c condNum last kv.1) s.1
  return (o, condNum)

/-- `write_fastcap`; fastercap_model_generator.py 738–825. -/
def write (c : Cfg) (diel : Dict HDielKey (List T)) (cond : Dict HCondKey (List T)) : Except String (Out T) := do
  let s ← diel.foldlM (dielStep c) { lst := [.void c.kVoid] }
  let r ← (group cond).foldlM (netStep c) (s, s.fileNum)
  return r.1

end Verif.ListFile
