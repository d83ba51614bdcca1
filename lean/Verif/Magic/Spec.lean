import Verif.Magic.Model

/-!
# Specification: what the lines of a Magic extraction say
-/

namespace Verif.Magic

/-- Non-negative number in decimal notation. -/
def DecNat (a : Str) (n : Nat) : Prop := a ≠ [] ∧ (∀ c ∈ a, c.isDigit = true) ∧ Nat.ofDigitChars 10 a 0 = n

/-- Integer in decimal notation. -/
def DecInt (a : Str) (z : ℤ) : Prop := (∃ n : Nat, DecNat a n ∧ z = n) ∨ ∃ b n, a = '-' :: b ∧ DecNat b n ∧ z = -(n : ℤ)

/-- Decimal number without a sign: digits, possibly a point and more digits, at least one digit in total. -/
def DecFrac (a : Str) (q : ℚ) : Prop :=
  (∃ n, DecNat a n ∧ q = n) ∨
  ∃ u v : Str, a = u ++ '.' :: v ∧ (∀ c ∈ u ++ v, c.isDigit = true) ∧ u ++ v ≠ [] ∧
    q = (Nat.ofDigitChars 10 u 0 : ℚ) + (Nat.ofDigitChars 10 v 0 : ℚ) / 10 ^ v.length

/-- Decimal number. -/
def DecNum (a : Str) (q : ℚ) : Prop := (DecFrac a q) ∨ ∃ b r, a = '-' :: b ∧ DecFrac b r ∧ q = -r

/-- Letters, digits and underscores. -/
def Word (a : Str) : Prop := a ≠ [] ∧ ∀ c ∈ a, c.isAlphanum = true ∨ c = '_'

/-- Letters, digits, underscores, points and backslashes. -/
def Name (a : Str) : Prop := a ≠ [] ∧ ∀ c ∈ a, c.isAlphanum = true ∨ c = '_' ∨ c = '\\' ∨ c = '.'

/-- `t` is the line without the white space around it. -/
def Trimmed (line t : Str) : Prop :=
  ∃ u v, line = u ++ t ++ v ∧ (∀ c ∈ u, isWs c = true) ∧ (∀ c ∈ v, isWs c = true) ∧
    (∀ c, t.head? = some c → isWs c = false) ∧ ∀ c, t.getLast? = some c → isWs c = false

/-- `port "net" number x y x y layer` -/
def PortLine (line : Str) (p : Port) : Prop :=
  ∃ nr n x1 y1 x2 y2, Trimmed line (["port \"".toList, p.net, "\" ".toList, nr, " ".toList, x1, " ".toList, y1, " ".toList, x2,
      " ".toList, y2, " ".toList, p.layer].flatten) ∧
    Word p.net ∧ DecNat nr n ∧ DecInt x1 p.xBot ∧ DecInt y1 p.yBot ∧ DecInt x2 p.xTop ∧ DecInt y2 p.yTop ∧ Word p.layer

/-- `node "net" R C x y layer …`, or the same with `substrate`. -/
def NodeLine (line : Str) (p : Node) : Prop :=
  ∃ key r c x y more, (key = "node \"".toList ∨ key = "substrate \"".toList) ∧
    Trimmed line ([key, p.net, "\" ".toList, r, " ".toList, c, " ".toList, x, " ".toList, y, " ".toList, p.layer, " ".toList,
      more].flatten) ∧
    Word p.net ∧ DecNat r p.intR ∧ DecNat c p.finC ∧ DecInt x p.xBot ∧ DecInt y p.yBot ∧ Word p.layer

/-- `device type model x y x y …` -/
def DeviceLine (line : Str) (p : Device) : Prop :=
  ∃ x1 y1 x2 y2 more, Trimmed line (["device ".toList, p.type, " ".toList, p.model, " ".toList, x1, " ".toList, y1, " ".toList,
      x2, " ".toList, y2, " ".toList, more].flatten) ∧
    Word p.type ∧ Word p.model ∧ DecInt x1 p.xBot ∧ DecInt y1 p.yBot ∧ DecInt x2 p.xTop ∧ DecInt y2 p.yTop

/-- The devices Magic knows. -/
def KnownType (t : Str) : Prop :=
  String.ofList t ∈ ["fet", "mosfet", "asymmetric", "bjt", "devres", "devcap", "devcaprev", "vsource", "diode", "pdiode",
    "ndiode", "subckt", "rsubckt", "msubckt", "csubckt"]

/-- `rnode "name" R C x y 0` -/
def RNodeLine (line : Str) (p : ResNode) : Prop :=
  ∃ r c x y, Trimmed line (["rnode \"".toList, p.name, "\"".toList, " ".toList, r, " ".toList, c, " ".toList, x, " ".toList, y,
      " 0".toList].flatten) ∧
    Name p.name ∧ DecInt r p.intR ∧ DecInt c p.finC ∧ DecInt x p.xBot ∧ DecInt y p.yBot

/-- `resist "name" "name" value`, where the value is written as `v`. -/
def ResistText (line : Str) (a b v : Str) : Prop :=
  Trimmed line (["resist \"".toList, a, "\" \"".toList, b, "\" ".toList, v].flatten) ∧ Name a ∧ Name b

/-- The same with a number as its value. -/
def ResistLine (line : Str) (p : Resistor) : Prop := ∃ v, ResistText line p.node1 p.node2 v ∧ DecNum v p.value

/-- What looks like a number: digits, points and backslashes, perhaps after a minus sign. -/
def Numeric (v : Str) : Prop :=
  ∃ w, (v = w ∨ v = '-' :: w) ∧ w ≠ [] ∧ ∀ c ∈ w, c.isDigit = true ∨ c = '\\' ∨ c = '.'

/-- The things the lines describe, in the order of the lines. -/
inductive Collected {α : Type} (R : Str → α → Prop) : List Str → List α → Prop
  | nil : Collected R [] []
  | take {line lines a out} : R line a → Collected R lines out → Collected R (line :: lines) (a :: out)
  | skip {line lines out} : (∀ a, ¬ R line a) → Collected R lines out → Collected R (line :: lines) out

end Verif.Magic
