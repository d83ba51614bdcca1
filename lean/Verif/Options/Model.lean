import Verif.Common.PyStr

/-!
# Model of `klayout_pex/util/argparse_helpers.py` (boolean values) and `klayout_pex/util/multiple_choice.py`

`str.lower()` is modelled for ASCII letters.  (The only other character that becomes an ASCII letter is the Kelvin sign,
which becomes a `k` and does not occur in the words compared.)
-/

namespace Verif.Options

/-- `s.lower()` -/
def lower (s : Str) : Str := s.map Char.toLower

/-- The argument of `true_or_false`: a default value given as `bool`, or a text from the command line. -/
inductive Arg where
  | bool (b : Bool)
  | text (s : Str)

/-- `true_or_false`, argparse_helpers.py 59–69: the patterns `1` and `0` are numbers, which no text equals. -/
def trueOrFalse : Arg → Except String Bool
  | .bool b => .ok b
  | .text s =>
    if lower s = "yes".toList ∨ lower s = "true".toList ∨ lower s = "t".toList ∨ lower s = "y".toList then .ok true
    else if lower s = "no".toList ∨ lower s = "false".toList ∨ lower s = "f".toList ∨ lower s = "n".toList then .ok false
    else .error "Boolean value expected."

/-- `MultipleChoicePattern`, multiple_choice.py 28–55. -/
structure Pattern where
  hasAll : Bool
  hasNone : Bool
  included : List Str
  excluded : List Str
deriving DecidableEq

/-- `components`, multiple_choice.py 46–47. -/
def components (pattern : Str) : List Str := (splitOn ',' pattern).map fun c => strip (lower c)

/-- `[c[1:] for c in components if c.startswith(m)]`, multiple_choice.py 50–51. -/
def marked (m : Char) (cs : List Str) : List Str := (cs.filter fun c => c.head? == some m).map List.tail

/-- `MultipleChoicePattern.__init__`, multiple_choice.py 29–57. -/
def parse (pattern : Str) : Except String Pattern :=
  let cs := components pattern
  let p : Pattern := ⟨cs.contains "all".toList, cs.contains "none".toList, marked '+' cs, marked '-' cs⟩
  if p.hasNone && p.hasAll then .error "ValueError: both"
  else if p.hasNone && decide (p.excluded.length ≥ 1) then .error "ValueError: none"
  else if p.hasAll && decide (p.included.length ≥ 1) then .error "ValueError: all"
  else .ok p

/-- `filter`, multiple_choice.py 59–62. -/
def Pattern.filter (p : Pattern) (choices : List Str) : List Str :=
  if p.hasAll then choices.filter fun c => !p.excluded.contains c
  else choices.filter fun c => p.included.contains c

/-- `is_included`, multiple_choice.py 64–69. -/
def Pattern.isIncluded (p : Pattern) (choice : Str) : Bool :=
  if p.hasNone then p.included.contains choice
  else if p.hasAll then !p.excluded.contains choice
  else false

end Verif.Options
