import Verif.Magic.Model
import Mathlib.Data.List.Sort
import Mathlib.Data.List.Lex
import Mathlib.Data.List.Dedup
import Mathlib.Data.String.Basic

/-!
# Model of `lvs_layer_names.py`

The script that turns the log of an LVS run into declarations of layer names.  The model is the body of `main`; that the file
imports from a package `kpex`, which the repository no longer has, so that the script does not even start, is a finding
(DESIGN.md).  Text is a list of characters, letters and digits are ASCII.
-/

namespace Verif.LayerNames

open Verif.Magic

/-- `re.match(r'^.+ : ([a-zA-Z0-9_]+) has \d+ polygons$', line)` and `m.group(1)`, lvs_layer_names.py 104–106.  The text is
matched from its end, where it is fixed what each part has to be: `$` also matches before a line feed at the end, and `.+`
is what is left, if it is not empty and has no line feed. -/
def matchLine (line : Str) : Option Str :=
  let s := if line.getLast? = some '\n' then line.dropLast else line
  match fullMatch [L "snogylop ", .cls Char.isDigit, L " sah ", .cls isWord, L " : ", .rest] s.reverse with
  | some [_, _, _, n, _, pre] => if pre ≠ [] ∧ '\n' ∉ pre then some n.reverse else none
  | _ => none

/-- `layer_names`, lvs_layer_names.py 99–107, and `sorted(layer_names)`, 119. -/
def layerNames (lines : List Str) : List Str := (lines.filterMap matchLine).dedup.insertionSort (· ≤ ·)

/-- The loop of lvs_layer_names.py 118–127, starting with the counter `cnt`. -/
def writeNames : Nat → List Str → Str
  | cnt, [] => if cnt ≠ 0 then ['\n'] else []
  | cnt, n :: ns =>
    (if cnt + 1 = 1 then "    ".toList else []) ++ n ++ [' '] ++
      if cnt + 1 = 10 then '\n' :: writeNames 0 ns else writeNames (cnt + 1) ns

/-- What is written before the names, lvs_layer_names.py 110–116. -/
def head (version : Str) : Str :=
  "# Script generated by lvs_layer_names version ".toList ++ version ++ "\n\n".toList ++
  "# ================================================================\n".toList ++
  "# ---------------------- SAVE LAYER NAMES ------------------------\n".toList ++
  "# ================================================================\n".toList ++
  "if self.respond_to?(:name)\n".toList ++ "  %w(\n".toList

/-- What is written after them, lvs_layer_names.py 128–131. -/
def tail : Str := "  ).each do |l|\n    name(eval(l), l)\n  end\nend\n".toList

/-- The script that `main` writes, lvs_layer_names.py 99–131. -/
def script (version : Str) (lines : List Str) : Str := head version ++ writeNames 0 (layerNames lines) ++ tail

end Verif.LayerNames
