import Verif.SolverLog.Model

/-!
# Specification: how solvers print a matrix
-/

namespace Verif.SolverLog

/-- A non-empty text without white space. -/
def Token (w : Str) : Prop := w ≠ [] ∧ ∀ x ∈ w, isWs x = false

/-- Tokens separated by one or more blanks. -/
inductive Spaced : Str → List Str → Prop
  | last {w : Str} (hw : Token w) : Spaced w [w]
  | cons {w : Str} (hw : Token w) (gap : Nat) {rest : Str} {ws : List Str} (h : Spaced rest ws) :
      Spaced (w ++ (' ' :: List.replicate gap ' ') ++ rest) (w :: ws)

/-- A line with these tokens, possibly indented or followed by white space. -/
def LineOf (line : Str) (toks : List Str) : Prop :=
  ∃ lead body trail, line = lead ++ body ++ trail ∧ (∀ x ∈ lead, isWs x = true) ∧ (∀ x ∈ trail, isWs x = true) ∧
    Spaced body toks

/-- The line shows a name and then the values. -/
def ShowsRow (flt : Str → Option ℚ) (line : Str) (row : Str × List ℚ) : Prop :=
  ∃ toks, LineOf line (row.1 :: toks) ∧ List.Forall₂ (fun t v => flt t = some v) toks row.2

/-- A matrix as FasterCap prints it: header, `Dimension n x n`, one line per conductor. -/
def ShowsMatrix (flt : Str → Option ℚ) (block : List Str) (rows : List (Str × List ℚ)) : Prop :=
  ∃ hdr ls, block = hdr :: ("Dimension ".toList ++ (toString rows.length).toList ++ " x ".toList ++
      (toString rows.length).toList) :: ls ∧ strip hdr = "Capacitance matrix is:".toList ∧
    List.Forall₂ (ShowsRow flt) ls rows

/-- The first part of such a block, cut after `k` rows of a matrix of dimension `n`. -/
def ShowsPart (flt : Str → Option ℚ) (block : List Str) (n : Nat) (rows : List (Str × List ℚ)) : Prop :=
  ∃ hdr ls, block = hdr :: ("Dimension ".toList ++ (toString n).toList ++ " x ".toList ++ (toString n).toList) :: ls ∧
    strip hdr = "Capacitance matrix is:".toList ∧ List.Forall₂ (ShowsRow flt) ls rows

/-- The parsed matrix for shown rows: values scaled by 1e-6. -/
def scaled (rows : List (Str × List ℚ)) : Matrix :=
  ⟨rows.map Prod.fst, rows.map fun r => r.2.map (· / 1000000)⟩

/-- A row as FastCap2 prints it: name, one blank, running number, values. -/
def ShowsRow2 (flt : Str → Option ℚ) (line : Str) (row : Str × List ℚ) : Prop :=
  ∃ lead name num gap rest trail toks, line = lead ++ (name ++ ' ' :: (num ++ (' ' :: List.replicate gap ' ') ++ rest)) ++ trail ∧
    (∀ x ∈ lead, isWs x = true) ∧ (∀ x ∈ trail, isWs x = true) ∧ Token name ∧ Token num ∧ name = row.1 ∧
    Spaced rest toks ∧ List.Forall₂ (fun t v => flt t = some v) toks row.2

/-- A matrix as FastCap2 prints it: header with unit, line of column numbers, one line per conductor. -/
def ShowsMatrix2 (flt : Str → Option ℚ) (unit : Str) (block : List Str) (rows : List (Str × List ℚ)) : Prop :=
  ∃ cols ls toks, block = ("CAPACITANCE MATRIX, ".toList ++ unit) :: cols :: ls ∧ unit ≠ [] ∧ (∀ x ∈ unit, isWord x = true) ∧
    LineOf cols toks ∧ toks.length = rows.length ∧ List.Forall₂ (ShowsRow2 flt) ls rows

end Verif.SolverLog
