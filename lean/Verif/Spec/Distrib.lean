import Verif.Model.Distrib
import Verif.Spec.Json

/-!
# Specification: the file written by `distributions`

The tables as lists of lines, independent of how and when they are written.
-/

namespace Verif

/-- What is used of `"%20.12e" % x` for finite numbers: twenty characters, no line break, the last one a digit. -/
structure NumFormat (num : ℝ → List Char) : Prop where
  width : ∀ x, (num x).length = 20
  oneLine : ∀ x, '\n' ∉ num x
  digit : ∀ x, ∃ p c, num x = p ++ [c] ∧ '0' ≤ c ∧ c ≤ '9'

/-- a line of a table: the name in eighteen columns, then the numbers, each after a space -/
def rowLine (num : ℝ → List Char) (name : String) (values : List ℝ) : List Char :=
  padRight 18 (name.toList.take 18) ++ values.flatMap fun x => ' ' :: num x

/-- the lines of the wing table -/
def wingLines (num : ℝ → List Char) (t : List WingRow) : List (List Char) :=
  ["# WingDistributions ".toList, "# ".toList ++ captionLine wingCaptions] ++ t.map fun r => rowLine num r.name r.columns

/-- the lines of the propeller table, after two empty ones -/
def propLines (num : ℝ → List Char) (t : List PropRow) : List (List Char) :=
  ["# ".toList, "# ".toList, "# PropellerDistributions ".toList, "# ".toList ++ captionLine propCaptions] ++
    t.map fun r => rowLine num r.name r.columns

/-- lines, each followed by the separator `e` -/
def endLines (e : List Char) (ls : List (List Char)) : List Char := ls.flatMap fun l => l ++ e

/-- the file name asks for JSON output -/
def AsksJson (filename : String) : Prop := ∃ p, filename.toList = p ++ "json".toList

/-- the number under a caption -/
def under (caption : String) (captions : List String) (values : List ℝ) : Option ℝ := (captions.zip values).lookup caption

/-- column `k` (from zero) of a line of a table: twenty-one characters, after the eighteen of the name -/
def column (k : ℕ) (line : List Char) : List Char := (line.drop (18 + 21 * k)).take 21

/-- `x` degrees are `θ` radians -/
def IsDegrees (x θ : ℝ) : Prop := x * Real.pi / 180 = θ

/-- names without line breaks -/
def OneLine (s : String) : Prop := '\n' ∉ s.toList

end Verif
