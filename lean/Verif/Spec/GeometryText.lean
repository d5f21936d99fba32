import Verif.Spec.GeoFile

/-!
# Reading points, vectors and directions from their text
-/

namespace Spec.GeometryText
open Spec.Geo

/-- The parts of a text between separators. -/
def fields (sep : Char) : List Char → List (List Char)
  | [] => [[]]
  | c :: t =>
    if c = sep then [] :: fields sep t
    else match fields sep t with
      | [] => [[c]]
      | f :: fs => (c :: f) :: fs

/-- Numbers separated by blanks. -/
noncomputable def readStream (text : List Char) : List (Option ℝ) := (fields ' ' text).map number

/-- What precedes the first blank. -/
def readHeading (text : List Char) : List Char := text.takeWhile (· ≠ ' ')

/-- The numbers, separated by commas, in the remainder of the text; blanks and parentheses are ignored. -/
noncomputable def readRepr (text : List Char) : List (Option ℝ) :=
  (fields ',' ((text.dropWhile (· ≠ ' ')).filter fun c => c ≠ ' ' ∧ c ≠ '(' ∧ c ≠ ')')).map number

end Spec.GeometryText
