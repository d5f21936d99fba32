import Verif.Model.IO.BRepWriter
import Verif.Model.Sampling.StatusOutput
import Mathlib.Data.Int.Log

/-!
# Files written by `GmshWriter`

frackit/io/gmshwriter.hh and the function `write` of frackit/io/brepwriter.hh.  Floating point numbers are real numbers.
-/

namespace Frackit
open Verif

/-! ## Output of floating point numbers

`operator<<` for `double` with the settings of a new stream: the conversion `%g` of the C library with the precision
six. -/

namespace GeneralFormat

/-- Rounding to the nearest integer; a number in the middle of two integers is rounded to the even one. -/
noncomputable def roundEven (y : ℝ) : ℕ :=
  if y - ⌊y⌋₊ < 1 / 2 then ⌊y⌋₊
  else if 1 / 2 < y - ⌊y⌋₊ then ⌊y⌋₊ + 1
  else if ⌊y⌋₊ % 2 = 0 then ⌊y⌋₊ else ⌊y⌋₊ + 1

/-- The last `k` digits of a number. -/
def padded : ℕ → ℕ → List Char
  | 0, _ => []
  | k + 1, n => padded k (n / 10) ++ [digitChar (n % 10)]

/-- Removes the zeros at the end. -/
def stripZeros (l : List Char) : List Char := (l.reverse.dropWhile (· = '0')).reverse

/-- The digits behind the point, and the point if there are any. -/
def fraction (l : List Char) : List Char :=
  match stripZeros l with
  | [] => []
  | c :: t => '.' :: c :: t

/-- Six significant digits (as an integer) and the exponent of the first of them, for a positive number. -/
noncomputable def significant (x : ℝ) : ℕ × ℤ :=
  if roundEven (x * (10 : ℝ) ^ (5 - Int.log 10 x)) = 10 ^ 6 then (10 ^ 5, Int.log 10 x + 1)
  else (roundEven (x * (10 : ℝ) ^ (5 - Int.log 10 x)), Int.log 10 x)

/-- The digits `n` with the exponent `e`: in scientific notation if the exponent is less than -4 or at least 6.  (The
exponent has at least two digits.) -/
def layout (n : ℕ) (e : ℤ) : List Char :=
  if e < -4 ∨ 6 ≤ e then
    decimal (n / 10 ^ 5) ++ fraction (padded 5 (n % 10 ^ 5)) ++ 'e' :: (if e < 0 then '-' else '+') ::
      (if e.natAbs < 10 then '0' :: decimal e.natAbs else decimal e.natAbs)
  else
    decimal (n / 10 ^ (5 - e).toNat) ++ fraction (padded (5 - e).toNat (n % 10 ^ (5 - e).toNat))

open Classical in
/-- `operator<<` for floating point numbers. -/
noncomputable def print (x : ℝ) : List Char :=
  if x = 0 then ['0']
  else if x < 0 then '-' :: layout (significant (-x)).1 (significant (-x)).2
  else layout (significant x).1 (significant x).2

end GeneralFormat

/-! ## The text of the file -/

namespace GmshWriter
variable {Sh : Type}

/-- Quotation mark. -/
def quote : List Char := ['"']

/-- The names used for the kinds, e.g. frackit/io/gmshwriter.hh:88-89 (two-dimensional entities). -/
def kindName : GeoKind → List Char
  | .volume => "Volume".toList
  | .surface => "Surface".toList
  | .line => "Line".toList

/-- A list separated by commas, e.g. frackit/io/gmshwriter.hh:92-94.  (The list is never empty when this is called, see
`items`.) -/
def itemText : List ℕ → List Char
  | [] => []
  | a :: t => decimal a ++ t.flatMap fun j => ", ".toList ++ decimal j

/-- The lines of a statement, frackit/io/gmshwriter.hh:87-104, 114-131, 141-149. -/
def statementText : GeoStatement → List Char
  | .physical kind id l =>
      "Physical ".toList ++ kindName kind ++ "(".toList ++ decimal id ++ ") = {".toList ++ itemText l ++ "};\n".toList
  | .meshSize kind l atBoundary =>
      "Characteristic Length{ PointsOf{".toList ++ kindName kind ++ "{".toList ++ itemText l ++
        (if atBoundary then "};} } = sizeAtBoundary;\n".toList else "};} } = sizeAtEntities;\n".toList)

/-- One of the three sections, e.g. frackit/io/gmshwriter.hh:81-106; it is omitted if the map is empty. -/
def section' (title : List Char) (order : List ℕ) (l : List GeoStatement) : List Char :=
  if order.isEmpty then [] else "\n// ".toList ++ title ++ "\n".toList ++ l.flatMap statementText

/-- The beginning of the file, frackit/io/gmshwriter.hh:72-79. -/
noncomputable def header (fileName : List Char) (meshSizeAtEntities meshSizeAtBoundary : ℝ) : List Char :=
  "Merge ".toList ++ quote ++ (fileName ++ ".brep".toList) ++ quote ++ ";\n\n".toList ++
  "// mesh size definitions\n".toList ++
  "sizeAtEntities = ".toList ++ GeneralFormat.print meshSizeAtEntities ++ ";\n".toList ++
  "sizeAtBoundary = ".toList ++ GeneralFormat.print meshSizeAtBoundary ++ ";\n".toList

/-- The contents of the .geo file, frackit/io/gmshwriter.hh:65-152.  The orders are those of the traversals of the three
maps. -/
noncomputable def text (fileName : List Char) (meshSizeAtEntities meshSizeAtBoundary : ℝ)
    (domOrder entOrder isOrder : List ℕ) (w : BRepWriter Sh) : Outcome (List Char) := do
  let a ← groups .volume (some true) w.domainToFragments domOrder
  let b ← groups .surface (some false) w.entityToFragments entOrder
  let c ← groups .line none w.intersectionsToFragments isOrder
  pure (header fileName meshSizeAtEntities meshSizeAtBoundary ++
    section' "Physical domain definitions".toList domOrder a ++
    section' "Physical entity definitions".toList entOrder b ++
    section' "Physical entity intersections definitions".toList isOrder c)

/-! ## Files -/

/-- Contents of files: the shapes of a compound (.brep) or a text (.geo). -/
inductive FileContent (Sh : Type) where
  | brep (shapes : List Sh)
  | geo (text : List Char)

/-- The file system: the files, and the paths at which files can be created or replaced. -/
structure Files (Sh : Type) where
  content : List Char → Option (FileContent Sh)
  writable : List Char → Bool

/-- Writing a file without asking for the success: the return value of `BRepTools::Write` is not used, and the state of
the stream is not tested.  (Simplified: a file is written completely or not at all.) -/
def Files.put (fs : Files Sh) (path : List Char) (c : FileContent Sh) : Files Sh :=
  if fs.writable path then { fs with content := fun p => if p = path then some c else fs.content p } else fs

/-- `BRepWriter::write(fileName)`, frackit/io/brepwriter.hh:93-97. -/
def brepWrite (fs : Files Sh) (w : BRepWriter Sh) (fileName : List Char) : Files Sh :=
  fs.put (fileName ++ ".brep".toList) (.brep w.compound)

/-- `GmshWriter::write(fileName, meshSizeAtEntities, meshSizeAtBoundary)`, frackit/io/gmshwriter.hh:63-152. -/
noncomputable def writeFiles (fs : Files Sh) (domOrder entOrder isOrder : List ℕ) (w : BRepWriter Sh)
    (fileName : List Char) (meshSizeAtEntities meshSizeAtBoundary : ℝ) : Outcome Unit × Files Sh :=
  match text fileName meshSizeAtEntities meshSizeAtBoundary domOrder entOrder isOrder w with
  | .val t => (.val (), (brepWrite fs w fileName).put (fileName ++ ".geo".toList) (.geo t))
  | .thrown e => (.thrown e, brepWrite fs w fileName)
  | .nan => (.nan, brepWrite fs w fileName)
  | .ub => (.ub, brepWrite fs w fileName)

/-- `GmshWriter::write(fileName, meshSizeAtEntities)`, frackit/io/gmshwriter.hh:161-163. -/
noncomputable def writeFilesOneSize (fs : Files Sh) (domOrder entOrder isOrder : List ℕ) (w : BRepWriter Sh)
    (fileName : List Char) (meshSizeAtEntities : ℝ) : Outcome Unit × Files Sh :=
  writeFiles fs domOrder entOrder isOrder w fileName meshSizeAtEntities meshSizeAtEntities

end GmshWriter
end Frackit
