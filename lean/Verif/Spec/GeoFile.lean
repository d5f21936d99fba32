import Verif.Spec.StatusOutput

/-!
# How Gmsh reads a file

The part of the language of .geo files that is used for networks: the commands `Merge`, `Physical` and
`Characteristic Length` and definitions of numbers.
-/

namespace Spec.Geo
open Spec.StatusOutput

/-! ## Characters -/

def IsDigit (c : Char) : Bool := decide (48 ≤ c.toNat ∧ c.toNat ≤ 57)

/-- Characters of words and numbers. -/
def isWord (c : Char) : Bool :=
  c.isAlphanum || c == '_' || c == '.' || c == '+' || c == '-'

/-- White space. -/
def isBlank (c : Char) : Bool := c == ' ' || c == '\n'

/-! ## Tokens -/

inductive Token where
  | word (l : List Char)
  | string (l : List Char)
  | symbol (c : Char)
deriving DecidableEq

/-- What has been read since the last token. -/
inductive Mode where
  | start
  | word (l : List Char)
  | string (l : List Char)
  | slash
  | comment
deriving DecidableEq

/-- The token that ends where the next character does not belong to it. -/
def Mode.finish : Mode → List Token
  | .start => []
  | .word l => [.word l]
  | .string _ => []
  | .slash => [.symbol '/']
  | .comment => []

/-- A character that begins a token. -/
def begin (c : Char) : Mode × List Token :=
  if isWord c then (.word [c], [])
  else if c = '"' then (.string [], [])
  else if c = '/' then (.slash, [])
  else if isBlank c then (.start, [])
  else (.start, [.symbol c])

/-- The next character: comments begin with two slashes and end with the line, strings end with the next quotation
mark. -/
def next : Mode → Char → Mode × List Token
  | .start, c => begin c
  | .word l, c => if isWord c then (.word (l ++ [c]), []) else ((begin c).1, .word l :: (begin c).2)
  | .string l, c => if c = '"' then (.start, [.string l]) else (.string (l ++ [c]), [])
  | .slash, c => if c = '/' then (.comment, []) else ((begin c).1, .symbol '/' :: (begin c).2)
  | .comment, c => if c = '\n' then (.start, []) else (.comment, [])

/-- The tokens of a text. -/
def tokens : Mode → List Char → List Token
  | m, [] => m.finish
  | m, c :: t => (next m c).2 ++ tokens (next m c).1 t

/-! ## Numbers -/

/-- A sequence of digits. -/
def digits (l : List Char) : Option ℕ := if l ≠ [] ∧ l.all IsDigit then some (readDigits l) else none

/-- An exponent: nothing or `e` with a sign and digits. -/
def exponent : List Char → Option ℤ
  | [] => some 0
  | 'e' :: '+' :: l => (digits l).map fun n : ℕ => (n : ℤ)
  | 'e' :: '-' :: l => (digits l).map fun n : ℕ => -(n : ℤ)
  | 'e' :: l => (digits l).map fun n : ℕ => (n : ℤ)
  | _ => none

/-- The digits behind the point and the exponent. -/
def tail : List Char → Option (List Char × ℤ)
  | '.' :: l => (exponent (l.dropWhile IsDigit)).map fun e => (l.takeWhile IsDigit, e)
  | l => (exponent l).map fun e => ([], e)

/-- A number without sign: digits, a point and further digits, an exponent. -/
noncomputable def unsigned (l : List Char) : Option ℝ :=
  if l.takeWhile IsDigit = [] then none
  else (tail (l.dropWhile IsDigit)).map fun p =>
    (readDigits (l.takeWhile IsDigit ++ p.1) : ℝ) / 10 ^ p.1.length * (10 : ℝ) ^ p.2

/-- A number. -/
noncomputable def number : List Char → Option ℝ
  | '-' :: l => (unsigned l).map fun x => -x
  | l => unsigned l

/-! ## Commands -/

inductive Kind where
  | volume | surface | line
deriving DecidableEq

inductive Command where
  /-- The contents of another file are read. -/
  | merge (path : List Char)
  /-- A variable is set. -/
  | define (name : List Char) (value : ℝ)
  /-- A physical group with a tag is defined. -/
  | physical (kind : Kind) (tag : ℕ) (items : List ℕ)
  /-- The mesh size at the points of the items is set to the value of a variable. -/
  | meshSize (kind : Kind) (items : List ℕ) (name : List Char)

def kind (l : List Char) : Option Kind :=
  if l = "Volume".toList then some .volume
  else if l = "Surface".toList then some .surface
  else if l = "Line".toList then some .line
  else none

/-- Items separated by commas up to a closing brace. -/
def items : List Token → Option (List ℕ × List Token)
  | .word l :: .symbol ',' :: t =>
      match digits l, items t with
      | some n, some (r, t') => some (n :: r, t')
      | _, _ => none
  | .word l :: .symbol '}' :: t => (digits l).map fun n => ([n], t)
  | _ => none

/-- A command and what follows it. -/
noncomputable def command : List Token → Option (Command × List Token)
  | .word a :: t =>
      if a = "Merge".toList then
        match t with
        | .string p :: .symbol ';' :: t => some (.merge p, t)
        | _ => none
      else if a = "Physical".toList then
        match t with
        | .word k :: .symbol '(' :: .word n :: .symbol ')' :: .symbol '=' :: .symbol '{' :: t =>
            match kind k, digits n, items t with
            | some k, some n, some (l, .symbol ';' :: t) => some (.physical k n l, t)
            | _, _, _ => none
        | _ => none
      else if a = "Characteristic".toList then
        match t with
        | .word b :: .symbol '{' :: .word c :: .symbol '{' :: .word k :: .symbol '{' :: t =>
            match kind k, items t with
            | some k, some (l, .symbol ';' :: .symbol '}' :: .symbol '}' :: .symbol '=' :: .word v :: .symbol ';' :: t) =>
                if b = "Length".toList ∧ c = "PointsOf".toList then some (.meshSize k l v, t) else none
            | _, _ => none
        | _ => none
      else
        match t with
        | .symbol '=' :: .word v :: .symbol ';' :: t => (number v).map fun x => (.define a x, t)
        | _ => none
  | _ => none

/-- A sequence of commands; `fuel` bounds their number. -/
noncomputable def commands : ℕ → List Token → Option (List Command)
  | _, [] => some []
  | 0, _ => none
  | fuel + 1, t =>
      match command t with
      | some (c, t') => (commands fuel t').map (c :: ·)
      | none => none

/-- The meaning of a file (`none` if it cannot be read). -/
noncomputable def read (text : List Char) : Option (List Command) :=
  commands (tokens .start text).length (tokens .start text)

/-! ## Paths -/

/-- The directory of a path, with the slash at the end. -/
def directory (path : List Char) : List Char := (path.reverse.dropWhile (· ≠ '/')).reverse

/-- The file that a path in a file refers to: relative paths are relative to the directory of the file. -/
def resolve (file path : List Char) : List Char :=
  match path with
  | '/' :: _ => path
  | _ => directory file ++ path

end Spec.Geo
