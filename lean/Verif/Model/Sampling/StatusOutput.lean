import Verif.Model.Sampling.Status
import Mathlib.Algebra.Order.Archimedean.Real.Basic

/-!
# Terminal output of the sampling status

frackit/sampling/status.hh.  Floating point numbers are real numbers.
-/

namespace Frackit
open Verif

/-- The character of a digit. -/
def digitChar (d : ℕ) : Char := Char.ofNat (48 + d)

/-- `std::to_string(n)` and `operator<<` for integers. -/
def decimal (n : ℕ) : List Char :=
  if n < 10 then [digitChar n] else decimal (n / 10) ++ [digitChar (n % 10)]
termination_by n

/-- `operator<<` for non-negative floating point numbers with `std::setprecision(2) << std::fixed`.
(Simplified: a number in the middle of two candidates is rounded up.) -/
noncomputable def fixed2 (x : ℝ) : List Char :=
  let n := ⌊100 * x + 1 / 2⌋₊
  decimal (n / 100) ++ ['.', digitChar (n / 10 % 10), digitChar (n % 10)]

open Classical in
/-- Conversion of a non-negative floating point number to `int`, undefined if it is not representable. -/
noncomputable def toInt (x : ℝ) : Outcome ℕ := if x < 2 ^ 31 then .val ⌊x⌋₊ else .ub

/-- Difference of two values of type `std::size_t` (64 bit). -/
def sizeSub (a b : ℕ) : ℕ := if b ≤ a then a - b else a + 2 ^ 64 - b

/-- `std::string(n, ' ')`; more than 2^63 - 1 characters are never possible.  (Memory is assumed to be
sufficient otherwise.) -/
def spaces (n : ℕ) : Outcome (List Char) :=
  if n < 2 ^ 63 then .val (List.replicate n ' ') else .thrown "std::length_error"

/-- Lines written to the terminal. -/
inductive OutputLine where
  | header
  | row (text : List Char)
  | belowCurrent
  | surpassed (id : ℕ)

/-- `SamplingStatus` with its output, frackit/sampling/status.hh:193-196. -/
structure Console where
  status : SamplingStatus
  headerPrinted : Bool
  lines : List OutputLine

namespace Console

/-- Default construction, frackit/sampling/status.hh:193-196. -/
def init : Console := ⟨SamplingStatus.init, false, []⟩

/-- The sum of the values of a map, `for (const auto& pair : count_) curCount += pair.second`. -/
def total (m : List (ℕ × ℕ)) : ℕ := m.foldl (fun acc p => acc + p.2) 0

/-- The row printed by `print`, frackit/sampling/status.hh:164-189.  The quotient of two zeros or by zero
is not a finite number, so that its conversion to `int` is undefined. -/
noncomputable def row (accepted rejected target : ℕ) : Outcome (List Char) := do
  let ratio : ℝ := 100 * ((accepted : ℝ) / (accepted + rejected : ℕ))
  let progress : ℝ := 100 * (accepted : ℝ) / (target : ℝ)
  let ratioInt ← (if accepted + rejected = 0 then .ub else toInt ratio)
  let ratioNumChars := (decimal ratioInt).length + 3
  let progressInt ← (if target = 0 then .ub else toInt progress)
  let progressNumChars := (decimal progressInt).length + 3
  let countString := decimal accepted
  let rejectedCountString := decimal rejected
  let paddingCount := max 0 (sizeSub 13 countString.length)
  let paddingRejected := max 0 (sizeSub 13 rejectedCountString.length)
  let paddingRatio := max 0 (sizeSub 16 ratioNumChars)
  let paddingProgress := max 0 (sizeSub 8 progressNumChars)
  let s1 ← spaces paddingCount
  let s2 ← spaces paddingRejected
  let s3 ← spaces paddingRatio
  let s4 ← spaces paddingProgress
  pure ("  ".toList ++ s1 ++ (countString ++ " ".toList)
    ++ "   |   ".toList ++ s2 ++ (rejectedCountString ++ " ".toList)
    ++ "   |   ".toList ++ s3 ++ fixed2 ratio ++ "    ".toList
    ++ "   |   ".toList ++ s4 ++ fixed2 progress)

/-- `print(forceHeaderPrint)`, frackit/sampling/status.hh:154-190.  (Simplified: that the columns before
the one for which the padding fails have been written is not modelled.) -/
noncomputable def print (c : Console) (forceHeaderPrint : Bool) : Outcome Unit × Console :=
  let c' : Console := if !c.headerPrinted || forceHeaderPrint
    then ⟨c.status, true, c.lines ++ [.header]⟩ else c
  match row (total c.status.count) c.status.rejected (total c.status.target) with
  | .val text => (.val (), ⟨c'.status, c'.headerPrinted, c'.lines ++ [.row text]⟩)
  | .thrown e => (.thrown e, c')
  | .nan => (.nan, c')
  | .ub => (.ub, c')

/-- `setTargetCount(id, targetCount)` with its message, frackit/sampling/status.hh:53-62. -/
def setTargetCount (c : Console) (id n : ℕ) : Console :=
  ⟨c.status.setTargetCount id n, c.headerPrinted,
    match assocFind c.status.count id with
    | none => c.lines
    | some k => if n < k then c.lines ++ [.belowCurrent] else c.lines⟩

/-- `increaseCounter(id)` with its message, frackit/sampling/status.hh:118-123. -/
def increaseCounter (c : Console) (id : ℕ) : Console :=
  let s := c.status.increaseCounter id
  ⟨s, c.headerPrinted,
    if (assocFind s.target id).getD 0 < (assocFind s.count id).getD 0
    then c.lines ++ [.surpassed id] else c.lines⟩

/-- `reset()`, frackit/sampling/status.hh:67-73. -/
def reset (c : Console) : Console := ⟨c.status.reset, false, c.lines⟩

/-- The other operations print nothing. -/
def silent (c : Console) (o : SamplingStatus.Op) : Console :=
  ⟨c.status.step o, c.headerPrinted, c.lines⟩

/-- Operations: those of the status and `print`. -/
inductive Op where
  | status (o : SamplingStatus.Op)
  | print (forceHeaderPrint : Bool)

/-- Effect of an operation. -/
noncomputable def step (c : Console) : Op → Outcome Unit × Console
  | .status (.setTargetCount id n) => (.val (), c.setTargetCount id n)
  | .status (.increaseCounter id) => (.val (), c.increaseCounter id)
  | .status .reset => (.val (), c.reset)
  | .status o => (.val (), c.silent o)
  | .print f => c.print f

/-- Result of the last operation and state after a history of operations (the latest one first); after an
undefined operation the behaviour of the program is undefined, exceptions are caught. -/
noncomputable def run : List Op → Outcome Unit × Console
  | [] => (.val (), init)
  | o :: h =>
      match (run h).1 with
      | .ub => (.ub, (run h).2)
      | _ => (run h).2.step o

end Console
end Frackit
