import Verif.Spec.Status
import Verif.Model.Sampling.StatusOutput

/-!
# What the terminal output of the sampling status means

Only the enumeration of the calls is shared with the model.  Histories are given with the most recent
call first.
-/

namespace Spec.StatusOutput
open Frackit

/-- The calls of a history other than `print`. -/
def statusOps : List Console.Op → List SamplingStatus.Op
  | [] => []
  | .status o :: h => o :: statusOps h
  | .print _ :: h => statusOps h

/-- Something has been printed since the construction or the last full reset. -/
def printed : List Console.Op → Prop
  | [] => False
  | .print _ :: _ => True
  | .status .reset :: _ => False
  | .status _ :: h => printed h

/-- The number a sequence of digits stands for. -/
def readDigits (l : List Char) : ℕ := l.foldl (fun n c => 10 * n + (c.toNat - 48)) 0

/-- The decimal representation of a number. -/
def Decimal (n : ℕ) (l : List Char) : Prop :=
  l ≠ [] ∧ (∀ c ∈ l, 48 ≤ c.toNat ∧ c.toNat ≤ 57) ∧ readDigits l = n ∧ (l.head? = some '0' → l.length = 1)

/-- The decimal representation with two decimals, of a number at most half a hundredth away. -/
def Fixed (x : ℝ) (l : List Char) : Prop :=
  ∃ n i a b, Decimal n i ∧ l = i ++ ['.', a, b] ∧ (48 ≤ a.toNat ∧ a.toNat ≤ 57) ∧
    (48 ≤ b.toNat ∧ b.toNat ≤ 57) ∧ |x - (readDigits (i ++ [a, b]) : ℝ) / 100| ≤ 1 / 200

/-- The title of the table. -/
def title : List Char :=
  "# Accepted count   |   Rejected count   |   Acceptance Ratio [%]   |   Progress [%] #".toList

/-- A row with four numbers, separated by bars. -/
def Row (accepted rejected : ℕ) (ratio progress : ℝ) (text : List Char) : Prop :=
  ∃ a b c d a' b' c' d', Decimal accepted a ∧ Decimal rejected b ∧ Fixed ratio c ∧ Fixed progress d ∧
    text = a' ++ a ++ "    |".toList ++ b' ++ b ++ "    |".toList ++ c' ++ c ++ "       |".toList ++ d' ++ d ∧
    ∀ x ∈ a' ++ b' ++ c' ++ d', x = ' '

/-- The positions of the bars in a line. -/
def bars : ℕ → List Char → List ℕ
  | _, [] => []
  | i, c :: t => if c = '|' then i :: bars (i + 1) t else bars (i + 1) t

/-- The columns of a row are below those of the title. -/
def Aligned (text : List Char) : Prop := bars 0 text = bars 0 title

end Spec.StatusOutput
