import Verif.Spec.GeoFile
import Verif.Model.IO.GeoText
import Verif.Props.StatusOutput
import Verif.Props.Gmsh
import Mathlib.Algebra.Order.Field.Power

/-!
# The text of Gmsh files
-/

namespace Props
open Verif Frackit Spec.Geo

/-! ## Tokens -/

/-- Tokens and mode after a piece of text. -/
def advance : Mode → List Char → Mode × List Token
  | m, [] => (m, [])
  | m, c :: t => ((advance (next m c).1 t).1, (next m c).2 ++ (advance (next m c).1 t).2)

theorem tokens_append (m : Mode) (a b : List Char) :
    tokens m (a ++ b) = (advance m a).2 ++ tokens (advance m a).1 b := by
  induction a generalizing m with
  | nil => rfl
  | cons c t ih => simp [tokens, advance, ih]

theorem advance_append (m : Mode) (a b : List Char) :
    advance m (a ++ b) = ((advance (advance m a).1 b).1, (advance m a).2 ++ (advance (advance m a).1 b).2) := by
  induction a generalizing m with
  | nil => simp [advance]
  | cons c t ih => simp [advance, ih]

theorem advance_word (l w : List Char) (h : ∀ c ∈ w, isWord c = true) :
    advance (.word l) w = (.word (l ++ w), []) := by
  induction w generalizing l with
  | nil => simp [advance]
  | cons c t ih =>
    have hc := h c (by simp)
    simp only [advance, next, hc, if_true]
    rw [ih _ fun c hc => h c (by simp [hc])]
    simp

theorem advance_start_word (w : List Char) (hw : w ≠ []) (h : ∀ c ∈ w, isWord c = true) :
    advance .start w = (.word w, []) := by
  cases w with
  | nil => exact absurd rfl hw
  | cons c t =>
    have hc := h c (by simp)
    simp only [advance, next, begin, hc, if_true]
    rw [advance_word _ _ fun c hc => h c (by simp [hc])]
    simp

theorem advance_string (l p : List Char) (h : ∀ c ∈ p, c ≠ '"') :
    advance (.string l) p = (.string (l ++ p), []) := by
  induction p generalizing l with
  | nil => simp [advance]
  | cons c t ih =>
    have hc := h c (by simp)
    simp only [advance, next, hc, if_false]
    rw [ih _ fun c hc => h c (by simp [hc])]
    simp

/-- A word followed by a character that ends it. -/
theorem advance_word_end (w : List Char) (c : Char) (t : List Char) (hc : isWord c = false) :
    advance (.word w) (c :: t) = ((advance .start (c :: t)).1, .word w :: (advance .start (c :: t)).2) := by
  simp [advance, next, hc]

/-! ## Numbers -/

open Spec.StatusOutput in
theorem isWord_digit {c : Char} (h : IsDigit c = true) : isWord c = true := by
  have h' : 48 ≤ c.toNat ∧ c.toNat ≤ 57 := by simpa [IsDigit] using h
  have : c.isDigit = true := by
    simp only [Char.isDigit, Bool.and_eq_true, decide_eq_true_eq]
    exact ⟨by rw [ge_iff_le, UInt32.le_iff_toNat_le]; exact h'.1, by rw [UInt32.le_iff_toNat_le]; exact h'.2⟩
  simp [isWord, Char.isAlphanum, this]

theorem decimal_digits (n : ℕ) : ∀ c ∈ decimal n, IsDigit c = true := fun c hc => by
  simpa [IsDigit] using (decimal_spec n).1.2.1 c hc

theorem decimal_ne (n : ℕ) : decimal n ≠ [] := (decimal_spec n).1.1

theorem decimal_word (n : ℕ) : ∀ c ∈ decimal n, isWord c = true := fun c hc => isWord_digit (decimal_digits n c hc)

theorem digits_decimal (n : ℕ) : digits (decimal n) = some n := by
  have h := (decimal_spec n).1
  rw [digits, if_pos ⟨h.1, List.all_eq_true.2 (decimal_digits n)⟩, h.2.2.1]

open Spec.StatusOutput in
theorem read_append_zeros (l : List Char) (j : ℕ) :
    readDigits (l ++ List.replicate j '0') = readDigits l * 10 ^ j := by
  induction j with
  | zero => simp
  | succ j ih =>
    rw [List.replicate_succ', ← List.append_assoc, read_snoc, ih, pow_succ]
    simp; ring

theorem strip_spec (z : List Char) : ∃ j, z = GeneralFormat.stripZeros z ++ List.replicate j '0' := by
  refine ⟨(z.reverse.takeWhile (· = '0')).length, ?_⟩
  have h1 : List.replicate (z.reverse.takeWhile (· = '0')).length '0' = (z.reverse.takeWhile (· = '0')).reverse := by
    have : z.reverse.takeWhile (· = '0') = List.replicate (z.reverse.takeWhile (· = '0')).length '0' := by
      refine List.eq_replicate_iff.2 ⟨rfl, fun c hc => ?_⟩
      have := List.all_takeWhile (p := fun x : Char => decide (x = '0')) (l := z.reverse)
      simpa using List.all_eq_true.1 this c hc
    rw [this]; simp
  rw [GeneralFormat.stripZeros, h1, ← List.reverse_append, List.takeWhile_append_dropWhile, List.reverse_reverse]

theorem padded_spec (k n : ℕ) : (GeneralFormat.padded k n).length = k ∧
    (∀ c ∈ GeneralFormat.padded k n, IsDigit c = true) := by
  induction k generalizing n with
  | zero => simp [GeneralFormat.padded]
  | succ k ih =>
    refine ⟨by simp [GeneralFormat.padded, (ih _).1], fun c hc => ?_⟩
    simp only [GeneralFormat.padded, List.mem_append, List.mem_singleton] at hc
    rcases hc with hc | rfl
    · exact (ih _).2 c hc
    · have := digitChar_toNat (Nat.mod_lt n (by norm_num : 10 > 0))
      have h2 := Nat.mod_lt n (by norm_num : 10 > 0)
      simp [IsDigit, this]; omega

open Spec.StatusOutput in
theorem read_append_padded (l : List Char) (k n : ℕ) (h : n < 10 ^ k) :
    readDigits (l ++ GeneralFormat.padded k n) = readDigits l * 10 ^ k + n := by
  induction k generalizing n with
  | zero => simp [GeneralFormat.padded]; omega
  | succ k ih =>
    have h2 : n / 10 < 10 ^ k := by rw [pow_succ] at h; omega
    rw [GeneralFormat.padded, ← List.append_assoc, read_snoc, ih _ h2,
      digitChar_toNat (Nat.mod_lt n (by norm_num : 10 > 0)), pow_succ]
    have := Nat.div_add_mod n 10
    have e : readDigits l * (10 ^ k * 10) = 10 * (readDigits l * 10 ^ k) := by ring
    rw [e]
    generalize readDigits l * 10 ^ k = q at *
    omega

open Spec.StatusOutput in
/-- Digits, a fraction without trailing zeros, and what follows. -/
theorem unsigned_fraction (a k m : ℕ) (h : m < 10 ^ k) (r : List Char) (e : ℤ) (he : exponent r = some e)
    (hr : ∀ c t, r = c :: t → c = 'e') :
    unsigned (decimal a ++ GeneralFormat.fraction (GeneralFormat.padded k m) ++ r) =
      some (((a : ℝ) + m / 10 ^ k) * (10 : ℝ) ^ e) := by
  obtain ⟨j, hj⟩ := strip_spec (GeneralFormat.padded k m)
  obtain ⟨hlen, hdig⟩ := padded_spec k m
  have hval := read_append_padded (decimal a) k m h
  rw [(decimal_spec a).1.2.2.1, hj, ← List.append_assoc, read_append_zeros] at hval
  have hk : (GeneralFormat.stripZeros (GeneralFormat.padded k m)).length + j = k := by
    have := congrArg List.length hj
    simp at this; omega
  have hsd : ∀ c ∈ GeneralFormat.stripZeros (GeneralFormat.padded k m), IsDigit c = true := fun c hc =>
    hdig c (by rw [hj]; simp [hc])
  have hr0 : r.takeWhile IsDigit = [] ∧ r.dropWhile IsDigit = r := by
    cases r with
    | nil => simp
    | cons c t => rw [hr c t rfl]; simp [IsDigit]
  have fin : ∀ f : List Char, f = GeneralFormat.stripZeros (GeneralFormat.padded k m) →
      (readDigits (decimal a ++ f) : ℝ) / 10 ^ f.length * (10 : ℝ) ^ e = ((a : ℝ) + m / 10 ^ k) * (10 : ℝ) ^ e := by
    rintro f rfl
    congr 1
    generalize GeneralFormat.stripZeros (GeneralFormat.padded k m) = f at *
    subst hk
    have hv : (readDigits (decimal a ++ f) : ℝ) * 10 ^ j = a * 10 ^ (f.length + j) + m := by exact_mod_cast hval
    have : (readDigits (decimal a ++ f) : ℝ) = (a * 10 ^ (f.length + j) + m) / 10 ^ j := by
      field_simp; exact hv
    rw [this, pow_add]
    field_simp
  unfold GeneralFormat.fraction
  cases hs : GeneralFormat.stripZeros (GeneralFormat.padded k m) with
  | nil =>
    simp only [List.append_nil]
    have ht : (decimal a ++ r).takeWhile IsDigit = decimal a := by
      rw [List.takeWhile_append_of_pos (decimal_digits a), hr0.1, List.append_nil]
    have hd : (decimal a ++ r).dropWhile IsDigit = r := by
      rw [List.dropWhile_append_of_pos (decimal_digits a), hr0.2]
    have htl : tail r = some ([], e) := by
      cases r with
      | nil => simp only [tail, he]; rfl
      | cons c t =>
        obtain rfl := hr c t rfl
        have : tail ('e' :: t) = (exponent ('e' :: t)).map fun e => ([], e) := rfl
        rw [this, he]; rfl
    rw [unsigned, ht, hd, if_neg (decimal_ne a), htl]
    have := fin [] hs.symm
    simpa using this
  | cons c t =>
    simp only
    have ht : (decimal a ++ '.' :: c :: t ++ r).takeWhile IsDigit = decimal a := by
      rw [List.append_assoc, List.takeWhile_append_of_pos (decimal_digits a)]
      simp [IsDigit]
    have hd : (decimal a ++ '.' :: c :: t ++ r).dropWhile IsDigit = '.' :: ((c :: t) ++ r) := by
      rw [List.append_assoc, List.dropWhile_append_of_pos (decimal_digits a)]
      simp [IsDigit]
    rw [hs] at hsd
    have htl : tail ('.' :: ((c :: t) ++ r)) = some (c :: t, e) := by
      have e1 : ((c :: t) ++ r).dropWhile IsDigit = r := by rw [List.dropWhile_append_of_pos hsd, hr0.2]
      have e2 : ((c :: t) ++ r).takeWhile IsDigit = c :: t := by
        rw [List.takeWhile_append_of_pos hsd, hr0.1, List.append_nil]
      rw [tail, e1, e2, he]
      rfl
    rw [unsigned, ht, hd, if_neg (decimal_ne a), htl]
    have := fin (c :: t) hs.symm
    simpa using this

/-- The number written for six digits and an exponent. -/
theorem unsigned_layout (n : ℕ) (e : ℤ) : unsigned (GeneralFormat.layout n e) = some ((n : ℝ) * (10 : ℝ) ^ (e - 5)) := by
  unfold GeneralFormat.layout
  have hsplit : ∀ k : ℕ, ((n / 10 ^ k : ℕ) : ℝ) + ((n % 10 ^ k : ℕ) : ℝ) / 10 ^ k = n * (10 : ℝ) ^ (-(k : ℤ)) := by
    intro k
    have h : (((n / 10 ^ k : ℕ) : ℝ) * 10 ^ k + ((n % 10 ^ k : ℕ) : ℝ)) = n := by
      exact_mod_cast Nat.div_add_mod' n (10 ^ k)
    rw [zpow_neg, zpow_natCast]
    rw [← h]; field_simp
  by_cases he : e < -4 ∨ 6 ≤ e
  · rw [if_pos he]
    have hexp : exponent ('e' :: (if e < 0 then '-' else '+') ::
        (if e.natAbs < 10 then '0' :: decimal e.natAbs else decimal e.natAbs)) = some e := by
      have hd : digits (if e.natAbs < 10 then '0' :: decimal e.natAbs else decimal e.natAbs) = some e.natAbs := by
        split
        · have h := (decimal_spec e.natAbs).1
          have h0 : Spec.StatusOutput.readDigits ('0' :: decimal e.natAbs) = e.natAbs := by
            refine Eq.trans ?_ h.2.2.1
            simp [Spec.StatusOutput.readDigits]
          rw [digits, if_pos, h0]
          refine ⟨by simp, ?_⟩
          rw [List.all_cons, List.all_eq_true.2 (decimal_digits _)]
          rfl
        · exact digits_decimal _
      by_cases h0 : e < 0
      · rw [if_pos h0]
        simp only [exponent]
        rw [hd]
        rw [Option.map_some]; congr 1; omega
      · rw [if_neg h0]
        simp only [exponent]
        rw [hd]
        rw [Option.map_some]; congr 1; omega
    rw [unsigned_fraction _ _ _ (Nat.mod_lt _ (by positivity)) _ e hexp (by
      intro c t h; exact (List.cons.inj h).1.symm), hsplit 5, mul_assoc, ← zpow_add₀ (by norm_num)]
    congr 2; push_cast; ring_nf
  · rw [if_neg he]
    push Not at he
    have := unsigned_fraction (n / 10 ^ (5 - e).toNat) (5 - e).toNat (n % 10 ^ (5 - e).toNat)
      (Nat.mod_lt _ (by positivity)) [] 0 rfl (by simp)
    rw [List.append_nil] at this
    rw [this, hsplit]
    have : (-((5 - e).toNat : ℤ)) = e - 5 := by omega
    rw [this]; simp

theorem roundEven_spec {y : ℝ} (hy : 0 ≤ y) : |(GeneralFormat.roundEven y : ℝ) - y| ≤ 1 / 2 := by
  have h1 := Nat.floor_le hy
  have h2 := Nat.lt_floor_add_one y
  unfold GeneralFormat.roundEven
  split_ifs with a b c
  all_goals rw [abs_le]; push_cast; constructor <;> linarith

theorem roundEven_nat (n : ℕ) : GeneralFormat.roundEven (n : ℝ) = n := by
  unfold GeneralFormat.roundEven
  rw [Nat.floor_natCast, if_pos (by norm_num)]

theorem significant_spec {x : ℝ} (hx : 0 < x) :
    |((GeneralFormat.significant x).1 : ℝ) * (10 : ℝ) ^ ((GeneralFormat.significant x).2 - 5) - x| ≤ 5 / 10 ^ 6 * x := by
  have hl : (10 : ℝ) ^ Int.log 10 x ≤ x := Int.zpow_log_le_self (b := 10) (by norm_num) hx
  have key : |(GeneralFormat.roundEven (x * (10 : ℝ) ^ (5 - Int.log 10 x)) : ℝ) * (10 : ℝ) ^ (Int.log 10 x - 5) - x| ≤
      5 / 10 ^ 6 * x := by
    have h := roundEven_spec (y := x * (10 : ℝ) ^ (5 - Int.log 10 x)) (by positivity)
    have e1 : x = x * (10 : ℝ) ^ (5 - Int.log 10 x) * (10 : ℝ) ^ (Int.log 10 x - 5) := by
      rw [mul_assoc, ← zpow_add₀ (by norm_num)]; simp
    have e2 : (GeneralFormat.roundEven (x * (10 : ℝ) ^ (5 - Int.log 10 x)) : ℝ) * (10 : ℝ) ^ (Int.log 10 x - 5) - x =
        ((GeneralFormat.roundEven (x * (10 : ℝ) ^ (5 - Int.log 10 x)) : ℝ) - x * (10 : ℝ) ^ (5 - Int.log 10 x)) *
          (10 : ℝ) ^ (Int.log 10 x - 5) := by
      rw [sub_mul, ← e1]
    have hp : (0 : ℝ) < (10 : ℝ) ^ (Int.log 10 x - 5) := by positivity
    rw [e2, abs_mul, abs_of_pos hp]
    have e3 : (10 : ℝ) ^ (Int.log 10 x - 5) = (10 : ℝ) ^ Int.log 10 x / 10 ^ 5 := by
      rw [zpow_sub₀ (by norm_num)]; norm_num
    calc _ ≤ 1 / 2 * (10 : ℝ) ^ (Int.log 10 x - 5) := mul_le_mul_of_nonneg_right h hp.le
      _ ≤ _ := by rw [e3]; norm_num at hl ⊢; linarith
  unfold GeneralFormat.significant
  by_cases h : GeneralFormat.roundEven (x * (10 : ℝ) ^ (5 - Int.log 10 x)) = 10 ^ 6
  · rw [if_pos h]
    rw [h] at key
    have e : ((10 ^ 5 : ℕ) : ℝ) * (10 : ℝ) ^ (Int.log 10 x + 1 - 5) = ((10 ^ 6 : ℕ) : ℝ) * (10 : ℝ) ^ (Int.log 10 x - 5) := by
      rw [show Int.log 10 x + 1 - 5 = (Int.log 10 x - 5) + 1 by ring, zpow_add₀ (by norm_num)]
      push_cast; norm_num; ring
    simp only
    rw [e]
    exact key
  · rw [if_neg h]
    exact key

theorem significant_exact {m : ℕ} {k : ℤ} (hm : 0 < m) (h6 : m < 10 ^ 6) :
    ((GeneralFormat.significant ((m : ℝ) * (10 : ℝ) ^ k)).1 : ℝ) *
      (10 : ℝ) ^ ((GeneralFormat.significant ((m : ℝ) * (10 : ℝ) ^ k)).2 - 5) = (m : ℝ) * (10 : ℝ) ^ k := by
  have hm' : (0 : ℝ) < m := by exact_mod_cast hm
  have hx : 0 < (m : ℝ) * (10 : ℝ) ^ k := by positivity
  generalize hxe : (m : ℝ) * (10 : ℝ) ^ k = x at *
  have hl : (10 : ℝ) ^ Int.log 10 x ≤ x := Int.zpow_log_le_self (b := 10) (by norm_num) hx
  have hlt : (10 : ℝ) ^ Int.log 10 x < (10 : ℝ) ^ (6 + k) := by
    refine lt_of_le_of_lt hl ?_
    rw [← hxe, zpow_add₀ (by norm_num)]
    have : (m : ℝ) < 10 ^ 6 := by exact_mod_cast h6
    have hp : (0 : ℝ) < (10 : ℝ) ^ k := by positivity
    have := mul_lt_mul_of_pos_right this hp
    exact_mod_cast this
  have hk : Int.log 10 x < 6 + k := (zpow_lt_zpow_iff_right₀ (by norm_num)).1 hlt
  obtain ⟨j, hj⟩ : ∃ j : ℕ, (j : ℤ) = k + 5 - Int.log 10 x := ⟨(k + 5 - Int.log 10 x).toNat, by omega⟩
  have e : x * (10 : ℝ) ^ (5 - Int.log 10 x) = ((m * 10 ^ j : ℕ) : ℝ) := by
    have e0 : x * (10 : ℝ) ^ (5 - Int.log 10 x) = (m : ℝ) * (10 : ℝ) ^ k * (10 : ℝ) ^ (5 - Int.log 10 x) := by rw [hxe]
    rw [e0, mul_assoc, ← zpow_add₀ (by norm_num), show k + (5 - Int.log 10 x) = (j : ℤ) by omega]
    push_cast; rw [zpow_natCast]
  have hr : GeneralFormat.roundEven (x * (10 : ℝ) ^ (5 - Int.log 10 x)) = m * 10 ^ j := by rw [e, roundEven_nat]
  have fin : ((m * 10 ^ j : ℕ) : ℝ) * (10 : ℝ) ^ (Int.log 10 x - 5) = x := by
    rw [← e, mul_assoc, ← zpow_add₀ (by norm_num)]; simp
  unfold GeneralFormat.significant
  rw [hr]
  by_cases h : m * 10 ^ j = 10 ^ 6
  · rw [if_pos h]
    rw [h] at fin
    have e : ((10 ^ 5 : ℕ) : ℝ) * (10 : ℝ) ^ (Int.log 10 x + 1 - 5) = ((10 ^ 6 : ℕ) : ℝ) * (10 : ℝ) ^ (Int.log 10 x - 5) := by
      rw [show Int.log 10 x + 1 - 5 = (Int.log 10 x - 5) + 1 by ring, zpow_add₀ (by norm_num)]
      push_cast; norm_num; ring
    simp only
    rw [e]
    exact fin
  · rw [if_neg h]
    exact fin

theorem layout_word (n : ℕ) (e : ℤ) : ∀ c ∈ GeneralFormat.layout n e, isWord c = true := by
  have hf : ∀ k m, ∀ c ∈ GeneralFormat.fraction (GeneralFormat.padded k m), isWord c = true := by
    intro k m c hc
    obtain ⟨j, hj⟩ := strip_spec (GeneralFormat.padded k m)
    have hs : ∀ c ∈ GeneralFormat.stripZeros (GeneralFormat.padded k m), isWord c = true := fun c hc =>
      isWord_digit ((padded_spec k m).2 c (by rw [hj]; simp [hc]))
    unfold GeneralFormat.fraction at hc
    split at hc
    · simp at hc
    · rename_i d t hdt
      rw [hdt] at hs
      rcases List.mem_cons.1 hc with rfl | hc
      · decide
      · exact hs c hc
  intro c hc
  unfold GeneralFormat.layout at hc
  split at hc
  · rw [List.mem_append, List.mem_append] at hc
    rcases hc with (hc | hc) | hc
    · exact decimal_word _ c hc
    · exact hf _ _ c hc
    · rcases List.mem_cons.1 hc with rfl | hc
      · decide
      rcases List.mem_cons.1 hc with rfl | hc
      · split <;> decide
      split at hc
      · rcases List.mem_cons.1 hc with rfl | hc
        · decide
        · exact decimal_word _ c hc
      · exact decimal_word _ c hc
  · rw [List.mem_append] at hc
    rcases hc with hc | hc
    · exact decimal_word _ c hc
    · exact hf _ _ c hc

theorem layout_head (n : ℕ) (e : ℤ) : ∃ c t, GeneralFormat.layout n e = c :: t ∧ IsDigit c = true := by
  have : ∀ (k : ℕ) (r : List Char), ∃ c t, decimal k ++ r = c :: t ∧ IsDigit c = true := by
    intro k r
    cases h : decimal k with
    | nil => exact absurd h (decimal_ne k)
    | cons c t => exact ⟨c, t ++ r, rfl, decimal_digits k c (by rw [h]; simp)⟩
  unfold GeneralFormat.layout
  split
  · rw [List.append_assoc]; exact this _ _
  · exact this _ _

theorem number_layout (n : ℕ) (e : ℤ) : number (GeneralFormat.layout n e) = some ((n : ℝ) * (10 : ℝ) ^ (e - 5)) := by
  rw [← unsigned_layout]
  obtain ⟨c, t, h, hc⟩ := layout_head n e
  rw [h]
  have : c ≠ '-' := by rintro rfl; exact absurd hc (by decide)
  unfold number
  split
  · rename_i heq
    exact absurd (List.cons.inj heq).1 this
  · rfl

/-- A number with at most six significant digits. -/
def SixDigits (x : ℝ) : Prop := ∃ (m k : ℤ), |m| < 10 ^ 6 ∧ x = (m : ℝ) * (10 : ℝ) ^ k

/-- The text of a number: it is a word, and the number read is close to it. -/
theorem print_spec (x : ℝ) : GeneralFormat.print x ≠ [] ∧ (∀ c ∈ GeneralFormat.print x, isWord c = true) ∧
    ∃ y, number (GeneralFormat.print x) = some y ∧ |y - x| ≤ 5 / 10 ^ 6 * |x| ∧ (SixDigits x → y = x) := by
  have hne : ∀ n e, GeneralFormat.layout n e ≠ [] := fun n e => by
    obtain ⟨c, t, h, -⟩ := layout_head n e
    rw [h]; simp
  unfold GeneralFormat.print
  by_cases h0 : x = 0
  · rw [if_pos h0]
    refine ⟨by simp, by decide, 0, ?_, by simp [h0], fun _ => h0.symm⟩
    simp [number, unsigned, tail, exponent, IsDigit, Spec.StatusOutput.readDigits]
  rw [if_neg h0]
  by_cases hn : x < 0
  · rw [if_pos hn]
    refine ⟨by simp, ?_, _, by rw [number, unsigned_layout]; rfl, ?_, ?_⟩
    · intro c hc
      rcases List.mem_cons.1 hc with rfl | hc
      · decide
      · exact layout_word _ _ c hc
    · have := significant_spec (x := -x) (by linarith)
      rw [abs_of_neg hn, ← abs_neg]
      convert this using 2
      ring
    · rintro ⟨m, k, hm, hx⟩
      have hp : (0 : ℝ) < (10 : ℝ) ^ k := by positivity
      have hm0 : m < 0 := by
        by_contra hc
        push Not at hc
        have : (0 : ℝ) ≤ m := by exact_mod_cast hc
        rw [hx] at hn
        exact absurd hn (not_lt.2 (by positivity))
      have e : -x = ((m.natAbs : ℕ) : ℝ) * (10 : ℝ) ^ k := by
        rw [hx, Nat.cast_natAbs, abs_of_neg hm0]; push_cast; ring
      have := significant_exact (m := m.natAbs) (k := k) (by omega) (by rw [abs_of_neg hm0] at hm; omega)
      rw [← e] at this
      rw [this]; ring
  · rw [if_neg hn]
    have hpos : 0 < x := lt_of_le_of_ne (not_lt.1 hn) (Ne.symm h0)
    refine ⟨hne _ _, layout_word _ _, _, number_layout _ _, ?_, ?_⟩
    · rw [abs_of_pos hpos]; exact significant_spec hpos
    · rintro ⟨m, k, hm, hx⟩
      have hp : (0 : ℝ) < (10 : ℝ) ^ k := by positivity
      have hm0 : 0 < m := by
        by_contra hc
        push Not at hc
        have : (m : ℝ) ≤ 0 := by exact_mod_cast hc
        rw [hx] at hpos
        exact absurd hpos (not_lt.2 (mul_nonpos_of_nonpos_of_nonneg this hp.le))
      have e : x = ((m.natAbs : ℕ) : ℝ) * (10 : ℝ) ^ k := by
        rw [hx, Nat.cast_natAbs, abs_of_pos hm0]
      have := significant_exact (m := m.natAbs) (k := k) (by omega) (by rw [abs_of_pos hm0] at hm; omega)
      rwa [← e] at this

/-! ## Statements -/

/-- A word between a beginning and an end that are known. -/
theorem advance_between {m : Mode} {a : List Char} {ta : List Token} (ha : advance m a = (.start, ta))
    {w : List Char} (hw : w ≠ []) (hwc : ∀ c ∈ w, isWord c = true) {c : Char} (hc : isWord c = false) (b : List Char) :
    advance m (a ++ w ++ c :: b) =
      ((advance .start (c :: b)).1, ta ++ .word w :: (advance .start (c :: b)).2) := by
  rw [advance_append, advance_append, ha]
  simp only
  rw [advance_start_word w hw hwc, List.append_nil]
  simp only
  rw [advance_word_end w c b hc]

/-- The tokens of a list of items. -/
def itemTokens : List ℕ → List Token
  | [] => []
  | [a] => [.word (decimal a)]
  | a :: b :: t => .word (decimal a) :: .symbol ',' :: itemTokens (b :: t)

theorem advance_items (a : ℕ) (t : List ℕ) (b : List Char) :
    advance .start (GmshWriter.itemText (a :: t) ++ '}' :: b) =
      ((advance .start ('}' :: b)).1, itemTokens (a :: t) ++ (advance .start ('}' :: b)).2) := by
  induction t generalizing a with
  | nil =>
    have := advance_between (m := .start) (a := []) rfl (decimal_ne a) (decimal_word a) (c := '}') (by decide) b
    simpa [GmshWriter.itemText, itemTokens] using this
  | cons d t ih =>
    have e : GmshWriter.itemText (a :: d :: t) ++ '}' :: b =
        [] ++ decimal a ++ ',' :: (' ' :: (GmshWriter.itemText (d :: t) ++ '}' :: b)) := by
      have : ", ".toList = [',', ' '] := by decide
      simp [GmshWriter.itemText, this]
    rw [e, advance_between (m := .start) (a := []) rfl (decimal_ne a) (decimal_word a) (c := ',') (by decide)]
    have e2 : advance .start (',' :: ' ' :: (GmshWriter.itemText (d :: t) ++ '}' :: b)) =
        ((advance .start (GmshWriter.itemText (d :: t) ++ '}' :: b)).1,
          .symbol ',' :: (advance .start (GmshWriter.itemText (d :: t) ++ '}' :: b)).2) := by
      have : advance .start [',', ' '] = (.start, [.symbol ',']) := by decide
      have h := advance_append .start [',', ' '] (GmshWriter.itemText (d :: t) ++ '}' :: b)
      rw [this] at h
      exact h
    rw [e2, ih d]
    simp [itemTokens]

theorem items_tokens (a : ℕ) (t : List ℕ) (r : List Token) :
    items (itemTokens (a :: t) ++ .symbol '}' :: r) = some (a :: t, r) := by
  induction t generalizing a with
  | nil => simp [itemTokens, items, digits_decimal]
  | cons d t ih =>
    have := ih d
    simp only [itemTokens, List.cons_append, items, digits_decimal]
    rw [this]

/-- The kind of geometries meant by the writer. -/
def kindOf : GeoKind → Kind
  | .volume => .volume
  | .surface => .surface
  | .line => .line

/-- The command meant by a statement of the writer. -/
def commandOf : GeoStatement → Command
  | .physical k id l => .physical (kindOf k) id l
  | .meshSize k l b => .meshSize (kindOf k) l (if b then "sizeAtBoundary".toList else "sizeAtEntities".toList)

/-- The items of a statement. -/
def itemsOf : GeoStatement → List ℕ
  | .physical _ _ l => l
  | .meshSize _ l _ => l

theorem kindName_spec (k : GeoKind) : GmshWriter.kindName k ≠ [] ∧ (∀ c ∈ GmshWriter.kindName k, isWord c = true) ∧
    kind (GmshWriter.kindName k) = some (kindOf k) := by
  cases k <;> decide

/-- Text that is read as one command, wherever it is found. -/
def ReadAs (text : List Char) (c : Command) : Prop :=
  ∃ tk : List Token, tk ≠ [] ∧ advance .start text = (.start, tk) ∧ ∀ r, command (tk ++ r) = some (c, r)

theorem physical_shape (P K D I : List Char) {o c c' e e' : List Char} (ho : o = ['(']) (hc : c = ')' :: c')
    (he : e = '}' :: e') :
    P ++ K ++ o ++ D ++ c ++ I ++ e = P ++ K ++ '(' :: ([] ++ D ++ ')' :: (c' ++ (I ++ '}' :: e'))) := by
  subst ho hc he
  simp

theorem mesh_shape (P K I : List Char) {o b b' : List Char} (ho : o = ['{']) (hb : b = '}' :: b') :
    P ++ K ++ o ++ I ++ b = P ++ K ++ '{' :: (I ++ '}' :: b') := by
  subst ho hb
  simp

theorem statement_readAs (s : GeoStatement) (h : itemsOf s ≠ []) : ReadAs (GmshWriter.statementText s) (commandOf s) := by
  cases s with
  | physical k id l =>
    cases l with
    | nil => exact absurd rfl h
    | cons a t =>
      obtain ⟨k1, k2, k3⟩ := kindName_spec k
      refine ⟨[.word "Physical".toList, .word (GmshWriter.kindName k), .symbol '(', .word (decimal id), .symbol ')',
        .symbol '=', .symbol '{'] ++ itemTokens (a :: t) ++ [.symbol '}', .symbol ';'], by simp, ?_, ?_⟩
      · have e : GmshWriter.statementText (.physical k id (a :: t)) =
            "Physical ".toList ++ GmshWriter.kindName k ++ '(' :: ([] ++ decimal id ++ ')' ::
              (" = {".toList ++ (GmshWriter.itemText (a :: t) ++ '}' :: ";\n".toList))) := by
          exact physical_shape _ _ _ _ (by decide) (by decide) (by decide)
        rw [e, advance_between (m := .start) (a := "Physical ".toList) (ta := [.word "Physical".toList]) (by decide) k1 k2
          (c := '(') (by decide)]
        have e4 : advance .start ('(' :: ([] ++ decimal id ++ ')' ::
            (" = {".toList ++ (GmshWriter.itemText (a :: t) ++ '}' :: ";\n".toList)))) =
            advance .start (['('] ++ decimal id ++ ')' ::
            (" = {".toList ++ (GmshWriter.itemText (a :: t) ++ '}' :: ";\n".toList))) := by simp
        rw [e4, advance_between (m := .start) (a := ['(']) (ta := [.symbol '(']) (by decide) (decimal_ne id)
          (decimal_word id) (c := ')') (by decide)]
        have e5 : advance .start (')' :: (" = {".toList ++ (GmshWriter.itemText (a :: t) ++ '}' :: ";\n".toList))) =
            advance .start (") = {".toList ++ (GmshWriter.itemText (a :: t) ++ '}' :: ";\n".toList)) := by
          have e2 : ") = {".toList = ')' :: " = {".toList := by decide
          rw [e2]; rfl
        have e6 : advance .start ") = {".toList = (.start, [.symbol ')', .symbol '=', .symbol '{']) := by decide
        have e7 : advance .start ('}' :: ";\n".toList) = (.start, [.symbol '}', .symbol ';']) := by decide
        rw [e5, advance_append, e6]
        simp only
        rw [advance_items, e7]
        simp
      · intro r
        simp only [List.cons_append, List.nil_append, List.append_assoc, command]
        rw [if_neg (by decide), if_pos trivial]
        simp only [k3, digits_decimal, items_tokens, commandOf]
  | meshSize k l b =>
    cases l with
    | nil => exact absurd rfl h
    | cons a t =>
      obtain ⟨k1, k2, k3⟩ := kindName_spec k
      have main : ∀ (v tl : List Char) (e0 : advance .start ('}' :: tl) =
          (.start, [.symbol '}', .symbol ';', .symbol '}', .symbol '}', .symbol '=', .word v, .symbol ';'])),
          ReadAs ("Characteristic Length{ PointsOf{".toList ++ GmshWriter.kindName k ++ '{' ::
              (GmshWriter.itemText (a :: t) ++ '}' :: tl))
            (.meshSize (kindOf k) (a :: t) v) := by
        intro v tl e0
        refine ⟨[.word "Characteristic".toList, .word "Length".toList, .symbol '{', .word "PointsOf".toList,
          .symbol '{', .word (GmshWriter.kindName k), .symbol '{'] ++ itemTokens (a :: t) ++
          [.symbol '}', .symbol ';', .symbol '}', .symbol '}', .symbol '=', .word v, .symbol ';'], by simp, ?_, ?_⟩
        · rw [advance_between (m := .start) (a := "Characteristic Length{ PointsOf{".toList)
            (ta := [.word "Characteristic".toList, .word "Length".toList, .symbol '{',
            .word "PointsOf".toList, .symbol '{']) (by decide) k1 k2 (c := '{') (by decide)]
          have e1 : advance .start ('{' :: (GmshWriter.itemText (a :: t) ++ '}' :: tl))
              = ((advance .start (GmshWriter.itemText (a :: t) ++ '}' :: tl)).1,
                .symbol '{' ::
                (advance .start (GmshWriter.itemText (a :: t) ++ '}' :: tl)).2) := by
            have h1 : advance .start ['{'] = (.start, [.symbol '{']) := by decide
            have h := advance_append .start ['{']
              (GmshWriter.itemText (a :: t) ++ '}' :: tl)
            rw [h1] at h
            exact h
          rw [e1, advance_items, e0]
          simp
        · intro r
          simp only [List.cons_append, List.nil_append, List.append_assoc, command]
          rw [if_neg (by decide), if_neg (by decide), if_pos trivial]
          simp only [k3, items_tokens]
          simp
      cases b with
      | true =>
        have := main "sizeAtBoundary".toList ";} } = sizeAtBoundary;\n".toList (by decide)
        have e : GmshWriter.statementText (.meshSize k (a :: t) true) = _ :=
          mesh_shape _ _ _ (b := "};} } = sizeAtBoundary;\n".toList) (b' := ";} } = sizeAtBoundary;\n".toList)
            (by decide) (by decide)
        rw [e]
        exact this
      | false =>
        have := main "sizeAtEntities".toList ";} } = sizeAtEntities;\n".toList (by decide)
        have e : GmshWriter.statementText (.meshSize k (a :: t) false) = _ :=
          mesh_shape _ _ _ (b := "};} } = sizeAtEntities;\n".toList) (b' := ";} } = sizeAtEntities;\n".toList)
            (by decide) (by decide)
        rw [e]
        exact this

/-- Text that is read as a sequence of commands, wherever it is found. -/
def Reads (text : List Char) (cs : List Command) : Prop :=
  ∃ tk : List Token, advance .start text = (.start, tk) ∧ cs.length ≤ tk.length ∧
    ∀ fuel r, commands (cs.length + fuel) (tk ++ r) = (commands fuel r).map (cs ++ ·)

theorem reads_append {a b : List Char} {cs ds : List Command} (ha : Reads a cs) (hb : Reads b ds) :
    Reads (a ++ b) (cs ++ ds) := by
  obtain ⟨t1, h1, h2, h3⟩ := ha
  obtain ⟨t2, i1, i2, i3⟩ := hb
  refine ⟨t1 ++ t2, ?_, by simp; omega, fun fuel r => ?_⟩
  · rw [advance_append, h1]
    simp only
    rw [i1]
  · rw [List.length_append, Nat.add_assoc, List.append_assoc, h3, i3]
    simp [Function.comp_def]

theorem reads_silent {a : List Char} (h : advance .start a = (.start, [])) : Reads a [] :=
  ⟨[], h, le_refl _, fun fuel r => by simp⟩

theorem reads_one {a : List Char} {c : Command} (h : ReadAs a c) : Reads a [c] := by
  obtain ⟨tk, h1, h2, h3⟩ := h
  refine ⟨tk, h2, List.length_pos_iff.2 h1, fun fuel r => ?_⟩
  cases htk : tk ++ r with
  | nil => simp [h1] at htk
  | cons x y =>
    rw [show [c].length + fuel = fuel + 1 by simp [Nat.add_comm], commands, ← htk, h3]
    · simp only
      rfl
    · simp

theorem reads_statements (l : List GeoStatement) (h : ∀ s ∈ l, itemsOf s ≠ []) :
    Reads (l.flatMap GmshWriter.statementText) (l.map commandOf) := by
  induction l with
  | nil => exact reads_silent rfl
  | cons s t ih =>
    exact reads_append (reads_one (statement_readAs s (h s (by simp)))) (ih fun s hs => h s (by simp [hs]))

theorem read_of_reads {text : List Char} {cs : List Command} (h : Reads text cs) : Spec.Geo.read text = some cs := by
  obtain ⟨tk, h1, h2, h3⟩ := h
  have ht : tokens .start text = tk := by
    have := tokens_append .start text []
    rw [List.append_nil, h1] at this
    simpa [tokens, Mode.finish] using this
  unfold Spec.Geo.read
  rw [ht]
  have := h3 (tk.length - cs.length) []
  rw [show cs.length + (tk.length - cs.length) = tk.length by omega, List.append_nil] at this
  rw [this]
  cases tk.length - cs.length <;> simp [commands]

theorem reads_merge (name : List Char) (hq : ∀ c ∈ name, c ≠ '"') :
    Reads ("Merge ".toList ++ GmshWriter.quote ++ (name ++ ".brep".toList) ++ GmshWriter.quote ++ ";\n\n".toList ++
      "// mesh size definitions\n".toList) [.merge (name ++ ".brep".toList)] := by
  refine reads_one ⟨[.word "Merge".toList, .string (name ++ ".brep".toList), .symbol ';'], by simp, ?_, ?_⟩
  · have hq' : ∀ c ∈ name ++ ".brep".toList, c ≠ '"' := by
      intro c hc
      rcases List.mem_append.1 hc with hc | hc
      · exact hq c hc
      · have : ∀ c ∈ ".brep".toList, c ≠ '"' := by decide
        exact this c hc
    generalize name ++ ".brep".toList = p at *
    have e1 : advance .start ("Merge ".toList ++ GmshWriter.quote) = (.string [], [.word "Merge".toList]) := by decide
    have e2 : ∀ l, advance (.string l) GmshWriter.quote = (.start, [.string l]) := fun l => by
      simp [GmshWriter.quote, advance, next]
    have e3 : advance .start ";\n\n".toList = (.start, [.symbol ';']) := by decide
    have e4 : advance .start "// mesh size definitions\n".toList = (.start, []) := by decide
    rw [advance_append, advance_append, advance_append, advance_append, e1]
    simp only
    rw [advance_string _ _ hq', List.nil_append]
    simp only
    rw [e2]
    simp only
    rw [e3]
    simp only
    rw [e4]
    simp
  · intro r
    simp only [List.cons_append, List.nil_append, command]
    rw [if_pos trivial]

theorem reads_define (a v : List Char) (x : ℝ) (hv : v ≠ []) (hvc : ∀ c ∈ v, isWord c = true) (hx : number v = some x)
    {t : List Char} (ht : advance .start t = (.start, [.word a, .symbol '=']))
    (h1 : a ≠ "Merge".toList) (h2 : a ≠ "Physical".toList) (h3 : a ≠ "Characteristic".toList) :
    Reads (t ++ v ++ ";\n".toList) [.define a x] := by
  refine reads_one ⟨[.word a, .symbol '=', .word v, .symbol ';'], by simp, ?_, ?_⟩
  · have := advance_between ht hv hvc (c := ';') (by decide) ['\n']
    have e : ";\n".toList = [';', '\n'] := by decide
    rw [e, this]
    have e2 : advance .start [';', '\n'] = (.start, [.symbol ';']) := by decide
    rw [e2]; rfl
  · intro r
    simp only [List.cons_append, List.nil_append, command]
    rw [if_neg h1, if_neg h2, if_neg h3, hx]
    rfl

theorem reads_section (title : List Char) (ht : advance .start ("\n// ".toList ++ title ++ "\n".toList) = (.start, []))
    (order : List ℕ) (l : List GeoStatement) (h : ∀ s ∈ l, itemsOf s ≠ []) (h0 : order = [] → l = []) :
    Reads (GmshWriter.section' title order l) (l.map commandOf) := by
  unfold GmshWriter.section'
  cases order with
  | nil => rw [h0 rfl]; exact reads_silent rfl
  | cons a t =>
    rw [if_neg (by simp)]
    exact reads_append (cs := []) (reads_silent ht) (reads_statements l h)

/-- The groups written for a map: none is empty. -/
theorem groups_items {kind : GeoKind} {size : Option Bool} {m : ℕ → List ℕ} {order : List ℕ} {l : List GeoStatement}
    (h : GmshWriter.groups kind size m order = .val l) : (∀ s ∈ l, itemsOf s ≠ []) ∧ (order = [] → l = []) := by
  induction order generalizing l with
  | nil =>
    cases h
    exact ⟨by simp, fun _ => rfl⟩
  | cons k t ih =>
    simp only [GmshWriter.groups] at h
    cases hm : m k with
    | nil => rw [hm] at h; cases h
    | cons a b =>
      rw [hm] at h
      simp only [GmshWriter.items, Outcome.val_bind] at h
      obtain ⟨r, hr, h⟩ := Outcome.bind_eq_val.1 h
      cases h
      refine ⟨fun s hs => ?_, by simp⟩
      rcases List.mem_cons.1 hs with rfl | hs
      · simp [itemsOf]
      rcases List.mem_append.1 hs with hs | hs
      · cases size with
        | none => simp at hs
        | some b =>
          simp only [List.mem_singleton] at hs
          subst hs
          simp [itemsOf]
      · exact (ih hr).1 s hs

variable {Sh : Type}

/-! ## C99 Gmsh files can be read -/

/-- Whenever the groups and mesh sizes of a network can be written, the text is read by Gmsh as: the geometry file is
merged, the two mesh sizes are defined (by numbers close to those given), and the groups and mesh sizes follow.  The
file name must not contain quotation marks. -/
theorem C99_read (name : List Char) (hq : ∀ c ∈ name, c ≠ '"') (h1 h2 : ℝ) (dOrd eOrd iOrd : List ℕ) (w : BRepWriter Sh)
    (file : List GeoStatement) (hf : GmshWriter.write dOrd eOrd iOrd w = .val file) :
    ∃ text y1 y2, GmshWriter.text name h1 h2 dOrd eOrd iOrd w = .val text ∧
      number (GeneralFormat.print h1) = some y1 ∧ number (GeneralFormat.print h2) = some y2 ∧
      Spec.Geo.read text = some (.merge (name ++ ".brep".toList) :: .define "sizeAtEntities".toList y1 ::
        .define "sizeAtBoundary".toList y2 :: file.map commandOf) := by
  obtain ⟨p1, p2, y1, p3, -⟩ := print_spec h1
  obtain ⟨q1, q2, y2, q3, -⟩ := print_spec h2
  unfold GmshWriter.write at hf
  obtain ⟨a, ha, hf⟩ := Outcome.bind_eq_val.1 hf
  obtain ⟨b, hb, hf⟩ := Outcome.bind_eq_val.1 hf
  obtain ⟨c, hc, hf⟩ := Outcome.bind_eq_val.1 hf
  cases hf
  refine ⟨_, y1, y2, ?_, p3, q3, read_of_reads (text := GmshWriter.header name h1 h2 ++
    GmshWriter.section' "Physical domain definitions".toList dOrd a ++
    GmshWriter.section' "Physical entity definitions".toList eOrd b ++
    GmshWriter.section' "Physical entity intersections definitions".toList iOrd c) ?_⟩
  · unfold GmshWriter.text
    rw [ha, Outcome.val_bind, hb, Outcome.val_bind, hc, Outcome.val_bind]
    rfl
  · have r1 := reads_merge name hq
    have r2 := reads_define "sizeAtEntities".toList _ y1 p1 p2 p3 (t := "sizeAtEntities = ".toList) (by decide)
      (by decide) (by decide) (by decide)
    have r3 := reads_define "sizeAtBoundary".toList _ y2 q1 q2 q3 (t := "sizeAtBoundary = ".toList) (by decide)
      (by decide) (by decide) (by decide)
    have r := reads_append (reads_append r1 r2) r3
    have s1 := reads_section "Physical domain definitions".toList (by decide) dOrd a (groups_items ha).1 (groups_items ha).2
    have s2 := reads_section "Physical entity definitions".toList (by decide) eOrd b (groups_items hb).1 (groups_items hb).2
    have s3 := reads_section "Physical entity intersections definitions".toList (by decide) iOrd c (groups_items hc).1
      (groups_items hc).2
    have fin := reads_append (reads_append (reads_append r s1) s2) s3
    unfold GmshWriter.header
    simp only [List.append_assoc, List.cons_append, List.nil_append, List.map_append] at fin ⊢
    exact fin

theorem physical_mem (file : List GeoStatement) (k : GeoKind) (id : ℕ) (l : List ℕ) :
    Command.physical (kindOf k) id l ∈ file.map commandOf ↔ Defines file k id l := by
  rw [List.mem_map]
  constructor
  · rintro ⟨s, hs, e⟩
    cases s with
    | physical k' id' l' =>
      obtain ⟨e1, rfl, rfl⟩ := Command.physical.inj e
      have : k' = k := by cases k' <;> cases k <;> simp_all [kindOf]
      exact this ▸ hs
    | meshSize _ _ _ => cases e
  · intro h
    exact ⟨_, h, rfl⟩

theorem mem_three {α : Type} {x a b c : α} {l : List α} (ha : x ≠ a) (hb : x ≠ b) (hc : x ≠ c) :
    x ∈ a :: b :: c :: l ↔ x ∈ l := by
  simp [ha, hb, hc]

/-- What is read from the file are exactly the groups of the maps of the writer: volumes for sub-domains, surfaces for
entities, lines for intersections. -/
theorem C99_groups (name : List Char) (hq : ∀ c ∈ name, c ≠ '"') (h1 h2 : ℝ) {dOrd eOrd iOrd : List ℕ}
    (w : BRepWriter Sh) (hd : IsTraversal w.domainToFragments dOrd) (he : IsTraversal w.entityToFragments eOrd)
    (hi : IsTraversal w.intersectionsToFragments iOrd) :
    ∃ text cs, GmshWriter.text name h1 h2 dOrd eOrd iOrd w = .val text ∧ Spec.Geo.read text = some cs ∧
      (∀ tag l, Command.physical .volume tag l ∈ cs ↔ l ≠ [] ∧ l = w.domainToFragments tag) ∧
      (∀ tag l, Command.physical .surface tag l ∈ cs ↔ l ≠ [] ∧ l = w.entityToFragments tag) ∧
      (∀ tag l, Command.physical .line tag l ∈ cs ↔ l ≠ [] ∧ l = w.intersectionsToFragments tag) ∧
      (∀ p, Command.merge p ∈ cs ↔ p = name ++ ".brep".toList) := by
  obtain ⟨file, f1, -, f3, f4, f5, -, -⟩ := write_val w hd he hi
  obtain ⟨text, y1, y2, t1, -, -, t2⟩ := C99_read name hq h1 h2 dOrd eOrd iOrd w file f1
  refine ⟨text, _, t1, t2, fun tag l => ?_, fun tag l => ?_, fun tag l => ?_, fun p => ?_⟩
  · rw [← f3, ← physical_mem file .volume]; exact mem_three (by nofun) (by nofun) (by nofun)
  · rw [← f4, ← physical_mem file .surface]; exact mem_three (by nofun) (by nofun) (by nofun)
  · rw [← f5, ← physical_mem file .line]; exact mem_three (by nofun) (by nofun) (by nofun)
  · constructor
    · intro h
      rcases List.mem_cons.1 h with h | h
      · exact Command.merge.inj h
      · rcases List.mem_cons.1 h with h | h
        · cases h
        · rcases List.mem_cons.1 h with h | h
          · cases h
          · obtain ⟨s, -, e⟩ := List.mem_map.1 h
            cases s <;> cases e
    · rintro rfl
      exact List.mem_cons_self

/-- The points of entities get the mesh size of entities even if they belong to a sub-domain, too: the commands for
entities come last. -/
theorem C99_order (name : List Char) (hq : ∀ c ∈ name, c ≠ '"') (h1 h2 : ℝ) {dOrd eOrd iOrd : List ℕ}
    (w : BRepWriter Sh) (hd : IsTraversal w.domainToFragments dOrd) (he : IsTraversal w.entityToFragments eOrd)
    (hi : IsTraversal w.intersectionsToFragments iOrd) :
    ∃ text cs, GmshWriter.text name h1 h2 dOrd eOrd iOrd w = .val text ∧ Spec.Geo.read text = some cs ∧
      (∀ k l v, Command.meshSize k l v ∈ cs ↔ l ≠ [] ∧
        ((k = .volume ∧ v = "sizeAtBoundary".toList ∧ ∃ tag, l = w.domainToFragments tag) ∨
         (k = .surface ∧ v = "sizeAtEntities".toList ∧ ∃ tag, l = w.entityToFragments tag))) ∧
      cs.Pairwise fun a b => ∀ l v l' v', a = Command.meshSize .surface l v → b ≠ Command.meshSize .volume l' v' := by
  obtain ⟨file, f1, -, f3, f4, f5, f6, f7⟩ := write_val w hd he hi
  obtain ⟨text, y1, y2, t1, -, -, t2⟩ := C99_read name hq h1 h2 dOrd eOrd iOrd w file f1
  have inv : ∀ s k l v, commandOf s = Command.meshSize k l v → ∃ kd b, s = GeoStatement.meshSize kd l b ∧ kindOf kd = k ∧
      v = (if b then "sizeAtBoundary".toList else "sizeAtEntities".toList) := by
    intro s k l v e
    cases s with
    | physical _ _ _ => cases e
    | meshSize kd l' b =>
      obtain ⟨e1, rfl, e2⟩ := Command.meshSize.inj e
      exact ⟨kd, b, rfl, e1, e2.symm⟩
  refine ⟨text, _, t1, t2, fun k l v => ?_, ?_⟩
  · refine (mem_three (by nofun) (by nofun) (by nofun)).trans ?_
    rw [List.mem_map]
    constructor
    · rintro ⟨s, hs, e⟩
      obtain ⟨kd, b, rfl, rfl, rfl⟩ := inv s k l v e
      obtain ⟨hl, h | h⟩ := (f6 kd l b).1 hs
      · obtain ⟨rfl, rfl, id, hid⟩ := h
        exact ⟨hl, Or.inl ⟨rfl, rfl, id, ((f3 _ _).1 hid).2⟩⟩
      · obtain ⟨rfl, rfl, id, hid⟩ := h
        exact ⟨hl, Or.inr ⟨rfl, rfl, id, ((f4 _ _).1 hid).2⟩⟩
    · rintro ⟨hl, ⟨rfl, rfl, tag, rfl⟩ | ⟨rfl, rfl, tag, rfl⟩⟩
      · exact ⟨.meshSize .volume (w.domainToFragments tag) true,
          (f6 _ _ _).2 ⟨hl, Or.inl ⟨rfl, rfl, tag, (f3 _ _).2 ⟨hl, rfl⟩⟩⟩, rfl⟩
      · exact ⟨.meshSize .surface (w.entityToFragments tag) false,
          (f6 _ _ _).2 ⟨hl, Or.inr ⟨rfl, rfl, tag, (f4 _ _).2 ⟨hl, rfl⟩⟩⟩, rfl⟩
  · refine List.Pairwise.cons (fun b _ l v l' v' e => by cases e) (List.Pairwise.cons (fun b _ l v l' v' e => by cases e)
      (List.Pairwise.cons (fun b _ l v l' v' e => by cases e) ?_))
    rw [List.pairwise_map]
    rw [DomainSizesFirst, List.pairwise_iff_forall_sublist] at f7
    rw [List.pairwise_iff_forall_sublist]
    intro x y hxy l v l' v' e1 e2
    obtain ⟨kd, b, rfl, hk, -⟩ := inv x _ _ _ e1
    obtain ⟨kd', b', rfl, hk', -⟩ := inv y _ _ _ e2
    have hx : GeoStatement.meshSize kd l b ∈ file := hxy.subset (by simp)
    have hy : GeoStatement.meshSize kd' l' b' ∈ file := hxy.subset (by simp)
    have k1 : kd = .surface := by cases kd <;> first | rfl | cases hk
    have k2 : kd' = .volume := by cases kd' <;> first | rfl | cases hk'
    subst k1 k2
    have b1 : b = false := by
      obtain ⟨-, ⟨h, -⟩ | ⟨-, h, -⟩⟩ := (f6 _ _ _).1 hx
      · cases h
      · exact h
    have b2 : b' = true := by
      obtain ⟨-, ⟨-, h, -⟩ | ⟨h, -⟩⟩ := (f6 _ _ _).1 hy
      · exact h
      · cases h
    subst b1 b2
    exact f7 hxy l l' rfl rfl

/-- Example: a writer with one volume, two fragments of an entity, and no intersections. -/
def smallWriter : BRepWriter ℕ :=
  { BRepWriter.empty with
    domainToFragments := fun i => if i = 1 then [1] else []
    entityToFragments := fun i => if i = 1 then [1, 2] else []
    intersectionsToFragments := fun _ => [] }

theorem smallWriter_traversals : IsTraversal smallWriter.domainToFragments [1] ∧
    IsTraversal smallWriter.entityToFragments [1] ∧ IsTraversal smallWriter.intersectionsToFragments [] :=
  ⟨⟨by decide, fun k => by by_cases h : k = 1 <;> simp [smallWriter, h]⟩,
    ⟨by decide, fun k => by by_cases h : k = 1 <;> simp [smallWriter, h]⟩, ⟨by decide, fun k => by simp [smallWriter]⟩⟩

example : ∃ text cs, GmshWriter.text "network".toList 1 2 [1] [1] [] smallWriter = .val text ∧
    Spec.Geo.read text = some cs ∧ Command.physical .surface 1 [1, 2] ∈ cs := by
  obtain ⟨text, cs, h1, h2, -, h3, -⟩ := C99_groups "network".toList (by decide) 1 2 smallWriter
    smallWriter_traversals.1 smallWriter_traversals.2.1 smallWriter_traversals.2.2
  exact ⟨text, cs, h1, h2, (h3 1 [1, 2]).2 ⟨by simp, rfl⟩⟩

/-! ## C100 Mesh sizes in Gmsh files -/

/-- Full claim: the mesh sizes read from the file are those given. -/
def C100_full : Prop :=
  ∀ (name : List Char) (h1 h2 : ℝ) (dOrd eOrd iOrd : List ℕ) (w : BRepWriter ℕ) (text : List Char) (cs : List Command),
    (∀ c ∈ name, c ≠ '"') → GmshWriter.text name h1 h2 dOrd eOrd iOrd w = .val text → Spec.Geo.read text = some cs →
    (∀ x, Command.define "sizeAtEntities".toList x ∈ cs ↔ x = h1) ∧
    (∀ x, Command.define "sizeAtBoundary".toList x ∈ cs ↔ x = h2)

/-- The mesh sizes read from the file differ from those given by at most five millionth of them, and not at all if they
have at most six significant digits.  Missing: further digits. -/
theorem C100_partial (name : List Char) (hq : ∀ c ∈ name, c ≠ '"') (h1 h2 : ℝ) (dOrd eOrd iOrd : List ℕ)
    (w : BRepWriter Sh) (text : List Char) (cs : List Command)
    (ht : GmshWriter.text name h1 h2 dOrd eOrd iOrd w = .val text) (hr : Spec.Geo.read text = some cs) :
    ∃ y1 y2, (∀ x, Command.define "sizeAtEntities".toList x ∈ cs ↔ x = y1) ∧
      (∀ x, Command.define "sizeAtBoundary".toList x ∈ cs ↔ x = y2) ∧
      |y1 - h1| ≤ 5 / 10 ^ 6 * |h1| ∧ |y2 - h2| ≤ 5 / 10 ^ 6 * |h2| ∧
      (SixDigits h1 → y1 = h1) ∧ (SixDigits h2 → y2 = h2) := by
  obtain ⟨-, -, z1, p1, p2, p3⟩ := print_spec h1
  obtain ⟨-, -, z2, q1, q2, q3⟩ := print_spec h2
  have hw : ∃ file, GmshWriter.write dOrd eOrd iOrd w = .val file := by
    unfold GmshWriter.text at ht
    obtain ⟨a, ha, ht⟩ := Outcome.bind_eq_val.1 ht
    obtain ⟨b, hb, ht⟩ := Outcome.bind_eq_val.1 ht
    obtain ⟨c, hc, -⟩ := Outcome.bind_eq_val.1 ht
    refine ⟨a ++ b ++ c, ?_⟩
    unfold GmshWriter.write
    rw [ha, Outcome.val_bind, hb, Outcome.val_bind, hc, Outcome.val_bind]
    rfl
  obtain ⟨file, hf⟩ := hw
  obtain ⟨text', y1, y2, t1, t2, t3, t4⟩ := C99_read name hq h1 h2 dOrd eOrd iOrd w file hf
  rw [ht] at t1
  cases t1
  rw [hr] at t4
  cases t4
  rw [p1] at t2
  rw [q1] at t3
  cases t2
  cases t3
  have hne : ∀ s a x, commandOf s ≠ Command.define a x := fun s a x e => by cases s <;> cases e
  have hd : "sizeAtEntities".toList ≠ "sizeAtBoundary".toList := by decide
  refine ⟨z1, z2, fun x => ?_, fun x => ?_, p2, q2, p3, q3⟩
  · constructor
    · intro h
      rcases List.mem_cons.1 h with h | h
      · cases h
      rcases List.mem_cons.1 h with h | h
      · exact (Command.define.inj h).2
      rcases List.mem_cons.1 h with h | h
      · exact absurd (Command.define.inj h).1 hd
      obtain ⟨s, -, e⟩ := List.mem_map.1 h
      exact absurd e (hne _ _ _)
    · rintro rfl
      exact List.mem_cons_of_mem _ List.mem_cons_self
  · constructor
    · intro h
      rcases List.mem_cons.1 h with h | h
      · cases h
      rcases List.mem_cons.1 h with h | h
      · exact absurd (Command.define.inj h).1.symm hd
      rcases List.mem_cons.1 h with h | h
      · exact (Command.define.inj h).2
      obtain ⟨s, -, e⟩ := List.mem_map.1 h
      exact absurd e (hne _ _ _)
    · rintro rfl
      exact List.mem_cons_of_mem _ (List.mem_cons_of_mem _ List.mem_cons_self)

/-- Numbers with more digits are changed: one third is not read as one third. -/
theorem C100_disproof : ¬ C100_full := by
  intro h
  obtain ⟨text, cs, t1, t2, -⟩ := C99_groups "network".toList (by decide) (1 / 3) 1 smallWriter
    smallWriter_traversals.1 smallWriter_traversals.2.1 smallWriter_traversals.2.2
  have hx := (h "network".toList (1 / 3) 1 [1] [1] [] smallWriter text cs (by decide) t1 t2).1
  obtain ⟨file, f1, -⟩ := write_val smallWriter
    smallWriter_traversals.1 smallWriter_traversals.2.1 smallWriter_traversals.2.2
  obtain ⟨text', y1, y2, u1, u2, -, u4⟩ := C99_read "network".toList (by decide) (1 / 3) 1 [1] [1] [] smallWriter file f1
  rw [t1] at u1
  cases u1
  rw [t2] at u4
  cases u4
  have hy : y1 = 1 / 3 := (hx y1).1 (List.mem_cons_of_mem _ List.mem_cons_self)
  have hp : GeneralFormat.print (1 / 3) =
      GeneralFormat.layout (GeneralFormat.significant (1 / 3)).1 (GeneralFormat.significant (1 / 3)).2 := by
    unfold GeneralFormat.print
    rw [if_neg (by norm_num), if_neg (by norm_num)]
  rw [hp, number_layout] at u2
  have hu := Option.some.inj u2
  rw [hy] at hu
  generalize (GeneralFormat.significant (1 / 3)).1 = n at hu
  generalize (GeneralFormat.significant (1 / 3)).2 - 5 = e at hu
  -- three times an integer times a power of ten is not one
  have h3 : (3 * n : ℝ) * (10 : ℝ) ^ e = 1 := by rw [mul_assoc, hu]; norm_num
  rcases Int.lt_or_le e 0 with he | he
  · obtain ⟨k, hk⟩ : ∃ k : ℕ, e = -(k : ℤ) := ⟨e.natAbs, by omega⟩
    rw [hk, zpow_neg, zpow_natCast] at h3
    have h4 : (3 * n : ℝ) = 10 ^ k := by
      field_simp at h3
      exact h3
    have h5 : 3 * n = 10 ^ k := by exact_mod_cast h4
    have h6 : 10 ^ k % 3 = 1 := by
      rw [Nat.pow_mod]; simp
    omega
  · obtain ⟨k, rfl⟩ := Int.eq_ofNat_of_zero_le he
    have h5 : 3 * n * 10 ^ k = 1 := by
      have : (3 * n : ℝ) * 10 ^ k = 1 := by exact_mod_cast h3
      exact_mod_cast this
    have := Nat.eq_one_of_mul_eq_one_right h5
    omega

/-- Example: a mesh size with two digits. -/
example : SixDigits (15 / 100) := ⟨15, -2, by norm_num, by norm_num⟩

/-- The function with one mesh size uses it for entities and boundaries. -/
theorem C100_one_size (fs : GmshWriter.Files Sh) (dOrd eOrd iOrd : List ℕ) (w : BRepWriter Sh) (name : List Char) (h : ℝ) :
    GmshWriter.writeFilesOneSize fs dOrd eOrd iOrd w name h = GmshWriter.writeFiles fs dOrd eOrd iOrd w name h h := rfl

/-! ## C101 The Gmsh file refers to the geometry file written with it -/

/-- Full claim: the file that Gmsh merges is the geometry file. -/
def C101_full : Prop :=
  ∀ (name : List Char) (h1 h2 : ℝ) (dOrd eOrd iOrd : List ℕ) (w : BRepWriter ℕ) (text : List Char) (cs : List Command)
    (p : List Char), (∀ c ∈ name, c ≠ '"') → GmshWriter.text name h1 h2 dOrd eOrd iOrd w = .val text →
    Spec.Geo.read text = some cs → Command.merge p ∈ cs →
    resolve (name ++ ".geo".toList) p = name ++ ".brep".toList

theorem directory_append (name ext : List Char) (h : ∀ c ∈ ext, c ≠ '/') : directory (name ++ ext) = directory name := by
  unfold directory
  rw [List.reverse_append, List.dropWhile_append_of_pos]
  intro c hc
  simpa using h c (List.mem_reverse.1 hc)

theorem directory_nil {name : List Char} : directory name = [] ↔ ∀ c ∈ name, c ≠ '/' := by
  unfold directory
  rw [List.reverse_eq_nil_iff]
  constructor
  · intro h c hc
    have := (List.takeWhile_append_dropWhile (p := fun x : Char => decide (x ≠ '/')) (l := name.reverse))
    rw [h, List.append_nil] at this
    have hm : c ∈ name.reverse.takeWhile (fun x : Char => decide (x ≠ '/')) := by rw [this]; simpa using hc
    simpa using List.all_eq_true.1 List.all_takeWhile c hm
  · intro h
    have := List.dropWhile_append_of_pos (p := fun x : Char => decide (x ≠ '/')) (l₁ := name.reverse) (l₂ := [])
      (fun c hc => by simpa using h c (List.mem_reverse.1 hc))
    simpa using this

/-- The path in the file leads to the geometry file exactly if the name is absolute or does not contain a directory. -/
theorem resolve_iff (name : List Char) : resolve (name ++ ".geo".toList) (name ++ ".brep".toList) =
    name ++ ".brep".toList ↔ name.head? = some '/' ∨ ∀ c ∈ name, c ≠ '/' := by
  have hd := directory_append name ".geo".toList (by decide)
  cases name with
  | nil =>
    have : ∀ c ∈ ([] : List Char), c ≠ '/' := by simp
    refine ⟨fun _ => Or.inr this, fun _ => by decide⟩
  | cons a t =>
    by_cases ha : a = '/'
    · subst ha
      exact ⟨fun _ => Or.inl rfl, fun _ => rfl⟩
    · have e : resolve (a :: t ++ ".geo".toList) (a :: t ++ ".brep".toList) =
          directory (a :: t ++ ".geo".toList) ++ (a :: t ++ ".brep".toList) := by
        rw [resolve]
        · rintro l h
          exact ha (List.cons.inj h).1
      rw [e, hd, ← directory_nil]
      constructor
      · intro h
        exact Or.inr (List.append_left_eq_self.1 h)
      · rintro (h | h)
        · simp only [List.head?_cons, Option.some.injEq] at h
          exact absurd h ha
        · rw [h]; rfl

theorem merge_path {name : List Char} (hq : ∀ c ∈ name, c ≠ '"') {h1 h2 : ℝ} {dOrd eOrd iOrd : List ℕ}
    {w : BRepWriter Sh} {text : List Char} {cs : List Command}
    (ht : GmshWriter.text name h1 h2 dOrd eOrd iOrd w = .val text) (hr : Spec.Geo.read text = some cs) (p : List Char) :
    Command.merge p ∈ cs ↔ p = name ++ ".brep".toList := by
  have hw : ∃ file, GmshWriter.write dOrd eOrd iOrd w = .val file := by
    unfold GmshWriter.text at ht
    obtain ⟨a, ha, ht⟩ := Outcome.bind_eq_val.1 ht
    obtain ⟨b, hb, ht⟩ := Outcome.bind_eq_val.1 ht
    obtain ⟨c, hc, -⟩ := Outcome.bind_eq_val.1 ht
    refine ⟨a ++ b ++ c, ?_⟩
    unfold GmshWriter.write
    rw [ha, Outcome.val_bind, hb, Outcome.val_bind, hc, Outcome.val_bind]
    rfl
  obtain ⟨file, hf⟩ := hw
  obtain ⟨text', y1, y2, t1, -, -, t4⟩ := C99_read name hq h1 h2 dOrd eOrd iOrd w file hf
  rw [ht] at t1
  cases t1
  rw [hr] at t4
  cases t4
  constructor
  · intro h
    rcases List.mem_cons.1 h with h | h
    · exact Command.merge.inj h
    · rcases List.mem_cons.1 h with h | h
      · cases h
      · rcases List.mem_cons.1 h with h | h
        · cases h
        · obtain ⟨s, -, e⟩ := List.mem_map.1 h
          cases s <;> cases e
  · rintro rfl
    exact List.mem_cons_self

/-- Names without directories and absolute names: the file that is merged is the geometry file.  For all other names it
is not.  (Missing: names of files in a directory relative to the current one.) -/
theorem C101_partial (name : List Char) (hq : ∀ c ∈ name, c ≠ '"') (h1 h2 : ℝ) (dOrd eOrd iOrd : List ℕ)
    (w : BRepWriter Sh) (text : List Char) (cs : List Command)
    (ht : GmshWriter.text name h1 h2 dOrd eOrd iOrd w = .val text) (hr : Spec.Geo.read text = some cs) :
    (∃! p, Command.merge p ∈ cs) ∧ ∀ p, Command.merge p ∈ cs →
      (resolve (name ++ ".geo".toList) p = name ++ ".brep".toList ↔ name.head? = some '/' ∨ ∀ c ∈ name, c ≠ '/') := by
  refine ⟨⟨name ++ ".brep".toList, (merge_path hq ht hr _).2 rfl, fun p hp => (merge_path hq ht hr p).1 hp⟩,
    fun p hp => ?_⟩
  rw [(merge_path hq ht hr p).1 hp]
  exact resolve_iff name

/-- A file in a directory: the path of the directory is added twice. -/
theorem C101_disproof : ¬ C101_full := by
  intro h
  obtain ⟨text, cs, t1, t2, -⟩ := C99_groups "out/network".toList (by decide) 1 1 smallWriter
    smallWriter_traversals.1 smallWriter_traversals.2.1 smallWriter_traversals.2.2
  have := h "out/network".toList 1 1 [1] [1] [] smallWriter text cs _ (by decide) t1 t2
    ((merge_path (by decide) t1 t2 _).2 rfl)
  revert this
  decide

/-- Example: the file that Gmsh looks for. -/
example : resolve "out/network.geo".toList "out/network.brep".toList = "out/out/network.brep".toList := by decide

/-! ## C102 Failures to write a file are reported -/

/-- Full claim: if `write` returns, both files have been written. -/
def C102_full : Prop :=
  ∀ (fs : GmshWriter.Files ℕ) (dOrd eOrd iOrd : List ℕ) (w : BRepWriter ℕ) (name : List Char) (h1 h2 : ℝ),
    (GmshWriter.writeFiles fs dOrd eOrd iOrd w name h1 h2).1 = .val () →
    (GmshWriter.writeFiles fs dOrd eOrd iOrd w name h1 h2).2.content (name ++ ".brep".toList) =
        some (.brep w.compound) ∧
      ∃ text, GmshWriter.text name h1 h2 dOrd eOrd iOrd w = .val text ∧
        (GmshWriter.writeFiles fs dOrd eOrd iOrd w name h1 h2).2.content (name ++ ".geo".toList) = some (.geo text)

theorem put_writable (fs : GmshWriter.Files Sh) (p : List Char) (c : GmshWriter.FileContent Sh) :
    (fs.put p c).writable = fs.writable := by
  unfold GmshWriter.Files.put
  split <;> rfl

theorem put_self {fs : GmshWriter.Files Sh} (p : List Char) (c : GmshWriter.FileContent Sh) (h : fs.writable p = true) :
    (fs.put p c).content p = some c := by
  unfold GmshWriter.Files.put
  rw [if_pos h]
  simp

theorem put_other {fs : GmshWriter.Files Sh} (p : List Char) {q : List Char} (c : GmshWriter.FileContent Sh)
    (h : q ≠ p) : (fs.put p c).content q = fs.content q := by
  unfold GmshWriter.Files.put
  split
  · exact if_neg h
  · rfl

/-- If both files can be written, `write` writes the compound and the text, and no other file is changed.  (Missing: files
that cannot be written.) -/
theorem C102_partial (fs : GmshWriter.Files Sh) {dOrd eOrd iOrd : List ℕ} (w : BRepWriter Sh)
    (hd : IsTraversal w.domainToFragments dOrd) (he : IsTraversal w.entityToFragments eOrd)
    (hi : IsTraversal w.intersectionsToFragments iOrd) (name : List Char) (h1 h2 : ℝ)
    (hb : fs.writable (name ++ ".brep".toList) = true) (hg : fs.writable (name ++ ".geo".toList) = true) :
    ∃ text, GmshWriter.text name h1 h2 dOrd eOrd iOrd w = .val text ∧
      ∃ fs', GmshWriter.writeFiles fs dOrd eOrd iOrd w name h1 h2 = (.val (), fs') ∧
        fs'.content (name ++ ".brep".toList) = some (.brep w.compound) ∧
        fs'.content (name ++ ".geo".toList) = some (.geo text) ∧
        ∀ p, p ≠ name ++ ".brep".toList → p ≠ name ++ ".geo".toList → fs'.content p = fs.content p := by
  obtain ⟨a, a1, -⟩ := groups_val .volume (some true) w.domainToFragments dOrd (fun k hk => (hd.2 k).1 hk)
  obtain ⟨b, b1, -⟩ := groups_val .surface (some false) w.entityToFragments eOrd (fun k hk => (he.2 k).1 hk)
  obtain ⟨c, c1, -⟩ := groups_val .line none w.intersectionsToFragments iOrd (fun k hk => (hi.2 k).1 hk)
  have hne : name ++ ".brep".toList ≠ name ++ ".geo".toList := by
    intro h
    have := List.append_cancel_left h
    revert this
    decide
  have ht : ∃ text, GmshWriter.text name h1 h2 dOrd eOrd iOrd w = .val text := by
    unfold GmshWriter.text
    rw [a1, Outcome.val_bind, b1, Outcome.val_bind, c1, Outcome.val_bind]
    exact ⟨_, rfl⟩
  obtain ⟨text, ht⟩ := ht
  have hg' : (GmshWriter.brepWrite fs w name).writable (name ++ ".geo".toList) = true := by
    rw [GmshWriter.brepWrite, put_writable]; exact hg
  refine ⟨text, ht, (GmshWriter.brepWrite fs w name).put (name ++ ".geo".toList) (.geo text), ?_, ?_, ?_, ?_⟩
  · unfold GmshWriter.writeFiles
    rw [ht]
  · rw [put_other _ _ hne]
    exact put_self _ _ hb
  · exact put_self _ _ hg'
  · intro p p1 p2
    rw [put_other _ _ p2]
    exact put_other _ _ p1

/-- If a directory does not exist, `write` returns as if it had been successful. -/
theorem C102_disproof : ¬ C102_full := by
  intro h
  have ht : ∃ text, GmshWriter.text "network".toList 1 1 [1] [1] [] smallWriter = .val text := by
    obtain ⟨text, cs, t1, -⟩ := C99_groups "network".toList (by decide) 1 1 smallWriter
      smallWriter_traversals.1 smallWriter_traversals.2.1 smallWriter_traversals.2.2
    exact ⟨text, t1⟩
  obtain ⟨text, ht⟩ := ht
  have hw : GmshWriter.writeFiles ⟨fun _ => none, fun _ => false⟩ [1] [1] [] smallWriter "network".toList 1 1 =
      (.val (), ⟨fun _ => none, fun _ => false⟩) := by
    unfold GmshWriter.writeFiles
    rw [ht]
    rfl
  obtain ⟨h1, -⟩ := h ⟨fun _ => none, fun _ => false⟩ [1] [1] [] smallWriter "network".toList 1 1 (by rw [hw])
  rw [hw] at h1
  cases h1

end Props
