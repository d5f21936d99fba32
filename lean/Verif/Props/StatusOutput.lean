import Verif.Spec.StatusOutput
import Verif.Props.Status
import Mathlib.Tactic.IntervalCases
import Mathlib.Data.Nat.Log
import Mathlib.Algebra.Order.Floor.Semifield

/-!
# Terminal output of the sampling status (C67, C68)
-/

namespace Props
open Verif Frackit Spec.StatusOutput
open Spec.Status (accepted rejected target)

/-! ## Decimal representations -/

theorem digitChar_toNat {d : ℕ} (h : d < 10) : (digitChar d).toNat = 48 + d := by
  interval_cases d <;> rfl

theorem read_snoc (l : List Char) (c : Char) : readDigits (l ++ [c]) = 10 * readDigits l + (c.toNat - 48) := by
  simp [readDigits]

theorem decimal_spec (n : ℕ) : Decimal n (decimal n) ∧ (0 < n → (decimal n).head? ≠ some '0') := by
  induction n using Nat.strong_induction_on with
  | _ n ih =>
    rw [decimal]
    by_cases h : n < 10
    · rw [if_pos h]
      refine ⟨⟨by simp, ?_, ?_, by simp⟩, ?_⟩
      · intro c hc
        rw [List.mem_singleton.1 hc, digitChar_toNat h]; omega
      · simp [readDigits, digitChar_toNat h]
      · intro h0 h1
        simp only [List.head?_cons, Option.some.injEq] at h1
        have := congrArg Char.toNat h1
        rw [digitChar_toNat h] at this
        have e : ('0' : Char).toNat = 48 := rfl
        omega
    · rw [if_neg h]
      obtain ⟨⟨h1, h2, h3, h4⟩, h5⟩ := ih (n / 10) (by omega)
      have h5 := h5 (by omega)
      have hm : n % 10 < 10 := by omega
      have hh : (decimal (n / 10) ++ [digitChar (n % 10)]).head? = (decimal (n / 10)).head? := by
        rw [List.head?_append_of_ne_nil _ h1]
      refine ⟨⟨by simp, ?_, ?_, ?_⟩, ?_⟩
      · intro c hc
        rcases List.mem_append.1 hc with hc | hc
        · exact h2 c hc
        · rw [List.mem_singleton.1 hc, digitChar_toNat hm]; omega
      · rw [read_snoc, h3, digitChar_toNat hm]; omega
      · rw [hh]; exact fun h => absurd h h5
      · rw [hh]; exact fun _ => h5

theorem decimal_length (k n : ℕ) (h1 : n < 10 ^ (k + 1)) (h2 : k = 0 ∨ 10 ^ k ≤ n) :
    (decimal n).length = k + 1 := by
  induction k generalizing n with
  | zero =>
    rw [decimal, if_pos (by simpa using h1)]
    rfl
  | succ k ih =>
    have h2 : 10 ^ (k + 1) ≤ n := by simpa using h2
    have h3 : 10 ≤ n := by
      have : 0 < 10 ^ k := by positivity
      rw [pow_succ] at h2
      omega
    rw [decimal, if_neg (by omega), List.length_append, ih (n / 10)]
    · rfl
    · rw [Nat.div_lt_iff_lt_mul (by norm_num)]
      rw [pow_succ] at h1
      exact h1
    · right
      rw [Nat.le_div_iff_mul_le (by norm_num)]
      rw [pow_succ] at h2
      exact h2

theorem exists_length (n : ℕ) : ∃ k, n < 10 ^ (k + 1) ∧ (k = 0 ∨ 10 ^ k ≤ n) := by
  by_cases h : n = 0
  · exact ⟨0, by simp [h], Or.inl rfl⟩
  · exact ⟨Nat.log 10 n, Nat.lt_pow_succ_log_self (by norm_num) n, Or.inr (Nat.pow_log_le_self 10 h)⟩

theorem decimal_length_le {k n : ℕ} (h : n < 10 ^ k) (hk : 0 < k) : (decimal n).length ≤ k := by
  obtain ⟨j, h1, h2⟩ := exists_length n
  rw [decimal_length j n h1 h2]
  rcases h2 with rfl | h2
  · omega
  · by_contra hc
    have : 10 ^ k ≤ 10 ^ j := Nat.pow_le_pow_right (by norm_num) (by omega)
    omega

theorem decimal_length_gt {k n : ℕ} (h : 10 ^ k ≤ n) : k < (decimal n).length := by
  obtain ⟨j, h1, h2⟩ := exists_length n
  rw [decimal_length j n h1 h2]
  by_contra hc
  have : 10 ^ (j + 1) ≤ 10 ^ k := Nat.pow_le_pow_right (by norm_num) (by omega)
  omega

theorem fixed2_spec {x : ℝ} (hx : 0 ≤ x) : Fixed x (fixed2 x) := by
  refine ⟨⌊100 * x + 1 / 2⌋₊ / 100, decimal (⌊100 * x + 1 / 2⌋₊ / 100),
    digitChar (⌊100 * x + 1 / 2⌋₊ / 10 % 10), digitChar (⌊100 * x + 1 / 2⌋₊ % 10),
    (decimal_spec _).1, rfl, ?_, ?_, ?_⟩
  · rw [digitChar_toNat (by omega)]; omega
  · rw [digitChar_toNat (by omega)]; omega
  · have e : readDigits (decimal (⌊100 * x + 1 / 2⌋₊ / 100) ++ [digitChar (⌊100 * x + 1 / 2⌋₊ / 10 % 10),
        digitChar (⌊100 * x + 1 / 2⌋₊ % 10)]) = ⌊100 * x + 1 / 2⌋₊ := by
      have : ∀ (l : List Char) (a b : Char), l ++ [a, b] = (l ++ [a]) ++ [b] := by simp
      rw [this, read_snoc, read_snoc, (decimal_spec _).1.2.2.1, digitChar_toNat (by omega),
        digitChar_toNat (by omega)]
      omega
    rw [e]
    have h1 := Nat.floor_le (show 0 ≤ 100 * x + 1 / 2 by linarith)
    have h2 := Nat.lt_floor_add_one (100 * x + 1 / 2)
    rw [abs_le]
    constructor <;> linarith

/-- The text has the number of characters that is expected, unless the number is rounded up to a power
of ten. -/
theorem fixed2_length {x : ℝ} (hx : 0 ≤ x) (h : ∀ k : ℕ, 0 < k → (10 : ℝ) ^ k ≤ x + 1 / 200 → (10 : ℝ) ^ k ≤ x) :
    (fixed2 x).length = (decimal ⌊x⌋₊).length + 3 := by
  have e : ⌊100 * x + 1 / 2⌋₊ / 100 = ⌊x + 1 / 200⌋₊ := by
    have h100 : ((100 : ℕ) : ℝ) = 100 := by norm_num
    have := Nat.floor_div_natCast (100 * x + 1 / 2) 100
    rw [← this]
    congr 1
    rw [h100]
    ring
  unfold fixed2
  simp only [List.length_append, List.length_cons, List.length_nil, e]
  obtain ⟨k, h1, h2⟩ := exists_length ⌊x + 1 / 200⌋₊
  rw [decimal_length k _ h1 h2]
  rw [decimal_length k ⌊x⌋₊ (lt_of_le_of_lt (Nat.floor_le_floor (by linarith)) h1)]
  rcases h2 with h2 | h2
  · exact Or.inl h2
  · rcases Nat.eq_zero_or_pos k with hk | hk
    · exact Or.inl hk
    · right
      have h3 : ((10 ^ k : ℕ) : ℝ) ≤ x + 1 / 200 := (Nat.le_floor_iff (by linarith)).1 h2
      rw [Nat.le_floor_iff hx]
      push_cast at h3 ⊢
      exact h k hk h3

/-! ## Positions of bars -/

theorem bars_append (a b : List Char) : ∀ i, bars i (a ++ b) = bars i a ++ bars (i + a.length) b := by
  induction a with
  | nil => simp [bars]
  | cons c t ih =>
    intro i
    simp only [List.cons_append, bars, ih, List.length_cons]
    have : i + 1 + t.length = i + (t.length + 1) := by omega
    rw [this]
    split_ifs <;> rfl

theorem bars_none {a : List Char} (h : ∀ c ∈ a, c ≠ '|') : ∀ i, bars i a = [] := by
  induction a with
  | nil => intro i; rfl
  | cons c t ih =>
    intro i
    rw [bars, if_neg (h c (by simp)), ih fun c hc => h c (by simp [hc])]

theorem decimal_noBar {n : ℕ} {l : List Char} (h : Decimal n l) : ∀ c ∈ l, c ≠ '|' := by
  rintro c hc rfl
  have := (h.2.1 _ hc).2
  exact absurd this (by decide)

theorem fixed_noBar {x : ℝ} {l : List Char} (h : Fixed x l) : ∀ c ∈ l, c ≠ '|' := by
  obtain ⟨n, i, a, b, h1, rfl, h2, h3, -⟩ := h
  rintro c hc rfl
  rcases List.mem_append.1 hc with hc | hc
  · exact decimal_noBar h1 _ hc rfl
  · simp only [List.mem_cons, List.not_mem_nil, or_false] at hc
    rcases hc with hc | hc | hc
    · exact absurd hc (by decide)
    · rw [← hc] at h2; exact absurd h2.2 (by decide)
    · rw [← hc] at h3; exact absurd h3.2 (by decide)

theorem bars_title : bars 0 title = [19, 40, 67] := by decide

/-! ## The row -/

/-- Rounding to two decimals does not reach the next power of ten. -/
def NoCarry (x : ℝ) : Prop := ∀ k : ℕ, 0 < k → (10 : ℝ) ^ k ≤ x + 1 / 200 → (10 : ℝ) ^ k ≤ x

theorem bars_row {a b c d a' b' c' d' : List Char} (ha : ∀ x ∈ a, x ≠ '|') (hb : ∀ x ∈ b, x ≠ '|')
    (hc : ∀ x ∈ c, x ≠ '|') (hd : ∀ x ∈ d, x ≠ '|') (hs : ∀ x ∈ a' ++ b' ++ c' ++ d', x = ' ')
    (l1 l2 l3 : ℕ)
    (h1 : a'.length + a.length = l1) (h2 : b'.length + b.length = l2) (h3 : c'.length + c.length = l3) :
    bars 0 (a' ++ a ++ "    |".toList ++ b' ++ b ++ "    |".toList ++ c' ++ c ++ "       |".toList
      ++ d' ++ d) = [l1 + 4, l1 + l2 + 9, l1 + l2 + l3 + 17] := by
  have sp : ∀ l : List Char, (∀ x ∈ l, x = ' ') → ∀ x ∈ l, x ≠ '|' := by
    intro l h x hx
    rw [h x hx]; decide
  have n1 : ∀ x ∈ a', x ≠ '|' := sp a' fun x hx => hs x (by simp [hx])
  have n2 : ∀ x ∈ b', x ≠ '|' := sp b' fun x hx => hs x (by simp [hx])
  have n3 : ∀ x ∈ c', x ≠ '|' := sp c' fun x hx => hs x (by simp [hx])
  have n4 : ∀ x ∈ d', x ≠ '|' := sp d' fun x hx => hs x (by simp [hx])
  have b1 : ∀ i, bars i "    |".toList = [i + 4] := fun i => rfl
  have b2 : ∀ i, bars i "       |".toList = [i + 7] := fun i => rfl
  have k1 : "    |".toList.length = 5 := rfl
  have k2 : "       |".toList.length = 8 := rfl
  simp only [bars_append, bars_none ha, bars_none hb, bars_none hc, bars_none hd, bars_none n1,
    bars_none n2, bars_none n3, bars_none n4, b1, b2, List.length_append, k1, k2, List.nil_append,
    List.append_nil, List.cons_append]
  have e1 : 0 + (a'.length + a.length) + 4 = l1 + 4 := by omega
  have e2 : 0 + (a'.length + a.length + 5 + b'.length + b.length) + 4 = l1 + l2 + 9 := by omega
  have e3 : 0 + (a'.length + a.length + 5 + b'.length + b.length + 5 + c'.length + c.length) + 7
      = l1 + l2 + l3 + 17 := by
    omega
  rw [e1, e2, e3]

theorem row_val {a r t : ℕ} (h0 : 0 < a + r) (ht : 0 < t) (ha : a < 10 ^ 13) (hr : r < 10 ^ 13)
    (hp : a < 1000 * t) :
    ∃ text, Console.row a r t = .val text ∧
      Row a r (100 * (a / (a + r))) (100 * a / t) text ∧
      bars 0 text = [19, 40, 64 - (decimal ⌊(100 * (a / (a + r)) : ℝ)⌋₊).length
        + (fixed2 (100 * (a / (a + r)))).length] := by
  have h0' : (0 : ℝ) < a + r := by exact_mod_cast h0
  have ht' : (0 : ℝ) < t := by exact_mod_cast ht
  have x0 : (0 : ℝ) ≤ 100 * (a / (a + r)) := by positivity
  have y0 : (0 : ℝ) ≤ 100 * a / t := by positivity
  have x1 : (100 * (a / (a + r)) : ℝ) < 1000 := by
    have : (a : ℝ) / (a + r) ≤ 1 := by
      rw [div_le_one h0']
      have : (0 : ℝ) ≤ r := by positivity
      linarith
    linarith
  have y1 : (100 * a / t : ℝ) < 100000 := by
    rw [div_lt_iff₀ ht']
    have : (a : ℝ) < 1000 * t := by exact_mod_cast hp
    linarith
  have fx : ⌊(100 * (a / (a + r)) : ℝ)⌋₊ < 10 ^ 3 := by
    rw [Nat.floor_lt x0]; push_cast; linarith
  have fy : ⌊(100 * a / t : ℝ)⌋₊ < 10 ^ 5 := by
    rw [Nat.floor_lt y0]; push_cast; linarith
  have lx := decimal_length_le fx (by norm_num)
  have ly := decimal_length_le fy (by norm_num)
  have la := decimal_length_le ha (by norm_num)
  have lr := decimal_length_le hr (by norm_num)
  have sub : ∀ m n, n ≤ m → max 0 (sizeSub m n) = m - n := by
    intro m n h
    rw [sizeSub, if_pos h, Nat.zero_max]
  have sp : ∀ n, n ≤ 16 → spaces n = .val (List.replicate n ' ') := by
    intro n h
    rw [spaces, if_pos (by omega)]
  have e : Console.row a r t = .val ("  ".toList ++ List.replicate (13 - (decimal a).length) ' '
      ++ (decimal a ++ " ".toList) ++ "   |   ".toList
      ++ List.replicate (13 - (decimal r).length) ' ' ++ (decimal r ++ " ".toList) ++ "   |   ".toList
      ++ List.replicate (16 - ((decimal ⌊(100 * (a / (a + r)) : ℝ)⌋₊).length + 3)) ' '
      ++ fixed2 (100 * (a / (a + r))) ++ "    ".toList ++ "   |   ".toList
      ++ List.replicate (8 - ((decimal ⌊(100 * a / t : ℝ)⌋₊).length + 3)) ' '
      ++ fixed2 (100 * a / t)) := by
    have T1 : toInt (100 * (a / (a + r))) = .val ⌊(100 * (a / (a + r)) : ℝ)⌋₊ := by
      rw [toInt, if_pos (by linarith)]
    have T2 : toInt (100 * a / t) = .val ⌊(100 * a / t : ℝ)⌋₊ := by
      rw [toInt, if_pos (by linarith)]
    simp only [Console.row, if_neg (show ¬ a + r = 0 by omega), if_neg (show ¬ t = 0 by omega),
      Nat.cast_add, T1, T2, Outcome.val_bind]
    rw [sub _ _ la, sub _ _ lr, sub 16 _ (by omega), sub 8 _ (by omega), sp _ (by omega), sp _ (by omega),
      sp _ (by omega), sp _ (by omega)]
    rfl
  refine ⟨_, e, ?_, ?_⟩
  all_goals
    have s1 : "   |   ".toList = "   |".toList ++ "   ".toList := by decide
    have s2 : " ".toList ++ "   |".toList = "    |".toList := by decide
    have s3 : "    ".toList ++ "   |".toList = "       |".toList := by decide
    have form : ∀ s1' s2' s3' s4' A B C D : List Char,
        "  ".toList ++ s1' ++ (A ++ " ".toList) ++ "   |   ".toList ++ s2' ++ (B ++ " ".toList)
        ++ "   |   ".toList ++ s3' ++ C ++ "    ".toList ++ "   |   ".toList ++ s4' ++ D
        = ("  ".toList ++ s1') ++ A ++ "    |".toList ++ ("   ".toList ++ s2') ++ B ++ "    |".toList
          ++ ("   ".toList ++ s3') ++ C ++ "       |".toList ++ ("   ".toList ++ s4') ++ D := by
      intro s1' s2' s3' s4' A B C D
      rw [s1, ← s2, ← s3]
      simp only [List.append_assoc]
    have blank : ∀ n m k l, ∀ x ∈ ("  ".toList ++ List.replicate n ' ') ++ ("   ".toList ++ List.replicate m ' ')
        ++ ("   ".toList ++ List.replicate k ' ') ++ ("   ".toList ++ List.replicate l ' '), x = ' ' := by
      intro n m k l x hx
      have t2 : "  ".toList = [' ', ' '] := by decide
      have t3 : "   ".toList = [' ', ' ', ' '] := by decide
      rw [t2, t3] at hx
      simp only [List.mem_append, List.mem_cons, List.not_mem_nil, or_false, List.mem_replicate] at hx
      tauto
    rw [form]
  · exact ⟨_, _, _, _, _, _, _, _, (decimal_spec a).1, (decimal_spec r).1, fixed2_spec x0, fixed2_spec y0,
      rfl, blank _ _ _ _⟩
  · have t2 : "  ".toList.length = 2 := rfl
    have t3 : "   ".toList.length = 3 := rfl
    rw [bars_row (decimal_noBar (decimal_spec a).1) (decimal_noBar (decimal_spec r).1)
      (fixed_noBar (fixed2_spec x0)) (fixed_noBar (fixed2_spec y0)) (blank _ _ _ _) 15 16
      (16 - (decimal ⌊(100 * (a / (a + r)) : ℝ)⌋₊).length + (fixed2 (100 * (a / (a + r)))).length)
      (by rw [List.length_append, t2, List.length_replicate]; omega)
      (by rw [List.length_append, t3, List.length_replicate]; omega)
      (by rw [List.length_append, t3, List.length_replicate]; omega)]
    have : 15 + 16 + (16 - (decimal ⌊(100 * (a / (a + r)) : ℝ)⌋₊).length
        + (fixed2 (100 * (a / (a + r)))).length) + 17
        = 64 - (decimal ⌊(100 * (a / (a + r)) : ℝ)⌋₊).length + (fixed2 (100 * (a / (a + r)))).length := by
      omega
    rw [this]

theorem row_aligned {a r : ℕ} {text : List Char}
    (h : bars 0 text = [19, 40, 64 - (decimal ⌊(100 * (a / (a + r)) : ℝ)⌋₊).length
        + (fixed2 (100 * (a / (a + r)))).length]) (hn : NoCarry (100 * (a / (a + r)))) : Aligned text := by
  have x0 : (0 : ℝ) ≤ 100 * (a / (a + r)) := by positivity
  unfold Aligned
  rw [h, bars_title, fixed2_length x0 hn]
  have x1 : (100 * (a / (a + r)) : ℝ) < 1000 := by
    have : (a : ℝ) / (a + r) ≤ 1 := by
      refine div_le_one_of_le₀ ?_ (by positivity)
      have : (0 : ℝ) ≤ r := by positivity
      linarith
    linarith
  have fx : ⌊(100 * (a / (a + r)) : ℝ)⌋₊ < 10 ^ 3 := by
    rw [Nat.floor_lt x0]; push_cast; linarith
  have lx := decimal_length_le fx (by norm_num)
  have : 64 - (decimal ⌊(100 * (a / (a + r)) : ℝ)⌋₊).length
      + ((decimal ⌊(100 * (a / (a + r)) : ℝ)⌋₊).length + 3) = 67 := by omega
  rw [this]

/-- From 100000 % on, the width of the last column is exceeded. -/
theorem row_thrown {a r t : ℕ} (ht : 0 < t) (ha : a < 10 ^ 13) (hr : r < 10 ^ 13)
    (hp : 1000 * t ≤ a) (hp2 : 100 * a < 2 ^ 31 * t) :
    Console.row a r t = .thrown "std::length_error" := by
  have h0' : (0 : ℝ) < a + r := by
    have : 0 < a + r := by omega
    exact_mod_cast this
  have ht' : (0 : ℝ) < t := by exact_mod_cast ht
  have x0 : (0 : ℝ) ≤ 100 * (a / (a + r)) := by positivity
  have y0 : (0 : ℝ) ≤ 100 * a / t := by positivity
  have x1 : (100 * (a / (a + r)) : ℝ) < 1000 := by
    have : (a : ℝ) / (a + r) ≤ 1 := by
      rw [div_le_one h0']
      have : (0 : ℝ) ≤ r := by positivity
      linarith
    linarith
  have y1 : (100000 : ℝ) ≤ 100 * a / t := by
    rw [le_div_iff₀ ht']
    have : (1000 : ℝ) * t ≤ a := by exact_mod_cast hp
    linarith
  have y2 : (100 * a / t : ℝ) < 2 ^ 31 := by
    rw [div_lt_iff₀ ht']
    exact_mod_cast hp2
  have fx : ⌊(100 * (a / (a + r)) : ℝ)⌋₊ < 10 ^ 3 := by
    rw [Nat.floor_lt x0]; push_cast; linarith
  have fy : 10 ^ 5 ≤ ⌊(100 * a / t : ℝ)⌋₊ := by
    rw [Nat.le_floor_iff y0]; push_cast; linarith
  have fy2 : ⌊(100 * a / t : ℝ)⌋₊ < 10 ^ 10 := by
    rw [Nat.floor_lt y0]; push_cast; linarith
  have lx := decimal_length_le fx (by norm_num)
  have ly := decimal_length_gt fy
  have ly2 := decimal_length_le fy2 (by norm_num)
  have la := decimal_length_le ha (by norm_num)
  have lr := decimal_length_le hr (by norm_num)
  have sub : ∀ m n, n ≤ m → max 0 (sizeSub m n) = m - n := by
    intro m n h
    rw [sizeSub, if_pos h, Nat.zero_max]
  have sp : ∀ n, n ≤ 16 → spaces n = .val (List.replicate n ' ') := by
    intro n h
    rw [spaces, if_pos (by omega)]
  have T1 : toInt (100 * (a / (a + r))) = .val ⌊(100 * (a / (a + r)) : ℝ)⌋₊ := by
    rw [toInt, if_pos (by linarith)]
  have T2 : toInt (100 * a / t) = .val ⌊(100 * a / t : ℝ)⌋₊ := by
    rw [toInt, if_pos y2]
  simp only [Console.row, if_neg (show ¬ a + r = 0 by omega), if_neg (show ¬ t = 0 by omega),
    Nat.cast_add, T1, T2, Outcome.val_bind]
  rw [sub _ _ la, sub _ _ lr, sub 16 _ (by omega), sp _ (by omega), sp _ (by omega),
    sp _ (by omega)]
  have : spaces (max 0 (sizeSub 8 ((decimal ⌊(100 * a / t : ℝ)⌋₊).length + 3)))
      = .thrown "std::length_error" := by
    rw [sizeSub, if_neg (by omega), spaces, if_neg (by omega)]
  rw [this]
  rfl

/-! ## Histories -/

theorem console_run_cons (o : Console.Op) (h : List Console.Op) (hub : (Console.run h).1 ≠ .ub) :
    Console.run (o :: h) = (Console.run h).2.step o := by
  rw [Console.run]
  split
  · next e => exact absurd e hub
  · rfl

theorem console_no_ub {o : Console.Op} {h : List Console.Op} (hub : (Console.run (o :: h)).1 ≠ .ub) :
    (Console.run h).1 ≠ .ub := by
  intro e
  apply hub
  rw [Console.run, e]

theorem print_status (c : Console) (f : Bool) : (c.print f).2.status = c.status := by
  unfold Console.print
  simp only
  split <;> split_ifs <;> rfl

theorem print_header (c : Console) (f : Bool) : (c.print f).2.headerPrinted = true := by
  unfold Console.print
  simp only
  cases hc : c.headerPrinted <;> cases f <;> simp only [Bool.not_true, Bool.not_false, Bool.or_false,
    Bool.or_true, Bool.false_eq_true, if_false, if_true] <;> split <;> first | rfl | exact hc

/-- The state after a history that is not undefined. -/
theorem console_state (h : List Console.Op) (hub : (Console.run h).1 ≠ .ub) :
    (Console.run h).2.status = SamplingStatus.run (statusOps h).reverse ∧
    ((Console.run h).2.headerPrinted = true ↔ printed h) := by
  induction h with
  | nil => exact ⟨rfl, by simp [Console.run, Console.init, printed]⟩
  | cons o h ih =>
    obtain ⟨h1, h2⟩ := ih (console_no_ub hub)
    rw [console_run_cons o h (console_no_ub hub)]
    cases o with
    | print f =>
      refine ⟨?_, ?_⟩
      · show ((Console.run h).2.print f).2.status = _
        rw [print_status, h1]
        rfl
      · show ((Console.run h).2.print f).2.headerPrinted = true ↔ _
        rw [print_header]
        simp [printed]
    | status o =>
      have e : SamplingStatus.run (statusOps (.status o :: h)).reverse
          = SamplingStatus.step (SamplingStatus.run (statusOps h).reverse) o := by
        show SamplingStatus.run (o :: statusOps h).reverse = _
        rw [List.reverse_cons, run_append]
        rfl
      rw [e, ← h1]
      cases o <;> first | exact ⟨rfl, h2⟩ | exact ⟨rfl, by simp [Console.step, Console.reset, printed]⟩

theorem total_eq (m : List (ℕ × ℕ)) : Console.total m = countSum m := by
  have : ∀ (m : List (ℕ × ℕ)) (a : ℕ), m.foldl (fun acc p => acc + p.2) a = a + countSum m := by
    intro m
    induction m with
    | nil => intro a; rfl
    | cons p t ih =>
      intro a
      rw [List.foldl_cons, ih]
      simp only [countSum, List.map_cons, List.sum_cons]
      omega
  rw [Console.total, this, zero_add]

theorem target_nodup (ops : List SamplingStatus.Op) : (keys (SamplingStatus.run ops).target).Nodup := by
  induction ops using List.reverseRecOn with
  | nil => simp [SamplingStatus.run, SamplingStatus.init, keys]
  | append_singleton t o ih =>
    rw [run_append]
    show (keys (SamplingStatus.step (SamplingStatus.run t) o).target).Nodup
    cases o with
    | setTargetCount id n => exact nodup_set ih id n
    | increaseCounter id => exact nodup_touch ih id
    | reset => simp [SamplingStatus.step, SamplingStatus.reset, keys]
    | resetCounters => exact ih
    | resetCounter id => exact ih
    | increaseRejectedCounter => exact ih
    | queryCount id => exact ih

/-- The sum of the stored targets is the sum of the targets set. -/
theorem targetSum_run (ops : List SamplingStatus.Op) (S : Finset ℕ)
    (hS : ∀ id, target id ops.reverse ≠ none → id ∈ S) :
    countSum (SamplingStatus.run ops).target = ∑ id ∈ S, (target id ops.reverse).getD 0 := by
  have H := inv_run ops
  rw [countSum_keys (target_nodup ops)]
  have e : ∀ id, (assocFind (SamplingStatus.run ops).target id).getD 0 = (target id ops.reverse).getD 0 := by
    intro id
    cases ht : target id ops.reverse with
    | none => rw [H.target_none id ht]; rfl
    | some n => rw [H.target_some id n ht]
  simp only [e]
  have h1 : ∑ x ∈ (keys (SamplingStatus.run ops).target).toFinset, (target x ops.reverse).getD 0
      = ∑ x ∈ (keys (SamplingStatus.run ops).target).toFinset ∪ S, (target x ops.reverse).getD 0 := by
    apply Finset.sum_subset Finset.subset_union_left
    intro id _ h
    rw [List.mem_toFinset, ← find_none_iff] at h
    rw [← e id, h]; rfl
  rw [h1]
  symm
  apply Finset.sum_subset Finset.subset_union_right
  intro id _ h
  by_contra h0
  refine h (hS id fun hn => h0 ?_)
  rw [hn]; rfl

/-! ## C67 Printing the status -/

/-- `S` contains all ids for which samples have been accepted or targets set. -/
def Covers (S : Finset ℕ) (h : List SamplingStatus.Op) : Prop :=
  ∀ id, accepted id h ≠ 0 ∨ target id h ≠ none → id ∈ S

theorem print_args (h : List Console.Op) (hub : (Console.run h).1 ≠ .ub) (S : Finset ℕ)
    (hS : Covers S (statusOps h)) :
    Console.total (Console.run h).2.status.count = ∑ id ∈ S, accepted id (statusOps h) ∧
    (Console.run h).2.status.rejected = rejected (statusOps h) ∧
    Console.total (Console.run h).2.status.target = ∑ id ∈ S, (target id (statusOps h)).getD 0 := by
  rw [(console_state h hub).1, total_eq, total_eq]
  have e : (statusOps h).reverse.reverse = statusOps h := List.reverse_reverse _
  refine ⟨?_, ?_, ?_⟩
  · rw [countSum_run _ S (by rw [e]; exact fun id hi => hS id (Or.inl hi)), e]
  · rw [(inv_run _).rej, e]
  · rw [targetSum_run _ S (by rw [e]; exact fun id hi => hS id (Or.inr hi)), e]

/-- Printing the status never fails. -/
def C67_full : Prop :=
  ∀ (h : List Console.Op) (force : Bool), (Console.run h).1 ≠ .ub →
    (Console.run (.print force :: h)).1 = .val ()

/-- The columns of all rows are below those of the header. -/
def C67_full_aligned : Prop :=
  ∀ (h : List Console.Op) (text : List Char), (Console.run h).1 ≠ .ub →
    .row text ∈ (Console.run h).2.lines → Aligned text

/-- What holds: if at least one sample has been accepted or rejected, targets have been set, there are
less than 10^13 accepted and rejected samples and less than 1000 times as many as desired, one row is
printed, preceded by the header if requested or if nothing has been printed since the last reset.  It
contains the numbers of accepted and rejected samples, the acceptance ratio and the progress in percent
rounded to two decimals, and its columns are below those of the header unless the acceptance ratio is
rounded up to 10 or 100.  (Missing: the other cases, see below.) -/
theorem C67_print_partial (h : List Console.Op) (force : Bool) (hub : (Console.run h).1 ≠ .ub)
    (S : Finset ℕ) (hS : Covers S (statusOps h)) (a r t : ℕ)
    (ea : a = ∑ id ∈ S, accepted id (statusOps h)) (er : r = rejected (statusOps h))
    (et : t = ∑ id ∈ S, (target id (statusOps h)).getD 0)
    (h0 : 0 < a + r) (ht : 0 < t) (ha : a < 10 ^ 13) (hr : r < 10 ^ 13) (hp : a < 1000 * t) :
    (Console.run (.print force :: h)).1 = .val () ∧
    ∃ text, Row a r (100 * (a / (a + r))) (100 * a / t) text ∧
      (NoCarry (100 * (a / (a + r))) → Aligned text) ∧
      (force = true ∨ ¬ printed h →
        (Console.run (.print force :: h)).2.lines = (Console.run h).2.lines ++ [.header, .row text]) ∧
      (force = false → printed h →
        (Console.run (.print force :: h)).2.lines = (Console.run h).2.lines ++ [.row text]) := by
  obtain ⟨e1, e2, e3⟩ := print_args h hub S hS
  obtain ⟨text, h1, h2, h3⟩ := row_val h0 ht ha hr hp
  rw [console_run_cons _ h hub]
  show ((Console.run h).2.print force).1 = _ ∧ ∃ text, _ ∧ _ ∧
    (_ → ((Console.run h).2.print force).2.lines = _) ∧ (_ → _ → ((Console.run h).2.print force).2.lines = _)
  unfold Console.print
  simp only
  rw [e1, e2, e3, ← ea, ← er, ← et, h1]
  simp only
  refine ⟨trivial, text, h2, row_aligned h3, ?_, ?_⟩
  · intro hf
    have : (!(Console.run h).2.headerPrinted || force) = true := by
      rcases hf with rfl | hf
      · simp
      · rw [← (console_state h hub).2] at hf
        simp [hf]
    rw [if_pos this]
    simp
  · rintro rfl hpr
    have := (console_state h hub).2.2 hpr
    rw [this]
    simp

/-- With more than 1000 times as many samples as desired, printing throws. -/
theorem C67_overflow (h : List Console.Op) (force : Bool) (hub : (Console.run h).1 ≠ .ub)
    (S : Finset ℕ) (hS : Covers S (statusOps h)) (a r t : ℕ)
    (ea : a = ∑ id ∈ S, accepted id (statusOps h)) (er : r = rejected (statusOps h))
    (et : t = ∑ id ∈ S, (target id (statusOps h)).getD 0)
    (ht : 0 < t) (ha : a < 10 ^ 13) (hr : r < 10 ^ 13) (hp : 1000 * t ≤ a) (hp2 : 100 * a < 2 ^ 31 * t) :
    (Console.run (.print force :: h)).1 = .thrown "std::length_error" := by
  obtain ⟨e1, e2, e3⟩ := print_args h hub S hS
  rw [console_run_cons _ h hub]
  show ((Console.run h).2.print force).1 = _
  unfold Console.print
  simp only
  rw [e1, e2, e3, ← ea, ← er, ← et, row_thrown ht ha hr hp hp2]

/-- Printing is undefined as long as no sample has been accepted or rejected. -/
theorem C67_undefined (h : List Console.Op) (force : Bool) (hub : (Console.run h).1 ≠ .ub)
    (h1 : ∀ id, accepted id (statusOps h) = 0) (h2 : rejected (statusOps h) = 0) :
    (Console.run (.print force :: h)).1 = .ub := by
  rw [console_run_cons _ h hub]
  show ((Console.run h).2.print force).1 = _
  have e : (statusOps h).reverse.reverse = statusOps h := List.reverse_reverse _
  have e1 : Console.total (Console.run h).2.status.count = 0 := by
    rw [(console_state h hub).1, total_eq,
      countSum_run _ ∅ (by rw [e]; exact fun id hi => absurd (h1 id) hi)]
    simp
  have e2 : (Console.run h).2.status.rejected = 0 := by
    rw [(console_state h hub).1, (inv_run _).rej, e, h2]
  unfold Console.print
  simp only
  rw [e1, e2]
  have : ∀ t, Console.row 0 0 t = .ub := fun t => by
    simp only [Console.row, if_pos]
    rfl
  rw [this]

/-! ### Sample histories -/

theorem run_status_ne (h : List Console.Op) (o : SamplingStatus.Op) (hub : (Console.run h).1 ≠ .ub) :
    (Console.run (.status o :: h)).1 ≠ .ub := by
  rw [console_run_cons _ h hub]
  cases o <;> exact fun h => by cases h

/-- `a` accepted and `r` rejected samples of the id 0 with the target `t`. -/
def sampleHistory (a r t : ℕ) : List Console.Op :=
  List.replicate a (.status (.increaseCounter 0)) ++ (List.replicate r (.status .increaseRejectedCounter)
    ++ [.status (.setTargetCount 0 t)])

theorem sampleHistory_ne (a r t : ℕ) : (Console.run (sampleHistory a r t)).1 ≠ .ub := by
  have base : (Console.run [.status (.setTargetCount 0 t)]).1 ≠ .ub :=
    run_status_ne [] _ (fun h => by cases h)
  have rep : ∀ (o : SamplingStatus.Op) (n : ℕ) (h : List Console.Op), (Console.run h).1 ≠ .ub →
      (Console.run (List.replicate n (.status o) ++ h)).1 ≠ .ub := by
    intro o n h hh
    induction n with
    | zero => exact hh
    | succ n ih =>
      rw [List.replicate_succ, List.cons_append]
      exact run_status_ne _ _ ih
  exact rep _ _ _ (rep _ _ _ base)

theorem sampleHistory_spec (a r t : ℕ) :
    (∀ id, accepted id (statusOps (sampleHistory a r t)) = if id = 0 then a else 0) ∧
    rejected (statusOps (sampleHistory a r t)) = r ∧
    (∀ id, target id (statusOps (sampleHistory a r t)) = if id = 0 then some t else none) := by
  unfold sampleHistory
  induction a with
  | zero =>
    simp only [List.replicate_zero, List.nil_append]
    induction r with
    | zero =>
      refine ⟨fun id => ?_, rfl, fun id => ?_⟩
      · simp [statusOps, accepted]
      · simp only [List.replicate_zero, List.nil_append, statusOps, target]
        by_cases h : id = 0
        · simp [h]
        · simp [h, Ne.symm h]
    | succ r ih =>
      obtain ⟨h1, h2, h3⟩ := ih
      rw [List.replicate_succ, List.cons_append]
      refine ⟨fun id => ?_, ?_, fun id => ?_⟩
      · simp only [statusOps, accepted]; exact h1 id
      · simp only [statusOps, rejected]; rw [h2]
      · simp only [statusOps, target]; exact h3 id
  | succ a ih =>
    obtain ⟨h1, h2, h3⟩ := ih
    rw [List.replicate_succ, List.cons_append]
    refine ⟨fun id => ?_, ?_, fun id => ?_⟩
    · simp only [statusOps, accepted]
      rw [h1 id]
      by_cases h : id = 0
      · simp [h]; omega
      · simp [h, Ne.symm h]
    · simp only [statusOps, rejected]; exact h2
    · simp only [statusOps, target]; exact h3 id

theorem sampleHistory_covers (a r t : ℕ) : Covers {0} (statusOps (sampleHistory a r t)) := by
  intro id h
  obtain ⟨h1, -, h3⟩ := sampleHistory_spec a r t
  rw [h1, h3] at h
  by_contra hc
  rw [Finset.mem_singleton] at hc
  simp [hc] at h

theorem sampleHistory_sums (a r t : ℕ) :
    a = ∑ id ∈ {0}, accepted id (statusOps (sampleHistory a r t)) ∧
    r = rejected (statusOps (sampleHistory a r t)) ∧
    t = ∑ id ∈ {0}, (target id (statusOps (sampleHistory a r t))).getD 0 := by
  obtain ⟨h1, h2, h3⟩ := sampleHistory_spec a r t
  simp [h1, h2, h3]

/-- Printing may fail: it is undefined for a new status, and throws for 1000 accepted samples if one
is desired. -/
theorem C67_disproof : ¬ C67_full ∧
    (Console.run [.print false]).1 = .ub ∧
    (Console.run (.print false :: sampleHistory 1000 0 1)).1 = .thrown "std::length_error" := by
  have h1 : (Console.run [.print false]).1 = .ub :=
    C67_undefined [] false (fun h => by cases h) (fun id => rfl) rfl
  obtain ⟨e1, e2, e3⟩ := sampleHistory_sums 1000 0 1
  refine ⟨fun h => ?_, h1, ?_⟩
  · have := h [] false (fun h => by cases h)
    rw [h1] at this
    cases this
  · exact C67_overflow _ _ (sampleHistory_ne _ _ _) {0} (sampleHistory_covers _ _ _) 1000 0 1 e1 e2 e3
      (by norm_num) (by norm_num) (by norm_num) (by norm_num) (by norm_num)

/-- The columns of a row may be shifted: with 200 accepted and 1801 rejected samples the ratio is
printed as 10.00, but the space is computed for 9. -/
theorem C67_aligned_disproof : ¬ C67_full_aligned := by
  intro h
  obtain ⟨e1, e2, e3⟩ := sampleHistory_sums 200 1801 1000
  obtain ⟨g1, g2, g3⟩ := print_args _ (sampleHistory_ne 200 1801 1000) {0} (sampleHistory_covers _ _ _)
  obtain ⟨text, h1, -, h3⟩ := row_val (a := 200) (r := 1801) (t := 1000) (by norm_num) (by norm_num)
    (by norm_num) (by norm_num) (by norm_num)
  have hrun : (Console.run (.print false :: sampleHistory 200 1801 1000))
      = (Console.run (sampleHistory 200 1801 1000)).2.print false :=
    console_run_cons _ _ (sampleHistory_ne _ _ _)
  have hprint : ((Console.run (sampleHistory 200 1801 1000)).2.print false).1 = .val () ∧
      .row text ∈ ((Console.run (sampleHistory 200 1801 1000)).2.print false).2.lines := by
    unfold Console.print
    simp only
    rw [g1, g2, g3, ← e1, ← e2, ← e3, h1]
    simp
  have hal := h (.print false :: sampleHistory 200 1801 1000) text
    (by rw [hrun, hprint.1]; exact fun h => by cases h) (by rw [hrun]; exact hprint.2)
  unfold Aligned at hal
  rw [h3, bars_title] at hal
  have x1 : ⌊(100 * (((200 : ℕ) : ℝ) / (((200 : ℕ) : ℝ) + ((1801 : ℕ) : ℝ))) : ℝ)⌋₊ = 9 := by
    rw [Nat.floor_eq_iff (by positivity)]
    norm_num
  have x2 : ⌊(100 * (100 * (((200 : ℕ) : ℝ) / (((200 : ℕ) : ℝ) + ((1801 : ℕ) : ℝ)))) + 1 / 2 : ℝ)⌋₊ = 1000 := by
    rw [Nat.floor_eq_iff (by positivity)]
    norm_num
  have x3 : (fixed2 (100 * (((200 : ℕ) : ℝ) / (((200 : ℕ) : ℝ) + ((1801 : ℕ) : ℝ))))).length = 5 := by
    unfold fixed2
    simp only [x2]
    rw [List.length_append, decimal_length 1 _ (by norm_num) (by norm_num)]
    rfl
  rw [x1, x3, decimal_length 0 9 (by norm_num) (Or.inl rfl)] at hal
  simp at hal

/-- Non-trivial instance of the hypotheses of `C67_print_partial`: 3 accepted and 1 rejected samples, 10
desired ones; the ratio of 75 % is not rounded. -/
example : (Console.run (.print false :: sampleHistory 3 1 10)).1 = .val () ∧
    NoCarry (100 * ((3 : ℕ) / ((3 : ℕ) + (1 : ℕ)))) := by
  obtain ⟨e1, e2, e3⟩ := sampleHistory_sums 3 1 10
  refine ⟨(C67_print_partial _ _ (sampleHistory_ne _ _ _) {0} (sampleHistory_covers _ _ _) 3 1 10 e1 e2 e3
    (by norm_num) (by norm_num) (by norm_num) (by norm_num) (by norm_num)).1, fun k hk h => ?_⟩
  rcases Nat.lt_or_ge k 2 with h2 | h2
  · have : k = 1 := by omega
    subst this
    norm_num
  · exfalso
    have : (10 : ℝ) ^ 2 ≤ 10 ^ k := pow_le_pow_right₀ (by norm_num) h2
    norm_num at h this
    linarith

/-! ## C68 Messages -/

/-- Accepting a sample is reported to surpass the target exactly if more samples than desired have been
accepted for its id (where no target means zero); a new target is reported to be below the current count
exactly if it is; the other calls print nothing. -/
theorem C68_messages (h : List Console.Op) (hub : (Console.run h).1 ≠ .ub) (o : SamplingStatus.Op) :
    (Console.run (.status o :: h)).2.lines = (Console.run h).2.lines ++
      match o with
      | .increaseCounter id =>
          if (target id (statusOps h)).getD 0 < accepted id (statusOps h) + 1 then [.surpassed id] else []
      | .setTargetCount id n => if n < accepted id (statusOps h) then [.belowCurrent] else []
      | _ => [] := by
  obtain ⟨h1, -⟩ := console_state h hub
  have e : (statusOps h).reverse.reverse = statusOps h := List.reverse_reverse _
  have H := inv_run (statusOps h).reverse
  rw [e, ← h1] at H
  rw [console_run_cons _ h hub]
  cases o with
  | increaseCounter id =>
    show (if (assocFind ((Console.run h).2.status.increaseCounter id).target id).getD 0
      < (assocFind ((Console.run h).2.status.increaseCounter id).count id).getD 0
      then (Console.run h).2.lines ++ [OutputLine.surpassed id] else (Console.run h).2.lines) = _
    have c1 : (assocFind ((Console.run h).2.status.increaseCounter id).count id).getD 0
        = accepted id (statusOps h) + 1 := by
      show (assocFind (assocSet _ id _) id).getD 0 = _
      rw [find_set, if_pos rfl, H.count]
      rfl
    have c2 : (assocFind ((Console.run h).2.status.increaseCounter id).target id).getD 0
        = (target id (statusOps h)).getD 0 := by
      show (assocFind (SamplingStatus.assocTouch _ id) id).getD 0 = _
      rw [find_touch]
      cases ht : target id (statusOps h) with
      | none =>
        have := H.target_none id ht
        cases hf : assocFind (Console.run h).2.status.target id with
        | none => simp
        | some m => rw [hf] at this; simpa using this
      | some n => simp [H.target_some id n ht]
    rw [c1, c2]
    simp only
    split_ifs <;> simp
  | setTargetCount id n =>
    show (match assocFind (Console.run h).2.status.count id with
      | none => (Console.run h).2.lines
      | some k => if n < k then (Console.run h).2.lines ++ [OutputLine.belowCurrent]
          else (Console.run h).2.lines) = _
    have c := H.count id
    cases hf : assocFind (Console.run h).2.status.count id with
    | none =>
      rw [hf] at c
      simp only [Option.getD_none] at c
      simp only [← c]
      simp
    | some k =>
      rw [hf] at c
      simp only [Option.getD_some] at c
      simp only [← c]
      split_ifs <;> simp
  | reset => simp [Console.step, Console.reset]
  | resetCounters => simp [Console.step, Console.silent]
  | resetCounter id => simp [Console.step, Console.silent]
  | increaseRejectedCounter => simp [Console.step, Console.silent]
  | queryCount id => simp [Console.step, Console.silent]

/-- Whether or not printing the row succeeds, the header is printed exactly if requested or if there
was no `print` since the construction or the last full reset; printing does not change what the status
reports. -/
theorem C68_header (h : List Console.Op) (hub : (Console.run h).1 ≠ .ub) (force : Bool) :
    (∃ rows : List (List Char), rows.length ≤ 1 ∧
      ((force = true ∨ ¬ printed h) → (Console.run (.print force :: h)).2.lines
        = (Console.run h).2.lines ++ .header :: rows.map .row) ∧
      (force = false → printed h → (Console.run (.print force :: h)).2.lines
        = (Console.run h).2.lines ++ rows.map .row)) ∧
    (Console.run (.print force :: h)).2.status = (Console.run h).2.status := by
  obtain ⟨-, h2⟩ := console_state h hub
  rw [console_run_cons _ h hub]
  refine ⟨?_, print_status _ _⟩
  show ∃ rows : List (List Char), _ ∧ (_ → ((Console.run h).2.print force).2.lines = _) ∧
    (_ → _ → ((Console.run h).2.print force).2.lines = _)
  have b1 : (force = true ∨ ¬ printed h) → (!(Console.run h).2.headerPrinted || force) = true := by
    rintro (rfl | hf)
    · simp
    · rw [← h2] at hf
      simp [hf]
  have b2 : force = false → printed h → (!(Console.run h).2.headerPrinted || force) = false := by
    rintro rfl hp
    rw [← h2] at hp
    simp [hp]
  unfold Console.print
  simp only
  split
  · next text _ =>
    refine ⟨[text], by simp, fun hf => ?_, fun hf hp => ?_⟩
    · rw [if_pos (b1 hf)]; simp
    · rw [b2 hf hp]; simp
  all_goals
    refine ⟨[], by simp, fun hf => ?_, fun hf hp => ?_⟩
    · rw [if_pos (b1 hf)]; simp
    · rw [b2 hf hp]; simp

/-- Non-trivial instance: surpassing a target is reported. -/
example : (Console.run (.status (.increaseCounter 0) :: sampleHistory 3 1 3)).2.lines
    = (Console.run (sampleHistory 3 1 3)).2.lines ++ [.surpassed 0] := by
  rw [C68_messages _ (sampleHistory_ne _ _ _)]
  obtain ⟨h1, -, h3⟩ := sampleHistory_spec 3 1 3
  simp [h1, h3]

end Props
