import Verif.Model.Float.Range
import Mathlib.Data.EReal.Operations

/-!
# C155 Arithmetic with infinities and NaN

The rules of IEEE 754-2008, 6.1, 6.2 and 7.2, by means of the extended real numbers.
-/

namespace Props
open Verif Frackit

/-- The extended real number that is represented, if any. -/
def Represents : Fp.Dbl → EReal → Prop
  | .fin a, x => x = (a : EReal)
  | .inf s, x => x = if s then ⊥ else ⊤
  | .nan, _ => False

/-- An infinite number. -/
def Infinite (x : EReal) : Prop := x = ⊤ ∨ x = ⊥

theorem represents_unique {a : Fp.Dbl} {x y : EReal} (hx : Represents a x) (hy : Represents a y) : x = y := by
  cases a with
  | fin a => exact hx.trans hy.symm
  | inf s => exact hx.trans hy.symm
  | nan => exact hx.elim

theorem not_infinite_coe (a : ℝ) : ¬ Infinite (a : EReal) := by simp [Infinite]

/-- **Comparisons** are those of the extended real numbers, and false for NaN. -/
theorem C155_less (a b : Fp.Dbl) : a.lt b ↔ ∃ x y, Represents a x ∧ Represents b y ∧ x < y := by
  constructor
  · intro h
    cases a with
    | nan => cases b <;> exact h.elim
    | fin a =>
      cases b with
      | nan => exact h.elim
      | fin b => exact ⟨a, b, rfl, rfl, EReal.coe_lt_coe_iff.2 h⟩
      | inf t =>
        have ht : t = false := h
        subst ht
        exact ⟨a, ⊤, rfl, by simp [Represents], EReal.coe_lt_top a⟩
    | inf s =>
      cases b with
      | nan => exact h.elim
      | fin b =>
        have hs : s = true := h
        subst hs
        exact ⟨⊥, b, by simp [Represents], rfl, EReal.bot_lt_coe b⟩
      | inf t =>
        obtain ⟨hs, ht⟩ : s = true ∧ t = false := h
        subst hs; subst ht
        exact ⟨⊥, ⊤, by simp [Represents], by simp [Represents], bot_lt_top⟩
  · rintro ⟨x, y, hx, hy, h⟩
    cases a with
    | nan => exact hx.elim
    | fin a =>
      obtain rfl : x = a := hx
      cases b with
      | nan => exact hy.elim
      | fin b =>
        obtain rfl : y = b := hy
        exact EReal.coe_lt_coe_iff.1 h
      | inf t =>
        cases t with
        | false => rfl
        | true =>
          obtain rfl : y = ⊥ := by simpa [Represents] using hy
          exact absurd h (not_lt_bot)
    | inf s =>
      cases s with
      | false =>
        obtain rfl : x = ⊤ := by simpa [Represents] using hx
        exact absurd h (not_top_lt)
      | true =>
        obtain rfl : x = ⊥ := by simpa [Represents] using hx
        cases b with
        | nan => exact hy.elim
        | fin b => rfl
        | inf t =>
          cases t with
          | false => exact ⟨rfl, rfl⟩
          | true =>
            obtain rfl : y = ⊥ := by simpa [Represents] using hy
            exact absurd h (lt_irrefl _)

/-- **Products** with an infinite factor are those of the extended real numbers; infinity times zero is NaN. -/
theorem C155_product (a b : Fp.Dbl) (x y : EReal) (ha : Represents a x) (hb : Represents b y)
    (h : Infinite x ∨ Infinite y) :
    (x = 0 ∨ y = 0 → a.mul b = .nan) ∧ (x ≠ 0 → y ≠ 0 → Represents (a.mul b) (x * y)) := by
  cases a with
  | nan => exact ha.elim
  | fin a =>
    obtain rfl : x = a := ha
    cases b with
    | nan => exact hb.elim
    | fin b =>
      obtain rfl : y = b := hb
      exact absurd h (by simp [not_infinite_coe])
    | inf t =>
      rcases lt_trichotomy a 0 with h0 | h0 | h0
      · cases t
        · obtain rfl : y = ⊤ := by simpa [Represents] using hb
          simp [Fp.Dbl.mul, h0.ne, h0, Represents, EReal.coe_mul_top_of_neg h0]
        · obtain rfl : y = ⊥ := by simpa [Represents] using hb
          simp [Fp.Dbl.mul, h0.ne, h0, Represents, EReal.coe_mul_bot_of_neg h0]
      · subst h0
        simp [Fp.Dbl.mul]
      · cases t
        · obtain rfl : y = ⊤ := by simpa [Represents] using hb
          simp [Fp.Dbl.mul, h0.ne', h0.not_gt, Represents, EReal.coe_mul_top_of_pos h0]
        · obtain rfl : y = ⊥ := by simpa [Represents] using hb
          simp [Fp.Dbl.mul, h0.ne', h0.not_gt, Represents, EReal.coe_mul_bot_of_pos h0]
  | inf s =>
    cases b with
    | nan => exact hb.elim
    | fin b =>
      obtain rfl : y = b := hb
      rcases lt_trichotomy b 0 with h0 | h0 | h0
      · cases s
        · obtain rfl : x = ⊤ := by simpa [Represents] using ha
          simp [Fp.Dbl.mul, h0.ne, h0, Represents, EReal.top_mul_coe_of_neg h0]
        · obtain rfl : x = ⊥ := by simpa [Represents] using ha
          simp [Fp.Dbl.mul, h0.ne, h0, Represents, EReal.bot_mul_coe_of_neg h0]
      · subst h0
        simp [Fp.Dbl.mul]
      · cases s
        · obtain rfl : x = ⊤ := by simpa [Represents] using ha
          simp [Fp.Dbl.mul, h0.ne', h0.not_gt, Represents, EReal.top_mul_coe_of_pos h0]
        · obtain rfl : x = ⊥ := by simpa [Represents] using ha
          simp [Fp.Dbl.mul, h0.ne', h0.not_gt, Represents, EReal.bot_mul_coe_of_pos h0]
    | inf t =>
      cases s <;> cases t <;> simp only [Represents] at ha hb <;> subst ha <;> subst hb <;>
        simp [Fp.Dbl.mul, Represents]

/-- **Sums** with an infinite term are those of the extended real numbers; the sum of infinite terms of different sign is
NaN. -/
theorem C155_sum (a b : Fp.Dbl) (x y : EReal) (ha : Represents a x) (hb : Represents b y)
    (h : Infinite x ∨ Infinite y) :
    (Infinite x → y = -x → a.add b = .nan) ∧ (y ≠ -x → Represents (a.add b) (x + y)) := by
  cases a with
  | nan => exact ha.elim
  | fin a =>
    obtain rfl : x = a := ha
    cases b with
    | nan => exact hb.elim
    | fin b =>
      obtain rfl : y = b := hb
      exact absurd h (by simp [not_infinite_coe])
    | inf t => cases t <;> simp only [Represents] at hb <;> subst hb <;> simp [Fp.Dbl.add, Represents, not_infinite_coe]
  | inf s =>
    cases b with
    | nan => exact hb.elim
    | fin b =>
      obtain rfl : y = b := hb
      cases s <;> simp only [Represents] at ha <;> subst ha <;> simp [Fp.Dbl.add, Represents]
    | inf t =>
      cases s <;> cases t <;> simp only [Represents] at ha hb <;> subst ha <;> subst hb <;>
        simp [Fp.Dbl.add, Represents]

/-- **Differences** are sums with the negative number. -/
theorem C155_difference (a b : Fp.Dbl) (x y : EReal) (ha : Represents a x) (hb : Represents b y)
    (h : Infinite x ∨ Infinite y) :
    (Infinite x → y = x → a.sub b = .nan) ∧ (y ≠ x → Represents (a.sub b) (x - y)) := by
  have hb' : Represents b.neg (-y) := by
    cases b with
    | nan => exact hb.elim
    | fin b => obtain rfl : y = b := hb; simp [Fp.Dbl.neg, Represents]
    | inf t => cases t <;> simp only [Represents] at hb <;> subst hb <;> simp [Fp.Dbl.neg, Represents]
  have h' : Infinite x ∨ Infinite (-y) := by
    rcases h with h | h | h
    · exact Or.inl h
    · right; right; rw [h]; rfl
    · right; left; rw [h]; rfl
  obtain ⟨h1, h2⟩ := C155_sum a b.neg x (-y) ha hb' h'
  refine ⟨fun hx hy => h1 hx (by rw [hy]), fun hy => ?_⟩
  rw [sub_eq_add_neg]
  exact h2 (by rwa [ne_eq, neg_inj])

/-- **Quotients** with an infinite dividend have its sign if the divisor is not negative, and the opposite sign otherwise;
they are zero for an infinite divisor and a finite dividend, and NaN if both are infinite.  A finite number divided by zero is
infinite or, if it is zero too, NaN. -/
theorem C155_quotient (a b : Fp.Dbl) (x y : EReal) (ha : Represents a x) (hb : Represents b y) :
    (Infinite x → Infinite y → a.div b = .nan) ∧
    (Infinite x → ¬ Infinite y → 0 ≤ y → Represents (a.div b) x) ∧
    (Infinite x → ¬ Infinite y → y < 0 → Represents (a.div b) (-x)) ∧
    (¬ Infinite x → Infinite y → Represents (a.div b) 0) ∧
    (y = 0 → 0 < x → Represents (a.div b) ⊤) ∧ (y = 0 → x < 0 → Represents (a.div b) ⊥) ∧
    (y = 0 → x = 0 → a.div b = .nan) := by
  cases a with
  | nan => exact ha.elim
  | fin a =>
    obtain rfl : x = a := ha
    cases b with
    | nan => exact hb.elim
    | fin b =>
      obtain rfl : y = b := hb
      refine ⟨by simp [not_infinite_coe], by simp [not_infinite_coe], by simp [not_infinite_coe],
        by simp [not_infinite_coe], ?_, ?_, ?_⟩
      · intro hb0 ha0
        have hb0 : b = 0 := by exact_mod_cast hb0
        have ha0 : 0 < a := by exact_mod_cast ha0
        simp [Fp.Dbl.div, Represents, hb0, ha0.ne', ha0.not_gt]
      · intro hb0 ha0
        have hb0 : b = 0 := by exact_mod_cast hb0
        have ha0 : a < 0 := by exact_mod_cast ha0
        simp [Fp.Dbl.div, Represents, hb0, ha0.ne, ha0]
      · intro hb0 ha0
        have hb0 : b = 0 := by exact_mod_cast hb0
        have ha0 : a = 0 := by exact_mod_cast ha0
        simp [Fp.Dbl.div, hb0, ha0]
    | inf t => cases t <;> simp only [Represents] at hb <;> subst hb <;> simp [Fp.Dbl.div, Represents, not_infinite_coe]
  | inf s =>
    cases b with
    | nan => exact hb.elim
    | fin b =>
      obtain rfl : y = b := hb
      have hn := not_infinite_coe b
      refine ⟨fun _ h => absurd h hn, ?_, ?_, ?_, ?_, ?_, ?_⟩
      · intro _ _ hy
        have hy : 0 ≤ b := by exact_mod_cast hy
        cases s <;> simp only [Represents] at ha <;> subst ha <;> simp [Fp.Dbl.div, Represents, hy.not_gt]
      · intro _ _ hy
        have hy : b < 0 := by exact_mod_cast hy
        cases s <;> simp only [Represents] at ha <;> subst ha <;> simp [Fp.Dbl.div, Represents, hy]
      · intro _ h; exact absurd h hn
      · intro hy hx
        have hy : b = 0 := by exact_mod_cast hy
        cases s <;> simp only [Represents] at ha <;> subst ha <;> simp_all [Fp.Dbl.div, Represents]
      · intro hy hx
        have hy : b = 0 := by exact_mod_cast hy
        cases s <;> simp only [Represents] at ha <;> subst ha <;> simp_all [Fp.Dbl.div, Represents]
      · intro hy hx
        cases s <;> simp only [Represents] at ha <;> subst ha <;> simp_all
    | inf t =>
      cases s <;> cases t <;> simp only [Represents] at ha hb <;> subst ha <;> subst hb <;>
        simp [Fp.Dbl.div, Infinite]

/-- **Roots** of negative numbers are NaN, the root of plus infinity is infinite. -/
theorem C155_root (a : Fp.Dbl) (x : EReal) (ha : Represents a x) :
    (x < 0 → a.sqrt = .nan) ∧ (x = ⊤ → Represents a.sqrt ⊤) := by
  cases a with
  | nan => exact ha.elim
  | fin a =>
    obtain rfl : x = a := ha
    refine ⟨fun h => ?_, by simp⟩
    have h : a < 0 := by exact_mod_cast h
    simp [Fp.Dbl.sqrt, h]
  | inf s => cases s <;> simp only [Represents] at ha <;> subst ha <;> simp [Fp.Dbl.sqrt, Represents]

/-- NaN propagates. -/
theorem C155_nan (a : Fp.Dbl) : Fp.Dbl.add .nan a = .nan ∧ a.add .nan = .nan ∧ Fp.Dbl.sub .nan a = .nan ∧ a.sub .nan = .nan ∧
    Fp.Dbl.mul .nan a = .nan ∧ a.mul .nan = .nan ∧ Fp.Dbl.div .nan a = .nan ∧ a.div .nan = .nan ∧
    Fp.Dbl.sqrt .nan = .nan := by
  cases a <;> simp [Fp.Dbl.add, Fp.Dbl.sub, Fp.Dbl.neg, Fp.Dbl.mul, Fp.Dbl.div, Fp.Dbl.sqrt]

example : Represents (.inf true) ⊥ ∧ Represents (.fin (-2)) ((-2 : ℝ) : EReal) ∧ Infinite ⊥ ∧ ((-2 : ℝ) : EReal) ≠ 0 ∧
    (⊥ : EReal) ≠ 0 := by
  refine ⟨by simp [Represents], rfl, Or.inr rfl, ?_, by simp⟩
  exact_mod_cast (by norm_num : (-2 : ℝ) ≠ 0)

end Props
