import Verif.Spec.GeometryText
import Verif.Model.IO.GeometryText
import Verif.Props.GeoText
import Verif.Model.Common.Math

/-!
# C142 Text of points, vectors and directions
-/

namespace Props
open Verif Frackit Frackit.GeometryText Spec.Geo Spec.GeometryText

/-! ## Separators -/

theorem fields_plain {sep : Char} {a : List Char} (h : sep ∉ a) : fields sep a = [a] := by
  induction a with
  | nil => rfl
  | cons c t ih =>
    rw [List.mem_cons, not_or] at h
    rw [fields, if_neg (Ne.symm h.1), ih h.2]

theorem fields_append {sep : Char} {a : List Char} (h : sep ∉ a) (b : List Char) :
    fields sep (a ++ sep :: b) = a :: fields sep b := by
  induction a with
  | nil => rw [List.nil_append, fields, if_pos rfl]
  | cons c t ih =>
    rw [List.mem_cons, not_or] at h
    rw [List.cons_append, fields, if_neg (Ne.symm h.1), ih h.2]

theorem fields_join {sep : Char} {l : List (List Char)} (hl : l ≠ []) (h : ∀ a ∈ l, sep ∉ a) :
    fields sep (join [sep] l) = l := by
  induction l with
  | nil => exact absurd rfl hl
  | cons a t ih =>
    cases t with
    | nil => exact fields_plain (h a List.mem_cons_self)
    | cons b t =>
      rw [join, List.append_assoc, List.singleton_append, fields_append (h a List.mem_cons_self),
        ih (by simp) fun x hx => h x (List.mem_cons_of_mem _ hx)]

theorem blank_not_word {l : List Char} (h : ∀ c ∈ l, isWord c = true) {s : Char} (hs : isWord s = false) : s ∉ l := by
  intro hm
  rw [h s hm] at hs
  cases hs

/-- The text written with `operator<<`: the numbers between the blanks are the coordinates, with a relative error of at
most `5e-6` and without error if the coordinate has at most six digits. -/
theorem C142_stream {n : ℕ} (hn : 0 < n) (c : Coords n) :
    ∃ y : Fin n → ℝ, readStream (streamText c) = List.ofFn (fun i => some (y i)) ∧
      ∀ i, |y i - c i| ≤ 5 / 10 ^ 6 * |c i| ∧ (SixDigits (c i) → y i = c i) := by
  choose y hy using fun i => (print_spec (c i)).2.2
  refine ⟨y, ?_, fun i => (hy i).2⟩
  unfold readStream streamText
  rw [fields_join]
  · rw [List.map_ofFn]
    congr 1
    funext i
    exact (hy i).1
  · intro h
    have := congrArg List.length h
    simp at this
    omega
  · intro a ha
    obtain ⟨i, rfl⟩ := (List.mem_ofFn' _ _).1 ha
    exact blank_not_word (print_spec (c i)).2.1 (by decide)

/-! ## Six digits behind the point -/

open Spec.StatusOutput in
theorem unsigned_padded (a k m : ℕ) (h : m < 10 ^ k) :
    unsigned (decimal a ++ '.' :: GeneralFormat.padded k m) = some ((a : ℝ) + m / 10 ^ k) := by
  obtain ⟨hlen, hdig⟩ := padded_spec k m
  have hval := read_append_padded (decimal a) k m h
  rw [(decimal_spec a).1.2.2.1] at hval
  have ht : (decimal a ++ '.' :: GeneralFormat.padded k m).takeWhile IsDigit = decimal a := by
    rw [List.takeWhile_append_of_pos (decimal_digits a)]
    simp [IsDigit]
  have hd : (decimal a ++ '.' :: GeneralFormat.padded k m).dropWhile IsDigit = '.' :: GeneralFormat.padded k m := by
    rw [List.dropWhile_append_of_pos (decimal_digits a)]
    simp [IsDigit]
  have e1 : (GeneralFormat.padded k m).dropWhile IsDigit = [] := by
    have := List.dropWhile_append_of_pos (l₂ := []) hdig
    simpa using this
  have e2 : (GeneralFormat.padded k m).takeWhile IsDigit = GeneralFormat.padded k m := by
    have := List.takeWhile_append_of_pos (l₂ := []) hdig
    simpa using this
  have htl : tail ('.' :: GeneralFormat.padded k m) = some (GeneralFormat.padded k m, 0) := by
    rw [tail, e1, e2]
    rfl
  rw [unsigned, ht, hd, if_neg (decimal_ne a), htl]
  simp only [Option.map_some, zpow_zero, mul_one, Option.some.injEq, hlen]
  have hv : (readDigits (decimal a ++ GeneralFormat.padded k m) : ℝ) = a * 10 ^ k + m := by exact_mod_cast hval
  rw [hv]
  field_simp

theorem roundEven_tie {y : ℝ} (hy : 0 ≤ y) (h : |(GeneralFormat.roundEven y : ℝ) - y| = 1 / 2) :
    GeneralFormat.roundEven y % 2 = 0 := by
  have h1 := Nat.floor_le hy
  have h2 := Nat.lt_floor_add_one y
  unfold GeneralFormat.roundEven at h ⊢
  by_cases c1 : y - ⌊y⌋₊ < 1 / 2
  · rw [if_pos c1] at h
    rw [abs_of_nonpos (by linarith)] at h
    linarith
  · rw [if_neg c1] at h ⊢
    by_cases c2 : 1 / 2 < y - ⌊y⌋₊
    · rw [if_pos c2] at h
      push_cast at h
      rw [abs_of_nonneg (by linarith)] at h
      linarith
    · rw [if_neg c2]
      split
      · assumption
      · omega

/-- The number nearest to `x` among the multiples of one millionth; of two such numbers the even multiple. -/
def NearestMillionth (y x : ℝ) : Prop :=
  |y - x| ≤ 1 / 2 / 10 ^ 6 ∧ ∃ m : ℤ, y = m / 10 ^ 6 ∧ (|y - x| = 1 / 2 / 10 ^ 6 → m % 2 = 0)

theorem digit_not {l : List Char} (h : ∀ c ∈ l, IsDigit c = true) {s : Char} (hs : IsDigit s = false) : s ∉ l := by
  intro hm
  rw [h s hm] at hs
  cases hs

/-- The text of a number: its characters, and the number read from it. -/
theorem toString6_spec (x : ℝ) :
    (∀ s, s ∈ toString6 x → s ≠ ' ' ∧ s ≠ '(' ∧ s ≠ ')' ∧ s ≠ ',') ∧
    ∃ y, number (toString6 x) = some y ∧ NearestMillionth y x := by
  set n := GeneralFormat.roundEven (|x| * 10 ^ 6) with hn
  have hx0 : 0 ≤ |x| * 10 ^ 6 := by positivity
  have hr := roundEven_spec hx0
  have ht := roundEven_tie hx0
  rw [← hn] at hr ht
  have hu : unsigned (decimal (n / 10 ^ 6) ++ '.' :: GeneralFormat.padded 6 (n % 10 ^ 6)) = some ((n : ℝ) / 10 ^ 6) := by
    rw [unsigned_padded _ _ _ (Nat.mod_lt _ (by norm_num))]
    congr 1
    have : ((n / 10 ^ 6 : ℕ) : ℝ) * 10 ^ 6 + ((n % 10 ^ 6 : ℕ) : ℝ) = n := by
      exact_mod_cast Nat.div_add_mod' n (10 ^ 6)
    rw [← this]
    field_simp
  have key : ∀ z : ℝ, |z| = |(n : ℝ) - |x| * 10 ^ 6| / 10 ^ 6 → |z| ≤ 1 / 2 / 10 ^ 6 ∧ (|z| = 1 / 2 / 10 ^ 6 → n % 2 = 0) := by
    intro z hz
    rw [hz]
    refine ⟨by gcongr, fun h => ht ?_⟩
    field_simp at h
    generalize |(n : ℝ) - |x| * 10 ^ 6| = w at h ⊢
    linarith
  have chars : ∀ s ∈ decimal (n / 10 ^ 6) ++ '.' :: GeneralFormat.padded 6 (n % 10 ^ 6),
      IsDigit s = true ∨ s = '.' := by
    intro s hs
    rcases List.mem_append.1 hs with h | h
    · exact .inl (decimal_digits _ s h)
    · rcases List.mem_cons.1 h with h | h
      · exact .inr h
      · exact .inl ((padded_spec _ _).2 s h)
  have good : ∀ s, IsDigit s = true ∨ s = '.' ∨ s = '-' → s ≠ ' ' ∧ s ≠ '(' ∧ s ≠ ')' ∧ s ≠ ',' := by
    intro s hs
    refine ⟨?_, ?_, ?_, ?_⟩ <;> rintro rfl <;> revert hs <;> decide
  unfold toString6
  simp only [← hn]
  by_cases hneg : x < 0
  · rw [if_pos hneg]
    constructor
    · intro s hs
      rw [List.append_assoc, List.singleton_append] at hs
      rcases List.mem_cons.1 hs with h | h
      · exact good s (.inr (.inr h))
      · rcases chars s h with h | h
        · exact good s (.inl h)
        · exact good s (.inr (.inl h))
    · refine ⟨-((n : ℝ) / 10 ^ 6), ?_, ?_⟩
      · rw [List.append_assoc, List.singleton_append, number, hu]
        rfl
      · have hz : |-((n : ℝ) / 10 ^ 6) - x| = |(n : ℝ) - |x| * 10 ^ 6| / 10 ^ 6 := by
          rw [abs_of_neg hneg, ← abs_neg, show -(-((n : ℝ) / 10 ^ 6) - x) = ((n : ℝ) - -x * 10 ^ 6) / 10 ^ 6 by ring,
            abs_div, abs_of_pos (show (0 : ℝ) < 10 ^ 6 by positivity)]
        obtain ⟨k1, k2⟩ := key _ hz
        refine ⟨k1, -(n : ℤ), by push_cast; ring, fun h => ?_⟩
        have := k2 h
        omega
  · rw [if_neg hneg, List.nil_append]
    constructor
    · intro s hs
      rcases chars s hs with h | h
      · exact good s (.inl h)
      · exact good s (.inr (.inl h))
    · have hnum : ∀ l : List Char, (∀ c t, l = c :: t → c ≠ '-') → number l = unsigned l := by
        intro l hl
        unfold number
        split
        · rename_i heq
          exact absurd rfl (hl _ _ rfl)
        · rfl
      refine ⟨(n : ℝ) / 10 ^ 6, ?_, ?_⟩
      · rw [hnum _ ?_, hu]
        intro c t hc
        have : c ∈ decimal (n / 10 ^ 6) ++ '.' :: GeneralFormat.padded 6 (n % 10 ^ 6) := by rw [hc]; exact List.mem_cons_self
        rintro rfl
        revert this
        intro this
        rcases chars _ this with h | h
        · revert h; decide
        · revert h; decide
      · push Not at hneg
        have hz : |(n : ℝ) / 10 ^ 6 - x| = |(n : ℝ) - |x| * 10 ^ 6| / 10 ^ 6 := by
          rw [abs_of_nonneg hneg, show (n : ℝ) / 10 ^ 6 - x = ((n : ℝ) - x * 10 ^ 6) / 10 ^ 6 by ring,
            abs_div, abs_of_pos (show (0 : ℝ) < 10 ^ 6 by positivity)]
        obtain ⟨k1, k2⟩ := key _ hz
        refine ⟨k1, (n : ℤ), by push_cast; ring, fun h => ?_⟩
        have := k2 h
        omega

/-! ## The text in Python -/

theorem heading_no_blank (k : TextClass) (n : ℕ) : ∀ c ∈ heading k n, c ≠ ' ' := by
  intro c hc
  unfold heading at hc
  rcases List.mem_append.1 hc with h | h
  · clear hc
    revert c
    cases k <;> decide
  · split at h
    · rcases List.mem_append.1 h with h | h
      · rcases List.mem_cons.1 h with rfl | h
        · decide
        · have := decimal_digits _ c h
          rintro rfl
          revert this
          decide
      · obtain rfl := List.mem_singleton.1 h
        decide
    · cases h

theorem filter_join {l : List (List Char)} (h : ∀ a ∈ l, ∀ s ∈ a, s ≠ ' ' ∧ s ≠ '(' ∧ s ≠ ')' ∧ s ≠ ',') :
    (join ", ".toList l).filter (fun c => c ≠ ' ' ∧ c ≠ '(' ∧ c ≠ ')') = join [','] l := by
  have hf : ∀ a ∈ l, a.filter (fun c => c ≠ ' ' ∧ c ≠ '(' ∧ c ≠ ')') = a := by
    intro a ha
    rw [List.filter_eq_self]
    intro s hs
    obtain ⟨h1, h2, h3, -⟩ := h a ha s hs
    simp [h1, h2, h3]
  induction l with
  | nil => rfl
  | cons a t ih =>
    cases t with
    | nil => exact hf a List.mem_cons_self
    | cons b t =>
      rw [join, join, List.filter_append, List.filter_append, hf a List.mem_cons_self,
        ih (fun x hx => h x (List.mem_cons_of_mem _ hx)) (fun x hx => hf x (List.mem_cons_of_mem _ hx))]
      rfl

/-- The text in Python: the class and the dimension precede the first blank; the numbers behind it are the coordinates,
rounded to multiples of one millionth. -/
theorem C142_repr {n : ℕ} (hn : 0 < n) (k : TextClass) (c : Coords n) :
    readHeading (reprText k c) = heading k n ∧
    ∃ y : Fin n → ℝ, readRepr (reprText k c) = List.ofFn (fun i => some (y i)) ∧
      ∀ i, NearestMillionth (y i) (c i) := by
  have hb := heading_no_blank k n
  have hb' : ∀ c ∈ heading k n, (decide (c ≠ ' ')) = true := fun c hc => decide_eq_true (hb c hc)
  have e : reprText k c = heading k n ++ ' ' :: ('(' :: join ", ".toList (List.ofFn fun i => toString6 (c i)) ++ [')']) := by
    unfold reprText
    simp
  choose y hy using fun i => (toString6_spec (c i)).2
  refine ⟨?_, y, ?_, fun i => (hy i).2⟩
  · rw [e, readHeading, List.takeWhile_append_of_pos hb']
    simp
  · have hl : ∀ a ∈ List.ofFn (fun i => toString6 (c i)), ∀ s ∈ a, s ≠ ' ' ∧ s ≠ '(' ∧ s ≠ ')' ∧ s ≠ ',' := by
      intro a ha
      obtain ⟨i, rfl⟩ := (List.mem_ofFn' _ _).1 ha
      exact (toString6_spec (c i)).1
    rw [e, readRepr, List.dropWhile_append_of_pos hb']
    have e2 : (' ' :: ('(' :: join ", ".toList (List.ofFn fun i => toString6 (c i)) ++ [')'])).dropWhile (· ≠ ' ') =
        ' ' :: ('(' :: join ", ".toList (List.ofFn fun i => toString6 (c i)) ++ [')']) := by simp
    rw [e2]
    have e3 : (' ' :: ('(' :: join ", ".toList (List.ofFn fun i => toString6 (c i)) ++ [')'])).filter
        (fun c => c ≠ ' ' ∧ c ≠ '(' ∧ c ≠ ')') = join [','] (List.ofFn fun i => toString6 (c i)) := by
      rw [List.cons_append, List.filter_cons_of_neg (by decide), List.filter_cons_of_neg (by decide), List.filter_append,
        filter_join hl]
      simp
    rw [e3, fields_join, List.map_ofFn]
    · congr 1
      funext i
      exact (hy i).1
    · intro h
      have := congrArg List.length h
      simp at this
      omega
    · intro a ha hs
      exact (hl a ha _ hs).2.2.2 rfl

/-! ## Classes -/

theorem name_no_angle (k : TextClass) : ∀ c ∈ "Frackit::".toList ++ k.name, (decide (c ≠ '<')) = true := by
  cases k <;> decide

theorem heading_name (k : TextClass) (n : ℕ) : (heading k n).takeWhile (· ≠ '<') = "Frackit::".toList ++ k.name := by
  unfold heading
  rw [List.takeWhile_append_of_pos (name_no_angle k)]
  cases k.showsDimension <;> simp

theorem name_injective {k k' : TextClass} (h : k.name = k'.name) : k = k' := by
  revert h
  cases k <;> cases k' <;> decide

/-- The classes without a number for the dimension of space: they exist in three-dimensional space only and their names do
not mention it. -/
def SpatialOnly (k : TextClass) : Prop :=
  k = .box ∨ k = .sphere ∨ k = .cylinder ∨ k = .cylinderSurface ∨ k = .hollowCylinder ∨ k = .disk

theorem showsDimension_iff (k : TextClass) : k.showsDimension = true ↔ ¬ SpatialOnly k := by
  unfold SpatialOnly
  cases k <;> simp [TextClass.showsDimension]

/-- The text of a geometry tells its class, and the dimension for the classes that exist in several dimensions; for the
others it is the name of the class only. -/
theorem C142_class (k k' : TextClass) (n n' : ℕ) :
    (heading k n = heading k' n' → k = k' ∧ (¬ SpatialOnly k → n = n')) ∧
    (SpatialOnly k → heading k n = "Frackit::".toList ++ k.name) := by
  refine ⟨fun h => ?_, fun hs => ?_⟩
  swap
  · have : k.showsDimension = false := by
      rw [Bool.eq_false_iff, ne_eq, showsDimension_iff]
      exact not_not_intro hs
    unfold heading
    rw [this]
    simp
  have hk : k = k' := by
    have := (heading_name k n).symm.trans ((congrArg _ h).trans (heading_name k' n'))
    exact name_injective (List.append_cancel_left this)
  subst hk
  refine ⟨rfl, fun hd => ?_⟩
  unfold heading at h
  rw [(showsDimension_iff k).2 hd, if_pos rfl, if_pos rfl] at h
  have h1 := List.append_cancel_left h
  have h2 := List.append_cancel_right h1
  have h3 := (List.cons.inj h2).2
  have := congrArg digits h3
  rw [digits_decimal, digits_decimal] at this
  exact Option.some.inj this

/-! ## Equal texts -/

/-- Points, vectors and directions of equal text in Python are of the same class, and the coordinates differ by at most one
millionth; equal texts of `operator<<` mean a difference of at most five millionths of the coordinates. -/
theorem C142_same_text_partial {n : ℕ} (k k' : TextClass) (c c' : Coords n) :
    (reprText k c = reprText k' c' → 0 < n → k = k' ∧ ∀ i, |c i - c' i| ≤ 1 / 10 ^ 6) ∧
    (streamText c = streamText c' → 0 < n → ∀ i, |c i - c' i| ≤ 5 / 10 ^ 6 * (|c i| + |c' i|)) := by
  constructor
  · intro h hn
    obtain ⟨a1, y, a2, a3⟩ := C142_repr hn k c
    obtain ⟨b1, z, b2, b3⟩ := C142_repr hn k' c'
    rw [h] at a1 a2
    refine ⟨((C142_class k k' n n).1 (a1.symm.trans b1)).1, fun i => ?_⟩
    have e := congrFun (List.ofFn_injective (a2.symm.trans b2)) i
    have e := Option.some.inj e
    have h1 := (a3 i).1
    have h2 := (b3 i).1
    rw [← e] at h2
    have := abs_sub_le (c i) (y i) (c' i)
    rw [abs_sub_comm (c i) (y i)] at this
    linarith
  · intro h hn i
    obtain ⟨y, a2, a3⟩ := C142_stream hn c
    obtain ⟨z, b2, b3⟩ := C142_stream hn c'
    rw [h] at a2
    have e := Option.some.inj (congrFun (List.ofFn_injective (a2.symm.trans b2)) i)
    have h1 := (a3 i).1
    have h2 := (b3 i).1
    rw [← e] at h2
    have := abs_sub_le (c i) (y i) (c' i)
    rw [abs_sub_comm (c i) (y i)] at this
    linarith

/-- Points of equal text are equal up to the default tolerance of the comparison of points. -/
def C142_full : Prop := ∀ p q : Coords 3,
  (reprText .point p = reprText .point q → p.isEqual q confusion) ∧ (streamText p = streamText q → p.isEqual q confusion)

theorem roundEven_small {y : ℝ} (h : y < 1 / 2) : GeneralFormat.roundEven y = 0 := by
  have : ⌊y⌋₊ = 0 := Nat.floor_eq_zero.2 (by linarith)
  unfold GeneralFormat.roundEven
  rw [this, if_pos (by push_cast; linarith)]

/-- Points that the library regards as different have the same text in Python. -/
theorem C142_disproof : ¬ C142_full := by
  intro h
  have := (h ![0, 0, 0] ![4 / 10 ^ 7, 0, 0]).1 ?_
  · unfold Coords.isEqual Coords.squaredLength vectorBetween confusion at this
    rw [Fin.sum_univ_three] at this
    have e0 : (![0, 0, 0] : Coords 3) 2 = 0 := rfl
    have e2 : (![4 / 10 ^ 7, 0, 0] : Coords 3) 2 = 0 := rfl
    rw [e0, e2] at this
    norm_num at this
  · have e : toString6 (4 / 10 ^ 7) = toString6 0 := by
      unfold toString6
      rw [if_neg (by norm_num), if_neg (by norm_num), abs_of_pos (by norm_num), abs_zero,
        roundEven_small (by norm_num), roundEven_small (by norm_num)]
    unfold reprText
    simp only [List.ofFn_succ, List.ofFn_zero]
    simp only [Matrix.cons_val_zero, Matrix.cons_val_succ, e]

theorem print_million (j : ℕ) (hj : j < 5) : GeneralFormat.print (10 ^ 6 + j) = GeneralFormat.layout (10 ^ 5) 6 := by
  have hj' : (j : ℝ) < 5 := by exact_mod_cast hj
  have hj0 : (0 : ℝ) ≤ j := by positivity
  have hl : Int.log 10 ((10 : ℝ) ^ 6 + j) = 6 := by
    apply le_antisymm
    · have : Int.log 10 ((10 : ℝ) ^ 6 + j) < 7 := by
        rw [← Int.lt_zpow_iff_log_lt (by norm_num) (by positivity)]
        norm_num
        linarith
      omega
    · rw [← Int.zpow_le_iff_le_log (by norm_num) (by positivity)]
      norm_num
  have hr : GeneralFormat.roundEven (((10 : ℝ) ^ 6 + j) * (10 : ℝ) ^ ((5 : ℤ) - 6)) = 10 ^ 5 := by
    have e : ((10 : ℝ) ^ 6 + j) * (10 : ℝ) ^ ((5 : ℤ) - 6) = 10 ^ 5 + j / 10 := by
      norm_num
      ring
    rw [e]
    have hf : ⌊(10 : ℝ) ^ 5 + j / 10⌋₊ = 10 ^ 5 := by
      rw [Nat.floor_eq_iff (by positivity)]
      push_cast
      constructor <;> linarith
    unfold GeneralFormat.roundEven
    rw [hf, if_pos (by push_cast; linarith)]
  unfold GeneralFormat.print
  rw [if_neg (by positivity), if_neg (not_lt.2 (by positivity))]
  unfold GeneralFormat.significant
  rw [hl, hr, if_neg (by norm_num)]

/-- Points with coordinates above one million, at a distance of several units, have the same text in C++. -/
theorem C142_far_points : ∃ p q : Coords 3, streamText p = streamText q ∧ p 0 - q 0 = 4 := by
  refine ⟨![10 ^ 6 + 4, 0, 0], ![10 ^ 6, 0, 0], ?_, by simp⟩
  have e : GeneralFormat.print (10 ^ 6 + 4) = GeneralFormat.print (10 ^ 6) := by
    have h1 := print_million 4 (by norm_num)
    have h2 := print_million 0 (by norm_num)
    norm_num at h1 h2 ⊢
    rw [h1, h2]
  unfold streamText
  simp only [List.ofFn_succ, List.ofFn_zero]
  simp only [Matrix.cons_val_zero, Matrix.cons_val_succ, e]

/-! ## The hypotheses can be met -/

example : SixDigits (-(25 / 100)) := ⟨-25, -2, by norm_num, by norm_num⟩

example : ∃ y : Fin 2 → ℝ, readStream (streamText ![1 / 4, 3]) = List.ofFn (fun i => some (y i)) ∧ y 0 = 1 / 4 := by
  obtain ⟨y, h1, h2⟩ := C142_stream (n := 2) (by norm_num) ![1 / 4, 3]
  exact ⟨y, h1, (h2 0).2 ⟨25, -2, by norm_num, by norm_num⟩⟩

end Props
