import Verif.Model.Common.HeaderOrder
import Verif.Props.Headers
import Mathlib.Data.List.Induction

/-!
# C148 Order of the included headers
-/

namespace Spec
open Frackit

/-- When the text of the header `h` is read, each name that occurs in it has been declared: by a header read before or by
the header itself. -/
def AllDeclared (text : List ℕ) : Prop :=
  ∀ before h after, text = before ++ h :: after → ∀ n ∈ needsOf h, ∃ k ∈ before ++ [h], n ∈ declaresOf k

end Spec

namespace Props
open Verif Frackit

/-! ## The compiler -/

theorem compileText_val (known text : List ℕ) :
    compileText known text = .val () ↔
      ∀ before h after, text = before ++ h :: after → ∀ n ∈ needsOf h, n ∈ known ∨ ∃ k ∈ before ++ [h], n ∈ declaresOf k := by
  induction text generalizing known with
  | nil => simp [compileText]
  | cons x t ih =>
    unfold compileText
    by_cases hx : ∀ n ∈ needsOf x, n ∈ known ++ declaresOf x
    · rw [if_pos hx, ih]
      constructor
      · intro h before y after e n hn
        cases before with
        | nil =>
          obtain ⟨rfl, rfl⟩ := List.cons.inj e
          rcases List.mem_append.1 (hx n hn) with h1 | h1
          · exact .inl h1
          · exact .inr ⟨x, by simp, h1⟩
        | cons b bs =>
          obtain ⟨rfl, rfl⟩ := List.cons.inj e
          rcases h bs y after rfl n hn with h1 | ⟨k, hk, h1⟩
          · rcases List.mem_append.1 h1 with h2 | h2
            · exact .inl h2
            · exact .inr ⟨x, by simp, h2⟩
          · exact .inr ⟨k, List.mem_cons_of_mem _ hk, h1⟩
      · intro h before y after e n hn
        rcases h (x :: before) y after (by rw [e]; rfl) n hn with h1 | ⟨k, hk, h1⟩
        · exact .inl (List.mem_append_left _ h1)
        · rcases List.mem_cons.1 hk with rfl | hk
          · exact .inl (List.mem_append_right _ h1)
          · exact .inr ⟨k, hk, h1⟩
    · rw [if_neg hx]
      constructor
      · intro h; cases h
      · intro h
        refine absurd (fun n hn => ?_) hx
        rcases h [] x t rfl n hn with h1 | ⟨k, hk, h1⟩
        · exact List.mem_append_left _ h1
        · obtain rfl : k = x := by simpa using hk
          exact List.mem_append_right _ h1

/-- The compiler accepts a source file exactly if all names have been declared where they occur. -/
theorem C148_compiles_iff (unit : List ℕ) : compileUnit unit = .val () ↔ Spec.AllDeclared (preprocess unit) := by
  unfold compileUnit Spec.AllDeclared
  rw [compileText_val]
  simp

theorem compileText_thrown (known text : List ℕ) (h : compileText known text ≠ .val ()) :
    (compileText known text).isThrown := by
  induction text generalizing known with
  | nil => exact absurd rfl h
  | cons x t ih =>
    unfold compileText at h ⊢
    by_cases hx : ∀ n ∈ needsOf x, n ∈ known ++ declaresOf x
    · rw [if_pos hx] at h ⊢
      exact ih _ h
    · rw [if_neg hx]
      exact Outcome.isThrown_thrown _

/-- A source file in which a name has not been declared is rejected with a message. -/
theorem C148_rejects (unit : List ℕ) : (compileUnit unit).isThrown ↔ ¬ Spec.AllDeclared (preprocess unit) := by
  rw [← C148_compiles_iff]
  refine ⟨fun h hc => ?_, compileText_thrown _ _⟩
  rw [hc] at h
  exact Outcome.not_isThrown_val _ h

/-- More names known and fewer headers, those of which the names are known, left out. -/
theorem compileText_filter (D : List ℕ) (text known known' : List ℕ) (h : compileText known text = .val ())
    (hk : ∀ n ∈ known, n ∈ known') (hD : ∀ x ∈ D, ∀ n ∈ declaresOf x, n ∈ known') :
    compileText known' (text.filter (· ∉ D)) = .val () := by
  induction text generalizing known known' with
  | nil => rfl
  | cons x t ih =>
    unfold compileText at h
    by_cases hx : ∀ n ∈ needsOf x, n ∈ known ++ declaresOf x
    · rw [if_pos hx] at h
      by_cases hxD : x ∈ D
      · rw [List.filter_cons_of_neg (by simpa using hxD)]
        refine ih _ _ h (fun n hn => ?_) hD
        rcases List.mem_append.1 hn with hn | hn
        · exact hk n hn
        · exact hD x hxD n hn
      · rw [List.filter_cons_of_pos (by simpa using hxD)]
        unfold compileText
        rw [if_pos]
        · refine ih _ _ h (fun n hn => ?_) (fun y hy n hn => List.mem_append_left _ (hD y hy n hn))
          rcases List.mem_append.1 hn with hn | hn
          · exact List.mem_append_left _ (hk n hn)
          · exact List.mem_append_right _ hn
        · intro n hn
          rcases List.mem_append.1 (hx n hn) with h1 | h1
          · exact List.mem_append_left _ (hk n h1)
          · exact List.mem_append_right _ h1
    · rw [if_neg hx] at h
      cases h

theorem compileText_append (known a b : List ℕ) :
    compileText known (a ++ b) = .val () ↔
      compileText known a = .val () ∧ compileText (known ++ a.flatMap declaresOf) b = .val () := by
  induction a generalizing known with
  | nil => simp [compileText]
  | cons x t ih =>
    rw [List.cons_append]
    conv_lhs => unfold compileText
    conv_rhs => enter [1]; unfold compileText
    by_cases hx : ∀ n ∈ needsOf x, n ∈ known ++ declaresOf x
    · rw [if_pos hx, if_pos hx, ih]
      simp
    · rw [if_neg hx, if_neg hx]
      simp

/-! ## The order of the headers -/

/-- If the headers `D` and all they include have been read, the remaining ones are read in the order in which they would be
read otherwise. -/
theorem expand_filter (inc : ℕ → List ℕ) (N : ℕ) (hinc : ∀ h, ∀ k ∈ inc h, k < N) (D : List ℕ)
    (hD : ∀ x ∈ D, ∀ y ∈ inc x, y ∈ D) (n : ℕ) (S l T : List ℕ) (hl : ∀ h ∈ l, h < N)
    (hn : (unseen N S).length < n) (hT : ∀ x, x ∈ T ↔ x ∈ S ∨ x ∈ D) :
    (∀ x, x ∈ (expand inc n T l).1 ↔ x ∈ (expand inc n S l).1 ∨ x ∈ D) ∧
    (expand inc n T l).2 = (expand inc n S l).2.filter (· ∉ D) := by
  fun_induction expand inc n S l generalizing T with
  | case1 => simpa [expand] using hT
  | case2 => omega
  | case3 n S h t hs ih =>
    have hhT : h ∈ T := (hT h).2 (.inl hs)
    rw [expand, if_pos hhT]
    exact ih T (fun x hx => hl x (by simp [hx])) hn hT
  | case4 n S h t hs inner rest ih1 ih2 =>
    have hh : h < N := hl h (by simp)
    have hlt : ∀ x ∈ t, x < N := fun x hx => hl x (by simp [hx])
    have hfuel : (unseen N (h :: S)).length < n := by have := unseen_cons hh hs; omega
    obtain ⟨a1, a2, a3, a4, a5, a6⟩ := expand_spec inc N hinc n (h :: S) (inc h) (hinc h) hfuel
    change (∀ x, x ∈ inner.1 ↔ x ∈ h :: S ∨ x ∈ inner.2) at a1
    have hfuel2 : (unseen N inner.1).length < n + 1 :=
      Nat.lt_of_le_of_lt (unseen_mono (fun x hx => (a1 x).2 (.inl (by simp [hx])))) hn
    by_cases hhD : h ∈ D
    · have hhT : h ∈ T := (hT h).2 (.inr hhD)
      have hin : ∀ x ∈ inner.2, x ∈ D := by
        intro x hx
        obtain ⟨k, hk, hr⟩ := a6 x hx
        have hkD := hD h hhD k hk
        clear hx
        induction hr with
        | refl => exact hkD
        | tail _ hb ih => exact hD _ ih _ hb
      have hT2 : ∀ x, x ∈ T ↔ x ∈ inner.1 ∨ x ∈ D := by
        intro x
        rw [hT, a1, List.mem_cons]
        constructor
        · rintro (h1 | h1)
          · exact .inl (.inl (.inr h1))
          · exact .inr h1
        · rintro (((rfl | h1) | h1) | h1)
          · exact .inr hhD
          · exact .inl h1
          · exact .inr (hin x h1)
          · exact .inr h1
      obtain ⟨b1, b2⟩ := ih2 T hlt hfuel2 hT2
      rw [expand, if_pos hhT]
      refine ⟨b1, b2.trans ?_⟩
      change List.filter _ rest.2 = List.filter _ (inner.2 ++ h :: rest.2)
      have hnil : inner.2.filter (· ∉ D) = [] := List.filter_eq_nil_iff.2 (fun x hx => by simpa using hin x hx)
      rw [List.filter_append, List.filter_cons_of_neg (by simpa using hhD), hnil]
      rfl
    · have hhT : h ∉ T := fun hc => ((hT h).1 hc).elim hs hhD
      have hT1 : ∀ x, x ∈ h :: T ↔ x ∈ h :: S ∨ x ∈ D := by
        intro x
        simp only [List.mem_cons, hT]
        tauto
      obtain ⟨c1, c2⟩ := ih1 (h :: T) (hinc h) hfuel hT1
      obtain ⟨b1, b2⟩ := ih2 (expand inc n (h :: T) (inc h)).1 hlt hfuel2 c1
      rw [expand, if_neg hhT]
      refine ⟨b1, ?_⟩
      change (expand inc n (h :: T) (inc h)).2 ++ h :: (expand inc (n + 1) (expand inc n (h :: T) (inc h)).1 t).2 =
        List.filter _ (inner.2 ++ h :: rest.2)
      rw [List.filter_append, List.filter_cons_of_pos (by simpa using hhD), c2, b2]

/-- The preprocessor, by recursion on the depth only. -/
def expandFold (inc : ℕ → List ℕ) : ℕ → List ℕ → List ℕ → List ℕ × List ℕ
  | 0, seen, _ => (seen, [])
  | n + 1, seen, l =>
      l.foldl (fun acc h =>
        if acc.1.elem h then acc
        else match expandFold inc n (h :: acc.1) (inc h) with
          | (s, o) => (s, acc.2 ++ (o ++ [h]))) (seen, [])

theorem expandFold_eq (inc : ℕ → List ℕ) (n : ℕ) (seen l : List ℕ) : expandFold inc n seen l = expand inc n seen l := by
  induction n generalizing seen l with
  | zero => cases l <;> simp [expandFold, expand]
  | succ n ih =>
    have key : ∀ (l : List ℕ) (acc : List ℕ × List ℕ),
        l.foldl (fun acc h =>
          if acc.1.elem h then acc
          else match expandFold inc n (h :: acc.1) (inc h) with
            | (s, o) => (s, acc.2 ++ (o ++ [h]))) acc =
          ((expand inc (n + 1) acc.1 l).1, acc.2 ++ (expand inc (n + 1) acc.1 l).2) := by
      intro l
      induction l with
      | nil => intro acc; simp [expand]
      | cons h t iht =>
        intro acc
        rw [List.foldl_cons, iht]
        by_cases hh : h ∈ acc.1
        · have : acc.1.elem h = true := by simpa using hh
          rw [if_pos this]
          conv_rhs => rw [expand, if_pos hh]
        · have : ¬ acc.1.elem h = true := by simpa using hh
          rw [if_neg this]
          conv_rhs => rw [expand, if_neg hh]
          rw [ih]
          simp
    rw [expandFold, key l (seen, [])]
    simp

theorem preprocess_fold (unit : List ℕ) : preprocess unit = (expandFold includesOf 99 [] unit).2 := by
  rw [expandFold_eq]
  rfl

/-- Each of the headers but two can be included on its own. -/
theorem alone : ∀ h < 98, h ≠ planarHeader → h ≠ angleHeader →
    compileText [] (expandFold includesOf 99 [] [h]).2 = .val () := by
  decide +kernel

theorem expand_append (inc : ℕ → List ℕ) (n : ℕ) (seen u t : List ℕ) :
    expand inc (n + 1) seen (u ++ t) =
      ((expand inc (n + 1) (expand inc (n + 1) seen u).1 t).1,
        (expand inc (n + 1) seen u).2 ++ (expand inc (n + 1) (expand inc (n + 1) seen u).1 t).2) := by
  induction u generalizing seen with
  | nil => simp [expand]
  | cons h u ih =>
    rw [List.cons_append]
    by_cases hh : h ∈ seen
    · have e1 : expand inc (n + 1) seen (h :: (u ++ t)) = expand inc (n + 1) seen (u ++ t) := by rw [expand, if_pos hh]
      have e2 : expand inc (n + 1) seen (h :: u) = expand inc (n + 1) seen u := by rw [expand, if_pos hh]
      rw [e1, e2, ih]
    · have e : ∀ l, expand inc (n + 1) seen (h :: l) =
          ((expand inc (n + 1) (expand inc n (h :: seen) (inc h)).1 l).1, (expand inc n (h :: seen) (inc h)).2 ++
            h :: (expand inc (n + 1) (expand inc n (h :: seen) (inc h)).1 l).2) := by
        intro l
        rw [expand, if_neg hh]
      rw [e, e, ih]
      simp

theorem enough_fuel : (unseen headers.length []).length < headers.length + 1 := by
  have : (unseen headers.length []).length ≤ (List.range headers.length).length := List.length_filter_le _ _
  rw [List.length_range] at this
  omega

/-- A further header adds those headers it reads on its own that have not been read, in the same order. -/
theorem preprocess_snoc (u : List ℕ) (h : ℕ) (hu : ∀ x ∈ u, x < headers.length) (hh : h < headers.length) :
    preprocess (u ++ [h]) = preprocess u ++ (preprocess [h]).filter (· ∉ preprocess u) := by
  have spec := expand_spec includesOf headers.length includes_lt (headers.length + 1) [] u hu enough_fuel
  have hmem : ∀ x, x ∈ (expand includesOf (headers.length + 1) [] u).1 ↔ x ∈ preprocess u := fun x => by
    rw [spec.1 x]; simp [preprocess]
  unfold preprocess
  rw [expand_append]
  refine congrArg (_ ++ ·) ?_
  refine (expand_filter includesOf headers.length includes_lt (preprocess u) ?_ (headers.length + 1) [] [h] _ ?_
    enough_fuel ?_).2
  · intro x hx y hy
    exact (hmem y).1 (spec.2.2.2.2.1 x hx y hy)
  · intro x hx
    obtain rfl : x = h := by simpa using hx
    exact hh
  · intro x
    rw [hmem]
    simp

theorem compileUnit_snoc (u : List ℕ) (h : ℕ) (hu : ∀ x ∈ u, x < headers.length) (hh : h < headers.length) :
    compileUnit (u ++ [h]) = .val () ↔ compileUnit u = .val () ∧
      compileText ((preprocess u).flatMap declaresOf) ((preprocess [h]).filter (· ∉ preprocess u)) = .val () := by
  unfold compileUnit
  rw [preprocess_snoc u h hu hh, compileText_append]
  simp

/-- The two headers that cannot be included on their own. -/
def Dependent (h : ℕ) : Prop := h = planarHeader ∨ h = angleHeader

theorem reads_iff {u : List ℕ} (hu : ∀ x ∈ u, x < headers.length) (h : ℕ) :
    h ∈ preprocess u ↔ Spec.ReadsHeader u h := (C145_once u hu).2 h

/-- Whatever includes the header of `isPlanarGeometry`, other than itself, includes the header of dimensions as well. -/
theorem planar_readers : ∀ k < 98, planarHeader ∈ (expandFold includesOf 99 [] [k]).2 →
    k = planarHeader ∨ dimensionHeader ∈ (expandFold includesOf 99 [] [k]).2 := by
  decide +kernel

theorem known_dimension : ∀ h, h = planarHeader ∨ h = angleHeader →
    compileText [dimensionalityTraits] (expandFold includesOf 99 [] [h]).2 = .val () := by
  rintro h (rfl | rfl) <;> decide +kernel

theorem dependent_text : ∀ h, h = planarHeader ∨ h = angleHeader →
    (expandFold includesOf 99 [] [h]).2 = (expandFold includesOf 99 [] [h]).2.takeWhile (· ≠ planarHeader) ++
      planarHeader :: ((expandFold includesOf 99 [] [h]).2.dropWhile (· ≠ planarHeader)).drop 1 ∧
    dimensionHeader ∉ (expandFold includesOf 99 [] [h]).2.takeWhile (· ≠ planarHeader) := by
  rintro h (rfl | rfl) <;> decide +kernel

theorem declares_traits (k : ℕ) (h : dimensionalityTraits ∈ declaresOf k) : k = dimensionHeader := by
  have key : ∀ k < 98, dimensionalityTraits ∈ declaresOf k → k = dimensionHeader := by decide +kernel
  by_cases hk : k < 98
  · exact key k hk h
  · have : declarations[k]? = none := by
      rw [List.getElem?_eq_none_iff]
      have : declarations.length = 98 := by decide +kernel
      omega
    simp [declaresOf, this] at h

theorem dimension_declares : dimensionalityTraits ∈ declaresOf dimensionHeader := by decide +kernel

theorem planar_needs : dimensionalityTraits ∈ needsOf planarHeader := by decide +kernel

theorem headers_length : headers.length = 98 := by decide +kernel

/-- What a source file needs for its last header. -/
theorem last_header (u : List ℕ) (h : ℕ) (hh : h < headers.length)
    (hplanar : planarHeader ∈ preprocess u → dimensionHeader ∈ preprocess u) :
    compileText ((preprocess u).flatMap declaresOf) ((preprocess [h]).filter (· ∉ preprocess u)) = .val () ↔
      (Dependent h → dimensionHeader ∈ preprocess u) := by
  have hknown : ∀ x ∈ preprocess u, ∀ n ∈ declaresOf x, n ∈ (preprocess u).flatMap declaresOf :=
    fun x hx n hn => List.mem_flatMap.2 ⟨x, hx, hn⟩
  by_cases hb : Dependent h
  · by_cases hd : dimensionHeader ∈ preprocess u
    · refine iff_of_true (compileText_filter _ _ [dimensionalityTraits] _ ?_ ?_ hknown) (fun _ => hd)
      · rw [preprocess_fold]
        exact known_dimension h hb
      · intro n hn
        obtain rfl : n = dimensionalityTraits := by simpa using hn
        exact hknown _ hd _ dimension_declares
    · refine iff_of_false (fun hc => ?_) (fun hc => hd (hc hb))
      have hp : planarHeader ∉ preprocess u := fun h1 => hd (hplanar h1)
      obtain ⟨e, ha⟩ := dependent_text h hb
      rw [← preprocess_fold] at e ha
      rw [e, List.filter_append, List.filter_cons_of_pos (by simpa using hp), compileText_val] at hc
      rcases hc _ _ _ rfl _ planar_needs with h1 | ⟨k, hk, h1⟩
      · obtain ⟨x, hx, h2⟩ := List.mem_flatMap.1 h1
        rw [declares_traits x h2] at hx
        exact hd hx
      · rw [declares_traits k h1] at hk
        rcases List.mem_append.1 hk with hk | hk
        · exact ha (List.mem_filter.1 hk).1
        · exact absurd (List.mem_singleton.1 hk) (by decide)
  · refine iff_of_true (compileText_filter _ _ [] _ ?_ (by simp) hknown) (fun hc => absurd hc hb)
    rw [preprocess_fold]
    exact alone h (by rw [← headers_length]; exact hh) (fun hc => hb (.inl hc)) (fun hc => hb (.inr hc))

/-- **C148** Exactly which source files can be compiled: the headers of `isPlanarGeometry` and of intersection angles must
be preceded by a header that reads the header of dimensions. -/
theorem C148_exact_partial (unit : List ℕ) (hu : ∀ h ∈ unit, h < headers.length) :
    compileUnit unit = .val () ↔
      ∀ before h after, unit = before ++ h :: after → Dependent h → Spec.ReadsHeader before dimensionHeader := by
  induction unit using List.reverseRecOn with
  | nil =>
    refine iff_of_true ?_ (fun b h a e => by simp at e)
    unfold compileUnit
    rw [preprocess_fold]
    decide +kernel
  | append_singleton u h ih =>
    have hu' : ∀ x ∈ u, x < headers.length := fun x hx => hu x (by simp [hx])
    have hh : h < headers.length := hu h (by simp)
    have hi := ih hu'
    rw [compileUnit_snoc u h hu' hh, hi]
    have hcond : (∀ before x after, u ++ [h] = before ++ x :: after → Dependent x → Spec.ReadsHeader before dimensionHeader) ↔
        (∀ before x after, u = before ++ x :: after → Dependent x → Spec.ReadsHeader before dimensionHeader) ∧
          (Dependent h → Spec.ReadsHeader u dimensionHeader) := by
      constructor
      · intro H
        exact ⟨fun b x a e hx => H b x (a ++ [h]) (by rw [e]; simp) hx, fun hx => H u h [] rfl hx⟩
      · rintro ⟨H1, H2⟩ b x a e hx
        rcases List.eq_nil_or_concat a with rfl | ⟨a', y, rfl⟩
        · obtain ⟨rfl, e2⟩ := List.append_inj' e rfl
          obtain rfl : h = x := by simpa using e2
          exact H2 hx
        · rw [List.concat_eq_append, ← List.cons_append, ← List.append_assoc] at e
          obtain ⟨e1, -⟩ := List.append_inj' e rfl
          exact H1 b x a' e1 hx
    rw [hcond]
    refine and_congr_right fun hc => ?_
    rw [last_header u h hh, reads_iff hu']
    intro hp
    obtain ⟨k, hk, hr⟩ := (reads_iff hu' _).1 hp
    have hk98 : k < 98 := by rw [← headers_length]; exact hu' k hk
    have hone : ∀ x ∈ [k], x < headers.length := by simpa using hu' k hk
    have h1 : planarHeader ∈ preprocess [k] := (reads_iff hone _).2 ⟨k, by simp, hr⟩
    rw [preprocess_fold] at h1
    rw [reads_iff hu']
    rcases planar_readers k hk98 h1 with rfl | h2
    · obtain ⟨b, a, rfl⟩ := List.append_of_mem hk
      obtain ⟨x, hx, hr2⟩ := hc b _ a rfl (.inl rfl)
      exact ⟨x, by simp [hx], hr2⟩
    · rw [← preprocess_fold, reads_iff hone] at h2
      obtain ⟨x, hx, hr2⟩ := h2
      obtain rfl : x = k := by simpa using hx
      exact ⟨x, hk, hr2⟩

/-- All other headers can be included in any order, any number of them.  (Missing: the two headers that depend on others
being included before.) -/
theorem C148_any_order_partial (unit : List ℕ) (hu : ∀ h ∈ unit, h < headers.length) (hd : ∀ h ∈ unit, ¬ Dependent h) :
    compileUnit unit = .val () := by
  refine (C148_exact_partial unit hu).2 fun b h a e hh => absurd hh (hd h ?_)
  rw [e]
  simp

/-- The property in full: source files can include any headers in any order. -/
def C148_full : Prop := ∀ unit : List ℕ, (∀ h ∈ unit, h < headers.length) → compileUnit unit = .val ()

/-- A source file that includes the header of intersection angles first cannot be compiled, although it can be if the header
of intersections is included before. -/
theorem C148_disproof : ¬ C148_full ∧ compileUnit [angleHeader, dimensionHeader] ≠ .val () ∧
    compileUnit [dimensionHeader, angleHeader] = .val () := by
  have h1 : compileUnit [angleHeader, dimensionHeader] ≠ .val () := by
    intro h
    obtain ⟨k, hk, -⟩ := (C148_exact_partial _ (by decide +kernel)).1 h [] angleHeader [dimensionHeader] rfl (.inr rfl)
    simp at hk
  refine ⟨fun H => h1 (H _ (by decide +kernel)), h1, ?_⟩
  unfold compileUnit
  rw [preprocess_fold]
  decide +kernel

/-- frackit/entitynetwork/constraints.hh and frackit/geometry/vector.hh, whose headers include each other. -/
example : (∀ h ∈ [9, 43, 36, 2], h < headers.length) ∧ (∀ h ∈ [9, 43, 36, 2], ¬ Dependent h) ∧
    (∀ h ∈ [dimensionHeader, planarHeader], h < headers.length) := by
  refine ⟨by decide +kernel, ?_, by decide +kernel⟩
  unfold Dependent planarHeader angleHeader
  decide

end Props
