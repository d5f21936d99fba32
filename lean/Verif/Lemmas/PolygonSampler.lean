import Verif.Model.Sampling.PolygonSampler
import Mathlib.Algebra.BigOperators.Group.List.Basic
import Mathlib.Algebra.Order.BigOperators.Group.List

/-!
# Facts about the increments used by the polygon sampler
-/

namespace Lemmas
open Verif Frackit

theorem takeMin_spec (f : ℝ → ℝ) (xs : List ℝ) (h : xs ≠ []) :
    ∃ x rest, takeMin f xs = .val (x, rest) ∧ (x :: rest).Perm xs ∧ ∀ y ∈ xs, f x ≤ f y := by
  unfold takeMin
  cases hx : xs.argmin f with
  | none => exact absurd (List.argmin_eq_none.1 hx) h
  | some x =>
    have hm : x ∈ xs.argmin f := by rw [hx]; rfl
    exact ⟨x, xs.erase x, rfl, (List.perm_cons_erase (List.argmin_mem hm)).symm,
      fun y hy => List.le_of_mem_argmin hy hm⟩

theorem takeMax_spec (xs : List ℝ) (h : xs ≠ []) :
    ∃ x rest, takeMax xs = .val (x, rest) ∧ (x :: rest).Perm xs ∧ ∀ y ∈ xs, y ≤ x := by
  unfold takeMax
  cases hx : xs.argmax id with
  | none => exact absurd (List.argmax_eq_none.1 hx) h
  | some x =>
    have hm : x ∈ xs.argmax id := by rw [hx]; rfl
    exact ⟨x, xs.erase x, rfl, (List.perm_cons_erase (List.argmax_mem hm)).symm,
      fun y hy => List.le_of_mem_argmax hy hm⟩

theorem everySecond_length {α : Type} (xs : List α) :
    (everySecond false xs).length + (everySecond true xs).length = xs.length := by
  induction xs with
  | nil => rfl
  | cons x xs ih => simp only [everySecond, List.length_cons]; omega

theorem everySecond_subset {α : Type} (b : Bool) (xs : List α) :
    ∀ x ∈ everySecond b xs, x ∈ xs := by
  induction xs generalizing b with
  | nil => intro x h; cases b <;> simp [everySecond] at h
  | cons y xs ih =>
    intro x h
    cases b with
    | false =>
      simp only [everySecond, List.mem_cons] at h
      rcases h with rfl | h
      · exact List.mem_cons_self
      · exact List.mem_cons_of_mem _ (ih true x h)
    | true => exact List.mem_cons_of_mem _ (ih false x h)

theorem sortReals_perm (xs : List ℝ) : (sortReals xs).Perm xs := List.perm_insertionSort _ _

theorem sortReals_sorted (xs : List ℝ) : (sortReals xs).Pairwise (· ≤ ·) :=
  List.pairwise_insertionSort _ _

theorem sortReals_cons_min (m : ℝ) (xs : List ℝ) (h : ∀ x ∈ xs, m ≤ x) :
    sortReals (m :: xs) = m :: sortReals xs := by
  have hp : (sortReals (m :: xs)).Perm (m :: sortReals xs) :=
    (sortReals_perm _).trans ((sortReals_perm xs).symm.cons m)
  refine hp.eq_of_pairwise (fun a b _ _ h1 h2 => le_antisymm h1 h2) (sortReals_sorted _) ?_
  refine List.pairwise_cons.2 ⟨fun x hx => h x ((sortReals_perm xs).mem_iff.1 hx), sortReals_sorted _⟩

theorem differences_cons_cons (a b : ℝ) (l : List ℝ) :
    differences (a :: b :: l) = (b - a) :: differences (b :: l) := rfl

theorem differences_length (a : ℝ) (l : List ℝ) : (differences (a :: l)).length = l.length := by
  simp [differences]

theorem differences_sum (a z : ℝ) (l : List ℝ) : (differences (a :: (l ++ [z]))).sum = z - a := by
  induction l generalizing a with
  | nil => simp [differences]
  | cons b l ih =>
    rw [List.cons_append, differences_cons_cons, List.sum_cons, ih]; ring

theorem differences_nonneg (l : List ℝ) (h : l.Pairwise (· ≤ ·)) : ∀ x ∈ differences l, 0 ≤ x := by
  induction l with
  | nil => intro x hx; simp [differences] at hx
  | cons a l ih =>
    cases l with
    | nil => intro x hx; simp [differences] at hx
    | cons b l =>
      intro x hx
      rw [differences_cons_cons, List.mem_cons] at hx
      rcases hx with rfl | hx
      · have := (List.pairwise_cons.1 h).1 b List.mem_cons_self
        linarith
      · exact ih (List.pairwise_cons.1 h).2 x hx

/-- Sum of the positive parts. -/
noncomputable def posSum (xs : List ℝ) : ℝ := (xs.map (max 0)).sum

/-- Sum of the negative parts (as a non-negative number). -/
noncomputable def negSum (xs : List ℝ) : ℝ := (xs.map fun x => max 0 (-x)).sum

theorem posSum_sub_negSum (xs : List ℝ) : posSum xs - negSum xs = xs.sum := by
  induction xs with
  | nil => simp [posSum, negSum]
  | cons x xs ih =>
    simp only [posSum, negSum, List.map_cons, List.sum_cons] at *
    have : max 0 x - max 0 (-x) = x := by
      rcases le_total 0 x with h | h
      · rw [max_eq_right h, max_eq_left (by linarith)]; ring
      · rw [max_eq_left h, max_eq_right (by linarith)]; ring
    linarith

theorem posSum_perm {xs ys : List ℝ} (h : xs.Perm ys) : posSum xs = posSum ys :=
  (h.map _).sum_eq

theorem negSum_perm {xs ys : List ℝ} (h : xs.Perm ys) : negSum xs = negSum ys :=
  (h.map _).sum_eq

theorem posSum_append (xs ys : List ℝ) : posSum (xs ++ ys) = posSum xs + posSum ys := by
  simp [posSum]

theorem posSum_nonneg_list (xs : List ℝ) (h : ∀ x ∈ xs, 0 ≤ x) : posSum xs = xs.sum := by
  unfold posSum
  congr 1
  conv_rhs => rw [← List.map_id xs]
  exact List.map_congr_left fun x hx => max_eq_right (h x hx)

theorem posSum_nonpos_list (xs : List ℝ) (h : ∀ x ∈ xs, x ≤ 0) : posSum xs = 0 := by
  unfold posSum
  apply List.sum_eq_zero
  intro y hy
  obtain ⟨x, hx, rfl⟩ := List.mem_map.1 hy
  exact max_eq_left (h x hx)

theorem posSum_scale (c : ℝ) (hc : 0 ≤ c) (xs : List ℝ) :
    posSum (xs.map fun x => x * c) = posSum xs * c := by
  unfold posSum
  rw [← List.sum_map_mul_right, List.map_map]
  congr 1
  refine List.map_congr_left fun x _ => ?_
  simp only [Function.comp]
  rw [max_mul_of_nonneg _ _ hc, zero_mul]

/-- Increments in one direction: as many as values, with sum zero, and with positive parts adding up
to between 0.8 and 1. -/
theorem coordinateDeltas_spec (vs : List ℝ) (hn : 3 ≤ vs.length) (h01 : ∀ v ∈ vs, 0 ≤ v ∧ v ≤ 1) :
    ∃ ds, coordinateDeltas vs = .val ds ∧ ds.length = vs.length ∧ ds.sum = 0 ∧
      4 / 5 ≤ posSum ds ∧ posSum ds ≤ 1 := by
  obtain ⟨m, r1, e1, p1, hm⟩ := takeMin_spec id vs (by intro h; simp [h] at hn)
  have hl1 : r1.length + 1 = vs.length := by simpa using p1.length_eq
  obtain ⟨M, r2, e2, p2, hM⟩ := takeMax_spec r1 (by intro h; simp [h] at hl1; omega)
  have hl2 : r2.length + 1 = r1.length := by simpa using p2.length_eq
  have hr1 : ∀ x ∈ r1, x ∈ vs := fun x hx => p1.mem_iff.1 (List.mem_cons_of_mem _ hx)
  have hr2 : ∀ x ∈ r2, x ∈ r1 := fun x hx => p2.mem_iff.1 (List.mem_cons_of_mem _ hx)
  have hmv : m ∈ vs := p1.mem_iff.1 List.mem_cons_self
  have hMv : M ∈ r1 := p2.mem_iff.1 List.mem_cons_self
  have m01 := h01 m hmv
  have M01 := h01 M (hr1 M hMv)
  set m' : ℝ := if m > 1 / 10 then 0 else m with hm'
  set M' : ℝ := if M < 9 / 10 then 1 else M with hM'
  have hm'0 : 0 ≤ m' := by rw [hm']; split_ifs <;> linarith
  have hm'1 : m' ≤ 1 / 10 := by rw [hm']; split_ifs <;> linarith
  have hm'm : m' ≤ m := by rw [hm']; split_ifs <;> linarith
  have hM'0 : 9 / 10 ≤ M' := by rw [hM']; split_ifs <;> linarith
  have hM'1 : M' ≤ 1 := by rw [hM']; split_ifs <;> linarith
  have hM'M : M ≤ M' := by rw [hM']; split_ifs <;> linarith
  have hset : ∀ b, ∃ ds, differences (sortReals (m' :: everySecond b r2) ++ [M']) = ds ∧
      ds.length = (everySecond b r2).length + 1 ∧ ds.sum = M' - m' ∧ ∀ x ∈ ds, 0 ≤ x := by
    intro b
    have hmin : ∀ x ∈ everySecond b r2, m' ≤ x := fun x hx =>
      hm'm.trans (hm x (hr1 x (hr2 x (everySecond_subset b r2 x hx))))
    have hmax : ∀ x ∈ everySecond b r2, x ≤ M' := fun x hx =>
      (hM x (hr2 x (everySecond_subset b r2 x hx))).trans hM'M
    rw [sortReals_cons_min m' _ hmin]
    refine ⟨_, rfl, ?_, ?_, ?_⟩
    · rw [List.cons_append, differences_length, List.length_append, (sortReals_perm _).length_eq]; rfl
    · rw [List.cons_append, differences_sum]
    · refine differences_nonneg _ ?_
      rw [List.cons_append, List.pairwise_cons]
      refine ⟨?_, ?_⟩
      · intro x hx
        rcases List.mem_append.1 hx with h | h
        · exact hmin x ((sortReals_perm _).mem_iff.1 h)
        · rw [List.mem_singleton.1 h]; linarith
      · rw [List.pairwise_append]
        refine ⟨sortReals_sorted _, List.pairwise_singleton _ _, ?_⟩
        intro x hx y hy
        rw [List.mem_singleton.1 hy]
        exact hmax x ((sortReals_perm _).mem_iff.1 hx)
  obtain ⟨d0, f0, l0, s0, n0⟩ := hset false
  obtain ⟨d1, f1, l1, s1, n1⟩ := hset true
  have hes := everySecond_length r2
  have hneg : (d1.map fun v => v * -1).sum = -d1.sum := by
    rw [List.sum_map_mul_right, List.map_id']; ring
  refine ⟨d0 ++ d1.map fun v => v * -1, ?_, ?_, ?_, ?_⟩
  · unfold coordinateDeltas
    simp only [e1, e2, Outcome.val_bind, Outcome.pure_eq, ← hm', ← hM', f0, f1]
  · rw [List.length_append, List.length_map, l0, l1]; omega
  · rw [List.sum_append, hneg, s0, s1]; ring
  · have : posSum (d0 ++ d1.map fun v => v * -1) = M' - m' := by
      rw [posSum_append, posSum_nonneg_list d0 n0, posSum_nonpos_list, s0, add_zero]
      intro x hx
      obtain ⟨y, hy, rfl⟩ := List.mem_map.1 hx
      have := n1 y hy; linarith
    rw [this]; constructor <;> linarith

theorem pairDeltas_spec (M : ℝ) (dxs dys : List ℝ) (h : dxs.length = dys.length) :
    ∃ ds, pairDeltas M dxs dys = .val ds ∧ ds.map Prod.fst = dxs ∧ (ds.map Prod.snd).Perm dys := by
  induction dxs generalizing dys with
  | nil =>
    refine ⟨[], rfl, rfl, ?_⟩
    rw [List.length_nil, eq_comm, List.length_eq_zero_iff] at h
    rw [h]; exact List.Perm.refl _
  | cons dx dxs ih =>
    obtain ⟨dy, rest, e, p, _⟩ := takeMin_spec (fun dy => |M - dx * dx - dy * dy|) dys
      (by intro h'; simp [h'] at h)
    have hl : dxs.length = rest.length := by
      have := p.length_eq
      simp only [List.length_cons] at this h
      omega
    obtain ⟨ds, e2, f, p2⟩ := ih rest hl
    refine ⟨(dx, dy) :: ds, ?_, by simp [f], ?_⟩
    · rw [pairDeltas]
      simp only [e, e2, Outcome.val_bind, Outcome.pure_eq]
    · rw [List.map_cons]
      exact (p2.cons dy).trans p

theorem combineDeltas_spec (dxs dys : List ℝ) (h : dxs.length = dys.length) (hn : 0 < dxs.length) :
    ∃ ds, combineDeltas dxs dys = .val ds ∧ (ds.map Prod.fst).Perm dxs ∧ (ds.map Prod.snd).Perm dys := by
  obtain ⟨a, ra, ea, _⟩ := takeMax_spec (sortReals dxs) (by
    intro h'; have := (sortReals_perm dxs).length_eq; simp [h'] at this; omega)
  obtain ⟨b, rb, eb, _⟩ := takeMax_spec dys (by intro h'; simp [h'] at h; simp [h] at hn)
  obtain ⟨ds, e, f, p⟩ := pairDeltas_spec (a * a + b * b) (sortReals dxs) dys
    (by rw [(sortReals_perm dxs).length_eq, h])
  refine ⟨ds, ?_, by rw [f]; exact sortReals_perm dxs, p⟩
  unfold combineDeltas
  simp only [ea, eb, Outcome.val_bind]
  exact e

end Lemmas
