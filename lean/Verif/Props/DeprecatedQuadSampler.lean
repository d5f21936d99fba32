import Verif.Model.Sampling.DeprecatedQuadSampler
import Verif.Props.DiskSampler
import Verif.Spec.Planar
import Verif.Spec.Rotation

/-!
# Deprecated quadrilateral sampler: C29

The C++ code violates the property (`C29_disproof`): a draw below the minimum edge length is never
replaced, so that the loop does not end.  The Python code satisfies it.
-/

namespace Props
open Verif Frackit

/-- The four edges, as pairs of corners. -/
def quadEdges (q : Quadrilateral) : List (V3 × V3) :=
  Spec.polyEdges [q.p0, q.p1, q.p3, q.p2]

/-- The property for a sampling algorithm, for streams with admissible values infinitely often: a call
returns, and the result is a quadrilateral all of whose edges have at least the minimum length. -/
def C29_full (sample : ℝ → ℕ → QuadDraws → Option (Outcome Quadrilateral)) : Prop :=
  ∀ (minLength : ℝ) (d : QuadDraws), (∀ n, ∃ k, n ≤ k ∧ minLength ≤ d.edge k) →
    ∃ fuel q, sample minLength fuel d = some (.val q) ∧
      ∀ e ∈ quadEdges q, minLength ≤ Spec.dist e.1 e.2

theorem strikeDir_unit (s : ℝ) : Spec.IsUnit (Spec.strikeDir s) := by
  have := Real.sin_sq_add_cos_sq s
  simp only [Spec.IsUnit, Spec.strikeDir]; linarith

theorem dipDir_unit (s t : ℝ) : Spec.IsUnit (Spec.dipDir s t) := by
  have h1 := Real.sin_sq_add_cos_sq s
  have h2 := Real.sin_sq_add_cos_sq t
  simp only [Spec.IsUnit, Spec.dipDir]
  linear_combination h2 + Real.cos t ^ 2 * h1

theorem strike_dip_orthogonal (s t : ℝ) : (Spec.dipDir s t).dot (Spec.strikeDir s) = 0 := by
  simp only [Spec.dipDir, Spec.strikeDir, V3.dot]; ring

theorem quadAxes_eq (s t : ℝ) : quadAxes s t = .val (Spec.dipDir s t, Spec.strikeDir s) := by
  have h1 : rotate ⟨0, 1, 0⟩ ⟨0, 0, 1⟩ s = Spec.strikeDir s := by
    rw [rotate_eq]; ext <;> simp [Spec.strikeDir, V3.cross, V3.dot]
  have hc := Real.sin_sq_add_cos_sq s
  unfold quadAxes
  simp only [h1, mkDirection_of_unit (strikeDir_unit s), Outcome.val_bind, Outcome.pure_eq]
  congr 2
  simp only [rotate_eq]
  ext <;> simp only [Spec.strikeDir, Spec.dipDir, V3.cross, V3.dot, V3.add_x, V3.add_y, V3.add_z, V3.smul_x,
    V3.smul_y, V3.smul_z]
  · ring
  · ring
  · linear_combination (-Real.sin t) * hc

theorem le_dist_of (p q u v : V3) (x y : ℝ) (m : ℝ) (hu : Spec.IsUnit u) (hv : Spec.IsUnit v)
    (ho : u.dot v = 0) (h : q - p = x • u + y • v) (hm : m ≤ |x| ∨ m ≤ |y|) :
    m ≤ Spec.dist p q := by
  have hl : (p - q).len = Real.sqrt (x ^ 2 + y ^ 2) := by
    rw [V3.len_sub_comm, h, V3.len]
    congr 1
    have h1 := (Spec.isUnit_iff u).1 hu
    have h2 := (Spec.isUnit_iff v).1 hv
    simp only [V3.sqLen, V3.dot, V3.add_x, V3.add_y, V3.add_z, V3.smul_x, V3.smul_y, V3.smul_z] at *
    linear_combination x ^ 2 * h1 + y ^ 2 * h2 + 2 * x * y * ho
  rw [Spec.dist_eq_len, hl]
  rcases hm with hm | hm
  · exact hm.trans (Real.abs_le_sqrt (by nlinarith [sq_nonneg y]))
  · exact hm.trans (Real.abs_le_sqrt (by nlinarith [sq_nonneg x]))

/-- All edges of the quadrilateral are at least as long as the shortest of the four lengths. -/
theorem quadFrom_edges (u v c : V3) (m dx1 dx2 dy1 dy2 : ℝ) (hu : Spec.IsUnit u)
    (hv : Spec.IsUnit v) (ho : u.dot v = 0) (h1 : m ≤ dx1) (h2 : m ≤ dx2) (h3 : m ≤ dy1)
    (h4 : m ≤ dy2) : ∀ e ∈ quadEdges (quadFrom (u, v) c dx1 dx2 dy1 dy2),
      m ≤ Spec.dist e.1 e.2 := by
  intro e he
  simp only [quadEdges, quadFrom, Quadrilateral.make, Spec.polyEdges, List.tail_cons, List.take,
    List.cons_append, List.nil_append, List.zip_cons_cons, List.zip_nil_right, List.mem_cons,
    List.not_mem_nil, or_false] at he
  rcases he with rfl | rfl | rfl | rfl
  · refine le_dist_of _ _ u v ((dx1 + dx2) / 2) ((dy1 - dy2) / 2) m hu hv ho ?_ (Or.inl ?_)
    · ext <;> simp <;> ring
    · exact le_trans (by linarith) (le_abs_self _)
  · refine le_dist_of _ _ u v 0 dy2 m hu hv ho ?_ (Or.inr (h4.trans (le_abs_self _)))
    ext <;> simp <;> ring
  · refine le_dist_of _ _ u v (-((dx1 + dx2) / 2)) ((dy1 - dy2) / 2) m hu hv ho ?_ (Or.inl ?_)
    · ext <;> simp <;> ring
    · rw [abs_neg]; exact le_trans (by linarith) (le_abs_self _)
  · refine le_dist_of _ _ u v 0 (-dy1) m hu hv ho ?_ (Or.inr ?_)
    · ext <;> simp <;> ring
    · rw [abs_neg]; exact h3.trans (le_abs_self _)

/-! ## C++ -/

theorem discardWhile_bad {m x : ℝ} (h : x < m) (fuel : ℕ) (s : Draws ℝ) :
    discardWhile m x fuel s = none := by
  induction fuel generalizing s with
  | zero => rfl
  | succ n ih => rw [discardWhile, if_pos h, ih]

theorem drawEdgeCpp_bad {m : ℝ} {s : Draws ℝ} (h : s 0 < m) (fuel : ℕ) :
    drawEdgeCpp m fuel s = none := by
  unfold drawEdgeCpp; rw [discardWhile_bad h]

theorem drawEdgeCpp_good {m : ℝ} {s : Draws ℝ} (h : m ≤ s 0) (fuel : ℕ) :
    drawEdgeCpp m (fuel + 1) s = some (s 0, s.drop 1) := by
  unfold drawEdgeCpp; rw [discardWhile, if_neg (not_lt.2 h)]

theorem drawEdgeCpp_some {m : ℝ} {fuel : ℕ} {s s' : Draws ℝ} {x : ℝ}
    (h : drawEdgeCpp m fuel s = some (x, s')) : m ≤ s 0 ∧ x = s 0 ∧ s' = s.drop 1 := by
  by_cases hc : s 0 < m
  · rw [drawEdgeCpp_bad hc] at h; cases h
  · cases fuel with
    | zero => simp [drawEdgeCpp, discardWhile] at h
    | succ n =>
      rw [drawEdgeCpp_good (not_lt.1 hc)] at h
      cases h
      exact ⟨not_lt.1 hc, rfl, rfl⟩

/-- **C29 (partial: returns only if the first four draws are admissible)** A call of the C++ sampler
returns exactly if none of the first four values drawn is below the minimum edge length; then the
result is the quadrilateral with the sampled strike and dip made from these four values, and all of
its edges have at least the minimum length. -/
theorem C29_cpp_partial (m : ℝ) (d : QuadDraws) :
    ((∃ fuel r, quadSampleCpp m fuel d = some r) ↔ ∀ k < 4, m ≤ d.edge k) ∧
    ∀ fuel r, quadSampleCpp m fuel d = some r →
      ∃ q, r = .val q ∧ (∀ e ∈ quadEdges q, m ≤ Spec.dist e.1 e.2) ∧
        q.p0 = d.center 0 - (d.edge 0 / 2) • Spec.dipDir (d.strike 0) (d.dip 0)
          - (d.edge 2 / 2) • Spec.strikeDir (d.strike 0) ∧
        q.p1 = d.center 0 + (d.edge 1 / 2) • Spec.dipDir (d.strike 0) (d.dip 0)
          - (d.edge 3 / 2) • Spec.strikeDir (d.strike 0) ∧
        q.p2 = d.center 0 - (d.edge 0 / 2) • Spec.dipDir (d.strike 0) (d.dip 0)
          + (d.edge 2 / 2) • Spec.strikeDir (d.strike 0) ∧
        q.p3 = d.center 0 + (d.edge 1 / 2) • Spec.dipDir (d.strike 0) (d.dip 0)
          + (d.edge 3 / 2) • Spec.strikeDir (d.strike 0) := by
  have key : ∀ fuel r, quadSampleCpp m fuel d = some r → (∀ k < 4, m ≤ d.edge k) ∧
      r = .val (quadFrom (Spec.dipDir (d.strike 0) (d.dip 0), Spec.strikeDir (d.strike 0)) (d.center 0)
        (d.edge 0) (d.edge 1) (d.edge 2) (d.edge 3)) := by
    intro fuel r h
    unfold quadSampleCpp at h
    split at h
    · cases h
    · rename_i x1 s1 e1
      split at h
      · cases h
      · rename_i x2 s2 e2
        split at h
        · cases h
        · rename_i x3 s3 e3
          split at h
          · cases h
          · rename_i x4 s4 e4
            obtain ⟨h1, rfl, rfl⟩ := drawEdgeCpp_some e1
            obtain ⟨h2, rfl, rfl⟩ := drawEdgeCpp_some e2
            obtain ⟨h3, rfl, rfl⟩ := drawEdgeCpp_some e3
            obtain ⟨h4, rfl, rfl⟩ := drawEdgeCpp_some e4
            rw [quadAxes_eq] at h
            cases h
            refine ⟨?_, rfl⟩
            intro k hk
            match k, hk with
            | 0, _ => exact h1
            | 1, _ => exact h2
            | 2, _ => exact h3
            | 3, _ => exact h4
  refine ⟨⟨?_, ?_⟩, ?_⟩
  · rintro ⟨fuel, r, h⟩; exact (key fuel r h).1
  · intro h
    refine ⟨1, ?_⟩
    unfold quadSampleCpp
    rw [drawEdgeCpp_good (h 0 (by norm_num))]
    simp only
    rw [drawEdgeCpp_good (s := d.edge.drop 1) (h 1 (by norm_num))]
    simp only
    rw [drawEdgeCpp_good (s := (d.edge.drop 1).drop 1) (h 2 (by norm_num))]
    simp only
    rw [drawEdgeCpp_good (s := ((d.edge.drop 1).drop 1).drop 1) (h 3 (by norm_num))]
    exact ⟨_, rfl⟩
  · intro fuel r h
    obtain ⟨hk, rfl⟩ := key fuel r h
    exact ⟨_, rfl, quadFrom_edges _ _ _ m _ _ _ _ (dipDir_unit _ _) (strikeDir_unit _)
      (strike_dip_orthogonal _ _) (hk 0 (by norm_num)) (hk 1 (by norm_num)) (hk 2 (by norm_num))
      (hk 3 (by norm_num)), rfl, rfl, rfl, rfl⟩

/-- **The C++ code violates the property.** -/
theorem C29_disproof : ¬ C29_full quadSampleCpp := by
  intro h
  obtain ⟨fuel, q, hq, _⟩ := h 1 ⟨fun _ => 0, fun _ => 0, fun _ => 0, fun n => n⟩
    (fun n => ⟨n + 1, by omega, by push_cast; linarith [Nat.cast_nonneg (α := ℝ) n]⟩)
  have := ((C29_cpp_partial 1 ⟨fun _ => 0, fun _ => 0, fun _ => 0, fun n => n⟩).1.1
    ⟨fuel, _, hq⟩) 0 (by norm_num)
  norm_num at this

/-! ## Python -/

theorem redrawPy_some {m : ℝ} {fuel : ℕ} {x y : ℝ} {s s' : Draws ℝ}
    (h : redrawPy m fuel x s = some (y, s')) : m ≤ y ∧ ∃ k, s' = s.drop k := by
  induction fuel generalizing x s with
  | zero => simp [redrawPy] at h
  | succ n ih =>
    rw [redrawPy] at h
    by_cases hc : x < m
    · rw [if_pos hc] at h
      obtain ⟨h1, k, rfl⟩ := ih h
      exact ⟨h1, k + 1, by funext n; simp only [Draws.drop]; congr 1⟩
    · rw [if_neg hc] at h
      cases h
      exact ⟨not_lt.1 hc, 0, rfl⟩

theorem redrawPy_terminates {m : ℝ} (x : ℝ) (s : Draws ℝ) (k : ℕ) (h : m ≤ s k) :
    ∀ fuel, k + 1 < fuel → ∃ r, redrawPy m fuel x s = some r := by
  induction k generalizing x s with
  | zero =>
    intro fuel hf
    obtain ⟨n, rfl⟩ : ∃ n, fuel = n + 2 := ⟨fuel - 2, by omega⟩
    rw [redrawPy]
    by_cases hc : x < m
    · rw [if_pos hc, redrawPy, if_neg (not_lt.2 h)]; exact ⟨_, rfl⟩
    · rw [if_neg hc]; exact ⟨_, rfl⟩
  | succ k ih =>
    intro fuel hf
    obtain ⟨n, rfl⟩ : ∃ n, fuel = n + 1 := ⟨fuel - 1, by omega⟩
    rw [redrawPy]
    by_cases hc : x < m
    · rw [if_pos hc]; exact ih (s 0) (s.drop 1) h n (by omega)
    · rw [if_neg hc]; exact ⟨_, rfl⟩

theorem redrawPy_mono {m : ℝ} {fuel fuel' : ℕ} (hf : fuel ≤ fuel') {x : ℝ} {s : Draws ℝ}
    {r : ℝ × Draws ℝ} (h : redrawPy m fuel x s = some r) : redrawPy m fuel' x s = some r := by
  induction fuel generalizing x s fuel' with
  | zero => simp [redrawPy] at h
  | succ n ih =>
    obtain ⟨n', rfl⟩ : ∃ n', fuel' = n' + 1 := ⟨fuel' - 1, by omega⟩
    rw [redrawPy] at h ⊢
    by_cases hc : x < m
    · rw [if_pos hc] at h ⊢; exact ih (by omega) h
    · rw [if_neg hc] at h ⊢; exact h

/-- The draws have admissible values arbitrarily late. -/
theorem redrawPy_total {m : ℝ} {s : Draws ℝ} (h : ∀ n, ∃ k, n ≤ k ∧ m ≤ s k) (x : ℝ) (j : ℕ) :
    ∃ fuel y k, redrawPy m fuel x (s.drop j) = some (y, s.drop k) ∧ m ≤ y := by
  obtain ⟨k, hk, hm⟩ := h j
  have hm' : m ≤ (s.drop j) (k - j) := by
    simp only [Draws.drop]; rwa [Nat.sub_add_cancel hk]
  obtain ⟨⟨y, s'⟩, hr⟩ := redrawPy_terminates x (s.drop j) (k - j) hm' (k - j + 2) (by omega)
  obtain ⟨h1, i, rfl⟩ := redrawPy_some hr
  refine ⟨k - j + 2, y, i + j, ?_, h1⟩
  rw [hr]
  congr 2
  funext n; simp only [Draws.drop]; congr 1; omega

/-- **C29** The Python sampler satisfies the property. -/
theorem C29_python : C29_full quadSamplePy := by
  intro m d h
  obtain ⟨f1, x1, k1, e1, h1⟩ := redrawPy_total h (d.edge 0) 4
  obtain ⟨f2, x2, k2, e2, h2⟩ := redrawPy_total h (d.edge 1) k1
  obtain ⟨f3, x3, k3, e3, h3⟩ := redrawPy_total h (d.edge 2) k2
  obtain ⟨f4, x4, k4, e4, h4⟩ := redrawPy_total h (d.edge 3) k3
  refine ⟨f1 + f2 + f3 + f4, _, ?_, quadFrom_edges (Spec.dipDir (d.strike 0) (d.dip 0))
    (Spec.strikeDir (d.strike 0)) (d.center 0) m x1 x2 x3 x4 (dipDir_unit _ _) (strikeDir_unit _)
      (strike_dip_orthogonal _ _) h1 h2 h3 h4⟩
  unfold quadSamplePy
  simp only [redrawPy_mono (show f1 ≤ f1 + f2 + f3 + f4 by omega) e1,
    redrawPy_mono (show f2 ≤ f1 + f2 + f3 + f4 by omega) e2,
    redrawPy_mono (show f3 ≤ f1 + f2 + f3 + f4 by omega) e3,
    redrawPy_mono (show f4 ≤ f1 + f2 + f3 + f4 by omega) e4, quadAxes_eq, Outcome.val_bind,
    Outcome.pure_eq]

/-- **C29** Whatever is drawn: if the Python sampler returns, no edge is too short. -/
theorem C29_python_edges (m : ℝ) (fuel : ℕ) (d : QuadDraws) (r : Outcome Quadrilateral)
    (h : quadSamplePy m fuel d = some r) :
    ∃ q, r = .val q ∧ ∀ e ∈ quadEdges q, m ≤ Spec.dist e.1 e.2 := by
  unfold quadSamplePy at h
  split at h
  · cases h
  · rename_i x1 s1 e1
    split at h
    · cases h
    · rename_i x2 s2 e2
      split at h
      · cases h
      · rename_i x3 s3 e3
        split at h
        · cases h
        · rename_i x4 s4 e4
          rw [quadAxes_eq] at h
          cases h
          exact ⟨_, rfl, quadFrom_edges _ _ _ m _ _ _ _ (dipDir_unit _ _) (strikeDir_unit _)
            (strike_dip_orthogonal _ _) (redrawPy_some e1).1 (redrawPy_some e2).1
            (redrawPy_some e3).1 (redrawPy_some e4).1⟩

/-- A stream that is admissible infinitely often and has rejected values. -/
example : ∀ n, ∃ k, n ≤ k ∧ (1 : ℝ) ≤ (fun n : ℕ => if n % 2 = 0 then (0 : ℝ) else 2) k :=
  fun n => ⟨2 * n + 1, by omega, by
    have : (2 * n + 1) % 2 = 1 := by omega
    simp [this]⟩

end Props
