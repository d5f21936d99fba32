import Verif.Model.Sampling.PolygonSamplerPy
import Verif.Props.PolygonSamplerErrors
import Mathlib.Analysis.SpecialFunctions.Trigonometric.Angle

/-!
# Polygon sampler of the Python module: C27, C28
-/

namespace Props
open Verif Frackit Lemmas

theorem cornersLoopPy_first (s : Draws ℤ) (i : ℕ) (h : Spec.IsFirst (3 ≤ ·) s i) (fuel : ℕ)
    (hf : i < fuel) : cornersLoopPy fuel s = some (s i) := by
  induction fuel generalizing s i with
  | zero => omega
  | succ fuel ih =>
    cases i with
    | zero =>
      rw [cornersLoopPy, if_neg (by have := h.1; simp only at this; omega)]
    | succ i =>
      have h0 := h.2 0 (by omega)
      rw [cornersLoopPy, if_pos (by simpa using h0)]
      have := ih (s.drop 1) i ⟨by simpa [Draws.drop, Nat.add_comm] using h.1, fun k hk => by
        simpa [Draws.drop, Nat.add_comm] using h.2 (k + 1) (by omega)⟩ (by omega)
      rw [this]
      simp [Draws.drop]

theorem cornersLoopPy_none (s : Draws ℤ) (h : ∀ k, s k < 3) (fuel : ℕ) : cornersLoopPy fuel s = none := by
  induction fuel generalizing s with
  | zero => rfl
  | succ fuel ih =>
    rw [cornersLoopPy, if_pos (h 0)]
    exact ih _ fun k => by simpa [Draws.drop] using h _

theorem dipLoopPy_nonneg (L : ℝ) (hL : 0 ≤ L) (s : Draws ℝ) (len : ℝ) : dipLoopPy L s len 0 = (len, 0) := by
  rw [dipLoopPy, if_neg]
  rintro ⟨h, _⟩
  linarith

/-- Both implementations sort by the same angle. -/
theorem edgeAnglePy_eq (v : V3) : edgeAnglePy v = edgeAngle v := by
  by_cases hy : |v.y| < 1 / 10 ^ 6
  · unfold edgeAnglePy edgeAngle; rw [if_pos hy, if_pos hy]
  by_cases hx : |v.x| < 1 / 10 ^ 6
  · unfold edgeAnglePy edgeAngle; rw [if_neg hy, if_neg hy, if_pos hx, if_pos hx]
  obtain ⟨r, hr, ex, ey⟩ := edgeAngle_polar v (Or.inr (not_lt.1 hx)) (Or.inr (not_lt.1 hy))
  obtain ⟨a1, a2⟩ := edgeAngle_range v
  have hpi := Real.pi_pos
  have hval : edgeAnglePy v = if v.y < 0 then 2 * Real.pi + Complex.arg ⟨v.x, v.y⟩
      else Complex.arg ⟨v.x, v.y⟩ := by
    unfold edgeAnglePy; rw [if_neg hy, if_neg hx]
  have hx0 : v.x ≠ 0 := by intro h; apply hx; rw [h]; norm_num
  have hr0 : r ≠ 0 := by rintro rfl; apply hx0; rw [ex, zero_mul]
  have hrp : 0 < r := lt_of_le_of_ne hr (Ne.symm hr0)
  set z : ℂ := ⟨v.x, v.y⟩ with hz
  have hzeq : z = (r : ℂ) * (Real.cos (edgeAngle v) + Real.sin (edgeAngle v) * Complex.I) := by
    apply Complex.ext
    · simpa [hz, -Complex.ofReal_cos, -Complex.ofReal_sin] using ex
    · simpa [hz, -Complex.ofReal_cos, -Complex.ofReal_sin] using ey
  -- the argument is the angle up to a full turn
  have hsin : v.y < 0 ↔ Real.pi < edgeAngle v := by
    constructor
    · intro h
      by_contra hle
      have := Real.sin_nonneg_of_nonneg_of_le_pi a1 (not_lt.1 hle)
      have : 0 ≤ v.y := by rw [ey]; positivity
      linarith
    · intro h
      have := Real.sin_neg_of_neg_of_neg_pi_lt (x := edgeAngle v - 2 * Real.pi) (by linarith) (by linarith)
      rw [Real.sin_sub_two_pi] at this
      rw [ey]
      exact mul_neg_of_pos_of_neg hrp this
  rw [hval]
  by_cases h : v.y < 0
  · rw [if_pos h]
    have hgt := hsin.1 h
    have : Complex.arg z = edgeAngle v - 2 * Real.pi := by
      rw [hzeq]
      have e : (r : ℂ) * (Real.cos (edgeAngle v) + Real.sin (edgeAngle v) * Complex.I)
          = (r : ℂ) * (Complex.cos ((edgeAngle v - 2 * Real.pi : ℝ) : ℂ)
            + Complex.sin ((edgeAngle v - 2 * Real.pi : ℝ) : ℂ) * Complex.I) := by
        rw [← Complex.ofReal_cos, ← Complex.ofReal_sin, Real.cos_sub_two_pi, Real.sin_sub_two_pi]
      rw [e, Complex.arg_mul_cos_add_sin_mul_I hrp ⟨by linarith, by linarith⟩]
    rw [this]; ring
  · rw [if_neg h]
    have hle : edgeAngle v ≤ Real.pi := by
      by_contra hcon; exact h (hsin.2 (not_le.1 hcon))
    rw [hzeq, Complex.ofReal_cos, Complex.ofReal_sin,
      Complex.arg_mul_cos_add_sin_mul_I hrp ⟨by linarith, hle⟩]

/-! ## Combination of the increments -/

theorem closestPy_some (tmp : ℝ) (dys : List ℝ) (c : ℝ) (b : ℝ) :
    ∃ e, closestPy tmp dys c (some b) = some e ∧ (e = b ∨ e ∈ dys) := by
  induction dys generalizing c b with
  | nil => exact ⟨b, rfl, Or.inl rfl⟩
  | cons y ys ih =>
    rw [closestPy]
    split_ifs with h
    · obtain ⟨e, h1, h2⟩ := ih |tmp - y * y| y
      exact ⟨e, h1, Or.inr (by rcases h2 with rfl | h2 <;> simp [*])⟩
    · obtain ⟨e, h1, h2⟩ := ih c b
      exact ⟨e, h1, by rcases h2 with rfl | h2 <;> simp [*]⟩

theorem closestPy_mem (tmp : ℝ) (dys : List ℝ) (c : ℝ) (best : Option ℝ)
    (h : ∃ y ∈ dys, |tmp - y * y| < c) : ∃ e ∈ dys, closestPy tmp dys c best = some e := by
  induction dys generalizing c best with
  | nil => obtain ⟨y, hy, _⟩ := h; simp at hy
  | cons y ys ih =>
    rw [closestPy]
    split_ifs with hlt
    · obtain ⟨e, h1, h2⟩ := closestPy_some tmp ys |tmp - y * y| y
      exact ⟨e, by rcases h2 with rfl | h2 <;> simp [*], h1⟩
    · obtain ⟨z, hz, hzlt⟩ := h
      rcases List.mem_cons.1 hz with rfl | hz
      · exact absurd hzlt hlt
      · obtain ⟨e, h1, h2⟩ := ih c best ⟨z, hz, hzlt⟩
        exact ⟨e, List.mem_cons_of_mem _ h1, h2⟩

/-- Whenever the Python loop ends without error, the increments have been paired. -/
theorem pairDeltasPy_val (M : ℝ) (best : Option ℝ) (dxs dys : List ℝ) (h : dxs.length = dys.length)
    (ds : List (ℝ × ℝ)) (he : pairDeltasPy M best dxs dys = .val ds) :
    ds.map Prod.fst = dxs ∧ (ds.map Prod.snd).Perm dys := by
  induction dxs generalizing dys best ds with
  | nil =>
    simp only [pairDeltasPy, Outcome.val.injEq] at he
    subst he
    rw [List.length_nil, eq_comm, List.length_eq_zero_iff] at h
    subst h
    simp
  | cons dx dxs ih =>
    rw [pairDeltasPy] at he
    cases hc : closestPy (M - dx * dx) dys (M * 100) best with
    | none => rw [hc] at he; simp at he
    | some dy =>
      rw [hc] at he
      simp only at he
      split_ifs at he with hm
      obtain ⟨rest, h1, h2⟩ := Outcome.bind_eq_val.1 he
      simp only [Outcome.pure_eq, Outcome.val.injEq] at h2
      subst h2
      have hl : dxs.length = (dys.erase dy).length := by
        rw [List.length_erase_of_mem hm]; simp only [List.length_cons] at h; omega
      obtain ⟨i1, i2⟩ := ih _ _ hl _ h1
      refine ⟨by simp [i1], ?_⟩
      rw [List.map_cons]
      exact (i2.cons dy).trans (List.perm_cons_erase hm).symm

/-- The Python loop ends without error if the bound of the search is large enough. -/
theorem pairDeltasPy_isVal (M : ℝ) (best : Option ℝ) (dxs dys : List ℝ) (h : dxs.length = dys.length)
    (hb : ∀ x ∈ dxs, ∀ y ∈ dys, |M - x * x - y * y| < M * 100) :
    ∃ ds, pairDeltasPy M best dxs dys = .val ds := by
  induction dxs generalizing dys best with
  | nil => exact ⟨[], rfl⟩
  | cons dx dxs ih =>
    have hne : dys ≠ [] := by rintro rfl; simp at h
    obtain ⟨y0, ys0, rfl⟩ := List.exists_cons_of_ne_nil hne
    obtain ⟨e, he, hc⟩ := closestPy_mem (M - dx * dx) (y0 :: ys0) (M * 100) best
      ⟨y0, by simp, hb dx (by simp) y0 (by simp)⟩
    have hl : dxs.length = ((y0 :: ys0).erase e).length := by
      rw [List.length_erase_of_mem he]; simp only [List.length_cons] at h ⊢; omega
    obtain ⟨ds, h2⟩ := ih (some e) ((y0 :: ys0).erase e) hl fun x hx y hy =>
      hb x (by simp [hx]) y (List.mem_of_mem_erase hy)
    refine ⟨(dx, e) :: ds, ?_⟩
    rw [pairDeltasPy, hc]
    simp only [if_pos he, h2, Outcome.val_bind, Outcome.pure_eq]

theorem le_posSum {xs : List ℝ} {x : ℝ} (h : x ∈ xs) : x ≤ posSum xs := by
  have : max 0 x ≤ posSum xs :=
    List.single_le_sum (fun y hy => by
      obtain ⟨z, _, rfl⟩ := List.mem_map.1 hy; exact le_max_left _ _) _ (List.mem_map.2 ⟨x, h, rfl⟩)
  exact (le_max_right 0 x).trans this

theorem neg_le_negSum {xs : List ℝ} {x : ℝ} (h : x ∈ xs) : -x ≤ negSum xs := by
  have : max 0 (-x) ≤ negSum xs :=
    List.single_le_sum (fun y hy => by
      obtain ⟨z, _, rfl⟩ := List.mem_map.1 hy; exact le_max_left _ _) _ (List.mem_map.2 ⟨x, h, rfl⟩)
  exact (le_max_right 0 (-x)).trans this

theorem posSum_le_max (xs : List ℝ) (m : ℝ) (hm : 0 ≤ m) (h : ∀ x ∈ xs, x ≤ m) :
    posSum xs ≤ xs.length * m := by
  induction xs with
  | nil => simp [posSum]
  | cons x xs ih =>
    have h1 := ih fun y hy => h y (by simp [hy])
    have h2 : max 0 x ≤ m := max_le hm (h x (by simp))
    simp only [posSum, List.map_cons, List.sum_cons, List.length_cons] at *
    push_cast
    linarith

/-- No increment is larger than the sum of the positive ones. -/
theorem sq_le_posSum_sq {xs : List ℝ} (hs : xs.sum = 0) {x : ℝ} (h : x ∈ xs) :
    x * x ≤ posSum xs * posSum xs := by
  have h1 := le_posSum h
  have h2 := neg_le_negSum h
  have h3 := posSum_sub_negSum xs
  nlinarith

/-- A list with at least one negative entry: the others sum up to at most their number times the largest. -/
theorem posSum_le_pred {xs : List ℝ} {m z : ℝ} (hm0 : 0 ≤ m) (hm : ∀ x ∈ xs, x ≤ m) (hz : z ∈ xs) (hneg : z ≤ 0) :
    posSum xs ≤ (xs.length - 1) * m := by
  have hp := List.perm_cons_erase hz
  have e1 : posSum xs = posSum (z :: xs.erase z) := (hp.map (max (0 : ℝ))).sum_eq
  have e2 : posSum (z :: xs.erase z) = posSum (xs.erase z) := by
    simp only [posSum, List.map_cons, List.sum_cons, max_eq_left hneg, zero_add]
  have h1 := posSum_le_max (xs.erase z) m hm0 fun x hx => hm x (List.mem_of_mem_erase hx)
  have h2 : ((xs.erase z).length : ℝ) = xs.length - 1 := by
    have := hp.length_eq
    rw [List.length_cons] at this
    rw [this]; push_cast; ring
  rw [e1, e2, ← h2]
  exact h1

/-- With up to eleven corners the largest increment is at least a tenth of the sum of the positive ones. -/
theorem max_lower {xs : List ℝ} {m : ℝ} {n : ℕ} (hl : xs.length = n) (hn : n ≤ 11) (hs : xs.sum = 0)
    (hp : 4 / 5 ≤ posSum xs) (hm : ∀ x ∈ xs, x ≤ m) : posSum xs ≤ 10 * m ∧ 0 ≤ m := by
  have hm0 : 0 ≤ m := by
    by_contra hcon
    have : posSum xs = 0 := posSum_nonpos_list xs fun x hx => (hm x hx).trans (le_of_lt (not_le.1 hcon))
    linarith
  have hex : ∃ z ∈ xs, z ≤ 0 := by
    by_contra hcon
    push Not at hcon
    have h0 : posSum xs = xs.sum := by
      unfold posSum
      congr 1
      conv_rhs => rw [← List.map_id xs]
      exact List.map_congr_left fun x hx => max_eq_right (hcon x hx).le
    linarith
  obtain ⟨z, hz, hneg⟩ := hex
  have h1 := posSum_le_pred hm0 hm hz hneg
  have h2 : ((xs.length : ℕ) : ℝ) ≤ 11 := by rw [hl]; exact_mod_cast hn
  exact ⟨by nlinarith, hm0⟩

theorem combineDeltasPy_val (dxs dys : List ℝ) (h : dxs.length = dys.length) (hn : 0 < dxs.length)
    (ds : List (ℝ × ℝ)) (he : combineDeltasPy dxs dys = .val ds) :
    (ds.map Prod.fst).Perm dxs ∧ (ds.map Prod.snd).Perm dys := by
  obtain ⟨a, ra, ea, _⟩ := takeMax_spec (sortReals dxs) (by
    intro h'; have := (sortReals_perm dxs).length_eq; simp [h'] at this; omega)
  obtain ⟨b, rb, eb, _⟩ := takeMax_spec dys (by intro h'; simp [h'] at h; simp [h] at hn)
  unfold combineDeltasPy at he
  simp only [ea, eb, Outcome.val_bind] at he
  obtain ⟨h1, h2⟩ := pairDeltasPy_val _ _ _ _ (by rw [(sortReals_perm dxs).length_eq, h]) _ he
  exact ⟨by rw [h1]; exact sortReals_perm dxs, h2⟩

theorem combineDeltasPy_isVal (dxs dys : List ℝ) (n : ℕ) (hn : n ≤ 11) (hn0 : 0 < n)
    (lx : dxs.length = n) (ly : dys.length = n) (sx : dxs.sum = 0) (sy : dys.sum = 0)
    (px : 4 / 5 ≤ posSum dxs ∧ posSum dxs ≤ 1) (py : 4 / 5 ≤ posSum dys ∧ posSum dys ≤ 1) :
    ∃ ds, combineDeltasPy dxs dys = .val ds := by
  have hp := sortReals_perm dxs
  obtain ⟨a, ra, ea, _, ha⟩ := takeMax_spec (sortReals dxs) (by
    intro h'; have := hp.length_eq; simp [h'] at this; omega)
  obtain ⟨b, rb, eb, _, hb⟩ := takeMax_spec dys (by intro h'; simp [h'] at ly; omega)
  have ha' := max_lower lx hn sx px.1 fun x hx => ha x (hp.mem_iff.2 hx)
  have hb' := max_lower ly hn sy py.1 hb
  obtain ⟨ds, e⟩ := pairDeltasPy_isVal (a * a + b * b) none (sortReals dxs) dys
    (by rw [hp.length_eq, lx, ly]) (by
      intro x hx y hy
      have hx1 := sq_le_posSum_sq sx (hp.mem_iff.1 hx)
      have hy1 := sq_le_posSum_sq sy hy
      have hA : posSum dxs * posSum dxs ≤ 100 * (a * a) := by nlinarith [px.1]
      have hB : posSum dys * posSum dys ≤ 100 * (b * b) := by nlinarith [py.1]
      have hapos : 0 < a * a := by nlinarith [px.1]
      have hbpos : 0 < b * b := by nlinarith [py.1]
      have hxx := mul_self_nonneg x
      have hyy := mul_self_nonneg y
      rw [abs_lt]
      constructor <;> nlinarith)
  refine ⟨ds, ?_⟩
  unfold combineDeltasPy
  simp only [ea, eb, Outcome.val_bind]
  exact e

/-! ## Placement -/

theorem partialSums_last (l : List V3) (p : V3) (h : l ≠ []) :
    (partialSums p l.dropLast).getLastD 0 + l.getLastD 0 = p + l.sum := by
  induction l generalizing p with
  | nil => exact absurd rfl h
  | cons a l ih =>
    cases l with
    | nil => simp [partialSums]
    | cons b l =>
      have := ih (p + a) (by simp)
      rw [List.dropLast_cons_of_ne_nil (by simp), partialSums]
      have e1 : ∀ q : V3, (p :: partialSums q (b :: l).dropLast).getLastD 0
          = (partialSums q (b :: l).dropLast).getLastD 0 := by
        intro q
        cases hq : partialSums q (b :: l).dropLast with
        | nil => exact absurd hq (by cases (b :: l).dropLast <;> simp [partialSums])
        | cons c cs => simp
      rw [e1, List.sum_cons]
      have e2 : (a :: b :: l).getLastD 0 = (b :: l).getLastD 0 := by simp
      rw [e2, this]
      module

theorem sum_planar (es : List V3) (g f : V3) :
    (es.map fun e => e.x • g + e.y • f).sum = (es.map V3.x).sum • g + (es.map V3.y).sum • f := by
  induction es with
  | nil => simp
  | cons e es ih => simp only [List.map_cons, List.sum_cons, ih]; module

/-- The test whether the polygon is closed always succeeds. -/
theorem placePolygonPy_eq (es : List V3) (hz : ∀ e ∈ es, e.z = 0) (hn : 0 < es.length)
    (sx : (es.map V3.x).sum = 0) (sy : (es.map V3.y).sum = 0) (s t : ℝ) (c : V3) :
    placePolygonPy es s t c = placePolygon es s t c := by
  have hdir : mkDirection ⟨-Real.sin s, Real.cos s, 0⟩ = .val (Spec.strikeDir s) :=
    mkDirection_of_unit (strikeDir_unit s)
  have hrot : rotateList (rotateList es ⟨0, 0, 1⟩ s) (Spec.strikeDir s) t
      = es.map fun e => e.x • Spec.dipDir s t + e.y • Spec.strikeDir s := by
    have : ∀ (l : List V3) (k : V3) (a : ℝ), rotateList l k a = l.map fun v => rotate v k a :=
      fun l k a => rfl
    rw [this, this, List.map_map]
    exact List.map_congr_left fun e he => rotate_planar e (hz e he) s t
  have hclose : pointIsEqual
      ((partialSums 0 (es.map fun e => e.x • Spec.dipDir s t + e.y • Spec.strikeDir s).dropLast).getLastD 0
        + (es.map fun e => e.x • Spec.dipDir s t + e.y • Spec.strikeDir s).getLastD 0) 0 confusion := by
    rw [partialSums_last _ _ (by intro h; simp at h; rw [h] at hn; simp at hn), sum_planar, sx, sy]
    unfold pointIsEqual
    have := confusion_pos
    have : (0 : V3) - (0 + ((0 : ℝ) • Spec.dipDir s t + (0 : ℝ) • Spec.strikeDir s)) = 0 := by module
    rw [this]
    simp only [V3.sqLen, V3.zero_x, V3.zero_y, V3.zero_z]
    nlinarith
  unfold placePolygonPy placePolygon
  simp only [hdir, Outcome.val_bind, hrot]
  rw [← hrot] at hclose
  exact if_pos hclose

theorem sampleCornersPy_placed {sort : List V3 → List V3} (hs : SortsBy edgeAngle sort)
    (d : PolygonDraws) (hu : UnitDraws d.interval) (n : ℕ) (hn : 3 ≤ n) (fuel i j : ℕ)
    (hi : Spec.IsFirst (3 ≤ ·) d.corners i) (hin : d.corners i = n) (hf : i < fuel) (hj : j < 100)
    (hg : Spec.IsFirst (0 ≤ ·) d.strikeLength j) :
    (∀ cs, sampleCornersPy sort fuel d = some (.val cs) →
      ∃ es, EdgesFrom es n (d.strikeLength j) (d.dipLength 0) ∧
        Placed es d.strikeAngle d.dipAngle d.center cs) ∧
    (n ≤ 11 → ∃ cs, sampleCornersPy sort fuel d = some (.val cs)) := by
  have hlen : ∀ first, (intervalValues d.interval first n).length = n := fun f => by
    simp [intervalValues]
  have h01 : ∀ first, ∀ v ∈ intervalValues d.interval first n, 0 ≤ v ∧ v ≤ 1 := by
    intro f v hv
    obtain ⟨i, _, rfl⟩ := List.mem_map.1 hv
    exact hu _
  obtain ⟨dx, ex, lx, sx, px⟩ := coordinateDeltas_spec (intervalValues d.interval 0 n)
    (by rw [hlen]; exact hn) (h01 0)
  obtain ⟨dy, ey, ly, sy, py⟩ := coordinateDeltas_spec (intervalValues d.interval n n)
    (by rw [hlen]; exact hn) (h01 n)
  rw [hlen] at lx ly
  have hC : cornersLoopPy fuel d.corners = some (n : ℤ) := by
    rw [cornersLoopPy_first _ i hi fuel hf, hin]
  have hS : lengthLoop d.strikeLength (d.strikeLength 0) 0 = (d.strikeLength j, j) :=
    lengthLoop_first _ j (by omega) hg
  have hD : dipLoopPy (d.strikeLength j) d.dipLength (d.dipLength 0) 0 = (d.dipLength 0, 0) :=
    dipLoopPy_nonneg _ hg.1 _ _
  have key : ∀ ds, combineDeltasPy dx dy = .val ds → ∃ es cs,
      sampleCornersPy sort fuel d = some (.val cs) ∧
      EdgesFrom es n (d.strikeLength j) (d.dipLength 0) ∧
      Placed es d.strikeAngle d.dipAngle d.center cs := by
    intro ds ed
    obtain ⟨qx, qy⟩ := combineDeltasPy_val dx dy (by rw [lx, ly]) (by omega) ds ed
    have hE := planeEdges_spec hs ds dx dy n qx qy lx sx sy px py (d.strikeLength j) (d.dipLength 0)
    obtain ⟨b, hp, hb⟩ := placePolygon_spec (planeEdges sort ds (d.dipLength 0) (d.strikeLength j))
      hE.planar (by rw [hE.length]; omega) d.strikeAngle d.dipAngle d.center
    refine ⟨_, _, ?_, hE, b, rfl, hb⟩
    have hdl : ¬ (ds.length ≠ n) := by
      rw [not_not, ← lx, ← qx.length_eq, List.length_map]
    unfold sampleCornersPy
    rw [hC]
    simp only [Int.toNat_natCast, ex, ey, ed, Outcome.val_bind, if_neg hdl, hS, hD,
      if_neg (show ¬ j = 100 by omega), if_neg (show ¬ (0 : ℕ) = 100 by omega)]
    rw [placePolygonPy_eq _ hE.planar (by rw [hE.length]; omega) hE.sumX hE.sumY, hp]
  constructor
  · intro cs hcs
    cases hc : combineDeltasPy dx dy with
    | val ds =>
      obtain ⟨es, cs', h1, h2, h3⟩ := key ds hc
      rw [hcs] at h1
      cases h1
      exact ⟨es, h2, h3⟩
    | thrown e =>
      exfalso
      unfold sampleCornersPy at hcs
      rw [hC] at hcs
      simp [ex, ey, hc] at hcs
    | nan =>
      exfalso
      unfold sampleCornersPy at hcs
      rw [hC] at hcs
      simp [ex, ey, hc] at hcs
    | ub =>
      exfalso
      unfold sampleCornersPy at hcs
      rw [hC] at hcs
      simp [ex, ey, hc] at hcs
  · intro h8
    obtain ⟨ds, hds⟩ := combineDeltasPy_isVal dx dy n h8 (by omega) lx ly sx sy px py
    obtain ⟨_, cs, h1, _⟩ := key ds hds
    exact ⟨cs, h1⟩

/-- **C27 (Python)** Whenever the sampler returns corners, and the first dip length drawn is not negative, number,
plane, position and size are as sampled; the polygon is convex if no edge has a tiny component. -/
theorem C27_python_partial (sort : List V3 → List V3) (hs : SortsBy edgeAnglePy sort) (d : PolygonDraws)
    (hu : UnitDraws d.interval) (n fuel i j : ℕ) (hi : Spec.IsFirst (3 ≤ ·) d.corners i)
    (hin : d.corners i = n) (hf : i < fuel) (hj : j < 100)
    (hg : Spec.IsFirst (0 ≤ ·) d.strikeLength j) (hd : 0 ≤ d.dipLength 0) (cs : List V3)
    (hcs : sampleCornersPy sort fuel d = some (.val cs)) :
    cs.length = n ∧
    (∀ p ∈ cs, Spec.PlanarPolygon (Spec.dipNormal d.strikeAngle d.dipAngle) p cs) ∧
    Spec.BoxCenter cs d.center ∧
    (∃ lo hi, Spec.Extent (Spec.inner (Spec.dipDir d.strikeAngle d.dipAngle)) cs lo hi ∧
      hi - lo ≤ d.dipLength 0) ∧
    (∃ lo hi, Spec.Extent (Spec.inner (Spec.strikeDir d.strikeAngle)) cs lo hi ∧
      hi - lo ≤ d.strikeLength j) ∧
    (Spec.NoTinyEdges d.strikeAngle d.dipAngle cs →
      Spec.SampledPolygon n d.strikeAngle d.dipAngle (d.strikeLength j) (d.dipLength 0) d.center cs) := by
  have hs' : SortsBy edgeAngle sort := by
    have : edgeAnglePy = edgeAngle := funext edgeAnglePy_eq
    rwa [this] at hs
  have hn : 3 ≤ n := by have := hi.1; simp only [hin] at this; exact_mod_cast this
  obtain ⟨es, hE, hP⟩ := (sampleCornersPy_placed hs' d hu n hn fuel i j hi hin hf hj hg).1 cs hcs
  obtain ⟨h1, h2, h3, h4, h5⟩ := structure_of_placed hn hg.1 hd hE hP
  exact ⟨h1, h2, h3, h4, h5, fun ht => (convex_of_placed hn hg.1 hd hE hP ht).1⟩

/-- **C27 (Python)** With up to eleven corners the sampler returns a polygon for all draws. (With many corners the
bound of the search for the closest increment may be too small, and the Python code then ends with an
exception.) -/
theorem C27_python_returns (sort : List V3 → List V3) (hs : SortsBy edgeAnglePy sort) (d : PolygonDraws)
    (hu : UnitDraws d.interval) (n fuel i j : ℕ) (hi : Spec.IsFirst (3 ≤ ·) d.corners i)
    (hin : d.corners i = n) (h8 : n ≤ 11) (hf : i < fuel) (hj : j < 100)
    (hg : Spec.IsFirst (0 ≤ ·) d.strikeLength j) :
    ∃ cs, sampleCornersPy sort fuel d = some (.val cs) := by
  have hs' : SortsBy edgeAngle sort := by
    have : edgeAnglePy = edgeAngle := funext edgeAnglePy_eq
    rwa [this] at hs
  have hn : 3 ≤ n := by have := hi.1; simp only [hin] at this; exact_mod_cast this
  exact (sampleCornersPy_placed hs' d hu n hn fuel i j hi hin hf hj hg).2 h8

/-- **C28 (Python)** With up to eleven corners, the call ends with an exception exactly if the first hundred strike
lengths are negative, and otherwise with a polygon. -/
theorem C28_python_strike (sort : List V3 → List V3) (hs : SortsBy edgeAnglePy sort) (d : PolygonDraws)
    (hu : UnitDraws d.interval) (n fuel i : ℕ) (hi : Spec.IsFirst (3 ≤ ·) d.corners i)
    (hin : d.corners i = n) (h8 : n ≤ 11) (hf : i < fuel) :
    ((∃ e, sampleCornersPy sort fuel d = some (.thrown e)) ↔ ∀ k < 100, d.strikeLength k < 0) ∧
    ((∃ cs, sampleCornersPy sort fuel d = some (.val cs)) ↔ ∃ k < 100, 0 ≤ d.strikeLength k) := by
  have hn : 3 ≤ n := by have := hi.1; simp only [hin] at this; exact_mod_cast this
  have hneg : (∀ k < 100, d.strikeLength k < 0) → ∃ e, sampleCornersPy sort fuel d = some (.thrown e) := by
    intro h
    have hlen : ∀ first, (intervalValues d.interval first n).length = n := fun f => by
      simp [intervalValues]
    have h01 : ∀ first, ∀ v ∈ intervalValues d.interval first n, 0 ≤ v ∧ v ≤ 1 := by
      intro f v hv
      obtain ⟨i, _, rfl⟩ := List.mem_map.1 hv
      exact hu _
    obtain ⟨dx, ex, lx, sx, px⟩ := coordinateDeltas_spec (intervalValues d.interval 0 n)
      (by rw [hlen]; exact hn) (h01 0)
    obtain ⟨dy, ey, ly, sy, py⟩ := coordinateDeltas_spec (intervalValues d.interval n n)
      (by rw [hlen]; exact hn) (h01 n)
    rw [hlen] at lx ly
    obtain ⟨ds, hds⟩ := combineDeltasPy_isVal dx dy n h8 (by omega) lx ly sx sy px py
    obtain ⟨qx, qy⟩ := combineDeltasPy_val dx dy (by rw [lx, ly]) (by omega) ds hds
    have hdl : ¬ (ds.length ≠ n) := by
      rw [not_not, ← lx, ← qx.length_eq, List.length_map]
    unfold sampleCornersPy
    rw [cornersLoopPy_first _ i hi fuel hf, hin]
    simp only [Int.toNat_natCast, ex, ey, hds, Outcome.val_bind, if_neg hdl, lengthLoop_none _ h, if_true]
    exact ⟨_, rfl⟩
  have hpos : (∃ k < 100, 0 ≤ d.strikeLength k) → ∃ cs, sampleCornersPy sort fuel d = some (.val cs) := by
    intro h
    obtain ⟨j, hj, hg⟩ := exists_first (0 ≤ ·) d.strikeLength 100 h
    exact C27_python_returns sort hs d hu n fuel i j hi hin h8 hf hj hg
  refine ⟨⟨?_, hneg⟩, ?_, hpos⟩
  · rintro ⟨e, he⟩
    by_contra h
    push Not at h
    obtain ⟨cs, hcs⟩ := hpos h
    rw [he] at hcs
    cases hcs
  · rintro ⟨cs, hcs⟩
    by_contra h
    push Not at h
    obtain ⟨e, he⟩ := hneg h
    rw [he] at hcs
    cases hcs

theorem pairDeltasPy_outcome (M : ℝ) (best : Option ℝ) (dxs dys : List ℝ) :
    (∃ ds, pairDeltasPy M best dxs dys = .val ds) ∨ ∃ e, pairDeltasPy M best dxs dys = .thrown e := by
  induction dxs generalizing best dys with
  | nil => exact .inl ⟨_, rfl⟩
  | cons dx dxs ih =>
    rw [pairDeltasPy]
    cases closestPy (M - dx * dx) dys (M * 100) best with
    | none => exact .inr ⟨_, rfl⟩
    | some dy =>
      by_cases hd : dy ∈ dys
      · simp only [if_pos hd]
        rcases ih (some dy) (dys.erase dy) with ⟨ds, h⟩ | ⟨e, h⟩
        · exact .inl ⟨_, by rw [h]; rfl⟩
        · exact .inr ⟨e, by rw [h]; rfl⟩
      · simp only [if_neg hd]
        exact .inr ⟨_, rfl⟩

/-- **C28 (Python)** For any number of corners, the call ends with a polygon or with an exception. -/
theorem C28_python_outcome (sort : List V3 → List V3) (d : PolygonDraws)
    (hu : UnitDraws d.interval) (n fuel i : ℕ) (hi : Spec.IsFirst (3 ≤ ·) d.corners i)
    (hin : d.corners i = n) (hf : i < fuel) :
    (∃ e, sampleCornersPy sort fuel d = some (.thrown e)) ∨ ∃ cs, sampleCornersPy sort fuel d = some (.val cs) := by
  have hn : 3 ≤ n := by have := hi.1; simp only [hin] at this; exact_mod_cast this
  have hlen : ∀ first, (intervalValues d.interval first n).length = n := fun f => by
    simp [intervalValues]
  have h01 : ∀ first, ∀ v ∈ intervalValues d.interval first n, 0 ≤ v ∧ v ≤ 1 := by
    intro f v hv
    obtain ⟨i, _, rfl⟩ := List.mem_map.1 hv
    exact hu _
  obtain ⟨dx, ex, lx, -, -⟩ := coordinateDeltas_spec (intervalValues d.interval 0 n) (by rw [hlen]; exact hn) (h01 0)
  obtain ⟨dy, ey, ly, -, -⟩ := coordinateDeltas_spec (intervalValues d.interval n n) (by rw [hlen]; exact hn) (h01 n)
  rw [hlen] at lx ly
  have tm : ∀ xs : List ℝ, xs ≠ [] → ∃ r, takeMax xs = .val r := by
    intro xs hx
    unfold takeMax
    cases h : xs.argmax id with
    | none => exact absurd (List.argmax_eq_none.1 h) hx
    | some x => exact ⟨_, rfl⟩
  have hc : (∃ ds, combineDeltasPy dx dy = .val ds) ∨ ∃ e, combineDeltasPy dx dy = .thrown e := by
    obtain ⟨r1, h1⟩ := tm (sortReals dx) (by
      intro h0
      have := (sortReals_perm dx).length_eq
      rw [h0, lx, List.length_nil] at this
      omega)
    obtain ⟨r2, h2⟩ := tm dy (by intro h0; rw [h0, List.length_nil] at ly; omega)
    unfold combineDeltasPy
    simp only [h1, h2, Outcome.val_bind]
    exact pairDeltasPy_outcome _ _ _ _
  have hp : ∀ edges, (∃ cs, placePolygonPy edges d.strikeAngle d.dipAngle d.center = .val cs) ∨
      ∃ e, placePolygonPy edges d.strikeAngle d.dipAngle d.center = .thrown e := by
    intro edges
    have hd : ∃ u, mkDirection ⟨-Real.sin d.strikeAngle, Real.cos d.strikeAngle, 0⟩ = .val u := by
      unfold mkDirection
      rw [if_neg]
      · exact ⟨_, rfl⟩
      · intro h0
        have := Real.sin_sq_add_cos_sq d.strikeAngle
        have hl := V3.len_eq_zero.1 h0
        have hx := congrArg V3.x hl
        have hy := congrArg V3.y hl
        simp only [V3.zero_x, V3.zero_y] at hx hy
        nlinarith
    obtain ⟨u, hu'⟩ := hd
    unfold placePolygonPy
    simp only [hu', Outcome.val_bind]
    split
    · exact .inl ⟨_, rfl⟩
    · exact .inr ⟨_, rfl⟩
  unfold sampleCornersPy
  rw [cornersLoopPy_first _ i hi fuel hf, hin]
  simp only [Int.toNat_natCast, ex, ey, Outcome.val_bind]
  rcases hc with ⟨ds, hc⟩ | ⟨e, hc⟩
  · simp only [hc, Outcome.val_bind]
    split_ifs
    · exact .inl ⟨_, rfl⟩
    · exact .inl ⟨_, rfl⟩
    · exact .inl ⟨_, rfl⟩
    · rcases hp (planeEdges sort ds (dipLoopPy (lengthLoop d.strikeLength (d.strikeLength 0) 0).1 d.dipLength (d.dipLength 0) 0).1
        (lengthLoop d.strikeLength (d.strikeLength 0) 0).1) with ⟨cs, h⟩ | ⟨e, h⟩
      · exact .inr ⟨cs, congrArg some h⟩
      · exact .inl ⟨e, congrArg some h⟩
  · exact .inl ⟨e, by rw [hc]; rfl⟩

/-- **C28 (Python, disproof)** If the distribution never returns three or more corners the call does not end:
no error is ever raised. -/
theorem C28_python_never_ends (sort : List V3 → List V3) (d : PolygonDraws) (h : ∀ k, d.corners k < 3)
    (fuel : ℕ) : sampleCornersPy sort fuel d = none := by
  unfold sampleCornersPy
  rw [cornersLoopPy_none _ h]

/-- **C28 (Python, disproof)** The result only depends on the first dip length drawn: negative values are not
replaced. -/
theorem C28_python_dip_not_redrawn (sort : List V3 → List V3) (d : PolygonDraws) (dip' : Draws ℝ)
    (h0 : dip' 0 = d.dipLength 0) (j : ℕ) (hj : j < 100)
    (hg : Spec.IsFirst (0 ≤ ·) d.strikeLength j) (fuel : ℕ) :
    sampleCornersPy sort fuel { d with dipLength := dip' } = sampleCornersPy sort fuel d := by
  have hS : lengthLoop d.strikeLength (d.strikeLength 0) 0 = (d.strikeLength j, j) :=
    lengthLoop_first _ j (by omega) hg
  have hD := fun s len => dipLoopPy_nonneg (d.strikeLength j) hg.1 s len
  unfold sampleCornersPy
  simp only [hS, hD, h0]

/-- **C28 (Python, disproof)** A polygon is built although the first dip length is negative and all others are
admissible, and it is the same as if only negative ones were drawn. -/
theorem C28_python_disproof (sort : List V3 → List V3) (hs : SortsBy edgeAnglePy sort) :
    ∃ cs, sampleCornersPy sort 1 (drawsWith (fun _ => 4) (fun _ => 1) (fun k => if k = 0 then -1 else 1))
        = some (.val cs) ∧
      sampleCornersPy sort 1 (drawsWith (fun _ => 4) (fun _ => 1) (fun _ => -1)) = some (.val cs) := by
  have hc : Spec.IsFirst (3 ≤ ·) (fun _ : ℕ => (4 : ℤ)) 0 := ⟨by norm_num, by intro k hk; omega⟩
  have hg : Spec.IsFirst (0 ≤ ·) (fun _ : ℕ => (1 : ℝ)) 0 := ⟨by norm_num, by intro k hk; omega⟩
  obtain ⟨cs, h⟩ := C27_python_returns sort hs
    (drawsWith (fun _ => 4) (fun _ => 1) (fun k => if k = 0 then -1 else 1)) (drawsWith_unit _ _ _) 4 1 0 0
    hc rfl (by omega) (by omega) (by omega) hg
  refine ⟨cs, h, ?_⟩
  rw [← h]
  exact (C28_python_dip_not_redrawn sort
    (drawsWith (fun _ => 4) (fun _ => 1) (fun k => if k = 0 then -1 else 1)) (fun _ => -1) (by
      simp [drawsWith]) 0 (by omega) hg 1)

/-- The hypotheses of the Python theorems can be met. -/
example : ∃ cs, sampleCornersPy stableSort 1 (drawsWith (fun _ => 5) (fun _ => 2) (fun _ => 3))
    = some (.val cs) ∧ cs.length = 5 := by
  have hc : Spec.IsFirst (3 ≤ ·) (fun _ : ℕ => (5 : ℤ)) 0 := ⟨by norm_num, by intro k hk; omega⟩
  have hg : Spec.IsFirst (0 ≤ ·) (fun _ : ℕ => (2 : ℝ)) 0 := ⟨by norm_num, by intro k hk; omega⟩
  have hs : SortsBy edgeAnglePy stableSort := by
    have : edgeAnglePy = edgeAngle := funext edgeAnglePy_eq
    rw [this]; exact stableSort_sorts
  obtain ⟨cs, h⟩ := C27_python_returns stableSort hs
    (drawsWith (fun _ => 5) (fun _ => 2) (fun _ => 3)) (drawsWith_unit _ _ _) 5 1 0 0
    hc rfl (by omega) (by omega) (by omega) hg
  exact ⟨cs, h, (C27_python_partial stableSort hs (drawsWith (fun _ => 5) (fun _ => 2) (fun _ => 3))
    (drawsWith_unit _ _ _) 5 1 0 0 hc rfl (by omega) (by omega) hg (by norm_num [drawsWith]) cs h).1⟩

end Props
