import Verif.Model.Float.Polygon
import Verif.Spec.PolygonAccuracy
import Verif.Spec.SampledPolygon
import Verif.Props.FloatRotation
import Verif.Props.PolygonSampler

/-!
# C156 Sampled polygons in double precision
-/

namespace Props
open Verif Frackit Spec Lemmas

/-! ### Rotated edges -/

/-- Rotations about two axes that differ by ten units in the last place. -/
theorem rotAbout_axis_ten (v : V3) {a e : V3} (t : ℝ) (e1 : e.len = 1) (d1 : (a - e).len ≤ 10 / 2 ^ 53) :
    (rotAbout a t v - rotAbout e t v).len ≤ 51 / 2 ^ 53 * v.len := by
  have ahi : a.len ≤ 1.001 := by
    have h := V3.len_add_le (a - e) e
    rw [show a - e + e = a by ext <;> simp, e1] at h
    norm_num at d1 ⊢
    linarith
  set d := a - e with hd
  have d0 := V3.len_nonneg d
  have v0 := V3.len_nonneg v
  have eq : rotAbout a t v - rotAbout e t v
      = Real.sin t • d.cross v + ((1 - Real.cos t) * a.dot v) • d + ((1 - Real.cos t) * d.dot v) • e := by
    rw [rotAbout_eq, rotAbout_eq]
    ext <;> simp [hd, V3.cross, V3.dot] <;> ring
  have hc : |1 - Real.cos t| ≤ 2 := by
    rw [abs_le]
    constructor <;> linarith [Real.neg_one_le_cos t, Real.cos_le_one t]
  have t1 : (Real.sin t • d.cross v).len ≤ d.len * v.len := by
    rw [V3.len_smul]
    exact (mul_le_mul (Real.abs_sin_le_one t) (len_cross_bound d v) (V3.len_nonneg _) zero_le_one).trans (one_mul _).le
  have t2 : (((1 - Real.cos t) * a.dot v) • d).len ≤ 2.002 * v.len * d.len := by
    rw [V3.len_smul, abs_mul]
    refine mul_le_mul_of_nonneg_right ?_ d0
    have h1 : |a.dot v| ≤ 1.001 * v.len := (V3.abs_dot_le _ _).trans (mul_le_mul_of_nonneg_right ahi v0)
    exact (mul_le_mul hc h1 (abs_nonneg _) (by norm_num)).trans (le_of_eq (by ring))
  have t3 : (((1 - Real.cos t) * d.dot v) • e).len ≤ 2 * (d.len * v.len) := by
    rw [V3.len_smul, abs_mul, e1, mul_one]
    exact mul_le_mul hc (V3.abs_dot_le _ _) (abs_nonneg _) (by norm_num)
  rw [eq]
  have s1 := V3.len_add_le (Real.sin t • d.cross v + ((1 - Real.cos t) * a.dot v) • d) (((1 - Real.cos t) * d.dot v) • e)
  have s2 := V3.len_add_le (Real.sin t • d.cross v) (((1 - Real.cos t) * a.dot v) • d)
  have s3 : d.len * v.len ≤ 10 / 2 ^ 53 * v.len := mul_le_mul_of_nonneg_right d1 v0
  norm_num at *
  linarith

theorem strikeDir_len (s : ℝ) : (strikeDir s).len = 1 := by
  simp [V3.len, V3.sqLen, strikeDir, ← sq]

/-- The direction of the strike in double precision. -/
theorem strikeDir_fp (s : ℝ) :
    ∃ n, Fp.mkDirection ⟨-Fp.sin s, Fp.cos s, 0⟩ = .val n ∧ (n - strikeDir s).len ≤ 10 / 2 ^ 53 ∧ n.len ≤ 1.001 := by
  have h : ((⟨-Fp.sin s, Fp.cos s, 0⟩ : V3) - strikeDir s).len ≤ 1 / 2 ^ 53 := by
    have := len_sub_le_of (a := ⟨-Fp.sin s, Fp.cos s, 0⟩) (b := strikeDir s) (m := ⟨|Real.sin s|, |Real.cos s|, 0⟩)
      (c := 1 / 2 ^ 53) (by positivity)
      (by
        show |-Fp.rnd (Real.sin s) - -Real.sin s| ≤ _
        rw [← abs_neg, show -(-Fp.rnd (Real.sin s) - -Real.sin s) = Fp.rnd (Real.sin s) - Real.sin s by ring]
        exact rnd_error_num _)
      (rnd_error_num _) (by simp [strikeDir])
    refine this.trans (le_of_eq ?_)
    rw [show (⟨|Real.sin s|, |Real.cos s|, 0⟩ : V3).len = 1 by simp [V3.len, V3.sqLen, ← sq], mul_one]
  obtain ⟨n, h1, h2, h3⟩ := direction_step (strikeDir_len s) (k := 1) (by norm_num) h
  refine ⟨n, h1, by norm_num at h2 ⊢; exact h2, ?_⟩
  have := (abs_le.1 h3).2
  norm_num at this ⊢
  linarith

theorem rotAbout_sub (e : V3) (t : ℝ) (v w : V3) : rotAbout e t v - rotAbout e t w = rotAbout e t (v - w) := by
  rw [rotAbout_eq, rotAbout_eq, rotAbout_eq]
  ext <;> simp [V3.cross, V3.dot] <;> ring

theorem rotAbout_strike_dip (s d : ℝ) (e : ℝ × ℝ) :
    rotAbout (strikeDir s) d (rotAbout ⟨0, 0, 1⟩ s ⟨e.1, e.2, 0⟩) = inPlane s d e := by
  have h := Real.sin_sq_add_cos_sq s
  have c : Real.cos s ^ 2 = 1 - Real.sin s ^ 2 := by linarith
  rw [rotAbout_z, rotAbout_eq]
  ext
  · simp [inPlane, dipDir, strikeDir, rotZ, V3.cross, V3.dot]
    ring_nf
    simp only [c]
    ring
  · simp [inPlane, dipDir, strikeDir, rotZ, V3.cross, V3.dot]
    ring_nf
    simp only [show Real.cos s ^ 3 = Real.cos s * (1 - Real.sin s ^ 2) by rw [← c]; ring, c]
    ring
  · simp [inPlane, dipDir, strikeDir, rotZ, V3.cross, V3.dot]
    ring_nf
    simp only [c]
    ring

theorem inPlane_len (s d : ℝ) (e : ℝ × ℝ) : (inPlane s d e).len = √(e.1 ^ 2 + e.2 ^ 2) := by
  rw [← rotAbout_strike_dip, len_rotAbout (strikeDir_len s), len_rotAbout (basis_len ⟨0, 0, 1⟩ (by simp))]
  simp [V3.len, V3.sqLen, sq]

/-- An edge rotated by strike and dip angle. -/
theorem edge_error {n : V3} (s d : ℝ) (hn : (n - strikeDir s).len ≤ 10 / 2 ^ 53) (hn1 : n.len ≤ 1.001) (e : ℝ × ℝ) :
    (Fp.rotate (Fp.rotate ⟨e.1, e.2, 0⟩ ⟨0, 0, 1⟩ s) n d - inPlane s d e).len ≤ 144 / 2 ^ 53 * (inPlane s d e).len := by
  set v : V3 := ⟨e.1, e.2, 0⟩ with hv
  have hl : (inPlane s d e).len = v.len := by
    rw [← rotAbout_strike_dip, len_rotAbout (strikeDir_len s), len_rotAbout (basis_len ⟨0, 0, 1⟩ (by simp))]
  have z1 := basis_len ⟨0, 0, 1⟩ (by simp)
  have r1 := rotate_error v ⟨0, 0, 1⟩ s (by rw [z1]; norm_num)
  set v1' := Fp.rotate v ⟨0, 0, 1⟩ s with h1'
  set v1 := rotAbout ⟨0, 0, 1⟩ s v with h1
  have l1 : v1.len = v.len := len_rotAbout z1 s v
  have r2 := rotate_error v1' n d hn1
  have r3 := rotAbout_axis_ten v1' d (strikeDir_len s) hn
  have r4 : (rotAbout (strikeDir s) d v1' - rotAbout (strikeDir s) d v1).len = (v1' - v1).len := by
    rw [rotAbout_sub, len_rotAbout (strikeDir_len s)]
  have t0 := (abs_le.1 (abs_len_sub_le v1' v1)).2
  have t1 := len_triangle (Fp.rotate v1' n d) (rotAbout n d v1') (rotAbout (strikeDir s) d v1)
  have t2 := len_triangle (rotAbout n d v1') (rotAbout (strikeDir s) d v1') (rotAbout (strikeDir s) d v1)
  have v0 := V3.len_nonneg v
  rw [hl, ← rotAbout_strike_dip, ← hv, ← h1]
  norm_num at *
  linarith

/-! ### Vertices -/

theorem move_error (p v : V3) : (Fp.move p v - (p + v)).len ≤ 1 / 2 ^ 53 * (p + v).len := by
  have := len_sub_le_of (a := Fp.move p v) (b := p + v) (m := ⟨|(p + v).x|, |(p + v).y|, |(p + v).z|⟩)
    (c := 1 / 2 ^ 53) (by positivity) (rnd_error_num _) (rnd_error_num _) (rnd_error_num _)
  refine this.trans (le_of_eq ?_)
  congr 1
  simp [V3.len, V3.sqLen]

theorem fpSums_length (p : V3) (es : List V3) : (Fp.partialSums p es).length = es.length + 1 := by
  induction es generalizing p with
  | nil => rfl
  | cons e es ih => simp [Fp.partialSums, ih]

/-- Accumulated errors of the vertices. -/
theorem partialSums_error {φ ψ : ℝ × ℝ → V3} {κ L : ℝ} (hκ0 : 0 ≤ κ) (hL : 0 ≤ L)
    (h : ∀ e, (φ e - ψ e).len ≤ κ * (ψ e).len) (es : List (ℝ × ℝ)) :
    ∀ (p' p : V3) (η : ℝ), (p' - p).len ≤ η → p.len + (es.map fun e => (ψ e).len).sum ≤ L →
      η + κ * (es.map fun e => (ψ e).len).sum + es.length * (1.01 / 2 ^ 53 * L) ≤ 0.01 * L →
      ∀ k q, (Fp.partialSums p' (es.map φ))[k]? = some q →
        (q - (p + ((es.take k).map ψ).sum)).len ≤
            η + κ * (es.map fun e => (ψ e).len).sum + es.length * (1.01 / 2 ^ 53 * L) ∧
          (p + ((es.take k).map ψ).sum).len ≤ L := by
  induction es with
  | nil =>
    intro p' p η h1 h2 h3 k q hq
    rcases k with _ | k
    · simp [Fp.partialSums] at hq
      subst hq
      simp at h2 ⊢
      exact ⟨h1, h2⟩
    · simp [Fp.partialSums] at hq
  | cons e es ih =>
    intro p' p η h1 h2 h3 k q hq
    simp only [List.map_cons, List.sum_cons, List.length_cons, Nat.cast_add, Nat.cast_one, Fp.partialSums] at h2 h3 hq ⊢
    have s0 : 0 ≤ (es.map fun e => (ψ e).len).sum := List.sum_nonneg (by simp; intros; subst_vars; exact V3.len_nonneg _)
    have e0 := V3.len_nonneg (ψ e)
    have n0 : 0 ≤ (es.length : ℝ) * (1.01 / 2 ^ 53 * L) := by positivity
    have l0 : 0 ≤ 1.01 / 2 ^ 53 * L := by positivity
    have k1 : κ * ((ψ e).len + (es.map fun e => (ψ e).len).sum) = κ * (ψ e).len + κ * (es.map fun e => (ψ e).len).sum := by
      ring
    have k2 := mul_nonneg hκ0 e0
    have k3 := mul_nonneg hκ0 s0
    have k4 : ((es.length : ℝ) + 1) * (1.01 / 2 ^ 53 * L) = es.length * (1.01 / 2 ^ 53 * L) + 1.01 / 2 ^ 53 * L := by ring
    rcases k with _ | k
    · simp at hq
      subst hq
      simp only [List.take_zero, List.map_nil, List.sum_nil, add_zero]
      constructor <;> linarith
    · simp only [List.getElem?_cons_succ] at hq
      have m1 := move_error p' (φ e)
      have m2 : (p' + φ e - (p + ψ e)).len ≤ η + κ * (ψ e).len := by
        rw [show p' + φ e - (p + ψ e) = (p' - p) + (φ e - ψ e) by ext <;> simp <;> ring]
        exact (V3.len_add_le _ _).trans (add_le_add h1 (h e))
      have m3 := (abs_le.1 (abs_len_sub_le (p' + φ e) (p + ψ e))).2
      have m4 := V3.len_add_le p (ψ e)
      have m5 := len_triangle (Fp.move p' (φ e)) (p' + φ e) (p + ψ e)
      have m6 : (p' + φ e).len ≤ 1.01 * L := by linarith
      have m7 : (Fp.move p' (φ e) - (p + ψ e)).len ≤ η + κ * (ψ e).len + 1.01 / 2 ^ 53 * L := by
        have := mul_le_mul_of_nonneg_left m6 (show (0 : ℝ) ≤ 1 / 2 ^ 53 by positivity)
        norm_num at *
        linarith
      have := ih (Fp.move p' (φ e)) (p + ψ e) _ m7 (by linarith) (by rw [k1, k4] at h3; linarith) k q hq
      simp only [List.take_succ_cons, List.map_cons, List.sum_cons]
      rw [← add_assoc, k1, k4]
      exact ⟨by linarith [this.1], this.2⟩

/-! ### Bounding box -/

theorem foldl_min_attained (f : V3 → ℝ) (vs : List V3) : ∀ m : ℝ,
    (vs.foldl (fun m v => min m (f v)) m ≤ m ∧ ∀ v ∈ vs, vs.foldl (fun m v => min m (f v)) m ≤ f v) ∧
      (vs.foldl (fun m v => min m (f v)) m = m ∨ ∃ v ∈ vs, vs.foldl (fun m v => min m (f v)) m = f v) := by
  induction vs with
  | nil => intro m; simp
  | cons v vs ih =>
    intro m
    obtain ⟨⟨h1, h2⟩, h3⟩ := ih (min m (f v))
    simp only [List.foldl_cons, List.mem_cons, forall_eq_or_imp, exists_eq_or_imp]
    refine ⟨⟨h1.trans (min_le_left _ _), h1.trans (min_le_right _ _), h2⟩, ?_⟩
    rcases h3 with h3 | h3
    · rcases min_choice m (f v) with h | h
      · exact .inl (h3.trans h)
      · exact .inr (.inl (h3.trans h))
    · exact .inr (.inr h3)

theorem foldl_max_attained (f : V3 → ℝ) (vs : List V3) : ∀ m : ℝ,
    (m ≤ vs.foldl (fun m v => max m (f v)) m ∧ ∀ v ∈ vs, f v ≤ vs.foldl (fun m v => max m (f v)) m) ∧
      (vs.foldl (fun m v => max m (f v)) m = m ∨ ∃ v ∈ vs, vs.foldl (fun m v => max m (f v)) m = f v) := by
  induction vs with
  | nil => intro m; simp
  | cons v vs ih =>
    intro m
    obtain ⟨⟨h1, h2⟩, h3⟩ := ih (max m (f v))
    simp only [List.foldl_cons, List.mem_cons, forall_eq_or_imp, exists_eq_or_imp]
    refine ⟨⟨(le_max_left _ _).trans h1, (le_max_right _ _).trans h1, h2⟩, ?_⟩
    rcases h3 with h3 | h3
    · rcases max_choice m (f v) with h | h
      · exact .inl (h3.trans h)
      · exact .inr (.inl (h3.trans h))
    · exact .inr (.inr h3)

/-- The smallest coordinate of vertices that include the origin. -/
theorem minOver_spec {f : V3 → ℝ} (hf : f 0 = 0) {vs : List V3} (h0 : (0 : V3) ∈ vs) :
    (∀ v ∈ vs, minOver f vs ≤ f v) ∧ ∃ v ∈ vs, minOver f vs = f v := by
  obtain ⟨⟨_, h2⟩, h3⟩ := foldl_min_attained f vs 0
  refine ⟨h2, ?_⟩
  rcases h3 with h3 | h3
  · exact ⟨0, h0, h3.trans hf.symm⟩
  · exact h3

theorem maxOver_spec {f : V3 → ℝ} (hf : f 0 = 0) {vs : List V3} (h0 : (0 : V3) ∈ vs) :
    (∀ v ∈ vs, f v ≤ maxOver f vs) ∧ ∃ v ∈ vs, maxOver f vs = f v := by
  obtain ⟨⟨_, h2⟩, h3⟩ := foldl_max_attained f vs 0
  refine ⟨h2, ?_⟩
  rcases h3 with h3 | h3
  · exact ⟨0, h0, h3.trans hf.symm⟩
  · exact h3

theorem abs_coord_le (v : V3) : |v.x| ≤ v.len ∧ |v.y| ≤ v.len ∧ |v.z| ≤ v.len := by
  refine ⟨Real.abs_le_sqrt ?_, Real.abs_le_sqrt ?_, Real.abs_le_sqrt ?_⟩ <;> unfold V3.sqLen <;> nlinarith [sq_nonneg v.x, sq_nonneg v.y, sq_nonneg v.z]

theorem len_le_coords (v : V3) : v.len ≤ |v.x| + |v.y| + |v.z| := by
  refine Real.sqrt_le_iff.2 ⟨by positivity, ?_⟩
  unfold V3.sqLen
  have := abs_mul_abs_self v.x
  have := abs_mul_abs_self v.y
  have := abs_mul_abs_self v.z
  nlinarith [mul_nonneg (abs_nonneg v.x) (abs_nonneg v.y), mul_nonneg (abs_nonneg v.x) (abs_nonneg v.z),
    mul_nonneg (abs_nonneg v.y) (abs_nonneg v.z)]

/-- One coordinate of the centre of the bounding box. -/
theorem middle_error {f : V3 → ℝ} (hf : f 0 = 0) {vs : List V3} (h0 : (0 : V3) ∈ vs) {r : ℝ} (h : ∀ v ∈ vs, |f v| ≤ r) :
    |Fp.add (minOver f vs) (Fp.mul 0.5 (Fp.sub (maxOver f vs) (minOver f vs))) - (minOver f vs + maxOver f vs) / 2|
        ≤ 1 / 2 ^ 50 * r ∧
      |Fp.add (minOver f vs) (Fp.mul 0.5 (Fp.sub (maxOver f vs) (minOver f vs)))| ≤ 1.001 * r := by
  obtain ⟨_, v, hv, e1⟩ := minOver_spec hf h0
  obtain ⟨_, w, hw, e2⟩ := maxOver_spec hf h0
  have b1 := h v hv
  have b2 := h w hw
  rw [← e1] at b1
  rw [← e2] at b2
  have c := center_err b1 b2
  refine ⟨c, ?_⟩
  have := abs_le.1 b1
  have := abs_le.1 b2
  have := abs_le.1 c
  rw [abs_le]
  norm_num at *
  constructor <;> linarith

/-! ### Sampled polygons -/

/-- The edges of the sampler, in the x-y plane. -/
def flatEdges (edges : List (ℝ × ℝ)) : List V3 := edges.map fun e => ⟨e.1, e.2, 0⟩

theorem edgeSum_nonneg (edges : List (ℝ × ℝ)) : 0 ≤ edgeSum edges :=
  List.sum_nonneg (by simp; intros; subst_vars; positivity)

theorem edgeSum_dropLast (edges : List (ℝ × ℝ)) : edgeSum edges.dropLast ≤ edgeSum edges := by
  induction edges with
  | nil => simp
  | cons e es ih =>
    rcases es with _ | ⟨e', es⟩
    · simp [edgeSum]
    · rw [List.dropLast_cons_cons]
      unfold edgeSum at *
      rw [List.map_cons, List.map_cons, List.sum_cons, List.sum_cons]
      linarith

theorem edgeSum_eq (s d : ℝ) (edges : List (ℝ × ℝ)) :
    (edges.map fun e => (inPlane s d e).len).sum = edgeSum edges := by
  unfold edgeSum
  simp only [inPlane_len]

/-- The rotated edges. -/
theorem polygonEdges_eq (edges : List (ℝ × ℝ)) (s d : ℝ) :
    ∃ φ : ℝ × ℝ → V3, Fp.polygonEdges (flatEdges edges) s d = .val (edges.map φ) ∧
      ∀ e, (φ e - inPlane s d e).len ≤ 144 / 2 ^ 53 * (inPlane s d e).len := by
  obtain ⟨n, h1, h2, h3⟩ := strikeDir_fp s
  refine ⟨fun e => Fp.rotate (Fp.rotate ⟨e.1, e.2, 0⟩ ⟨0, 0, 1⟩ s) n d, ?_, edge_error s d h2 h3⟩
  unfold Fp.polygonEdges
  rw [h1, basis_direction ⟨0, 0, 1⟩ (by simp)]
  show Outcome.val _ = _
  rw [flatEdges, List.map_map, List.map_map]
  rfl

/-- The vertices before they are moved to the sampled point. -/
theorem vertices_error {φ : ℝ × ℝ → V3} {s d : ℝ} (hφ : ∀ e, (φ e - inPlane s d e).len ≤ 144 / 2 ^ 53 * (inPlane s d e).len)
    (edges : List (ℝ × ℝ)) {L : ℝ} (hL : edgeSum edges ≤ L) (n : ℕ) (hn : edges.length ≤ n) (hn' : n ≤ 2 ^ 20)
    (k : ℕ) (q : V3) (hq : (Fp.partialSums 0 (edges.map φ))[k]? = some q) :
    (q - cornerAt s d edges k).len ≤ (144 + 1.01 * n) / 2 ^ 53 * L ∧ (cornerAt s d edges k).len ≤ L ∧ q.len ≤ 1.01 * L := by
  have p0 := edgeSum_nonneg edges
  have L0 := p0.trans hL
  have l1 : (edges.length : ℝ) * (1.01 / 2 ^ 53 * L) ≤ n * (1.01 / 2 ^ 53 * L) :=
    mul_le_mul_of_nonneg_right (by exact_mod_cast hn) (by positivity)
  have l2 : (n : ℝ) * (1.01 / 2 ^ 53 * L) ≤ 2 ^ 20 * (1.01 / 2 ^ 53 * L) :=
    mul_le_mul_of_nonneg_right (by exact_mod_cast hn') (by positivity)
  have e1 : (144 + 1.01 * n) / 2 ^ 53 * L = 144 / 2 ^ 53 * L + n * (1.01 / 2 ^ 53 * L) := by ring
  have l3 : 144 / 2 ^ 53 * edgeSum edges ≤ 144 / 2 ^ 53 * L := mul_le_mul_of_nonneg_left hL (by positivity)
  have h := partialSums_error (κ := 144 / 2 ^ 53) (L := L) (by positivity) L0 hφ edges 0 0 0 (by simp [V3.len, V3.sqLen])
    (by rw [edgeSum_eq]; simpa [V3.len, V3.sqLen] using hL)
    (by
      rw [edgeSum_eq]
      norm_num at *
      linarith) k q hq
  rw [edgeSum_eq, zero_add, zero_add] at h
  have h1 : (q - cornerAt s d edges k).len ≤ (144 + 1.01 * n) / 2 ^ 53 * L := by
    rw [e1]
    exact h.1.trans (by linarith)
  refine ⟨h1, h.2, ?_⟩
  have := (abs_le.1 (abs_len_sub_le q (cornerAt s d edges k))).2
  have h2 : (cornerAt s d edges k).len ≤ L := h.2
  rw [e1] at h1
  norm_num at *
  linarith

theorem cornerAt_dropLast (s d : ℝ) {edges : List (ℝ × ℝ)} {k : ℕ} (h : k ≤ edges.length - 1) :
    cornerAt s d edges.dropLast k = cornerAt s d edges k := by
  unfold cornerAt
  rw [List.dropLast_eq_take, List.take_take, min_eq_left h]

theorem placePolygon_eq {edges : List (ℝ × ℝ)} (he : edges ≠ []) (s d : ℝ) (c : V3) {φ : ℝ × ℝ → V3}
    (h : Fp.polygonEdges (flatEdges edges) s d = .val (edges.map φ)) :
    Fp.placePolygon (flatEdges edges) s d c = .val ((Fp.partialSums 0 (edges.dropLast.map φ)).map fun v =>
      Fp.move v (Fp.vectorBetween (Fp.bboxCenter (Fp.partialSums 0 (edges.dropLast.map φ))) c)) := by
  unfold Fp.placePolygon
  rw [h, List.map_dropLast]
  rcases edges with _ | ⟨e, es⟩
  · exact absurd rfl he
  · rfl

theorem zero_mem_partialSums (es : List V3) : (0 : V3) ∈ Fp.partialSums 0 es := by
  rcases es with _ | ⟨e, es⟩ <;> simp [Fp.partialSums]

theorem between_error (a b : V3) : (Fp.vectorBetween a b - (b - a)).len ≤ 1 / 2 ^ 53 * (b - a).len := by
  have := len_sub_le_of (a := Fp.vectorBetween a b) (b := b - a) (m := ⟨|(b - a).x|, |(b - a).y|, |(b - a).z|⟩)
    (c := 1 / 2 ^ 53) (by positivity) (rnd_error_num _) (rnd_error_num _) (rnd_error_num _)
  refine this.trans (le_of_eq ?_)
  congr 1
  simp [V3.len, V3.sqLen]

/-- **Corners.**  In double precision, the corners of a sampled polygon are the ones of the polygon with the sampled edges
in the plane with the sampled strike and dip angle, up to an error of 2⁻⁴⁵ + n 2⁻⁵² times the length of the boundary and
2⁻⁵² times the distance of the sampled point from the origin. -/
theorem C156_corners (edges : List (ℝ × ℝ)) (s d : ℝ) (c : V3) (he : edges ≠ []) (hn : edges.length ≤ 2 ^ 20) :
    ∃ cs, Fp.placePolygon (flatEdges edges) s d c = .val cs ∧ cs.length = edges.length ∧
      ∃ o : V3, ∀ k q, cs[k]? = some q →
        Spec.dist q (o + cornerAt s d edges k) ≤
          (1 / 2 ^ 45 + edges.length / 2 ^ 52) * edgeSum edges + 1 / 2 ^ 52 * norm c := by
  obtain ⟨φ, h1, h2⟩ := polygonEdges_eq edges s d
  have hl : 0 < edges.length := List.length_pos_iff.2 he
  refine ⟨_, placePolygon_eq he s d c h1, by simp [fpSums_length]; omega, ?_⟩
  set vs := Fp.partialSums 0 (edges.dropLast.map φ) with hvs
  set b := Fp.bboxCenter vs with hb
  have hv := fun k q hq => vertices_error h2 edges.dropLast (edgeSum_dropLast edges) edges.length (by simp) hn k q hq
  set L := edgeSum edges with hL
  have L0 : 0 ≤ L := edgeSum_nonneg edges
  have hq : ∀ v ∈ vs, v.len ≤ 1.01 * L := by
    intro v hv'
    obtain ⟨k, hk⟩ := List.mem_iff_getElem?.1 hv'
    exact (hv k v hk).2.2
  have m1 := (middle_error (f := V3.x) rfl (zero_mem_partialSums _) fun v hv' => (abs_coord_le v).1.trans (hq v hv')).2
  have m2 := (middle_error (f := V3.y) rfl (zero_mem_partialSums _) fun v hv' => (abs_coord_le v).2.1.trans (hq v hv')).2
  have m3 := (middle_error (f := V3.z) rfl (zero_mem_partialSums _) fun v hv' => (abs_coord_le v).2.2.trans (hq v hv')).2
  have bl : b.len ≤ 3.1 * L := by
    have : b.len ≤ |b.x| + |b.y| + |b.z| := len_le_coords b
    have i1 : |b.x| ≤ _ := m1
    have i2 : |b.y| ≤ _ := m2
    have i3 : |b.z| ≤ _ := m3
    norm_num at *
    linarith
  set D := Fp.vectorBetween b c with hD
  refine ⟨D, fun k q hq' => ?_⟩
  rw [List.getElem?_map, Option.map_eq_some_iff] at hq'
  obtain ⟨v, hv1, rfl⟩ := hq'
  obtain ⟨g1, g2, g3⟩ := hv k v hv1
  have hk : k ≤ edges.length - 1 := by
    have := (List.getElem?_eq_some_iff.1 hv1).1
    rw [hvs, fpSums_length] at this
    simp at this
    omega
  rw [cornerAt_dropLast s d hk] at g1 g2
  have a1 := move_error v D
  have a2 := len_triangle (Fp.move v D) (v + D) (D + cornerAt s d edges k)
  rw [show v + D - (D + cornerAt s d edges k) = v - cornerAt s d edges k by abel] at a2
  have a3 := between_error b c
  have a4 := (abs_le.1 (abs_len_sub_le D (c - b))).2
  have a5 : (c - b).len ≤ c.len + b.len := by
    have := V3.len_add_le c (-b)
    rwa [V3.len_neg, ← sub_eq_add_neg] at this
  have a6 := V3.len_add_le v D
  have c0 := V3.len_nonneg c
  rw [dist_eq_len, norm_eq_len]
  have n0 : 0 ≤ (edges.length : ℝ) * L := by positivity
  have e1 : (144 + 1.01 * edges.length) / 2 ^ 53 * L = 144 / 2 ^ 53 * L + 1.01 / 2 ^ 53 * (edges.length * L) := by ring
  have e2 : (1 / 2 ^ 45 + (edges.length : ℝ) / 2 ^ 52) * L = 1 / 2 ^ 45 * L + 1 / 2 ^ 52 * (edges.length * L) := by ring
  rw [e1] at g1
  rw [e2]
  generalize (edges.length : ℝ) * L = N at *
  norm_num at *
  linarith

/-- The normal of a plane and vectors in it. -/
theorem dipNormal_inPlane (s d : ℝ) (es : List (ℝ × ℝ)) : (dipNormal s d).dot ((es.map (inPlane s d)).sum) = 0 := by
  induction es with
  | nil => simp
  | cons e es ih =>
    rw [List.map_cons, List.sum_cons, V3.dot_add, ih, add_zero]
    have h := Real.sin_sq_add_cos_sq s
    simp only [dipNormal, inPlane, dipDir, strikeDir, V3.dot, V3.add_x, V3.add_y, V3.add_z, V3.smul_x, V3.smul_y, V3.smul_z]
    linear_combination (e.1 * Real.sin d * Real.cos d) * h

theorem dipNormal_len (s d : ℝ) : (dipNormal s d).len = 1 := by
  have h := Real.sin_sq_add_cos_sq s
  have h' := Real.sin_sq_add_cos_sq d
  have : (dipNormal s d).sqLen = 1 := by
    simp only [dipNormal, V3.sqLen]
    linear_combination (Real.sin d ^ 2) * h + h'
  rw [V3.len, this, Real.sqrt_one]

/-- **Planarity.**  In double precision, the corners of a sampled polygon lie in a plane with the sampled strike and dip
angle up to twice the error of the corners. -/
theorem C156_planar (edges : List (ℝ × ℝ)) (s d : ℝ) (c : V3) (he : edges ≠ []) (hn : edges.length ≤ 2 ^ 20) :
    ∃ cs, Fp.placePolygon (flatEdges edges) s d c = .val cs ∧
      ∀ p ∈ cs, ∀ q ∈ cs, |inner (dipNormal s d) (p - q)| ≤
        (1 / 2 ^ 44 + edges.length / 2 ^ 51) * edgeSum edges + 1 / 2 ^ 51 * norm c := by
  obtain ⟨cs, h1, _, o, h2⟩ := C156_corners edges s d c he hn
  refine ⟨cs, h1, fun p hp q hq => ?_⟩
  obtain ⟨i, hi⟩ := List.mem_iff_getElem?.1 hp
  obtain ⟨j, hj⟩ := List.mem_iff_getElem?.1 hq
  have hp := h2 i p hi
  have hq := h2 j q hj
  rw [dist_eq_len] at hp hq
  have e : inner (dipNormal s d) (p - q) = (dipNormal s d).dot (p - (o + cornerAt s d edges i)) -
      (dipNormal s d).dot (q - (o + cornerAt s d edges j)) := by
    have k1 : (dipNormal s d).dot (cornerAt s d edges i) = 0 := dipNormal_inPlane s d _
    have k2 : (dipNormal s d).dot (cornerAt s d edges j) = 0 := dipNormal_inPlane s d _
    show (dipNormal s d).dot (p - q) = _
    rw [V3.dot_sub, V3.dot_sub, V3.dot_sub, V3.dot_add, V3.dot_add, k1, k2]
    ring
  have b1 := V3.abs_dot_le (dipNormal s d) (p - (o + cornerAt s d edges i))
  have b2 := V3.abs_dot_le (dipNormal s d) (q - (o + cornerAt s d edges j))
  rw [dipNormal_len, one_mul] at b1 b2
  rw [e]
  refine (abs_sub _ _).trans ?_
  have : (1 / 2 ^ 44 + (edges.length : ℝ) / 2 ^ 51) * edgeSum edges + 1 / 2 ^ 51 * norm c =
      2 * ((1 / 2 ^ 45 + edges.length / 2 ^ 52) * edgeSum edges + 1 / 2 ^ 52 * norm c) := by ring
  rw [this]
  linarith

/-- One coordinate of the extent of the moved vertices. -/
theorem moved_extent {f : V3 → ℝ} (hf : f 0 = 0) {vs : List V3} (h0 : (0 : V3) ∈ vs) {L cf : ℝ} (L0 : 0 ≤ L)
    (h : ∀ v ∈ vs, |f v| ≤ 1.01 * L) (g : V3 → V3)
    (hg : ∀ v, f (g v) = Fp.add (f v)
      (Fp.sub cf (Fp.add (minOver f vs) (Fp.mul 0.5 (Fp.sub (maxOver f vs) (minOver f vs)))))) :
    ∃ lo hi, Extent f (vs.map g) lo hi ∧ |(lo + hi) / 2 - cf| ≤ 1 / 2 ^ 49 * (L + |cf|) := by
  obtain ⟨l1, v, hv, e1⟩ := minOver_spec hf h0
  obtain ⟨l2, w, hw, e2⟩ := maxOver_spec hf h0
  obtain ⟨m1, m2⟩ := middle_error hf h0 h
  generalize Fp.add (minOver f vs) (Fp.mul 0.5 (Fp.sub (maxOver f vs) (minOver f vs))) = b at *
  have d1 : |Fp.sub cf b - (cf - b)| ≤ 1 / 2 ^ 53 * |cf - b| := rnd_error_num _
  generalize Fp.sub cf b = D at *
  refine ⟨f (g v), f (g w), ⟨⟨⟨g v, List.mem_map_of_mem hv, rfl⟩, ?_⟩, ⟨⟨g w, List.mem_map_of_mem hw, rfl⟩, ?_⟩⟩, ?_⟩
  · rintro _ ⟨p, hp, rfl⟩
    obtain ⟨q, hq, rfl⟩ := List.mem_map.1 hp
    rw [hg, hg]
    exact rnd_mono (by linarith [l1 q hq])
  · rintro _ ⟨p, hp, rfl⟩
    obtain ⟨q, hq, rfl⟩ := List.mem_map.1 hp
    rw [hg, hg]
    exact rnd_mono (by linarith [l2 q hq])
  · have r1 : |Fp.add (f v) D - (f v + D)| ≤ 1 / 2 ^ 53 * |f v + D| := rnd_error_num _
    have r2 : |Fp.add (f w) D - (f w + D)| ≤ 1 / 2 ^ 53 * |f w + D| := rnd_error_num _
    rw [hg, hg]
    rw [e1, e2] at m1
    have i1 := h v hv
    have i2 := h w hw
    have i3 : |cf - b| ≤ |cf| + |b| := abs_sub _ _
    have i4 : |D| ≤ |cf - b| + |D - (cf - b)| := by
      have := abs_add_le (cf - b) (D - (cf - b))
      rwa [add_sub_cancel] at this
    have i5 := abs_add_le (f v) D
    have i6 := abs_add_le (f w) D
    have i7 : (Fp.add (f v) D + Fp.add (f w) D) / 2 - cf = (Fp.add (f v) D - (f v + D)) / 2 + (Fp.add (f w) D - (f w + D)) / 2
        + (D - (cf - b)) - (b - (f v + f w) / 2) := by ring
    rw [i7]
    generalize Fp.add (f v) D - (f v + D) = x1 at *
    generalize Fp.add (f w) D - (f w + D) = x2 at *
    have j1 := abs_sub (x1 / 2 + x2 / 2 + (D - (cf - b))) (b - (f v + f w) / 2)
    have j2 := abs_add_le (x1 / 2 + x2 / 2) (D - (cf - b))
    have j3 := abs_add_le (x1 / 2) (x2 / 2)
    rw [abs_div, abs_div, abs_of_pos (show (0 : ℝ) < 2 by norm_num)] at j3
    have c0 := abs_nonneg cf
    clear hg i7 e1 e2 l1 l2 h hf h0
    generalize |x1 / 2 + x2 / 2 + (D - (cf - b)) - (b - (f v + f w) / 2)| = y1 at *
    generalize |x1 / 2 + x2 / 2 + (D - (cf - b))| = y2 at *
    generalize |x1 / 2 + x2 / 2| = y3 at *
    generalize |D - (cf - b)| = y4 at *
    generalize |b - (f v + f w) / 2| = y5 at *
    generalize |cf - b| = y6 at *
    generalize |cf| = y7 at *
    norm_num at *
    linarith

/-- **Position.**  In double precision, the centre of the bounding box of a sampled polygon is the sampled point, up to an
error of 2⁻⁴⁹ times the length of the boundary and the coordinate of the point. -/
theorem C156_centre (edges : List (ℝ × ℝ)) (s d : ℝ) (c : V3) (he : edges ≠ []) (hn : edges.length ≤ 2 ^ 20) :
    ∃ cs, Fp.placePolygon (flatEdges edges) s d c = .val cs ∧
      ∀ f ∈ [V3.x, V3.y, V3.z], ∃ lo hi, Extent f cs lo hi ∧
        |(lo + hi) / 2 - f c| ≤ 1 / 2 ^ 49 * (edgeSum edges + |f c|) := by
  obtain ⟨φ, h1, h2⟩ := polygonEdges_eq edges s d
  refine ⟨_, placePolygon_eq he s d c h1, ?_⟩
  have hq : ∀ v ∈ Fp.partialSums 0 (edges.dropLast.map φ), v.len ≤ 1.01 * edgeSum edges := by
    intro v hv'
    obtain ⟨k, hk⟩ := List.mem_iff_getElem?.1 hv'
    exact (vertices_error h2 edges.dropLast (edgeSum_dropLast edges) edges.length (by simp) hn k v hk).2.2
  intro f hf
  simp only [List.mem_cons, List.not_mem_nil, or_false] at hf
  rcases hf with rfl | rfl | rfl
  · exact moved_extent rfl (zero_mem_partialSums _) (edgeSum_nonneg _) (fun v hv => (abs_coord_le v).1.trans (hq v hv)) _
      fun _ => rfl
  · exact moved_extent rfl (zero_mem_partialSums _) (edgeSum_nonneg _) (fun v hv => (abs_coord_le v).2.1.trans (hq v hv)) _
      fun _ => rfl
  · exact moved_extent rfl (zero_mem_partialSums _) (edgeSum_nonneg _) (fun v hv => (abs_coord_le v).2.2.trans (hq v hv)) _
      fun _ => rfl

/-! ### The closing assertion -/

theorem partialSums_append (l : List V3) (e : V3) : ∀ p, ∃ v, (Fp.partialSums p l).getLast? = some v ∧
    (Fp.partialSums p (l ++ [e]))[l.length + 1]? = some (Fp.move v e) := by
  induction l with
  | nil => intro p; exact ⟨p, rfl, rfl⟩
  | cons a l ih =>
    intro p
    obtain ⟨v, h1, h2⟩ := ih (Fp.move p a)
    refine ⟨v, ?_, ?_⟩
    · have : Fp.partialSums (Fp.move p a) l ≠ [] := by
        intro h
        rw [h] at h1
        simp at h1
      simp only [Fp.partialSums]
      rw [List.getLast?_cons_of_ne_nil this, h1]
    · simpa [Fp.partialSums] using h2

theorem sum_inPlane (s d : ℝ) (es : List (ℝ × ℝ)) :
    (es.map (inPlane s d)).sum = inPlane s d ((es.map Prod.fst).sum, (es.map Prod.snd).sum) := by
  induction es with
  | nil => ext <;> simp [inPlane]
  | cons e es ih =>
    rw [List.map_cons, List.sum_cons, ih]
    ext <;> simp [inPlane] <;> ring

/-- **Closing.**  In double precision, the sampler takes the polygon for closed if the edges add up to zero, and not if their
sum is too long; the bounds differ from the tolerance 1e-7 by 2⁻⁴⁵ + n 2⁻⁵² times the length of the boundary. -/
theorem C156_closes (edges : List (ℝ × ℝ)) (s d : ℝ) (he : edges ≠ []) (hn : edges.length ≤ 2 ^ 20) :
    ∃ es, Fp.polygonEdges (flatEdges edges) s d = .val es ∧
      (√((edges.map Prod.fst).sum ^ 2 + (edges.map Prod.snd).sum ^ 2) +
          (1 / 2 ^ 45 + edges.length / 2 ^ 52) * edgeSum edges ≤ 0.99 / 10 ^ 7 → Fp.polygonCloses es) ∧
      (1.01 / 10 ^ 7 + (1 / 2 ^ 45 + edges.length / 2 ^ 52) * edgeSum edges ≤
          √((edges.map Prod.fst).sum ^ 2 + (edges.map Prod.snd).sum ^ 2) → ¬ Fp.polygonCloses es) := by
  obtain ⟨φ, h1, h2⟩ := polygonEdges_eq edges s d
  refine ⟨_, h1, ?_⟩
  obtain ⟨v, g1, g2⟩ := partialSums_append (edges.map φ).dropLast ((edges.map φ).getLast (by simpa using he)) 0
  rw [List.dropLast_append_getLast] at g2
  have e1 : Fp.polygonCloses (edges.map φ) ↔ Fp.pointIsEqualDefault (Fp.move v ((edges.map φ).getLast (by simpa using he))) 0 := by
    unfold Fp.polygonCloses
    rw [g1, List.getLast?_eq_some_getLast (by simpa using he)]
  obtain ⟨b1, -, -⟩ := vertices_error h2 edges le_rfl edges.length le_rfl hn _ _ g2
  have hl : 0 < edges.length := List.length_pos_iff.2 he
  have e2 : cornerAt s d edges ((edges.map φ).dropLast.length + 1) =
      inPlane s d ((edges.map Prod.fst).sum, (edges.map Prod.snd).sum) := by
    unfold cornerAt
    rw [List.take_of_length_le (by simp; omega), sum_inPlane]
  rw [e2] at b1
  have b2 := abs_le.1 (abs_len_sub_le (Fp.move v ((edges.map φ).getLast (by simpa using he)))
    (inPlane s d ((edges.map Prod.fst).sum, (edges.map Prod.snd).sum)))
  rw [inPlane_len] at b2
  have p0 := edgeSum_nonneg edges
  have b3 : (144 + 1.01 * (edges.length : ℝ)) / 2 ^ 53 * edgeSum edges ≤
      (1 / 2 ^ 45 + edges.length / 2 ^ 52) * edgeSum edges := by
    have : 0 ≤ (edges.length : ℝ) * edgeSum edges := by positivity
    have e3 : (144 + 1.01 * edges.length) / 2 ^ 53 * edgeSum edges =
      144 / 2 ^ 53 * edgeSum edges + 1.01 / 2 ^ 53 * (edges.length * edgeSum edges) := by ring
    have e4 : (1 / 2 ^ 45 + (edges.length : ℝ) / 2 ^ 52) * edgeSum edges =
      1 / 2 ^ 45 * edgeSum edges + 1 / 2 ^ 52 * (edges.length * edgeSum edges) := by ring
    rw [e3, e4]
    norm_num at *
    linarith
  generalize Fp.move v ((edges.map φ).getLast (by simpa using he)) = r at *
  have e5 : Spec.dist r 0 = r.len := by rw [dist_eq_len, sub_zero]
  obtain ⟨c1, c2⟩ := C116_equal_default r 0
  rw [e1]
  refine ⟨fun h => c1 ?_, fun h h' => ?_⟩
  · rw [e5]
    linarith [b2.2]
  · have := c2 h'
    rw [e5] at this
    linarith [b2.1]

/-! ### The whole sampler -/

/-- Errors of rounded sums. -/
theorem sum_rounded {α : Type} (f g : α → ℝ) {c : ℝ} (l : List α) (h : ∀ x ∈ l, |f x - g x| ≤ c * |g x|) :
    |(l.map f).sum - (l.map g).sum| ≤ c * (l.map fun x => |g x|).sum ∧
      (l.map fun x => |f x|).sum ≤ (1 + c) * (l.map fun x => |g x|).sum := by
  induction l with
  | nil => simp
  | cons x l ih =>
    obtain ⟨i1, i2⟩ := ih fun y hy => h y (List.mem_cons_of_mem _ hy)
    have hx := h x List.mem_cons_self
    simp only [List.map_cons, List.sum_cons]
    have a := abs_add_le (f x - g x) ((l.map f).sum - (l.map g).sum)
    have b := abs_add_le (g x) (f x - g x)
    rw [add_sub_cancel] at b
    rw [show f x + (l.map f).sum - (g x + (l.map g).sum) = (f x - g x) + ((l.map f).sum - (l.map g).sum) by ring, mul_add, mul_add]
    constructor <;> linarith

theorem fpDifferences_eq (l : List ℝ) : Fp.differences l = (differences l).map Fp.rnd := by
  unfold Fp.differences differences Fp.sub
  rw [List.map_zipWith]

/-- Increments in one direction: as many as values, with sum nearly zero and absolute values adding up to at most two. -/
theorem fpDeltas_spec (vs : List ℝ) (hn : 3 ≤ vs.length) (h01 : ∀ v ∈ vs, 0 ≤ v ∧ v ≤ 1) :
    ∃ ds, Fp.coordinateDeltas vs = .val ds ∧ ds.length = vs.length ∧ |ds.sum| ≤ 4 / 2 ^ 53 ∧
      (ds.map fun x => |x|).sum ≤ 2.001 ∧ 4 / 5 - 3 / 2 ^ 53 ≤ positiveSum ds ∧ positiveSum ds ≤ 1 + 1 / 2 ^ 53 := by
  obtain ⟨m, r1, e1, p1, hm⟩ := takeMin_spec id vs (by intro h; simp [h] at hn)
  have hl1 : r1.length + 1 = vs.length := by simpa using p1.length_eq
  obtain ⟨M, r2, e2, p2, hM⟩ := takeMax_spec r1 (by intro h; simp [h] at hl1; omega)
  have hl2 : r2.length + 1 = r1.length := by simpa using p2.length_eq
  have hr1 : ∀ x ∈ r1, x ∈ vs := fun x hx => p1.mem_iff.1 (List.mem_cons_of_mem _ hx)
  have hr2 : ∀ x ∈ r2, x ∈ r1 := fun x hx => p2.mem_iff.1 (List.mem_cons_of_mem _ hx)
  have hmv : m ∈ vs := p1.mem_iff.1 List.mem_cons_self
  have hMv : M ∈ r1 := p2.mem_iff.1 List.mem_cons_self
  have m01 := h01 m hmv
  have M01 := h01 M (hr1 M hMv)
  have hmM : m ≤ M := hm M (hr1 M hMv)
  set m' : ℝ := if m > Fp.rnd (1 / 10) then 0 else m with hm'
  set M' : ℝ := if M < Fp.rnd (9 / 10) then 1 else M with hM'
  have hm'0 : 0 ≤ m' := by rw [hm']; split_ifs <;> linarith
  have hm'm : m' ≤ m := by rw [hm']; split_ifs <;> linarith
  have hM'1 : M' ≤ 1 := by rw [hM']; split_ifs <;> linarith
  have hM'M : M ≤ M' := by rw [hM']; split_ifs <;> linarith
  have h10 := abs_le.1 (rnd_error_num (1 / 10))
  have h90 := abs_le.1 (rnd_error_num (9 / 10))
  rw [abs_of_pos (by norm_num)] at h10 h90
  have hm'1 : m' ≤ Fp.rnd (1 / 10) := by
    rw [hm']
    split_ifs
    · exact rnd_nonneg (by norm_num)
    · linarith
  have hM'0 : Fp.rnd (9 / 10) ≤ M' := by
    rw [hM']
    split_ifs
    · norm_num at *
      linarith
    · linarith
  have hset : ∀ b, ∃ ds, differences (sortReals (m' :: everySecond b r2) ++ [M']) = ds ∧
      ds.length = (everySecond b r2).length + 1 ∧ ds.sum = M' - m' ∧ ∀ x ∈ ds, 0 ≤ x := by
    intro b
    have hmin : ∀ x ∈ everySecond b r2, m' ≤ x := fun x hx =>
      hm'm.trans (hm x (hr1 x (hr2 x (everySecond_subset b r2 x hx))))
    have hmax : ∀ x ∈ everySecond b r2, x ≤ M' := fun x hx =>
      (hM x (hr2 x (everySecond_subset b r2 x hx))).trans hM'M
    rw [sortReals_cons_min m' _ hmin]
    refine ⟨_, rfl, ?_, ?_, ?_⟩
    · rw [List.cons_append, differences_length, List.length_append, (sortReals_perm _).length_eq]; rfl
    · rw [List.cons_append, differences_sum]
    · refine differences_nonneg _ ?_
      rw [List.cons_append, List.pairwise_cons]
      refine ⟨?_, ?_⟩
      · intro x hx
        rcases List.mem_append.1 hx with h | h
        · exact hmin x ((sortReals_perm _).mem_iff.1 h)
        · rw [List.mem_singleton.1 h]; linarith
      · rw [List.pairwise_append]
        refine ⟨sortReals_sorted _, List.pairwise_singleton _ _, ?_⟩
        intro x hx y hy
        rw [List.mem_singleton.1 hy]
        exact hmax x ((sortReals_perm _).mem_iff.1 hx)
  obtain ⟨d0, f0, l0, s0, n0⟩ := hset false
  obtain ⟨d1, f1, l1, s1, n1⟩ := hset true
  have hes := everySecond_length r2
  have habs : ∀ l : List ℝ, (∀ x ∈ l, 0 ≤ x) → (l.map fun x => |x|).sum = l.sum := by
    intro l hl
    conv_rhs => rw [← List.map_id l]
    exact congrArg List.sum (List.map_congr_left fun x hx => abs_of_nonneg (hl x hx))
  obtain ⟨a1, a2⟩ := sum_rounded Fp.rnd id (c := 1 / 2 ^ 53) d0 fun x _ => rnd_error_num x
  obtain ⟨b1, b2⟩ := sum_rounded (fun x => Fp.mul (Fp.rnd x) (-1)) (fun x => -x) (c := 3 / 2 ^ 53) d1 fun x _ => by
    have i1 := rnd_error_num x
    have i2 := rnd_error_num (Fp.rnd x * -1)
    have i3 := abs_add_le (Fp.rnd (Fp.rnd x * -1) - Fp.rnd x * -1) (-(Fp.rnd x - x))
    rw [abs_neg, show Fp.rnd (Fp.rnd x * -1) - Fp.rnd x * -1 + -(Fp.rnd x - x) = Fp.rnd (Fp.rnd x * -1) - -x by ring] at i3
    have i4 := abs_add_le x (Fp.rnd x - x)
    rw [add_sub_cancel] at i4
    rw [mul_neg_one, abs_neg] at i2
    rw [abs_neg]
    show |Fp.rnd (Fp.rnd x * -1) - -x| ≤ _
    rw [mul_neg_one] at i3 ⊢
    have x0 := abs_nonneg x
    generalize |x| = y at *
    norm_num at *
    linarith
  refine ⟨d0.map Fp.rnd ++ d1.map fun v => Fp.mul (Fp.rnd v) (-1), ?_, ?_, ?_, ?_, ?_⟩
  · unfold Fp.coordinateDeltas
    simp only [e1, e2, Outcome.val_bind, Outcome.pure_eq, ← hm', ← hM', fpDifferences_eq, f0, f1, List.map_map]
    rfl
  · rw [List.length_append, List.length_map, List.length_map, l0, l1]; omega
  · rw [List.sum_append]
    simp only [id, List.map_id', abs_neg] at a1 b1
    rw [habs d0 n0, s0] at a1
    rw [habs d1 n1, s1] at b1
    have e3 : (d1.map fun x => -x).sum = -d1.sum := by
      rw [← List.sum_neg]
    rw [e3, s1] at b1
    rw [List.map_id, s0] at a1
    have := abs_le.1 a1
    have := abs_le.1 b1
    rw [abs_le]
    clear h10 h90
    norm_num at *
    constructor <;> linarith
  · rw [List.map_append, List.sum_append, List.map_map, List.map_map]
    simp only [id, abs_neg] at a2 b2
    rw [habs d0 n0, s0] at a2
    rw [habs d1 n1, s1] at b2
    have a3 : (d0.map ((fun x => |x|) ∘ Fp.rnd)).sum ≤ _ := a2
    have b3 : (d1.map ((fun x => |x|) ∘ fun v => Fp.mul (Fp.rnd v) (-1))).sum ≤ _ := b2
    clear h10 h90
    norm_num at *
    linarith
  · have e4 : positiveSum (d0.map Fp.rnd ++ d1.map fun v => Fp.mul (Fp.rnd v) (-1)) = (d0.map Fp.rnd).sum := by
      unfold positiveSum
      rw [List.map_append, List.sum_append, List.map_map, List.map_map]
      have z : (d1.map ((fun x => max 0 x) ∘ fun v => Fp.mul (Fp.rnd v) (-1))).sum = 0 := by
        refine List.sum_eq_zero fun y hy => ?_
        obtain ⟨x, hx, rfl⟩ := List.mem_map.1 hy
        refine max_eq_left ?_
        have := rnd_nonneg (n1 x hx)
        exact (rnd_mono (by linarith : Fp.rnd x * -1 ≤ 0)).trans (le_of_eq rnd_zero)
      rw [z, add_zero]
      refine congrArg List.sum (List.map_congr_left fun x hx => ?_)
      exact max_eq_right (rnd_nonneg (n0 x hx))
    rw [e4]
    simp only [id] at a1
    rw [habs d0 n0, s0, List.map_id, s0] at a1
    have := abs_le.1 a1
    norm_num at *
    constructor <;> linarith

theorem fpPairDeltas_spec (M : ℝ) (dxs dys : List ℝ) (h : dxs.length = dys.length) :
    ∃ ds, Fp.pairDeltas M dxs dys = .val ds ∧ ds.map Prod.fst = dxs ∧ (ds.map Prod.snd).Perm dys := by
  induction dxs generalizing dys with
  | nil =>
    refine ⟨[], rfl, rfl, ?_⟩
    rw [List.length_nil, eq_comm, List.length_eq_zero_iff] at h
    rw [h]; exact List.Perm.refl _
  | cons dx dxs ih =>
    obtain ⟨dy, rest, e, p, _⟩ := takeMin_spec (fun dy => |Fp.sub (Fp.sub M (Fp.mul dx dx)) (Fp.mul dy dy)|) dys
      (by intro h'; simp [h'] at h)
    have hl : dxs.length = rest.length := by
      have := p.length_eq
      simp only [List.length_cons] at this h
      omega
    obtain ⟨ds, e2, f, p2⟩ := ih rest hl
    refine ⟨(dx, dy) :: ds, ?_, by simp [f], ?_⟩
    · rw [Fp.pairDeltas]
      simp only [e, e2, Outcome.val_bind, Outcome.pure_eq]
    · rw [List.map_cons]
      exact (p2.cons dy).trans p

theorem fpCombineDeltas_spec (dxs dys : List ℝ) (h : dxs.length = dys.length) (hn : 0 < dxs.length) :
    ∃ ds, Fp.combineDeltas dxs dys = .val ds ∧ (ds.map Prod.fst).Perm dxs ∧ (ds.map Prod.snd).Perm dys := by
  obtain ⟨a, ra, ea, _⟩ := takeMax_spec (sortReals dxs) (by
    intro h'; have := (sortReals_perm dxs).length_eq; simp [h'] at this; omega)
  obtain ⟨b, rb, eb, _⟩ := takeMax_spec dys (by intro h'; simp [h'] at h; simp [h] at hn)
  obtain ⟨ds, e, f, p⟩ := fpPairDeltas_spec (Fp.add (Fp.mul a a) (Fp.mul b b)) (sortReals dxs) dys
    (by rw [(sortReals_perm dxs).length_eq, h])
  refine ⟨ds, ?_, by rw [f]; exact sortReals_perm dxs, p⟩
  unfold Fp.combineDeltas
  simp only [ea, eb, Outcome.val_bind]
  exact e

/-- The scaled increments of one direction. -/
theorem scaled_spec {dx : List ℝ} (s1 : |dx.sum| ≤ 4 / 2 ^ 53) (s2 : (dx.map fun x => |x|).sum ≤ 2.001)
    (s3 : 4 / 5 - 3 / 2 ^ 53 ≤ positiveSum dx ∧ positiveSum dx ≤ 1 + 1 / 2 ^ 53) (a : ℝ) (ha : 0 ≤ a) :
    |(dx.map fun x => Fp.mul x a).sum| ≤ 7 / 2 ^ 53 * a ∧ (dx.map fun x => |Fp.mul x a|).sum ≤ 2.01 * a ∧
      (4 / 5 - 1 / 2 ^ 50) * a ≤ (dx.map fun x => max 0 (Fp.mul x a)).sum ∧
      (dx.map fun x => max 0 (Fp.mul x a)).sum ≤ (1 + 1 / 2 ^ 50) * a := by
  obtain ⟨a1, a2⟩ := sum_rounded (fun x => Fp.mul x a) (fun x => x * a) (c := 1 / 2 ^ 53) dx fun x _ => rnd_error_num _
  have e1 : (dx.map fun x => x * a).sum = dx.sum * a := by rw [List.sum_map_mul_right, List.map_id']
  have e2 : (dx.map fun x => |x * a|).sum = (dx.map fun x => |x|).sum * a := by
    rw [← List.sum_map_mul_right]
    simp only [abs_mul, abs_of_nonneg ha]
  rw [e1, e2] at a1
  rw [e2] at a2
  have t1 : (dx.map fun x => |x|).sum * a ≤ 2.001 * a := mul_le_mul_of_nonneg_right s2 ha
  have t2 : |dx.sum * a| ≤ 4 / 2 ^ 53 * a := by
    rw [abs_mul, abs_of_nonneg ha]
    exact mul_le_mul_of_nonneg_right s1 ha
  refine ⟨?_, ?_, ?_⟩
  · have := abs_le.1 a1
    have := abs_le.1 t2
    rw [abs_le]
    norm_num at *
    constructor <;> linarith
  · norm_num at *
    linarith
  · obtain ⟨c1, -⟩ := sum_rounded (fun x => max 0 (Fp.mul x a)) (fun x => max 0 x * a) (c := 1 / 2 ^ 53) dx fun x _ => by
      rcases le_total 0 x with h | h
      · rw [max_eq_right h, max_eq_right (show 0 ≤ Fp.mul x a from rnd_nonneg (mul_nonneg h ha))]
        exact rnd_error_num _
      · rw [max_eq_left h, max_eq_left (show Fp.mul x a ≤ 0 from
          (rnd_mono (mul_nonpos_of_nonpos_of_nonneg h ha)).trans (le_of_eq rnd_zero))]
        simp
    have e3 : (dx.map fun x => max 0 x * a).sum = positiveSum dx * a := by
      unfold positiveSum
      rw [List.sum_map_mul_right]
    have e4 : (dx.map fun x => |max 0 x * a|).sum = positiveSum dx * a := by
      rw [← e3]
      exact congrArg List.sum (List.map_congr_left fun x _ => abs_of_nonneg (mul_nonneg (le_max_left _ _) ha))
    rw [e3, e4] at c1
    have t3 := mul_le_mul_of_nonneg_right s3.1 ha
    have t4 := mul_le_mul_of_nonneg_right s3.2 ha
    have := abs_le.1 c1
    clear a1 a2
    norm_num at *
    constructor <;> linarith

/-- The edges of a sampled polygon. -/
theorem sampleEdges_spec {sort : List V3 → List V3} (hs : ∀ xs, (sort xs).Perm xs) (d : PolygonDraws) (n i j k : ℕ)
    (hu : ∀ k, 0 ≤ d.interval k ∧ d.interval k ≤ 1)
    (hi : IsFirst (3 ≤ ·) d.corners i) (hi' : i < 99) (hn : d.corners i = n)
    (hj : IsFirst (0 ≤ ·) d.strikeLength j) (hj' : j < 100) (hk : IsFirst (0 ≤ ·) d.dipLength k) (hk' : k ≤ 100) :
    ∃ edges, Fp.sampleEdges sort d = .val (flatEdges edges) ∧ edges.length = n ∧
      |(edges.map Prod.fst).sum| ≤ 7 / 2 ^ 53 * d.dipLength k ∧ |(edges.map Prod.snd).sum| ≤ 7 / 2 ^ 53 * d.strikeLength j ∧
      edgeSum edges ≤ 2.01 * (d.dipLength k + d.strikeLength j) ∧
      ((4 / 5 - 1 / 2 ^ 50) * d.dipLength k ≤ positiveSum (edges.map Prod.fst) ∧
        positiveSum (edges.map Prod.fst) ≤ (1 + 1 / 2 ^ 50) * d.dipLength k) ∧
      ((4 / 5 - 1 / 2 ^ 50) * d.strikeLength j ≤ positiveSum (edges.map Prod.snd) ∧
        positiveSum (edges.map Prod.snd) ≤ (1 + 1 / 2 ^ 50) * d.strikeLength j) := by
  have n3 : 3 ≤ n := by
    have : (3 : ℤ) ≤ d.corners i := hi.1
    omega
  have hlen : ∀ first, (intervalValues d.interval first n).length = n := fun f => by
    simp [intervalValues]
  have h01 : ∀ first, ∀ v ∈ intervalValues d.interval first n, 0 ≤ v ∧ v ≤ 1 := by
    intro f v hv
    obtain ⟨i, _, rfl⟩ := List.mem_map.1 hv
    exact hu _
  obtain ⟨dx, ex, lx, sx, px, ux⟩ := fpDeltas_spec (intervalValues d.interval 0 n) (by rw [hlen]; exact n3) (h01 0)
  obtain ⟨dy, ey, ly, sy, py, uy⟩ := fpDeltas_spec (intervalValues d.interval n n) (by rw [hlen]; exact n3) (h01 n)
  rw [hlen] at lx ly
  obtain ⟨ds, ed, qx, qy⟩ := fpCombineDeltas_spec dx dy (by rw [lx, ly]) (by omega)
  set raw : List V3 := ds.map fun e => ⟨Fp.mul e.1 (d.dipLength k), Fp.mul e.2 (d.strikeLength j), 0⟩ with hraw
  have hperm := hs raw
  have hc := cornersLoop_first d.corners i hi' hi
  have hS := lengthLoop_first d.strikeLength j hj'.le hj
  have hD := lengthLoop_first d.dipLength k hk' hk
  obtain ⟨x1, x2, x3⟩ := scaled_spec sx px ux (d.dipLength k) hk.1
  obtain ⟨y1, y2, y3⟩ := scaled_spec sy py uy (d.strikeLength j) hj.1
  have rx : ∀ g : ℝ → ℝ, ((sort raw).map fun v => g v.x).sum = (dx.map fun x => g (Fp.mul x (d.dipLength k))).sum := by
    intro g
    rw [(hperm.map _).sum_eq, ← (qx.map fun x => g (Fp.mul x (d.dipLength k))).sum_eq, hraw, List.map_map, List.map_map]
    rfl
  have ry : ∀ g : ℝ → ℝ, ((sort raw).map fun v => g v.y).sum = (dy.map fun x => g (Fp.mul x (d.strikeLength j))).sum := by
    intro g
    rw [(hperm.map _).sum_eq, ← (qy.map fun x => g (Fp.mul x (d.strikeLength j))).sum_eq, hraw, List.map_map, List.map_map]
    rfl
  refine ⟨(sort raw).map fun v => (v.x, v.y), ?_, ?_, ?_, ?_, ?_, ?_, ?_⟩
  · have e : flatEdges ((sort raw).map fun v => (v.x, v.y)) = sort raw := by
      unfold flatEdges
      rw [List.map_map]
      conv_rhs => rw [← List.map_id (sort raw)]
      refine List.map_congr_left fun v hv => ?_
      obtain ⟨e, _, rfl⟩ := List.mem_map.1 (hperm.mem_iff.1 hv)
      rfl
    rw [e]
    unfold Fp.sampleEdges
    rw [hc]
    simp only [if_neg (show i + 1 ≠ 100 by omega), hn, Int.toNat_natCast, ex, ey, ed, Outcome.val_bind, hS, hD,
      if_neg (show j ≠ 100 by omega)]
    rfl
  · rw [List.length_map, hperm.length_eq, hraw, List.length_map, ← lx, ← qx.length_eq, List.length_map]
  · rw [List.map_map]
    have := rx id
    simp only [id] at this
    rw [show (Prod.fst ∘ fun v : V3 => (v.x, v.y)) = fun v => v.x from rfl, this]
    exact x1
  · rw [List.map_map]
    have := ry id
    simp only [id] at this
    rw [show (Prod.snd ∘ fun v : V3 => (v.x, v.y)) = fun v => v.y from rfl, this]
    exact y1
  · have h : edgeSum ((sort raw).map fun v => (v.x, v.y)) ≤ ((sort raw).map fun v => |v.x| + |v.y|).sum := by
      unfold edgeSum
      rw [List.map_map]
      refine List.sum_le_sum fun v _ => ?_
      show √(v.x ^ 2 + v.y ^ 2) ≤ _
      refine Real.sqrt_le_iff.2 ⟨by positivity, ?_⟩
      rw [← sq_abs v.x, ← sq_abs v.y]
      nlinarith [mul_nonneg (abs_nonneg v.x) (abs_nonneg v.y)]
    rw [List.sum_map_add, rx fun x => |x|, ry fun x => |x|] at h
    linarith
  · unfold positiveSum
    rw [List.map_map, List.map_map]
    have := rx fun x => max 0 x
    rw [show ((fun x => max 0 x) ∘ Prod.fst) ∘ (fun v : V3 => (v.x, v.y)) = fun v => max 0 v.x from rfl, this]
    exact x3
  · unfold positiveSum
    rw [List.map_map, List.map_map]
    have := ry fun x => max 0 x
    rw [show ((fun x => max 0 x) ∘ Prod.snd) ∘ (fun v : V3 => (v.x, v.y)) = fun v => max 0 v.y from rfl, this]
    exact y3

/-- **The sampler.**  In double precision, a sampled polygon has as many corners as sampled, which lie in a plane with the
sampled strike and dip angle up to an error that is bounded by the sampled lengths, the number of corners and the
position. -/
theorem C156_sampled {sort : List V3 → List V3} (hs : ∀ xs, (sort xs).Perm xs) (d : PolygonDraws) (n i j k : ℕ)
    (hu : ∀ k, 0 ≤ d.interval k ∧ d.interval k ≤ 1)
    (hi : IsFirst (3 ≤ ·) d.corners i) (hi' : i < 99) (hn : d.corners i = n) (hn' : n ≤ 2 ^ 20)
    (hj : IsFirst (0 ≤ ·) d.strikeLength j) (hj' : j < 100) (hk : IsFirst (0 ≤ ·) d.dipLength k) (hk' : k ≤ 100) :
    ∃ cs, Fp.sampleCorners sort d = .val cs ∧ cs.length = n ∧
      ∀ p ∈ cs, ∀ q ∈ cs, |inner (dipNormal d.strikeAngle d.dipAngle) (p - q)| ≤
        (1 / 2 ^ 42 + n / 2 ^ 49) * (d.dipLength k + d.strikeLength j) + 1 / 2 ^ 51 * norm d.center := by
  obtain ⟨edges, e1, e2, -, -, e5, -⟩ := sampleEdges_spec hs d n i j k hu hi hi' hn hj hj' hk hk'
  have n3 : 3 ≤ n := by
    have : (3 : ℤ) ≤ d.corners i := hi.1
    omega
  have hne : edges ≠ [] := by
    rintro rfl
    simp at e2
    omega
  obtain ⟨cs, h1, h2⟩ := C156_planar edges d.strikeAngle d.dipAngle d.center hne (by rw [e2]; exact hn')
  obtain ⟨cs', h1', h3, -⟩ := C156_corners edges d.strikeAngle d.dipAngle d.center hne (by rw [e2]; exact hn')
  obtain rfl := Outcome.val.inj (h1'.symm.trans h1)
  refine ⟨cs', ?_, h3.trans e2, fun p hp q hq => (h2 p hp q hq).trans ?_⟩
  · unfold Fp.sampleCorners
    rw [e1]
    exact h1
  · rw [e2]
    have s0 : 0 ≤ d.dipLength k + d.strikeLength j := add_nonneg hk.1 hj.1
    have : (1 / 2 ^ 44 + (n : ℝ) / 2 ^ 51) * edgeSum edges ≤
        (1 / 2 ^ 44 + (n : ℝ) / 2 ^ 51) * (2.01 * (d.dipLength k + d.strikeLength j)) :=
      mul_le_mul_of_nonneg_left e5 (by positivity)
    have i : (1 / 2 ^ 44 + (n : ℝ) / 2 ^ 51) * (2.01 * (d.dipLength k + d.strikeLength j)) ≤
        (1 / 2 ^ 42 + n / 2 ^ 49) * (d.dipLength k + d.strikeLength j) := by
      rw [← mul_assoc]
      refine mul_le_mul_of_nonneg_right ?_ s0
      have : (0 : ℝ) ≤ n := Nat.cast_nonneg n
      have e : (1 / 2 ^ 42 + (n : ℝ) / 2 ^ 49) = (1 / 2 ^ 44 + (n : ℝ) / 2 ^ 51) * 4 := by ring
      rw [e]
      exact mul_le_mul_of_nonneg_left (by norm_num) (by positivity)
    linarith

/-- **Dimensions.**  In double precision, the corners are the partial sums of edges (up to a translation and the error of
`C156_corners`) whose components in the direction of the dip and along the strike add up to zero, and their positive parts to
between 0.8 times and once the sampled lengths, each up to 2⁻⁵⁰ times the length. -/
theorem C156_dimensions {sort : List V3 → List V3} (hs : ∀ xs, (sort xs).Perm xs) (d : PolygonDraws) (n i j k : ℕ)
    (hu : ∀ k, 0 ≤ d.interval k ∧ d.interval k ≤ 1)
    (hi : IsFirst (3 ≤ ·) d.corners i) (hi' : i < 99) (hn : d.corners i = n) (hn' : n ≤ 2 ^ 20)
    (hj : IsFirst (0 ≤ ·) d.strikeLength j) (hj' : j < 100) (hk : IsFirst (0 ≤ ·) d.dipLength k) (hk' : k ≤ 100) :
    ∃ edges : List (ℝ × ℝ), edges.length = n ∧
      (∃ cs o, Fp.sampleCorners sort d = .val cs ∧ cs.length = n ∧ ∀ m q, cs[m]? = some q →
        Spec.dist q (o + cornerAt d.strikeAngle d.dipAngle edges m) ≤
          (1 / 2 ^ 43 + n / 2 ^ 50) * (d.dipLength k + d.strikeLength j) + 1 / 2 ^ 52 * norm d.center) ∧
      |(edges.map Prod.fst).sum| ≤ 1 / 2 ^ 50 * d.dipLength k ∧ |(edges.map Prod.snd).sum| ≤ 1 / 2 ^ 50 * d.strikeLength j ∧
      ((4 / 5 - 1 / 2 ^ 50) * d.dipLength k ≤ positiveSum (edges.map Prod.fst) ∧
        positiveSum (edges.map Prod.fst) ≤ (1 + 1 / 2 ^ 50) * d.dipLength k) ∧
      ((4 / 5 - 1 / 2 ^ 50) * d.strikeLength j ≤ positiveSum (edges.map Prod.snd) ∧
        positiveSum (edges.map Prod.snd) ≤ (1 + 1 / 2 ^ 50) * d.strikeLength j) := by
  obtain ⟨edges, e1, e2, e3, e4, e5, e6⟩ := sampleEdges_spec hs d n i j k hu hi hi' hn hj hj' hk hk'
  have n3 : 3 ≤ n := by
    have : (3 : ℤ) ≤ d.corners i := hi.1
    omega
  have hne : edges ≠ [] := by
    rintro rfl
    simp at e2
    omega
  obtain ⟨cs, h1, h3, o, h2⟩ := C156_corners edges d.strikeAngle d.dipAngle d.center hne (by rw [e2]; exact hn')
  have u : (7 : ℝ) / 2 ^ 53 ≤ 1 / 2 ^ 50 := by norm_num
  refine ⟨edges, e2, ⟨cs, o, ?_, h3.trans e2, fun m q hq => (h2 m q hq).trans ?_⟩,
    e3.trans (mul_le_mul_of_nonneg_right u hk.1), e4.trans (mul_le_mul_of_nonneg_right u hj.1), e6⟩
  · unfold Fp.sampleCorners
    rw [e1]
    exact h1
  · rw [e2]
    have s0 : 0 ≤ d.dipLength k + d.strikeLength j := add_nonneg hk.1 hj.1
    have : (1 / 2 ^ 45 + (n : ℝ) / 2 ^ 52) * edgeSum edges ≤
        (1 / 2 ^ 45 + (n : ℝ) / 2 ^ 52) * (2.01 * (d.dipLength k + d.strikeLength j)) :=
      mul_le_mul_of_nonneg_left e5 (by positivity)
    have i : (1 / 2 ^ 45 + (n : ℝ) / 2 ^ 52) * (2.01 * (d.dipLength k + d.strikeLength j)) ≤
        (1 / 2 ^ 43 + n / 2 ^ 50) * (d.dipLength k + d.strikeLength j) := by
      rw [← mul_assoc]
      refine mul_le_mul_of_nonneg_right ?_ s0
      have : (0 : ℝ) ≤ n := Nat.cast_nonneg n
      have e : (1 / 2 ^ 43 + (n : ℝ) / 2 ^ 50) = (1 / 2 ^ 45 + (n : ℝ) / 2 ^ 52) * 4 := by ring
      rw [e]
      exact mul_le_mul_of_nonneg_left (by norm_num) (by positivity)
    linarith

/-- **The assertion.**  In double precision, the assertion that a sampled polygon is closed holds for at most 1000 corners
and lengths with a sum of at most 1e5. -/
theorem C156_assertion {sort : List V3 → List V3} (hs : ∀ xs, (sort xs).Perm xs) (d : PolygonDraws) (n i j k : ℕ)
    (hu : ∀ k, 0 ≤ d.interval k ∧ d.interval k ≤ 1)
    (hi : IsFirst (3 ≤ ·) d.corners i) (hi' : i < 99) (hn : d.corners i = n) (hn' : n ≤ 1000)
    (hj : IsFirst (0 ≤ ·) d.strikeLength j) (hj' : j < 100) (hk : IsFirst (0 ≤ ·) d.dipLength k) (hk' : k ≤ 100)
    (hl : d.dipLength k + d.strikeLength j ≤ 10 ^ 5) :
    ∃ edges rotated, Fp.sampleEdges sort d = .val edges ∧
      Fp.polygonEdges edges d.strikeAngle d.dipAngle = .val rotated ∧ Fp.polygonCloses rotated := by
  obtain ⟨edges, e1, e2, e3, e4, e5, -⟩ := sampleEdges_spec hs d n i j k hu hi hi' hn hj hj' hk hk'
  have n3 : 3 ≤ n := by
    have : (3 : ℤ) ≤ d.corners i := hi.1
    omega
  have hne : edges ≠ [] := by
    rintro rfl
    simp at e2
    omega
  obtain ⟨es, h1, h2, -⟩ := C156_closes edges d.strikeAngle d.dipAngle hne (by rw [e2]; omega)
  refine ⟨_, es, e1, h1, h2 ?_⟩
  have s0 : 0 ≤ d.dipLength k + d.strikeLength j := add_nonneg hk.1 hj.1
  have a : √((edges.map Prod.fst).sum ^ 2 + (edges.map Prod.snd).sum ^ 2) ≤ 7 / 2 ^ 53 * (d.dipLength k + d.strikeLength j) := by
    have : √((edges.map Prod.fst).sum ^ 2 + (edges.map Prod.snd).sum ^ 2) ≤
        |(edges.map Prod.fst).sum| + |(edges.map Prod.snd).sum| := by
      refine Real.sqrt_le_iff.2 ⟨by positivity, ?_⟩
      rw [← sq_abs (edges.map Prod.fst).sum, ← sq_abs (edges.map Prod.snd).sum]
      nlinarith [mul_nonneg (abs_nonneg (edges.map Prod.fst).sum) (abs_nonneg (edges.map Prod.snd).sum)]
    linarith
  have b : (1 / 2 ^ 45 + (edges.length : ℝ) / 2 ^ 52) * edgeSum edges ≤ (1 / 2 ^ 45 + 1000 / 2 ^ 52) * (2.01 * 10 ^ 5) := by
    have : (edges.length : ℝ) ≤ 1000 := by
      rw [e2]
      exact_mod_cast hn'
    refine mul_le_mul ?_ (e5.trans (by linarith)) (edgeSum_nonneg _) (by positivity)
    have := div_le_div_of_nonneg_right this (show (0 : ℝ) ≤ 2 ^ 52 by positivity)
    linarith
  norm_num at *
  linarith

/-- Four corners, lengths 1 and 2, at the point (100, 0, 0). -/
noncomputable def smallDraws : PolygonDraws :=
  ⟨fun _ => 4, fun k => 1 / (k + 1), fun _ => 2, fun _ => 1, Real.pi / 4, 1, ⟨100, 0, 0⟩⟩

example : (∃ cs, Fp.sampleCorners id smallDraws = .val cs ∧ cs.length = 4 ∧
      ∀ p ∈ cs, ∀ q ∈ cs, |inner (dipNormal (Real.pi / 4) 1) (p - q)| ≤ 1 / 10 ^ 11) ∧
    ∃ edges rotated, Fp.sampleEdges id smallDraws = .val edges ∧
      Fp.polygonEdges edges (Real.pi / 4) 1 = .val rotated ∧ Fp.polygonCloses rotated := by
  have hu : ∀ k, 0 ≤ smallDraws.interval k ∧ smallDraws.interval k ≤ 1 := by
    intro k
    have : (0 : ℝ) ≤ k := Nat.cast_nonneg k
    show 0 ≤ 1 / ((k : ℝ) + 1) ∧ 1 / ((k : ℝ) + 1) ≤ 1
    exact ⟨by positivity, by rw [div_le_one (by positivity)]; linarith⟩
  have f1 : IsFirst (3 ≤ ·) smallDraws.corners 0 := ⟨by norm_num [smallDraws], by simp⟩
  have f2 : IsFirst (0 ≤ ·) smallDraws.strikeLength 0 := ⟨by norm_num [smallDraws], by simp⟩
  have f3 : IsFirst (0 ≤ ·) smallDraws.dipLength 0 := ⟨by norm_num [smallDraws], by simp⟩
  constructor
  · obtain ⟨cs, h1, h2, h3⟩ := C156_sampled (sort := id) (fun xs => List.Perm.refl _) smallDraws 4 0 0 0 hu f1 (by norm_num) rfl
      (by norm_num) f2 (by norm_num) f3 (by norm_num)
    refine ⟨cs, h1, h2, fun p hp q hq => (h3 p hp q hq).trans ?_⟩
    have e2 : Spec.norm smallDraws.center = 100 := by
      unfold Spec.norm
      norm_num [smallDraws]
      rw [show (10000 : ℝ) = 100 ^ 2 by norm_num, Real.sqrt_sq (by norm_num)]
    rw [e2]
    norm_num [smallDraws]
  · exact C156_assertion (sort := id) (fun xs => List.Perm.refl _) smallDraws 4 0 0 0 hu f1 (by norm_num) rfl
      (by norm_num) f2 (by norm_num) f3 (by norm_num) (by norm_num [smallDraws])

/-- A quadrilateral with edges of lengths 1 and 2 is taken for closed; three of its edges alone are not. -/
example : (∃ es, Fp.polygonEdges (flatEdges [(1, 0), (0, 2), (-1, 0), (0, -2)]) 1 1 = .val es ∧ Fp.polygonCloses es) ∧
    ∃ es, Fp.polygonEdges (flatEdges [(1, 0), (0, 2), (-1, 0)]) 1 1 = .val es ∧ ¬ Fp.polygonCloses es := by
  have s4 : √(4 : ℝ) = 2 := by rw [show (4 : ℝ) = 2 ^ 2 by norm_num, Real.sqrt_sq (by norm_num)]
  constructor
  · obtain ⟨es, h1, h2, _⟩ := C156_closes [(1, 0), (0, 2), (-1, 0), (0, -2)] 1 1 (by simp) (by norm_num)
    refine ⟨es, h1, h2 ?_⟩
    simp [edgeSum]
    norm_num [s4]
  · obtain ⟨es, h1, _, h2⟩ := C156_closes [(1, 0), (0, 2), (-1, 0)] 1 1 (by simp) (by norm_num)
    refine ⟨es, h1, h2 ?_⟩
    simp [edgeSum]
    norm_num [s4]

end Props
