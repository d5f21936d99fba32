import Verif.Model.Sampling.DiskSampler
import Verif.Spec.Rotation
import Verif.Props.Ellipse
import Verif.Props.Common

/-!
# Disk sampler: C26
-/

namespace Props
open Verif Frackit

theorem redraw_some (rej : ℝ → Prop) (fuel : ℕ) (s : Draws ℝ) (x : ℝ) (s' : Draws ℝ)
    (h : redraw rej fuel s = some (x, s')) :
    ∃ i, Spec.IsFirst (fun v => ¬ rej v) s i ∧ x = s i ∧ s' = s.drop (i + 1) := by
  induction fuel generalizing s with
  | zero => simp [redraw] at h
  | succ n ih =>
    rw [redraw] at h
    by_cases hr : rej (s 0)
    · rw [if_pos hr] at h
      obtain ⟨i, ⟨h1, h2⟩, h3, h4⟩ := ih _ h
      refine ⟨i + 1, ⟨h1, ?_⟩, h3, ?_⟩
      · intro k hk
        cases k with
        | zero => exact not_not.2 hr
        | succ k => exact h2 k (by omega)
      · rw [h4]; funext n; simp only [Draws.drop]; congr 1
    · rw [if_neg hr] at h
      cases h
      exact ⟨0, ⟨hr, by intro k hk; omega⟩, rfl, rfl⟩

theorem redraw_terminates (rej : ℝ → Prop) (s : Draws ℝ) (i : ℕ) (h : ¬ rej (s i)) (fuel : ℕ)
    (hf : i < fuel) : ∃ r, redraw rej fuel s = some r := by
  induction fuel generalizing s i with
  | zero => omega
  | succ n ih =>
    rw [redraw]
    by_cases hr : rej (s 0)
    · rw [if_pos hr]
      cases i with
      | zero => exact absurd hr h
      | succ i => exact ih (s.drop 1) i h (by omega)
    · rw [if_neg hr]; exact ⟨_, rfl⟩

/-- The axes are the images of the first two coordinate axes under the three rotations about x, y
and z, in this order. -/
theorem diskAxes_eq (a b c : ℝ) :
    diskAxes a b c = (Spec.rotZ c (Spec.rotY b (Spec.rotX a ⟨1, 0, 0⟩)),
      Spec.rotZ c (Spec.rotY b (Spec.rotX a ⟨0, 1, 0⟩))) := by
  simp only [diskAxes, rotate_eq]
  refine Prod.ext ?_ ?_ <;> ext <;>
    simp [V3.cross, V3.dot, Spec.rotX, Spec.rotY, Spec.rotZ] <;> ring

theorem frame_third {u v n : V3} (h : Spec.RightHandedOrthonormal u v n) : n = u.cross v := by
  obtain ⟨h1, h2, h3, h4, h5, h6, hd⟩ := h
  have hc := cross_unit h1 h2 h4
  unfold Spec.IsUnit at hc h3
  unfold Spec.det at hd
  have hs : (n.x - (u.cross v).x) ^ 2 + (n.y - (u.cross v).y) ^ 2 + (n.z - (u.cross v).z) ^ 2 = 0 := by
    have : n.x * (u.cross v).x + n.y * (u.cross v).y + n.z * (u.cross v).z = 1 := by
      simp only [V3.cross]; linarith
    linarith
  have z : (n - u.cross v).sqLen = 0 := by
    simp only [V3.sqLen, V3.sub_x, V3.sub_y, V3.sub_z]; linarith
  exact sub_eq_zero.1 (V3.sqLen_eq_zero.1 z)

theorem rotX_inner (a : ℝ) (v w : V3) : Spec.inner (Spec.rotX a v) (Spec.rotX a w) = Spec.inner v w := by
  simp only [Spec.inner, Spec.rotX]
  linear_combination (v.y * w.y + v.z * w.z) * Real.sin_sq_add_cos_sq a

theorem rotY_inner (a : ℝ) (v w : V3) : Spec.inner (Spec.rotY a v) (Spec.rotY a w) = Spec.inner v w := by
  simp only [Spec.inner, Spec.rotY]
  linear_combination (v.x * w.x + v.z * w.z) * Real.sin_sq_add_cos_sq a

theorem rotZ_inner (a : ℝ) (v w : V3) : Spec.inner (Spec.rotZ a v) (Spec.rotZ a w) = Spec.inner v w := by
  simp only [Spec.inner, Spec.rotZ]
  linear_combination (v.x * w.x + v.y * w.y) * Real.sin_sq_add_cos_sq a

theorem rotX_det (a : ℝ) (u v w : V3) :
    Spec.det (Spec.rotX a u) (Spec.rotX a v) (Spec.rotX a w) = Spec.det u v w := by
  simp only [Spec.det, Spec.rotX]
  linear_combination (u.x * (v.y * w.z - v.z * w.y) - u.y * (v.x * w.z - v.z * w.x)
    + u.z * (v.x * w.y - v.y * w.x)) * Real.sin_sq_add_cos_sq a

theorem rotY_det (a : ℝ) (u v w : V3) :
    Spec.det (Spec.rotY a u) (Spec.rotY a v) (Spec.rotY a w) = Spec.det u v w := by
  simp only [Spec.det, Spec.rotY]
  linear_combination (u.x * (v.y * w.z - v.z * w.y) - u.y * (v.x * w.z - v.z * w.x)
    + u.z * (v.x * w.y - v.y * w.x)) * Real.sin_sq_add_cos_sq a

theorem rotZ_det (a : ℝ) (u v w : V3) :
    Spec.det (Spec.rotZ a u) (Spec.rotZ a v) (Spec.rotZ a w) = Spec.det u v w := by
  simp only [Spec.det, Spec.rotZ]
  linear_combination (u.x * (v.y * w.z - v.z * w.y) - u.y * (v.x * w.z - v.z * w.x)
    + u.z * (v.x * w.y - v.y * w.x)) * Real.sin_sq_add_cos_sq a

theorem isUnit_inner (v : V3) : Spec.IsUnit v ↔ Spec.inner v v = 1 := by
  unfold Spec.IsUnit Spec.inner; constructor <;> intro h <;> linarith

theorem rot_frame (a b c : ℝ) :
    Spec.RightHandedOrthonormal (Spec.rotZ c (Spec.rotY b (Spec.rotX a ⟨1, 0, 0⟩)))
      (Spec.rotZ c (Spec.rotY b (Spec.rotX a ⟨0, 1, 0⟩)))
      (Spec.rotZ c (Spec.rotY b (Spec.rotX a ⟨0, 0, 1⟩))) := by
  simp only [Spec.RightHandedOrthonormal, isUnit_inner, Spec.Orthogonal, rotZ_inner, rotY_inner,
    rotX_inner, rotZ_det, rotY_det, rotX_det]
  norm_num [Spec.inner, Spec.det]

/-- **C26** Whatever is drawn, a call that returns gives a valid disk: its major semi-axis is the first
positive value drawn, its minor semi-axis is the first positive value drawn for it, limited by the
major one; the directions are the rotated coordinate axes (about x, then y, then z) and form a
right-handed orthonormal system; the center is the sampled point; each stream continues directly
after the values used. -/
theorem C26_valid (fuel : ℕ) (d : DiskDraws) (r : Outcome Elliptical) (d' : DiskDraws)
    (h : diskSample fuel d = some (r, d')) :
    ∃ i j e, Spec.IsFirst (fun v => 0 < v) d.major i ∧ Spec.IsFirst (fun v => 0 < v) d.minor j ∧
      r = .val e ∧ e.center = d.center 0 ∧ e.majLen = d.major i ∧
      e.minLen = min (d.major i) (d.minor j) ∧ 0 < e.minLen ∧ e.minLen ≤ e.majLen ∧
      e.major = Spec.rotZ (d.angleZ 0) (Spec.rotY (d.angleY 0) (Spec.rotX (d.angleX 0) ⟨1, 0, 0⟩)) ∧
      e.minor = Spec.rotZ (d.angleZ 0) (Spec.rotY (d.angleY 0) (Spec.rotX (d.angleX 0) ⟨0, 1, 0⟩)) ∧
      e.normal = Spec.rotZ (d.angleZ 0) (Spec.rotY (d.angleY 0) (Spec.rotX (d.angleX 0) ⟨0, 0, 1⟩)) ∧
      Spec.RightHandedOrthonormal e.major e.minor e.normal ∧
      (∀ n, d'.major n = d.major (n + (i + 1))) ∧ (∀ n, d'.minor n = d.minor (n + (j + 1))) ∧
      ∀ n, d'.center n = d.center (n + 1) ∧ d'.angleX n = d.angleX (n + 1) ∧
        d'.angleY n = d.angleY (n + 1) ∧ d'.angleZ n = d.angleZ (n + 1) := by
  unfold diskSample at h
  cases h1 : redraw (fun a => a ≤ 0) fuel d.major with
  | none => simp [h1] at h
  | some p =>
    obtain ⟨a, ma⟩ := p
    cases h2 : redraw (fun a => a ≤ 0) fuel d.minor with
    | none => simp [h1, h2] at h
    | some q =>
      obtain ⟨b, mi⟩ := q
      obtain ⟨i, hi, rfl, rfl⟩ := redraw_some _ _ _ _ _ h1
      obtain ⟨j, hj, rfl, rfl⟩ := redraw_some _ _ _ _ _ h2
      simp only [not_le] at hi hj
      have hbmin : (if d.minor j > d.major i then d.major i else d.minor j)
          = min (d.major i) (d.minor j) := by
        split_ifs with hc
        · exact (min_eq_left (le_of_lt hc)).symm
        · exact (min_eq_right (not_lt.1 hc)).symm
      have hfr := rot_frame (d.angleX 0) (d.angleY 0) (d.angleZ 0)
      have hpos : 0 < min (d.major i) (d.minor j) := lt_min hi.1 hj.1
      obtain ⟨e, he, hv, hc, hma, hmi, hla, hlb⟩ := C09_make_valid (d.center 0) _ _ (d.major i)
        (min (d.major i) (d.minor j)) hfr.1 hfr.2.1 hfr.2.2.2.1 hi.1 hpos
      simp only [h1, h2, hbmin, Option.some.injEq, Prod.mk.injEq] at h
      obtain ⟨rfl, rfl⟩ := h
      refine ⟨i, j, e, hi, hj, ?_, hc, hla, hlb, hlb ▸ hpos, ?_, hma, hmi, ?_, hv.frame,
        fun n => rfl, fun n => rfl, fun n => ⟨rfl, rfl, rfl, rfl⟩⟩
      · rw [diskAxes_eq]
        simp only [mkDirection_of_unit hfr.1, mkDirection_of_unit hfr.2.1, Outcome.val_bind]
        exact he
      · rw [hla, hlb]; exact min_le_left _ _
      · have hf2 := hv.frame
        rw [hma, hmi] at hf2
        exact (frame_third hf2).trans (frame_third hfr).symm

/-- **C26** A call returns exactly if both distributions of the axis lengths return a positive value
at some time. -/
theorem C26_terminates (d : DiskDraws) :
    (∃ fuel r, diskSample fuel d = some r) ↔ (∃ i, 0 < d.major i) ∧ ∃ j, 0 < d.minor j := by
  constructor
  · rintro ⟨fuel, ⟨r, d'⟩, h⟩
    obtain ⟨i, j, e, hi, hj, _⟩ := C26_valid fuel d r d' h
    exact ⟨⟨i, hi.1⟩, ⟨j, hj.1⟩⟩
  · rintro ⟨⟨i, hi⟩, ⟨j, hj⟩⟩
    obtain ⟨⟨a, s1⟩, h1⟩ := redraw_terminates (fun a => a ≤ 0) d.major i (by simpa using hi)
      (i + j + 1) (by omega)
    obtain ⟨⟨b, s2⟩, h2⟩ := redraw_terminates (fun a => a ≤ 0) d.minor j (by simpa using hj)
      (i + j + 1) (by omega)
    refine ⟨i + j + 1, ?_⟩
    unfold diskSample
    simp only [h1, h2]
    exact ⟨_, rfl⟩

/-- Streams with rejected values. -/
def sampleDiskDraws : DiskDraws :=
  ⟨fun n => ⟨n, 0, 0⟩, fun n => (n : ℝ) - 2, fun n => 10 * (n : ℝ) - 5, fun _ => 1, fun _ => 2,
    fun _ => 3⟩

/-- A call with three rejected values for the major and one for the minor axis. -/
example : ∃ fuel r d', diskSample fuel sampleDiskDraws = some (r, d') ∧ ∃ e, r = .val e ∧
    e.majLen = 1 ∧ e.minLen = 1 ∧ e.center = ⟨0, 0, 0⟩ := by
  obtain ⟨fuel, ⟨r, d'⟩, h⟩ := (C26_terminates sampleDiskDraws).2
    ⟨⟨3, by norm_num [sampleDiskDraws]⟩, ⟨1, by norm_num [sampleDiskDraws]⟩⟩
  obtain ⟨i, j, e, hi, hj, hr, hc, hM, hm, _⟩ := C26_valid _ _ _ _ h
  have hi3 : i = 3 := by
    rcases lt_trichotomy i 3 with h3 | h3 | h3
    · have := hi.1
      simp only [sampleDiskDraws] at this
      have : (i : ℝ) ≤ 2 := by exact_mod_cast Nat.lt_succ_iff.1 h3
      linarith
    · exact h3
    · exact absurd (by norm_num [sampleDiskDraws]) (hi.2 3 h3)
  have hj1 : j = 1 := by
    rcases lt_trichotomy j 1 with h3 | h3 | h3
    · obtain rfl : j = 0 := by omega
      have := hj.1
      norm_num [sampleDiskDraws] at this
    · exact h3
    · exact absurd (by norm_num [sampleDiskDraws]) (hj.2 1 h3)
  subst hi3 hj1
  exact ⟨fuel, r, d', h, e, hr, by rw [hM]; norm_num [sampleDiskDraws],
    by rw [hm]; norm_num [sampleDiskDraws], by rw [hc]; simp [sampleDiskDraws]⟩

end Props
