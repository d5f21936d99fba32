import Verif.Spec.ExampleSamplers
import Verif.Props.GeneratedExample
import Verif.Props.DiskSampler

/-!
# C127 The random distributions of the example programs
-/

namespace Props
open Verif Frackit Lemmas Appl

theorem toRadians_pos {x : ℝ} (h : 0 < x) : 0 < toRadians x := by
  unfold toRadians
  have := Real.pi_pos
  positivity

theorem normalDistro_ok {m s : ℝ} (h : 0 < s) : normalDistro m s = .val (.normal m s) := if_pos h

theorem uniformDistro_ok {a b : ℝ} (h : a ≤ b) : uniformDistro a b = .val (.uniform a b) := if_pos h

/-- All distributions of the example programs can be constructed. -/
def C127_full : Prop :=
  example1Samplers.isVal ∧ example2Samplers.isVal ∧ example3Samplers.isVal ∧ ∀ o ∈ [1, 2, 3], (example4Sampler o).isVal

theorem example1Samplers_eq : example1Samplers =
    .val (⟨.normal (toRadians 45) (toRadians 5), .normal (toRadians 90) (toRadians 5), .uniform 0.4 0.8, .uniform 0.4 0.8, 4, 4⟩,
      ⟨.normal (toRadians 0) (toRadians 5), .normal (toRadians 0) (toRadians 5), .uniform 0.4 0.8, .uniform 0.4 0.8, 4, 4⟩) := by
  have h5 : 0 < toRadians 5 := toRadians_pos (by norm_num)
  unfold example1Samplers quadSampling
  simp only [normalDistro_ok h5, uniformDistro_ok (show (0.4 : ℝ) ≤ 0.8 by norm_num), Outcome.val_bind, Outcome.pure_eq]

theorem example3Samplers_eq : example3Samplers =
    .val (⟨.normal 30 6.5, .normal 24 4.5, .normal (toRadians 0) (toRadians 7.5), .normal (toRadians 0) (toRadians 7.5),
        .normal (toRadians 0) (toRadians 7.5)⟩,
      ⟨.normal (toRadians 45) (toRadians 5), .normal (toRadians 90) (toRadians 5), .uniform 30 60, .uniform 30 60, 4, 4⟩) := by
  have h5 : 0 < toRadians 5 := toRadians_pos (by norm_num)
  have h7 : 0 < toRadians 7.5 := toRadians_pos (by norm_num)
  unfold example3Samplers quadSampling
  simp only [normalDistro_ok h5, normalDistro_ok h7, normalDistro_ok (show (0 : ℝ) < 6.5 by norm_num),
    normalDistro_ok (show (0 : ℝ) < 4.5 by norm_num), uniformDistro_ok (show (30 : ℝ) ≤ 60 by norm_num), Outcome.val_bind,
    Outcome.pure_eq]

theorem example4Sampler_eqs : example4Sampler 1 = .val ⟨.normal (toRadians 15) (toRadians 10), .normal (toRadians 90) (toRadians 10),
      .uniform 3 6, .uniform 3 6, 4, 9⟩ ∧
    example4Sampler 2 = .val ⟨.normal (toRadians 0) (toRadians 10), .normal (toRadians 0) (toRadians 10), .uniform 3 6, .uniform 3 6, 4, 9⟩ ∧
    example4Sampler 3 = .val ⟨.normal (toRadians (-75)) (toRadians 10), .normal (toRadians 90) (toRadians 10), .uniform 3 6,
      .uniform 3 6, 4, 9⟩ := by
  have h : 0 < toRadians 10 := toRadians_pos (by norm_num)
  unfold example4Sampler
  refine ⟨?_, ?_, ?_⟩ <;>
    simp only [normalDistro_ok h, uniformDistro_ok (show (3 : ℝ) ≤ 6 by norm_num), Outcome.val_bind, Outcome.pure_eq]

theorem example4Sampler_eq {o : ℕ} (ho : o ∈ [1, 2, 3]) : ∃ m1 m2, example4Sampler o =
    .val ⟨.normal m1 (toRadians 10), .normal m2 (toRadians 10), .uniform 3 6, .uniform 3 6, 4, 9⟩ := by
  simp only [List.mem_cons, List.not_mem_nil, or_false] at ho
  rcases ho with rfl | rfl | rfl
  · exact ⟨_, _, example4Sampler_eqs.1⟩
  · exact ⟨_, _, example4Sampler_eqs.2.1⟩
  · exact ⟨_, _, example4Sampler_eqs.2.2⟩

/-- **C127** The program of example 2 requests a uniform distribution on the interval from 0.5 to 0.1. -/
theorem C127_example2 : example2Samplers = .ub := by
  have h5 : 0 < toRadians 5 := toRadians_pos (by norm_num)
  have e : uniformDistro 0.5 0.1 = .ub := if_neg (by norm_num)
  unfold example2Samplers quadSampling
  simp only [normalDistro_ok h5, uniformDistro_ok (show (0.4 : ℝ) ≤ 0.6 by norm_num), e, Outcome.val_bind, Outcome.pure_eq]
  rfl

/-- The property does not hold because of example 2. -/
theorem C127_disproof : ¬ C127_full := by
  rintro ⟨_, h, _⟩
  rw [C127_example2] at h
  exact h

/-- **C127 (partial: without example 2)** -/
theorem C127_defined_partial :
    example1Samplers.isVal ∧ example3Samplers.isVal ∧ ∀ o ∈ [1, 2, 3], (example4Sampler o).isVal := by
  refine ⟨by rw [example1Samplers_eq]; trivial, by rw [example3Samplers_eq]; trivial, fun o ho => ?_⟩
  obtain ⟨_, _, h⟩ := example4Sampler_eq ho
  rw [h]
  trivial

/-- What is drawn from distributions on intervals of positive numbers is admissible. -/
theorem possible_admissible {s : PolygonSampling} {centers : V3 → Prop} {d : PolygonDraws} (h : Spec.PossibleDraws s centers d)
    {a b a' b' : ℝ} (e : s.strikeLength = .uniform a b) (e' : s.dipLength = .uniform a' b') (ha : 0 ≤ a) (ha' : 0 ≤ a')
    (h3 : 3 ≤ s.minCorners) : ∃ n : ℕ, ∃ Ls Ld, Admissible d n Ls Ld ∧ s.minCorners ≤ n ∧ n ≤ s.maxCorners ∧
      a ≤ Ls ∧ Ls ≤ b ∧ a' ≤ Ld ∧ Ld ≤ b' := by
  have hl := h.strikeLength 0
  have hd := h.dipLength 0
  rw [e] at hl
  rw [e'] at hd
  have hc := h.corners 0
  obtain ⟨n, hn⟩ : ∃ n : ℕ, d.corners 0 = n := ⟨(d.corners 0).toNat, by omega⟩
  refine ⟨n, d.strikeLength 0, d.dipLength 0, ⟨h.interval, ⟨0, by omega, ⟨by omega, by intro k hk; omega⟩, hn⟩,
    ⟨0, by omega, ⟨ha.trans hl.1, by intro k hk; omega⟩, rfl⟩, ⟨0, by omega, ⟨ha'.trans hd.1, by intro k hk; omega⟩, rfl⟩⟩,
    by omega, by omega, hl.1, hl.2, hd.1, hd.2⟩

/-- A sampler of polygons returns corners of a polygon of the drawn orientation, with extents no larger than `b` in dip and
strike direction, centred at a point of the given kind. -/
def SamplesWell (s : PolygonSampling) (b : ℝ) : Prop :=
  ∀ (sort : List V3 → List V3), SortsBy edgeAngle sort → ∀ (centers : V3 → Prop) (d : PolygonDraws),
    Spec.PossibleDraws s centers d → ∃ cs c, sampleCorners sort d = .val cs ∧
      s.minCorners ≤ cs.length ∧ cs.length ≤ s.maxCorners ∧
      (∀ p ∈ cs, Spec.PlanarPolygon (Spec.dipNormal d.strikeAngle d.dipAngle) p cs) ∧
      centers c ∧ Spec.BoxCenter cs c ∧
      (∃ lo hi, Spec.Extent (Spec.inner (Spec.dipDir d.strikeAngle d.dipAngle)) cs lo hi ∧ hi - lo ≤ b) ∧
      (∃ lo hi, Spec.Extent (Spec.inner (Spec.strikeDir d.strikeAngle)) cs lo hi ∧ hi - lo ≤ b)

theorem samplesWell {s : PolygonSampling} {a b : ℝ} (e : s.strikeLength = .uniform a b) (e' : s.dipLength = .uniform a b)
    (ha : 0 ≤ a) (h3 : 3 ≤ s.minCorners) : SamplesWell s b := by
  intro sort hs centers d hd
  obtain ⟨n, Ls, Ld, hA, h1, h2, -, h4, -, h6⟩ := possible_admissible hd e e' ha ha h3
  obtain ⟨cs, k1, k2, k3, k4, ⟨lo, hi, k5, k6⟩, ⟨lo', hi', k7, k8⟩⟩ := C27_structure sort hs d n Ls Ld hA
  exact ⟨cs, d.center, k1, by omega, by omega, k3, hd.center, k4, ⟨lo, hi, k5, k6.trans h6⟩, ⟨lo', hi', k7, k8.trans h4⟩⟩

/-- **C127** For all values that may be drawn, the samplers of examples 1, 3 and 4 (and those of Python) return polygons of
the requested sizes. -/
theorem C127_polygons :
    (∃ s, example1Samplers = .val s ∧ SamplesWell s.1 0.8 ∧ SamplesWell s.2 0.8) ∧
    (∃ s, example3Samplers = .val s ∧ SamplesWell s.2 60) ∧
    (∀ o ∈ [1, 2, 3], ∃ s, example4Sampler o = .val s ∧ SamplesWell s 6 ∧ s.minCorners = 4 ∧ s.maxCorners = 9) ∧
    SamplesWell example1PySamplers.1 0.8 ∧ SamplesWell example1PySamplers.2 0.8 ∧
    SamplesWell example2PySamplers.1 0.6 ∧ SamplesWell example2PySamplers.2 0.6 ∧ SamplesWell example3PySamplers.2 60 := by
  have hpy : ∀ {a b : ℝ}, a ≤ b → pyUniform a b = .uniform a b := fun h => by
    unfold pyUniform
    rw [min_eq_left h, max_eq_right h]
  refine ⟨⟨_, example1Samplers_eq, samplesWell rfl rfl (by norm_num) (by norm_num), samplesWell rfl rfl (by norm_num) (by norm_num)⟩,
    ⟨_, example3Samplers_eq, samplesWell rfl rfl (by norm_num) (by norm_num)⟩, fun o ho => ?_, ?_, ?_, ?_, ?_, ?_⟩
  · obtain ⟨_, _, h⟩ := example4Sampler_eq ho
    exact ⟨_, h, samplesWell rfl rfl (by norm_num) (by norm_num), rfl, rfl⟩
  · exact samplesWell (hpy (by norm_num)) (hpy (by norm_num)) (by norm_num) (by norm_num [example1PySamplers])
  · exact samplesWell (hpy (by norm_num)) (hpy (by norm_num)) (by norm_num) (by norm_num [example1PySamplers])
  · exact samplesWell (hpy (by norm_num)) (hpy (by norm_num)) (by norm_num) (by norm_num [example2PySamplers])
  · exact samplesWell (hpy (by norm_num)) (hpy (by norm_num)) (by norm_num) (by norm_num [example2PySamplers])
  · exact samplesWell (hpy (by norm_num)) (hpy (by norm_num)) (by norm_num) (by norm_num [example3PySamplers])

/-- **C127** The points of example 2 are drawn from the smallest box around the domain, the cylinder of radius 0.5 and
height 1, and the quadrilaterals of the Python program are centred in it. -/
theorem C127_example2_box : ∃ b, example2Box = .val b ∧
    (∀ p : V3, p.x * p.x + p.y * p.y ≤ 1 / 4 → 0 ≤ p.z → p.z ≤ 1 → Spec.PointOfBox b p) ∧
    (∀ b' : Box, (∀ p : V3, p.x * p.x + p.y * p.y ≤ 1 / 4 → 0 ≤ p.z → p.z ≤ 1 → Spec.PointOfBox b' p) →
      ∀ p, Spec.PointOfBox b p → Spec.PointOfBox b' p) ∧
    ∀ (sort : List V3 → List V3), SortsBy edgeAngle sort → ∀ d,
      Spec.PossibleDraws example2PySamplers.1 (Spec.PointOfBox b) d ∨ Spec.PossibleDraws example2PySamplers.2 (Spec.PointOfBox b) d →
      ∃ cs c, sampleCorners sort d = .val cs ∧ cs.length = 4 ∧ Spec.BoxCenter cs c ∧ |c.x| ≤ 1 / 2 ∧ |c.y| ≤ 1 / 2 ∧
        0 ≤ c.z ∧ c.z ≤ 1 := by
  have hb : example2Box = .val ⟨-0.5, 0.5, -0.5, 0.5, 0, 1⟩ := by
    unfold example2Box Box.make
    norm_num
  obtain ⟨-, -, -, -, -, h1, h2, -⟩ := C127_polygons
  refine ⟨_, hb, ?_, ?_, ?_⟩
  · intro p h hz hz'
    refine ⟨⟨?_, ?_⟩, ⟨?_, ?_⟩, hz, hz'⟩ <;> norm_num <;> nlinarith [mul_self_nonneg p.x, mul_self_nonneg p.y]
  · intro b' h p hp
    have a1 := h ⟨-1 / 2, 0, 0⟩ (by norm_num) (by norm_num) (by norm_num)
    have a2 := h ⟨1 / 2, 0, 1⟩ (by norm_num) (by norm_num) (by norm_num)
    have a3 := h ⟨0, -1 / 2, 0⟩ (by norm_num) (by norm_num) (by norm_num)
    have a4 := h ⟨0, 1 / 2, 0⟩ (by norm_num) (by norm_num) (by norm_num)
    obtain ⟨⟨p1, p2⟩, ⟨p3, p4⟩, p5, p6⟩ := hp
    obtain ⟨⟨q1, -⟩, -, q5, -⟩ := a1
    obtain ⟨⟨-, q2⟩, -, -, q6⟩ := a2
    obtain ⟨-, ⟨q3, -⟩, -⟩ := a3
    obtain ⟨-, ⟨-, q4⟩, -⟩ := a4
    norm_num at *
    exact ⟨⟨by linarith, by linarith⟩, ⟨by linarith, by linarith⟩, by linarith, by linarith⟩
  · intro sort hs d hd
    have key : ∀ {s : PolygonSampling}, s.minCorners = 4 → s.maxCorners = 4 → SamplesWell s 0.6 →
        Spec.PossibleDraws s (Spec.PointOfBox ⟨-0.5, 0.5, -0.5, 0.5, 0, 1⟩) d →
        ∃ cs c, sampleCorners sort d = .val cs ∧ cs.length = 4 ∧ Spec.BoxCenter cs c ∧ |c.x| ≤ 1 / 2 ∧ |c.y| ≤ 1 / 2 ∧
          0 ≤ c.z ∧ c.z ≤ 1 := by
      intro s m1 m2 hw hp
      obtain ⟨cs, c, k1, k2, k3, -, ⟨⟨c1, c2⟩, ⟨c3, c4⟩, c5, c6⟩, k4, -⟩ := hw sort hs _ d hp
      refine ⟨cs, c, k1, by omega, k4, ?_, ?_, c5, c6⟩
      · rw [abs_le]; norm_num at c1 c2 ⊢; exact ⟨by linarith, by linarith⟩
      · rw [abs_le]; norm_num at c3 c4 ⊢; exact ⟨by linarith, by linarith⟩
    rcases hd with hd | hd
    · exact key rfl rfl h1 hd
    · exact key rfl rfl h2 hd

/-- **C127** In Python the axes of the disks of example 3 are drawn from intervals of positive numbers: a disk is returned
at once. -/
theorem C127_disks_python (d : DiskDraws) (h1 : ∀ k, Spec.Possible example3PySamplers.1.major (d.major k))
    (h2 : ∀ k, Spec.Possible example3PySamplers.1.minor (d.minor k)) :
    ∃ e d', diskSample 1 d = some (.val e, d') ∧ e.majLen = d.major 0 ∧ e.minLen = min (d.major 0) (d.minor 0) ∧
      4.5 ≤ e.minLen ∧ e.majLen ≤ 30 := by
  have k1 : 6.5 ≤ d.major 0 ∧ d.major 0 ≤ 30 := by
    have := h1 0
    norm_num [example3PySamplers, pyUniform, Spec.Possible] at this
    norm_num
    exact this
  have k2 : 4.5 ≤ d.minor 0 ∧ d.minor 0 ≤ 24 := by
    have := h2 0
    norm_num [example3PySamplers, pyUniform, Spec.Possible] at this
    norm_num
    exact this
  have p1 : ¬ d.major 0 ≤ 0 := by intro h; norm_num at k1; linarith
  have p2 : ¬ d.minor 0 ≤ 0 := by intro h; norm_num at k2; linarith
  obtain ⟨⟨r, d'⟩, hr⟩ : ∃ r, diskSample 1 d = some r := by
    unfold diskSample
    simp only [redraw, if_neg p1, if_neg p2]
    exact ⟨_, rfl⟩
  obtain ⟨i, j, e, hi, hj, rfl, _, h3, h4, _⟩ := C26_valid 1 d r d' hr
  have ei : i = 0 := by
    by_contra h
    exact hi.2 0 (by omega) (not_le.1 p1)
  have ej : j = 0 := by
    by_contra h
    exact hj.2 0 (by omega) (not_le.1 p2)
  subst ei ej
  refine ⟨e, d', hr, h3, h4, ?_, by rw [h3]; exact k1.2⟩
  rw [h4]
  exact le_min (le_trans (by norm_num) k1.1) k2.1

/-- **C127 / C126** The network of example 1, for all values that its samplers may draw: the quadrilaterals are made of
draws, with centres in the unit cube, and keep the constraints. -/
theorem C126_example1_samplers (s1 s2 : PolygonSampling) (he : example1Samplers = .val (s1, s2)) (b : Box)
    (hb : example1Box = .val b) (d1 d2 : ℕ → PolygonDraws)
    (hd1 : ∀ k, Spec.PossibleDraws s1 (Spec.PointOfBox b) (d1 k)) (hd2 : ∀ k, Spec.PossibleDraws s2 (Spec.PointOfBox b) (d2 k))
    (order : SamplingStatus → List (ℕ × ℕ)) (ho : ∀ s, (order s).Perm s.count)
    (sort : List V3 → List V3) (hs : SortsBy edgeAngle sort) (fuel k : ℕ) (s : Appl.TwoSets DistArg)
    (h : Appl.example1 (libraryEngine exactLibrary) order (fun k => quadDraw sort (d1 k)) (fun k => quadDraw sort (d2 k)) fuel
      = .val (some (k, s))) (x y : DistArg) (hx : x ∈ s.set1) (hy : y ∈ s.set2) :
    ∃ i j q r, MadeOf sort (d1 i) x q ∧ MadeOf sort (d2 j) y r ∧
      (∃ c, Spec.BoxCenter [q.p0, q.p1, q.p3, q.p2] c ∧ (0 ≤ c.x ∧ c.x ≤ 1) ∧ (0 ≤ c.y ∧ c.y ≤ 1) ∧ (0 ≤ c.z ∧ c.z ≤ 1)) ∧
      (∃ c, Spec.BoxCenter [r.p0, r.p1, r.p3, r.p2] c ∧ (0 ≤ c.x ∧ c.x ≤ 1) ∧ (0 ≤ c.y ∧ c.y ≤ 1) ∧ (0 ≤ c.z ∧ c.z ≤ 1)) ∧
      (Ordinary (d1 i).strikeAngle (d1 i).dipAngle q → Ordinary (d2 j).strikeAngle (d2 j).dipAngle r →
        KeepConstraints (2 * Real.pi / 9) (Spec.dipNormal (d1 i).strikeAngle (d1 i).dipAngle)
          (Spec.dipNormal (d2 j).strikeAngle (d2 j).dipAngle) q r) := by
  obtain ⟨rfl, rfl⟩ := Prod.mk.inj (Outcome.val.inj (example1Samplers_eq.symm.trans he))
  have eb : b = ⟨0, 1, 0, 1, 0, 1⟩ := by
    have : example1Box = .val ⟨0, 1, 0, 1, 0, 1⟩ := by
      unfold example1Box Box.make
      norm_num
    exact Outcome.val.inj (hb.symm.trans this)
  subst eb
  have quad : ∀ {s : PolygonSampling} {d : PolygonDraws} {c : V3 → Prop}, Spec.PossibleDraws s c d → s.strikeLength = .uniform 0.4 0.8 →
      s.dipLength = .uniform 0.4 0.8 → s.minCorners = 4 → s.maxCorners = 4 → QuadDraw d := by
    intro s d c h e1 e2 e3 e4
    have h' : Spec.PossibleDraws s c { d with corners := fun _ => 4 } := ⟨h.1, h.2, h.3, h.4, fun _ => by
      show s.minCorners ≤ 4 ∧ 4 ≤ s.maxCorners
      omega, h.6, h.7⟩
    obtain ⟨n, Ls, Ld, hA, h1, h2, -, h4, -, h6⟩ := possible_admissible h' e1 e2 (by norm_num) (by norm_num) (by omega)
    obtain rfl : n = 4 := by omega
    exact ⟨Ls, Ld, hA, h4, h6⟩
  have q1 := fun k => quad (hd1 k) rfl rfl rfl rfl
  have q2 := fun k => quad (hd2 k) rfl rfl rfl rfl
  have H := C126_example1 exactLibrary exactLibrary_sound order ho sort hs d1 d2 q1 q2 fuel k s h
  obtain ⟨i, _, q, hq, hdq⟩ := H.2.2.1 x hx
  obtain ⟨j, _, r, hr, hdr⟩ := H.2.2.2.1 y hy
  exact ⟨i, j, q, r, hq, hr, ⟨_, hdq.center, (hd1 i).center⟩, ⟨_, hdr.center, (hd2 j).center⟩, fun oq or =>
    C126_exact_library order ho sort hs d1 d2 q1 q2 fuel k s h x y hx hy i j q r hq hr oq or⟩

/-- The hypotheses are met by the draws of `highDraws`, up to the orientation: any orientation is possible. -/
example : ∃ s1 s2 b d, example1Samplers = .val (s1, s2) ∧ example1Box = .val b ∧
    Spec.PossibleDraws s2 (Spec.PointOfBox b) d ∧ d.strikeAngle = 0 ∧ d.strikeLength 0 = 3 / 5 := by
  refine ⟨_, _, ⟨0, 1, 0, 1, 0, 1⟩, highDraws 0, example1Samplers_eq, ?_, ⟨trivial, trivial, ?_, ?_, ?_, ?_, ?_⟩, rfl, rfl⟩
  · unfold example1Box Box.make
    norm_num
  · intro k; norm_num [Spec.Possible, highDraws]
  · intro k; norm_num [Spec.Possible, highDraws]
  · intro k; norm_num [highDraws]
  · intro k
    obtain ⟨_, _, h, _⟩ := highDraws_quad 0
    exact h.unit k
  · norm_num [Spec.PointOfBox, highDraws]

/-- `n` is the normal of the polygons for the mean values of strike and dip angle, which are normally distributed with standard
deviation `σ` (in degrees). -/
def MeanNormal (s : PolygonSampling) (σ : ℝ) (n : V3) : Prop :=
  ∃ strike dip, s.strikeAngle = .normal strike (σ * Real.pi / 180) ∧ s.dipAngle = .normal dip (σ * Real.pi / 180) ∧
    n = Spec.dipNormal strike dip

theorem meanNormal {s : PolygonSampling} {a b σ : ℝ} (h1 : s.strikeAngle = .normal (toRadians a) (toRadians σ))
    (h2 : s.dipAngle = .normal (toRadians b) (toRadians σ)) : MeanNormal s σ (Spec.dipNormal (toRadians a) (toRadians b)) :=
  ⟨_, _, h1, h2, rfl⟩

theorem dip_upright (a : ℝ) : Spec.dipNormal (toRadians a) (toRadians 90) = ⟨Real.cos (toRadians a), Real.sin (toRadians a), 0⟩ := by
  have h : toRadians 90 = Real.pi / 2 := by unfold toRadians; ring
  unfold Spec.dipNormal
  rw [h, Real.sin_pi_div_two, Real.cos_pi_div_two, one_mul, one_mul]

theorem dip_flat : Spec.dipNormal (toRadians 0) (toRadians 0) = ⟨0, 0, 1⟩ := by
  have h : toRadians 0 = 0 := by unfold toRadians; ring
  unfold Spec.dipNormal
  rw [h]
  simp

/-- **C127** The mean orientations of the sets of an example are orthogonal to each other: examples 1 and 2 (Python) have vertical
quadrilaterals with a strike of 45° and horizontal ones, example 3 has quadrilaterals of the first kind; example 4 has vertical polygons with a strike of 15°, horizontal ones, and
vertical ones orthogonal to both. -/
theorem C127_orientations :
    (∃ s, example1Samplers = .val s ∧ MeanNormal s.1 5 ⟨Real.cos (Real.pi / 4), Real.sin (Real.pi / 4), 0⟩ ∧ MeanNormal s.2 5 ⟨0, 0, 1⟩) ∧
    (MeanNormal example1PySamplers.1 5 ⟨Real.cos (Real.pi / 4), Real.sin (Real.pi / 4), 0⟩ ∧ MeanNormal example1PySamplers.2 5 ⟨0, 0, 1⟩) ∧
    (MeanNormal example2PySamplers.1 5 ⟨Real.cos (Real.pi / 4), Real.sin (Real.pi / 4), 0⟩ ∧ MeanNormal example2PySamplers.2 5 ⟨0, 0, 1⟩) ∧
    ((∃ s, example3Samplers = .val s ∧ MeanNormal s.2 5 ⟨Real.cos (Real.pi / 4), Real.sin (Real.pi / 4), 0⟩) ∧
      MeanNormal example3PySamplers.2 5 ⟨Real.cos (Real.pi / 4), Real.sin (Real.pi / 4), 0⟩) ∧
    ∃ s1 s2 s3 n1 n2 n3, example4Sampler 1 = .val s1 ∧ example4Sampler 2 = .val s2 ∧ example4Sampler 3 = .val s3 ∧
      MeanNormal s1 10 n1 ∧ MeanNormal s2 10 n2 ∧ MeanNormal s3 10 n3 ∧
      n1 = ⟨Real.cos (Real.pi / 12), Real.sin (Real.pi / 12), 0⟩ ∧ Spec.RightHandedOrthonormal n2 n1 (-n3) := by
  have h45 : Real.pi / 4 = toRadians 45 := by unfold toRadians; ring
  have h15 : Real.pi / 12 = toRadians 15 := by unfold toRadians; ring
  have h75 : toRadians (-75) = Real.pi / 12 - Real.pi / 2 := by unfold toRadians; ring
  refine ⟨⟨_, example1Samplers_eq, ?_, ?_⟩, ⟨?_, ?_⟩, ⟨?_, ?_⟩, ⟨⟨_, example3Samplers_eq, ?_⟩, ?_⟩, _, _, _, _, _, _, example4Sampler_eqs.1, example4Sampler_eqs.2.1,
    example4Sampler_eqs.2.2, meanNormal rfl rfl, meanNormal rfl rfl, meanNormal rfl rfl, ?_, ?_⟩
  · rw [h45, ← dip_upright]; exact meanNormal rfl rfl
  · rw [← dip_flat]; exact meanNormal rfl rfl
  · rw [h45, ← dip_upright]; exact meanNormal rfl rfl
  · rw [← dip_flat]; exact meanNormal rfl rfl
  · rw [h45, ← dip_upright]; exact meanNormal rfl rfl
  · rw [← dip_flat]; exact meanNormal rfl rfl
  · rw [h45, ← dip_upright]; exact meanNormal rfl rfl
  · rw [h45, ← dip_upright]; exact meanNormal rfl rfl
  · rw [h15, dip_upright]
  · rw [dip_upright, dip_flat, dip_upright, h75, Real.cos_sub_pi_div_two, Real.sin_sub_pi_div_two, ← h15]
    have hcs := Real.sin_sq_add_cos_sq (Real.pi / 12)
    refine ⟨?_, ?_, ?_, ?_, ?_, ?_, ?_⟩ <;>
      simp only [Spec.IsUnit, Spec.Orthogonal, Spec.det, Spec.inner, V3.neg_x, V3.neg_y, V3.neg_z] <;> nlinarith [hcs]

end Props
