import Verif.Model.Intersection.Planar
import Verif.Spec.Planar
import Verif.Spec.Elliptical
import Verif.Props.Polygon
import Verif.Props.Disk
import Verif.Props.SegmentSegment

/-!
# C54 The segment used in place of a line covers the face
-/

namespace Props
open Verif Frackit Lemmas

/-- The segment covers `p`, and `p` is at least `margin` away from its end points. -/
def CoveredBy (s : Segment) (margin : ℝ) (p : V3) : Prop :=
  Spec.OnSegment s.source s.target p ∧ margin ≤ Spec.dist s.source p ∧ margin ≤ Spec.dist s.target p

theorem foot_coord {l : Line} (hu : Spec.IsUnit l.dir) {c p : V3} (hp : Spec.OnLine l.supp l.dir p) :
    ∃ t : ℝ, p = l.projection c + t • l.dir ∧ |t| ≤ Spec.dist c p := by
  obtain ⟨s, hs⟩ := (Spec.onLine_iff _ _ _).1 hp
  have hd : l.dir.dot l.dir = 1 := (Spec.isUnit_iff _).1 hu
  refine ⟨l.dir.dot (p - c), ?_, ?_⟩
  · unfold Line.projection
    have : l.dir.dot (p - c) = s - l.dir.dot (c - l.supp) := by
      rw [hs, show l.supp + s • l.dir - c = s • l.dir - (c - l.supp) by module, V3.dot_sub, V3.dot_smul,
        hd, mul_one]
    rw [this, hs]; module
  · rw [Spec.dist_comm, Spec.dist_eq_len]
    have := V3.abs_dot_le l.dir (p - c)
    rwa [unit_len hu, one_mul] at this

theorem probing_covers {c p : V3} {l : Line} {L R : ℝ} (hu : Spec.IsUnit l.dir) (hL : 0 < L)
    (hR : R ≤ 20 * L) (hp : Spec.OnLine l.supp l.dir p) (hd : Spec.dist c p ≤ R) :
    CoveredBy (probingSegment c l L) (20 * L - R) p := by
  obtain ⟨t, ht, hta⟩ := foot_coord hu (c := c) hp
  have htR := abs_le.1 (hta.trans hd)
  have e20 : (20.0 : ℝ) = 20 := by norm_num
  have hlen : ∀ k : ℝ, (k • l.dir).len = |k| := by
    intro k; rw [V3.len_smul, unit_len hu, mul_one]
  refine ⟨?_, ?_, ?_⟩
  · rw [Spec.onSegment_iff]
    refine ⟨(20 * L - t) / (40 * L), by apply div_nonneg <;> linarith,
      by rw [div_le_one (by linarith)]; linarith, ?_⟩
    simp only [probingSegment]
    rw [ht, e20]
    have h40 : (20 * L - t) / (40 * L) * (40 * L) = 20 * L - t := by
      rw [div_mul_cancel₀]; positivity
    have : t = 20 * L - (20 * L - t) / (40 * L) * (40 * L) := by rw [h40]; ring
    generalize (20 * L - t) / (40 * L) = s at this
    rw [this]
    module
  · rw [Spec.dist_eq_len]
    simp only [probingSegment]
    rw [ht, e20, show l.projection c + (L * 20) • l.dir - (l.projection c + t • l.dir)
      = (20 * L - t) • l.dir by module, hlen, abs_of_nonneg (by linarith)]
    linarith
  · rw [Spec.dist_comm, Spec.dist_eq_len]
    simp only [probingSegment]
    rw [ht, e20, show l.projection c + t • l.dir - (l.projection c - (L * 20) • l.dir)
      = (20 * L + t) • l.dir by module, hlen, abs_of_nonneg (by linarith)]
    linarith

/-! ### Disks -/

theorem disk_radius {d : Elliptical} (h : ValidElliptical d) (hmin : d.minLen ≤ d.majLen) {p : V3}
    (hp : Spec.InDisk d.center d.major d.minor d.majLen d.minLen p) :
    Spec.dist d.center p ≤ d.majLen := by
  obtain ⟨x, y, hxy, rfl⟩ := hp
  obtain ⟨d1, d2, d3, d4, d5, d6⟩ := h.dots
  have ha := h.maj_pos
  have hb := h.min_pos
  rw [Spec.dist_comm, Spec.dist_eq_len, show Spec.localPoint d.center d.major d.minor x y - d.center
    = x • d.major + y • d.minor by ext <;> simp [Spec.localPoint] <;> ring]
  refine abs_le_of_sq_le_sq' ?_ ha.le |>.2
  rw [V3.len_sq, V3.sqLen_add, V3.sqLen_smul, V3.sqLen_smul, V3.dot_smul, V3.smul_dot, d4,
    V3.sqLen_eq_dot, V3.sqLen_eq_dot, d1, d2]
  have h1 : (y / d.majLen) ^ 2 ≤ (y / d.minLen) ^ 2 := by
    rw [div_pow, div_pow]
    exact div_le_div_of_nonneg_left (sq_nonneg _) (by positivity) (pow_le_pow_left₀ hb.le hmin 2)
  have h2 : (x / d.majLen) ^ 2 + (y / d.majLen) ^ 2 ≤ 1 := by linarith
  rw [div_pow, div_pow, ← add_div, div_le_one (by positivity)] at h2
  linarith

/-- Disk and line: the common points are covered. -/
theorem C54_disk_line (d : Elliptical) (l : Line) (h : ValidElliptical d) (hmin : d.minLen ≤ d.majLen)
    (hu : Spec.IsUnit l.dir) (p : V3) (hl : Spec.OnLine l.supp l.dir p)
    (hp : Spec.InDisk d.center d.major d.minor d.majLen d.minLen p) :
    CoveredBy (probingSegment d.center l (diskCharLength d)) (19 * diskCharLength d) p := by
  have := probing_covers hu h.maj_pos (by linarith [h.maj_pos]) hl (disk_radius h hmin hp)
  unfold diskCharLength
  convert this using 1
  ring

/-- Two disks: the common points of the line with either disk are covered. -/
theorem C54_disk_disk (d1 d2 : Elliptical) (l : Line) (h1 : ValidElliptical d1)
    (h2 : ValidElliptical d2) (hmin1 : d1.minLen ≤ d1.majLen) (hmin2 : d2.minLen ≤ d2.majLen)
    (hu : Spec.IsUnit l.dir) (p : V3) (hl : Spec.OnLine l.supp l.dir p) :
    let L := diskDiskCharLength d1 d2
    (Spec.InDisk d1.center d1.major d1.minor d1.majLen d1.minLen p →
      CoveredBy (probingSegment d1.center l L) (19 * L) p) ∧
    (Spec.InDisk d2.center d2.major d2.minor d2.majLen d2.minLen p →
      CoveredBy (probingSegment d2.center l L) (19 * L) p) := by
  simp only
  have hL : 0 < diskDiskCharLength d1 d2 := lt_max_of_lt_left h1.maj_pos
  have e : 19 * diskDiskCharLength d1 d2 = 20 * diskDiskCharLength d1 d2 - diskDiskCharLength d1 d2 := by
    ring
  rw [e]
  exact ⟨fun hp => probing_covers hu hL (by linarith) hl
      ((disk_radius h1 hmin1 hp).trans (le_max_left _ _)),
    fun hp => probing_covers hu hL (by linarith) hl
      ((disk_radius h2 hmin2 hp).trans (le_max_right _ _))⟩

/-! ### Convex combinations of corners -/

/-- A point in all half spaces that contain the corners is not further from another point than the
furthest corner. -/
theorem halfspace_dist {cs : List V3} {p z : V3} {R : ℝ}
    (hp : ∀ (m : V3) (a : ℝ), (∀ c ∈ cs, 0 ≤ m.dot c - a) → 0 ≤ m.dot p - a)
    (hR : ∀ c ∈ cs, Spec.dist z c ≤ R) (hR0 : 0 ≤ R) : Spec.dist z p ≤ R := by
  rw [Spec.dist_comm, Spec.dist_eq_len]
  by_contra hcon
  push Not at hcon
  have h := hp (-(p - z)) (-((p - z).dot z + (p - z).len * R)) (by
    intro c hc
    have h1 := V3.dot_le (p - z) (c - z)
    have h2 := hR c hc
    rw [Spec.dist_comm, Spec.dist_eq_len] at h2
    have h3 := mul_le_mul_of_nonneg_left h2 (V3.len_nonneg (p - z))
    rw [V3.dot_sub] at h1
    rw [V3.neg_dot]; linarith)
  rw [V3.neg_dot] at h
  have h4 : (p - z).dot (p - z) = (p - z).len * (p - z).len := by
    rw [V3.len_mul_self, V3.sqLen_eq_dot]
  rw [V3.dot_sub] at h4
  nlinarith

theorem hull_dist {cs : List V3} {p z : V3} {R : ℝ} (hp : Spec.InHull cs p)
    (hR : ∀ c ∈ cs, Spec.dist z c ≤ R) (hR0 : 0 ≤ R) : Spec.dist z p ≤ R :=
  halfspace_dist (fun _ _ h => hull_nonneg hp h) hR hR0

theorem foldl_max_ge {α : Type} (f : α → ℝ) : ∀ (l : List α) (c : ℝ),
    c ≤ l.foldl (fun c a => max c (f a)) c ∧ ∀ a ∈ l, f a ≤ l.foldl (fun c a => max c (f a)) c
  | [], c => by simp
  | b :: l, c => by
      obtain ⟨h1, h2⟩ := foldl_max_ge f l (max c (f b))
      rw [List.foldl_cons]
      refine ⟨(le_max_left _ _).trans h1, ?_⟩
      intro a ha
      rcases List.mem_cons.1 ha with rfl | ha
      · exact (le_max_right _ _).trans h1
      · exact h2 a ha

theorem dist_le_sqrt {a b : V3} {x : ℝ} (h : (b - a).sqLen ≤ x) : Spec.dist a b ≤ Real.sqrt x := by
  rw [Spec.dist_comm, Spec.dist_eq_len]
  exact Real.sqrt_le_sqrt h

/-! ### Quadrilaterals -/

/-- The lengths of all edges of a quadrilateral are at most `L`. -/
def EdgesWithin (q : Quadrilateral) (L : ℝ) : Prop :=
  Spec.dist q.p0 q.p1 ≤ L ∧ Spec.dist q.p1 q.p3 ≤ L ∧ Spec.dist q.p0 q.p2 ≤ L ∧ Spec.dist q.p2 q.p3 ≤ L

theorem dist_triangle (a b c : V3) : Spec.dist a c ≤ Spec.dist a b + Spec.dist b c := by
  rw [Spec.dist_eq_len, Spec.dist_eq_len, Spec.dist_eq_len]
  have := V3.len_add_le (a - b) (b - c)
  rwa [show a - b + (b - c) = a - c by module] at this

theorem dist_self (a : V3) : Spec.dist a a = 0 := by
  rw [Spec.dist_eq_len, sub_self, V3.len_eq_zero]

theorem corners_within {q : Quadrilateral} {L : ℝ} (hL : 0 ≤ L) (h : EdgesWithin q L) :
    ∀ c ∈ [q.p0, q.p1, q.p2, q.p3], ∀ c' ∈ [q.p0, q.p1, q.p2, q.p3], Spec.dist c c' ≤ 2 * L := by
  obtain ⟨h1, h2, h3, h4⟩ := h
  have a1 := Spec.dist_comm q.p0 q.p1
  have a2 := Spec.dist_comm q.p1 q.p3
  have a3 := Spec.dist_comm q.p0 q.p2
  have a4 := Spec.dist_comm q.p2 q.p3
  have a5 := Spec.dist_comm q.p0 q.p3
  have a6 := Spec.dist_comm q.p1 q.p2
  have t1 := dist_triangle q.p0 q.p1 q.p3
  have t2 := dist_triangle q.p1 q.p0 q.p2
  have s0 := dist_self q.p0
  have s1 := dist_self q.p1
  have s2 := dist_self q.p2
  have s3 := dist_self q.p3
  intro c hc c' hc'
  simp only [List.mem_cons, List.not_mem_nil, or_false] at hc hc'
  rcases hc with rfl | rfl | rfl | rfl <;> rcases hc' with rfl | rfl | rfl | rfl <;> linarith

theorem quad_center_halfspace {p0 p1 p2 p3 c : V3}
    (hc : (Quadrilateral.make p0 p1 p2 p3).center = .val c) (m : V3) (a : ℝ)
    (h : ∀ x ∈ [p0, p1, p2, p3], 0 ≤ m.dot x - a) : 0 ≤ m.dot c - a := by
  simp only [Quadrilateral.make] at hc
  split_ifs at hc with hA
  simp only [Outcome.val.injEq] at hc
  have A1 := area_nonneg p0 p1 p3
  have A2 := area_nonneg p0 p3 p2
  have hpos : 0 < (Triangle.make p0 p1 p3).area + (Triangle.make p0 p3 p2).area :=
    lt_of_le_of_ne (by linarith) (Ne.symm hA)
  have h0 := h p0 (by simp)
  have h1 := h p1 (by simp)
  have h2 := h p2 (by simp)
  have h3 := h p3 (by simp)
  have e1 : m.dot (Triangle.make p0 p1 p3).center = 1 / 3 * (m.dot p0 + m.dot p1 + m.dot p3) := by
    simp only [Triangle.make, V3.dot]; ring
  have e2 : m.dot (Triangle.make p0 p3 p2).center = 1 / 3 * (m.dot p0 + m.dot p3 + m.dot p2) := by
    simp only [Triangle.make, V3.dot]; ring
  rw [← hc, V3.sdiv_eq, V3.dot_smul, V3.dot_add, V3.dot_smul, V3.dot_smul, e1, e2]
  set x := (Triangle.make p0 p1 p3).area
  set y := (Triangle.make p0 p3 p2).area
  have : (x + y)⁻¹ * (x * (1 / 3 * (m.dot p0 + m.dot p1 + m.dot p3))
      + y * (1 / 3 * (m.dot p0 + m.dot p3 + m.dot p2))) - a
      = (x + y)⁻¹ * (x * (1 / 3 * (m.dot p0 + m.dot p1 + m.dot p3) - a)
      + y * (1 / 3 * (m.dot p0 + m.dot p3 + m.dot p2) - a)) := by
    field_simp; ring
  rw [this]
  apply mul_nonneg (inv_nonneg.2 hpos.le)
  apply add_nonneg
  · exact mul_nonneg A1 (by linarith)
  · exact mul_nonneg A2 (by linarith)

/-- Points of a quadrilateral are within twice the longest edge of its centre. -/
theorem quad_radius {p0 p1 p2 p3 c p : V3} {L : ℝ}
    (hc : (Quadrilateral.make p0 p1 p2 p3).center = .val c)
    (hE : EdgesWithin (Quadrilateral.make p0 p1 p2 p3) L)
    (hp : Spec.InHull [p0, p1, p2, p3] p) : Spec.dist c p ≤ 2 * L := by
  have hL : 0 ≤ L := (Real.sqrt_nonneg _).trans hE.1
  have hcc := corners_within hL hE
  apply hull_dist hp _ (by linarith)
  intro x hx
  rw [Spec.dist_comm]
  exact halfspace_dist (quad_center_halfspace hc) (fun y hy => hcc x hx y hy) (by linarith)

theorem quad_center_pos {p0 p1 p2 p3 c : V3} {L : ℝ}
    (hc : (Quadrilateral.make p0 p1 p2 p3).center = .val c)
    (hE : EdgesWithin (Quadrilateral.make p0 p1 p2 p3) L) : 0 < L := by
  by_contra hcon
  have hL : 0 ≤ L := (Real.sqrt_nonneg _).trans hE.1
  have h0 : L = 0 := le_antisymm (not_lt.1 hcon) hL
  have hcc := corners_within hL hE
  rw [h0, mul_zero] at hcc
  have heq : ∀ x ∈ [p0, p1, p2, p3], x = p0 := by
    intro x hx
    have h1 := hcc x hx p0 (by simp [Quadrilateral.make])
    rw [Spec.dist_eq_len] at h1
    have h2 := V3.len_eq_zero.1 (le_antisymm h1 (V3.len_nonneg _))
    exact sub_eq_zero.1 h2
  simp only [Quadrilateral.make] at hc
  rw [if_pos] at hc
  · cases hc
  · rw [heq p1 (by simp), heq p2 (by simp), heq p3 (by simp)]
    simp [Triangle.make, V3.cross, V3.len, V3.sqLen]

theorem quadLine_edges (q : Quadrilateral) : EdgesWithin q (quadLineCharLength q) := by
  obtain ⟨_, h⟩ := foldl_max_ge (fun e : Segment => e.length) (quadEdges q) 0
  have hseg : ∀ s : Segment, s ∈ quadEdges q → Spec.dist s.source s.target ≤ quadLineCharLength q := by
    intro s hs
    rw [Spec.dist_comm, Spec.dist_eq_len]
    exact h s hs
  exact ⟨hseg ⟨q.p0, q.p1⟩ (by simp [quadEdges]), hseg ⟨q.p1, q.p3⟩ (by simp [quadEdges]),
    hseg ⟨q.p0, q.p2⟩ (by simp [quadEdges]), hseg ⟨q.p2, q.p3⟩ (by simp [quadEdges])⟩

theorem quad_edges_sq {q : Quadrilateral} {x : ℝ} (h : ∀ s ∈ quadEdges q, s.squaredLength ≤ x) :
    EdgesWithin q (Real.sqrt x) :=
  ⟨dist_le_sqrt (h ⟨q.p0, q.p1⟩ (by simp [quadEdges])),
    dist_le_sqrt (h ⟨q.p1, q.p3⟩ (by simp [quadEdges])),
    dist_le_sqrt (h ⟨q.p0, q.p2⟩ (by simp [quadEdges])),
    dist_le_sqrt (h ⟨q.p2, q.p3⟩ (by simp [quadEdges]))⟩

theorem quad_covers {p0 p1 p2 p3 c p : V3} {l : Line} {L : ℝ}
    (hc : (Quadrilateral.make p0 p1 p2 p3).center = .val c)
    (hE : EdgesWithin (Quadrilateral.make p0 p1 p2 p3) L) (hu : Spec.IsUnit l.dir)
    (hl : Spec.OnLine l.supp l.dir p) (hp : Spec.InHull [p0, p1, p2, p3] p) :
    CoveredBy (probingSegment c l L) (18 * L) p := by
  have hL := quad_center_pos hc hE
  have := probing_covers hu hL (by linarith) hl (quad_radius hc hE hp)
  convert this using 1
  ring

/-- Quadrilateral and line: the common points are covered.  The quadrilateral need not be convex, its
points are convex combinations of the corners in any case. -/
theorem C54_quadrilateral_line (p0 p1 p2 p3 c : V3) (l : Line)
    (hc : (Quadrilateral.make p0 p1 p2 p3).center = .val c) (hu : Spec.IsUnit l.dir)
    (p : V3) (hl : Spec.OnLine l.supp l.dir p) (hp : Spec.InHull [p0, p1, p2, p3] p) :
    let L := quadLineCharLength (Quadrilateral.make p0 p1 p2 p3)
    CoveredBy (probingSegment c l L) (18 * L) p :=
  quad_covers hc (quadLine_edges _) hu hl hp

/-- Quadrilateral and disk: the common points of the line with either geometry are covered. -/
theorem C54_quadrilateral_disk (p0 p1 p2 p3 c : V3) (d : Elliptical) (l : Line)
    (hc : (Quadrilateral.make p0 p1 p2 p3).center = .val c) (h : ValidElliptical d)
    (hmin : d.minLen ≤ d.majLen) (hu : Spec.IsUnit l.dir) (p : V3) (hl : Spec.OnLine l.supp l.dir p) :
    let L := quadDiskCharLength (Quadrilateral.make p0 p1 p2 p3) d
    (Spec.InHull [p0, p1, p2, p3] p → CoveredBy (probingSegment c l L) (18 * L) p) ∧
    (Spec.InDisk d.center d.major d.minor d.majLen d.minLen p →
      CoveredBy (probingSegment d.center l L) (19 * L) p) := by
  simp only
  obtain ⟨h1, h2⟩ := foldl_max_ge (fun e : Segment => e.squaredLength)
    (quadEdges (Quadrilateral.make p0 p1 p2 p3)) (d.majLen * d.majLen)
  have hdL : d.majLen ≤ quadDiskCharLength (Quadrilateral.make p0 p1 p2 p3) d := by
    unfold quadDiskCharLength
    exact Real.le_sqrt_of_sq_le (by rw [sq]; exact h1)
  refine ⟨fun hp => quad_covers hc (quad_edges_sq h2) hu hl hp, fun hp => ?_⟩
  have hL := lt_of_lt_of_le h.maj_pos hdL
  have := probing_covers hu hL (by linarith) hl ((disk_radius h hmin hp).trans hdL)
  convert this using 1
  ring

/-- Two quadrilaterals: the common points of the line with either quadrilateral are covered. -/
theorem C54_quadrilateral_quadrilateral (a0 a1 a2 a3 b0 b1 b2 b3 c1 c2 : V3) (l : Line)
    (hc1 : (Quadrilateral.make a0 a1 a2 a3).center = .val c1)
    (hc2 : (Quadrilateral.make b0 b1 b2 b3).center = .val c2)
    (hu : Spec.IsUnit l.dir) (p : V3) (hl : Spec.OnLine l.supp l.dir p) :
    let L := quadQuadCharLength (Quadrilateral.make a0 a1 a2 a3) (Quadrilateral.make b0 b1 b2 b3)
    (Spec.InHull [a0, a1, a2, a3] p → CoveredBy (probingSegment c1 l L) (18 * L) p) ∧
    (Spec.InHull [b0, b1, b2, b3] p → CoveredBy (probingSegment c2 l L) (18 * L) p) := by
  simp only
  obtain ⟨_, g1⟩ := foldl_max_ge (fun e : Segment => e.squaredLength)
    (quadEdges (Quadrilateral.make a0 a1 a2 a3)) 0
  obtain ⟨g0, g2⟩ := foldl_max_ge (fun e : Segment => e.squaredLength)
    (quadEdges (Quadrilateral.make b0 b1 b2 b3))
    ((quadEdges (Quadrilateral.make a0 a1 a2 a3)).foldl (fun c e => max c e.squaredLength) 0)
  exact ⟨fun hp => quad_covers hc1 (quad_edges_sq fun s hs => (g1 s hs).trans g0) hu hl hp,
    fun hp => quad_covers hc2 (quad_edges_sq g2) hu hl hp⟩

/-! ### Polygons -/

theorem polygon_radius {cs : List V3} {c p : V3} {x : ℝ} (hx : ∀ v ∈ cs, (v - c).sqLen ≤ x)
    (hp : Spec.InHull cs p) : Spec.dist c p ≤ Real.sqrt x :=
  hull_dist hp (fun v hv => dist_le_sqrt (hx v hv)) (Real.sqrt_nonneg _)

/-- The two distances of different corners from a point are not both zero. -/
theorem polygon_scale_pos {cs : List V3} {pg : Polygon} (hm : Polygon.make cs = .val pg) {c : V3}
    {x : ℝ} (hx : ∀ v ∈ cs, (v - c).sqLen ≤ x) : 0 < x := by
  obtain ⟨h3, hpe⟩ := polygon_make_val hm
  by_contra hcon
  push Not at hcon
  have heq : ∀ v ∈ cs, v = c := by
    intro v hv
    have h1 : (v - c).sqLen = 0 := le_antisymm ((hx v hv).trans hcon) (V3.sqLen_nonneg _)
    exact sub_eq_zero.1 (V3.sqLen_eq_zero.1 h1)
  refine hpe 0 (by omega) ?_
  have m0 := heq _ (getD_mem (cs := cs) (i := 0) (by omega))
  have m1 := heq _ (getD_mem (cs := cs) (i := (0 + 1) % cs.length) (Nat.mod_lt _ (by omega)))
  first
  | (unfold edgeVec polygonEdge; simp only; rw [m0, m1, sub_self])
  | (rw [m0, m1])
  | (simp only [polygonEdge]; rw [m0, m1, sub_self])

/-- Two polygons: the common points of the line with either polygon are covered. -/
theorem C54_polygon_polygon (cs1 cs2 : List V3) (pg1 : Polygon) (c1 c2 : V3) (l : Line)
    (hm1 : Polygon.make cs1 = .val pg1) (hu : Spec.IsUnit l.dir) (p : V3)
    (hl : Spec.OnLine l.supp l.dir p) :
    let L := polygonPolygonCharLength cs1 c1 cs2 c2
    (Spec.InHull cs1 p → CoveredBy (probingSegment c1 l L) (19 * L) p) ∧
    (Spec.InHull cs2 p → CoveredBy (probingSegment c2 l L) (19 * L) p) := by
  simp only
  obtain ⟨_, g1⟩ := foldl_max_ge (fun v : V3 => 2 * (⟨c1, v⟩ : Segment).squaredLength) cs1 0
  obtain ⟨g0, g2⟩ := foldl_max_ge (fun v : V3 => 2 * (⟨c2, v⟩ : Segment).squaredLength) cs2
    (cs1.foldl (fun c p => max c (2 * (⟨c1, p⟩ : Segment).squaredLength)) 0)
  have hx1 : ∀ v ∈ cs1, (v - c1).sqLen ≤ cs2.foldl (fun c p => max c (2 * (⟨c2, p⟩ : Segment).squaredLength))
      (cs1.foldl (fun c p => max c (2 * (⟨c1, p⟩ : Segment).squaredLength)) 0) := by
    intro v hv
    have h1 := (g1 v hv).trans g0
    have h2 := V3.sqLen_nonneg (v - c1)
    simp only [Segment.squaredLength] at h1 ⊢
    linarith
  have hx2 : ∀ v ∈ cs2, (v - c2).sqLen ≤ cs2.foldl (fun c p => max c (2 * (⟨c2, p⟩ : Segment).squaredLength))
      (cs1.foldl (fun c p => max c (2 * (⟨c1, p⟩ : Segment).squaredLength)) 0) := by
    intro v hv
    have h1 := g2 v hv
    have h2 := V3.sqLen_nonneg (v - c2)
    simp only [Segment.squaredLength] at h1 ⊢
    linarith
  have hL : 0 < polygonPolygonCharLength cs1 c1 cs2 c2 :=
    Real.sqrt_pos.2 (polygon_scale_pos hm1 hx1)
  have e : 19 * polygonPolygonCharLength cs1 c1 cs2 c2
      = 20 * polygonPolygonCharLength cs1 c1 cs2 c2 - polygonPolygonCharLength cs1 c1 cs2 c2 := by ring
  rw [e]
  exact ⟨fun hp => probing_covers hu hL (by linarith) hl (polygon_radius hx1 hp),
    fun hp => probing_covers hu hL (by linarith) hl (polygon_radius hx2 hp)⟩

/-- Polygon and disk: the common points of the line with the polygon are covered.  Missing: the disk,
whose size is ignored (`C54_disproof`). -/
theorem C54_polygon_disk_partial (cs : List V3) (pg : Polygon) (c : V3) (l : Line)
    (hm : Polygon.make cs = .val pg) (hu : Spec.IsUnit l.dir) (p : V3)
    (hl : Spec.OnLine l.supp l.dir p) (hp : Spec.InHull cs p) :
    let L := polygonDiskCharLength cs c
    CoveredBy (probingSegment c l L) (19 * L) p := by
  simp only
  obtain ⟨_, g1⟩ := foldl_max_ge (fun v : V3 => (⟨c, v⟩ : Segment).squaredLength) cs 0
  have hL : 0 < polygonDiskCharLength cs c := Real.sqrt_pos.2 (polygon_scale_pos hm g1)
  have e : 19 * polygonDiskCharLength cs c
      = 20 * polygonDiskCharLength cs c - polygonDiskCharLength cs c := by ring
  rw [e]
  exact probing_covers hu hL (by linarith) hl (polygon_radius g1 hp)

/-- The disk is covered as well if it is at most twenty times as large as the polygon. -/
theorem C54_polygon_small_disk_partial (cs : List V3) (pg : Polygon) (c : V3) (d : Elliptical) (l : Line)
    (hm : Polygon.make cs = .val pg) (hu : Spec.IsUnit l.dir) (h : ValidElliptical d)
    (hmin : d.minLen ≤ d.majLen) (hsmall : d.majLen ≤ 20 * polygonDiskCharLength cs c) (p : V3)
    (hl : Spec.OnLine l.supp l.dir p)
    (hp : Spec.InDisk d.center d.major d.minor d.majLen d.minLen p) :
    CoveredBy (probingSegment d.center l (polygonDiskCharLength cs c))
      (20 * polygonDiskCharLength cs c - d.majLen) p := by
  obtain ⟨_, g1⟩ := foldl_max_ge (fun v : V3 => (⟨c, v⟩ : Segment).squaredLength) cs 0
  have hL : 0 < polygonDiskCharLength cs c := Real.sqrt_pos.2 (polygon_scale_pos hm g1)
  exact probing_covers hu hL hsmall hl (disk_radius h hmin hp)

/-- The claim for the disk in the intersection of a polygon and a disk. -/
def C54_full : Prop :=
  ∀ (cs : List V3) (pg : Polygon) (c : V3) (d : Elliptical) (l : Line),
    Polygon.make cs = .val pg → pg.center = .val c → pg.isConvex → ValidElliptical d →
    d.minLen ≤ d.majLen → Spec.IsUnit l.dir →
    (∀ p, Spec.OnLine l.supp l.dir p → Spec.OnPlane d.center d.normal p) →
    ∀ p, Spec.OnLine l.supp l.dir p →
      Spec.InDisk d.center d.major d.minor d.majLen d.minLen p →
      Spec.OnSegment (probingSegment d.center l (polygonDiskCharLength cs c)).source
        (probingSegment d.center l (polygonDiskCharLength cs c)).target p

/-- A small triangle in the plane `y = 0`, close to the rim of the disk `bigDisk`. -/
noncomputable def rimTriangle : List V3 := [⟨94, 0, -1⟩, ⟨100, 0, -1⟩, ⟨97, 0, 2⟩]

/-- A disk of radius 100 in the plane `z = 0`. -/
noncomputable def bigDisk : Elliptical := ⟨0, ⟨1, 0, 0⟩, ⟨0, 1, 0⟩, ⟨0, 0, 1⟩, 100, 100⟩

def xLine : Line := ⟨0, ⟨1, 0, 0⟩⟩

theorem bigDisk_valid : ValidElliptical bigDisk :=
  ⟨by norm_num [bigDisk, Spec.RightHandedOrthonormal, Spec.IsUnit, Spec.norm, Spec.Orthogonal, Spec.inner,
      Spec.det],
    by norm_num [bigDisk], by norm_num [bigDisk]⟩

theorem rimTriangle_make : ∃ pg, Polygon.make rimTriangle = .val pg ∧ pg.corners = rimTriangle ∧
    pg.center = .val ⟨97, 0, 0⟩ ∧ pg.isConvex := by
  have hp : ProperEdges rimTriangle := by
    intro i hi
    have : i < 3 := by simpa [rimTriangle] using hi
    interval_cases i <;> simp [polygonEdge, rimTriangle] <;> norm_num
  obtain ⟨pg, hm, hc, _, _, hcen, hconv⟩ := polygon_make (cs := rimTriangle) (by simp [rimTriangle]) hp
  refine ⟨pg, hm, hc, ?_, ?_⟩
  · have e : triangulate rimTriangle = [Triangle.make ⟨94, 0, -1⟩ ⟨100, 0, -1⟩ ⟨97, 0, 2⟩] := by
      simp [triangulate, rimTriangle]
    have hA : (Triangle.make (⟨94, 0, -1⟩ : V3) ⟨100, 0, -1⟩ ⟨97, 0, 2⟩).area ≠ 0 := by
      simp only [Triangle.make]
      apply mul_ne_zero (by norm_num)
      apply ne_of_gt
      rw [V3.len_pos]
      intro h
      have := congrArg V3.y h
      norm_num [V3.cross] at this
    rw [hcen, e]
    simp only [List.map_cons, List.map_nil, List.sum_cons, List.sum_nil, add_zero]
    rw [if_neg hA]
    congr 1
    rw [V3.sdiv_eq, smul_smul, inv_mul_cancel₀ hA, one_smul]
    ext <;> norm_num [Triangle.make]
  · rw [hconv]
    intro i h1 h2
    have : i = 1 := by
      have : i < 2 := by simpa [rimTriangle] using h2
      omega
    subst this
    norm_num [edgeVec, polygonEdge, rimTriangle, V3.cross, V3.dot]

theorem rimTriangle_scale : polygonDiskCharLength rimTriangle ⟨97, 0, 0⟩ = Real.sqrt 10 := by
  unfold polygonDiskCharLength
  congr 1
  norm_num [rimTriangle, Segment.squaredLength, V3.sqLen]

theorem rim_not_covered {p : V3} (hp : Spec.OnSegment
    (probingSegment bigDisk.center xLine (Real.sqrt 10)).source
    (probingSegment bigDisk.center xLine (Real.sqrt 10)).target p) : p.x < 94 := by
  have hs : Real.sqrt 10 < 4 := by
    rw [Real.sqrt_lt' (by norm_num)]; norm_num
  have h0 : 0 ≤ Real.sqrt 10 := Real.sqrt_nonneg _
  rw [Spec.onSegment_iff] at hp
  obtain ⟨t, h1, h2, rfl⟩ := hp
  simp only [probingSegment, Line.projection, xLine, bigDisk, V3.add_x, V3.smul_x, V3.sub_x, V3.zero_x,
    V3.dot]
  norm_num
  nlinarith

theorem C54_disproof : ¬ C54_full := by
  intro h
  obtain ⟨pg, hm, _, hc, hconv⟩ := rimTriangle_make
  have := h rimTriangle pg ⟨97, 0, 0⟩ bigDisk xLine hm hc hconv bigDisk_valid (by simp [bigDisk])
    (by norm_num [xLine, Spec.IsUnit, Spec.norm]) (by
      rintro p ⟨t, hx, hy, hz⟩
      simp [Spec.OnPlane, bigDisk, hz, xLine])
    ⟨97, 0, 0⟩ ⟨97, by norm_num [xLine]⟩
    ⟨97, 0, by norm_num [bigDisk], by ext <;> norm_num [Spec.localPoint, bigDisk]⟩
  rw [rimTriangle_scale] at this
  have := rim_not_covered this
  norm_num at this

/-- Consequence: the triangle cuts the disk, but the segment used in place of the line when the disk is
intersected contains no point of the triangle. -/
theorem C54_disk_missed :
    (∃ p, Spec.InHull rimTriangle p ∧
      Spec.InDisk bigDisk.center bigDisk.major bigDisk.minor bigDisk.majLen bigDisk.minLen p) ∧
    ∀ p, Spec.InHull rimTriangle p → ¬ Spec.OnSegment
      (probingSegment bigDisk.center xLine (polygonDiskCharLength rimTriangle ⟨97, 0, 0⟩)).source
      (probingSegment bigDisk.center xLine (polygonDiskCharLength rimTriangle ⟨97, 0, 0⟩)).target p := by
  refine ⟨⟨⟨97, 0, 0⟩, ?_, ?_⟩, ?_⟩
  · refine ⟨[1 / 3, 1 / 3, 1 / 3], rfl, by simp, by norm_num, ?_, ?_, ?_⟩ <;>
      norm_num [rimTriangle]
  · exact ⟨97, 0, by norm_num [bigDisk], by ext <;> norm_num [Spec.localPoint, bigDisk]⟩
  · intro p hp hs
    rw [rimTriangle_scale] at hs
    have h1 := rim_not_covered hs
    have h2 := hull_nonneg (m := ⟨1, 0, 0⟩) (a := 94) hp (by
      intro c hc
      simp only [rimTriangle, List.mem_cons, List.not_mem_nil, or_false] at hc
      rcases hc with rfl | rfl | rfl <;> norm_num [V3.dot])
    simp [V3.dot] at h2
    linarith

/-- The hypotheses of the theorems above are met: a point on the rim of `bigDisk`. -/
example : CoveredBy (probingSegment bigDisk.center xLine (diskCharLength bigDisk))
    (19 * diskCharLength bigDisk) ⟨100, 0, 0⟩ :=
  C54_disk_line bigDisk xLine bigDisk_valid (by simp [bigDisk])
    (by norm_num [xLine, Spec.IsUnit, Spec.norm]) _ ⟨100, by norm_num [xLine]⟩
    ⟨100, 0, by norm_num [bigDisk], by ext <;> norm_num [Spec.localPoint, bigDisk]⟩

example : ∃ pg, Polygon.make rimTriangle = .val pg ∧
    CoveredBy (probingSegment ⟨97, 0, 0⟩ xLine
      (polygonPolygonCharLength rimTriangle ⟨97, 0, 0⟩ rimTriangle ⟨97, 0, 0⟩))
    (19 * polygonPolygonCharLength rimTriangle ⟨97, 0, 0⟩ rimTriangle ⟨97, 0, 0⟩) ⟨97, 0, 0⟩ := by
  obtain ⟨pg, hm, _⟩ := rimTriangle_make
  refine ⟨pg, hm, (C54_polygon_polygon rimTriangle rimTriangle pg ⟨97, 0, 0⟩ ⟨97, 0, 0⟩ xLine hm
    (by norm_num [xLine, Spec.IsUnit, Spec.norm]) ⟨97, 0, 0⟩ ⟨97, by norm_num [xLine]⟩).1 ?_⟩
  refine ⟨[1 / 3, 1 / 3, 1 / 3], rfl, by simp, by norm_num, ?_, ?_, ?_⟩ <;>
      norm_num [rimTriangle]

/-- A square and a point on its diagonal. -/
example : ∃ c, (Quadrilateral.make ⟨0, 0, 0⟩ ⟨1, 0, 0⟩ ⟨0, 1, 0⟩ ⟨1, 1, 0⟩).center = .val c ∧
    Spec.InHull [⟨0, 0, 0⟩, ⟨1, 0, 0⟩, ⟨0, 1, 0⟩, ⟨1, 1, 0⟩] ⟨1 / 2, 0, 0⟩ ∧
    Spec.OnLine xLine.supp xLine.dir ⟨1 / 2, 0, 0⟩ := by
  have hA : (Triangle.make (⟨0, 0, 0⟩ : V3) ⟨1, 0, 0⟩ ⟨1, 1, 0⟩).area
      + (Triangle.make (⟨0, 0, 0⟩ : V3) ⟨1, 1, 0⟩ ⟨0, 1, 0⟩).area ≠ 0 := by
    have h1 := area_nonneg (⟨0, 0, 0⟩ : V3) ⟨1, 1, 0⟩ ⟨0, 1, 0⟩
    have h2 : 0 < (Triangle.make (⟨0, 0, 0⟩ : V3) ⟨1, 0, 0⟩ ⟨1, 1, 0⟩).area := by
      simp only [Triangle.make]
      apply mul_pos (by norm_num)
      rw [V3.len_pos]
      intro h
      have := congrArg V3.z h
      norm_num [V3.cross] at this
    linarith
  refine ⟨_, by simp only [Quadrilateral.make]; rw [if_neg hA], ?_, ⟨1 / 2, by norm_num [xLine]⟩⟩
  exact ⟨[1 / 2, 1 / 2, 0, 0], rfl, by simp, by norm_num, by norm_num, by norm_num, by norm_num⟩

end Props
