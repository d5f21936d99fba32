import Verif.Spec.Rounded
import Verif.Lemmas.Rounding
import Verif.Props.ToleranceDistance

/-!
# C141 Points with rounded coordinates are contained
-/

namespace Props
open Verif Frackit Lemmas

/-! ## The distance between a point and the rounded point -/

theorem nearest_error {y x : ℝ} (h : Spec.NearestDouble y x) : |y - x| ≤ |x| / 2 ^ 53 := by
  have h1 := h.2 (Fp.rnd x) (Verif.isDouble_rnd x)
  have h2 := Verif.rnd_error x
  unfold Verif.unitRoundoff at h2
  refine h1.trans (h2.trans (le_of_eq ?_))
  ring

theorem rounded_dist {p q : V3} {M : ℝ} (hM : 0 < M) (hx : |q.x| ≤ M) (hy : |q.y| ≤ M) (hz : |q.z| ≤ M)
    (h : Spec.RoundedPoint p q) : Spec.dist p q < M / 2 ^ 51 := by
  have h1 := dist_le_coords p q
  have h2 := nearest_error h.1
  have h3 := nearest_error h.2.1
  have h4 := nearest_error h.2.2
  have : (2 : ℝ) ^ 51 * 4 = 2 ^ 53 := by norm_num
  have e : M / 2 ^ 51 = 4 * (M / 2 ^ 53) := by rw [← this]; field_simp
  have p0 : 0 < M / 2 ^ 53 := by positivity
  have k1 : |q.x| / 2 ^ 53 ≤ M / 2 ^ 53 := by gcongr
  have k2 : |q.y| / 2 ^ 53 ≤ M / 2 ^ 53 := by gcongr
  have k3 : |q.z| / 2 ^ 53 ≤ M / 2 ^ 53 := by gcongr
  rw [e]
  linarith

theorem keeps_of_within {M : ℝ} {contains S : V3 → Prop} (hM : 0 < M)
    (h : ∀ p, Spec.Within S (M / 2 ^ 51) p → contains p) : Spec.KeepsRounded M contains S :=
  fun p q hq hx hy hz hr => h p ⟨q, hq, rounded_dist hM hx hy hz hr⟩

theorem keeps_of_tol {M eps : ℝ} {contains : V3 → ℝ → Prop} {S : V3 → Prop} (hM : 0 < M)
    (h : Spec.TolIsDistance contains S) (he : M / 2 ^ 51 ≤ eps) :
    Spec.KeepsRounded M (fun p => contains p eps) S := by
  have p0 : 0 < M / 2 ^ 51 := by positivity
  refine keeps_of_within hM ?_
  rintro p ⟨q, hq, hd⟩
  exact (h p eps (p0.trans_le he)).1 ⟨q, hq, hd.trans_le he⟩

/-- The bound used below: for coordinates up to `2 * 10 ^ 8` times the size, the rounding error is below the tolerance. -/
theorem bound_size {M s : ℝ} (hM : 0 < M) (h : M ≤ 2 * 10 ^ 8 * s) : M / 2 ^ 51 ≤ confusion * s := by
  have hs : M / 2 ^ 51 ≤ (2 * 10 ^ 8 * s) / 2 ^ 51 := by gcongr
  have h0 : 0 ≤ s := by nlinarith
  refine hs.trans ?_
  unfold confusion
  norm_num
  nlinarith

/-! ## Geometries whose tolerance is a distance -/

/-- Lines: coordinates up to `2 * 10 ^ 8`. -/
theorem C141_line (l : Line) (M : ℝ) (hM : 0 < M) (h : M ≤ 2 * 10 ^ 8) (hd : Spec.IsUnit l.dir) :
    Spec.KeepsRounded M (fun p => l.contains p confusion) (Spec.OnLine l.supp l.dir) := by
  have := bound_size hM (s := 1) (by linarith)
  rw [mul_one] at this
  exact keeps_of_tol hM (C139_line l hd) this

/-- Planes: coordinates up to `2 * 10 ^ 8`. -/
theorem C141_plane (pl : Plane) (M : ℝ) (hM : 0 < M) (h : M ≤ 2 * 10 ^ 8) (hn : Spec.IsUnit pl.normal) :
    Spec.KeepsRounded M (fun p => pl.contains p confusion) (Spec.OnPlane pl.supp pl.normal) := by
  have := bound_size hM (s := 1) (by linarith)
  rw [mul_one] at this
  exact keeps_of_tol hM (C139_plane pl hn) this

/-- Segments: coordinates up to `2 * 10 ^ 8` times the length. -/
theorem C141_segment (s : Segment) (M : ℝ) (hM : 0 < M) (h : M ≤ 2 * 10 ^ 8 * Spec.dist s.source s.target) :
    Spec.KeepsRounded M (fun p => s.containsDefault p) (Spec.OnSegment s.source s.target) := by
  have hne : s.source ≠ s.target := by
    intro e
    have e0 : Spec.dist s.target s.target = 0 := by simp [Spec.dist]
    rw [e, e0] at h
    linarith
  refine keeps_of_tol hM (C139_segment s hne) ?_
  have := bound_size hM h
  rwa [Spec.dist_comm, Spec.dist_eq_len] at this

/-- Boxes: coordinates up to `2 * 10 ^ 8` times the diagonal. -/
theorem C141_box (b : Box) (M : ℝ) (hM : 0 < M) (hx : b.xMin ≤ b.xMax) (hy : b.yMin ≤ b.yMax) (hz : b.zMin ≤ b.zMax)
    (h : M ≤ 2 * 10 ^ 8 * Spec.dist (Box.lo b) (Box.hi b)) :
    Spec.KeepsRounded M b.containsDefault (Spec.InBox (Box.lo b) (Box.hi b)) := by
  refine keeps_of_tol hM (C139_box b hx hy hz) ?_
  have := bound_size hM h
  rwa [Spec.dist_comm, Spec.dist_eq_len] at this

/-- Circles: coordinates up to `2 * 10 ^ 8` times the radius. -/
theorem C141_circle (c n : V3) (r : ℝ) (k : Elliptical) (M : ℝ) (hM : 0 < M) (hn : Spec.IsUnit n) (hr : 0 < r)
    (hk : Circle.make c n r = .val k) (h : M ≤ 2 * 10 ^ 8 * r) :
    Spec.KeepsRounded M (Circle.containsDefault k) (Spec.OnCircle c n r 0) := by
  obtain ⟨k', hk', _, hc, hnn, hmaj, _⟩ := C09_circle_valid c n r hn hr
  obtain rfl : k' = k := by rw [hk] at hk'; exact (Outcome.val.inj hk').symm
  refine keeps_of_tol hM (C139_circle c n r k' hn hr hk) ?_
  rw [hmaj]
  exact bound_size hM h

/-- Cylinder surfaces: coordinates up to `10 ^ 8` times the sum of radius and height. -/
theorem C141_cylinder_surface (c : CylinderSurface) (center axis : V3) (r h M : ℝ) (hM : 0 < M)
    (hv : SurfaceOf c center axis r h) (hr : 0 ≤ r) (hh : 0 < h) (hb : M ≤ 10 ^ 8 * (r + h)) :
    Spec.KeepsRounded M c.containsDefault (Spec.OnLateral center axis r h) := by
  refine keeps_of_tol hM (C139_cylinder_surface c center axis r h hv hr hh) ?_
  rw [hv.radius, hv.height, mul_assoc]
  exact bound_size hM (by linarith)

/-- Ellipses: coordinates up to `10 ^ 8`, and up to `10 ^ 8` times the smaller axis. -/
theorem C141_ellipse (d : Elliptical) (h : ValidElliptical d) (M : ℝ) (hM : 0 < M) (h1 : M ≤ 10 ^ 8)
    (h2 : M ≤ 10 ^ 8 * min d.majLen d.minLen) :
    Spec.KeepsRounded M (fun p => Ellipse.containsDefault d p)
      (Spec.OnEllipse d.center d.major d.minor d.majLen d.minLen) := by
  have hm : 0 < min d.majLen d.minLen := lt_min h.maj_pos h.min_pos
  refine keeps_of_within hM fun p hp => ?_
  refine (C139_ellipse_partial d h p confusion confusion_pos).1 _ ?_ ?_ hp
  · have := bound_size hM (s := 1) (by linarith)
    linarith
  · set m := min d.majLen d.minLen
    have e1 : M / 2 ^ 51 / m ≤ 10 ^ 8 / 2 ^ 51 := by
      rw [div_div, div_le_div_iff₀ (by positivity) (by positivity)]
      nlinarith
    have e0 : 0 ≤ M / 2 ^ 51 / m := by positivity
    unfold confusion
    norm_num at e1 ⊢
    nlinarith

/-! ## Geometries whose tolerance is not a distance -/

/-- Spheres: coordinates up to ten times the radius. -/
theorem C141_sphere_partial (s : Sphere) (M : ℝ) (hM : 0 < M) (h : M ≤ 10 * s.radius) :
    Spec.KeepsRounded M s.containsDefault (Spec.InBall s.center s.radius) := by
  have hr : 0 < s.radius := by linarith
  refine keeps_of_within hM fun p hp => ?_
  refine (C139_sphere_partial s hr.le p _ (mul_pos hr confusion_pos)).1 _ ?_ hp
  have e1 : M / 2 ^ 51 ≤ 10 * s.radius / 2 ^ 51 := by gcongr
  have e0 : 0 < M / 2 ^ 51 := by positivity
  have e2 : (M / 2 ^ 51) ^ 2 ≤ (10 * s.radius / 2 ^ 51) ^ 2 := by gcongr
  have e3 : 2 * s.radius * (M / 2 ^ 51) ≤ 2 * s.radius * (10 * s.radius / 2 ^ 51) := by gcongr
  refine (add_le_add e3 e2).trans ?_
  unfold confusion
  have : 0 ≤ s.radius ^ 2 := by positivity
  norm_num
  nlinarith

theorem cylinder_bound {r h M : ℝ} (hr : 0 < r) (hh : 0 < h) (hM : 0 < M) (hb : M ≤ 2 * (r + h)) :
    2 * r * (M / 2 ^ 51) + (M / 2 ^ 51) ^ 2 ≤ (confusion * 0.5 * (r + h)) ^ 2 := by
  have e1 : M / 2 ^ 51 ≤ 2 * (r + h) / 2 ^ 51 := by gcongr
  have e2 : (M / 2 ^ 51) ^ 2 ≤ (2 * (r + h) / 2 ^ 51) ^ 2 := by gcongr
  have e3 : 2 * r * (M / 2 ^ 51) ≤ 2 * (r + h) * (2 * (r + h) / 2 ^ 51) := by gcongr; linarith
  refine (add_le_add e3 e2).trans ?_
  unfold confusion
  have : 0 ≤ (r + h) ^ 2 := by positivity
  norm_num
  nlinarith

/-- Cylinders: coordinates up to twice the sum of radius and height. -/
theorem C141_cylinder_partial (c : Cylinder) (hv : ValidCylinder c) (M : ℝ) (hM : 0 < M)
    (h : M ≤ 2 * (c.radius + c.height)) :
    Spec.KeepsRounded M c.containsDefault
      (Spec.InCylinder c.bottom.center c.bottom.normal c.radius c.height) := by
  have hr : 0 < c.radius := hv.bottom.maj_pos
  have hc := confusion_pos
  have hh := hv.height_pos
  refine keeps_of_within hM fun p hp => ?_
  exact (C139_cylinder_partial c hv p _ (by positivity)).1 _ (cylinder_bound hr hh hM h) hp

/-- Hollow cylinders: coordinates up to twice the sum of the outer radius and the height. -/
theorem C141_hollow_partial (c : HollowCylinder) (center axis : V3) (r1 r2 h : ℝ)
    (hv : ValidHollow c center axis r1 r2 h) (hr1 : 0 ≤ r1) (hr2 : r1 ≤ r2) (hr : 0 < r2) (hh : 0 < h) (M : ℝ) (hM : 0 < M)
    (hb : M ≤ 2 * (r2 + h)) :
    Spec.KeepsRounded M c.containsDefault (Spec.InShell center axis r1 r2 h) := by
  have hc := confusion_pos
  refine keeps_of_within hM fun p hp => ?_
  have := (C139_hollow_partial c center axis r1 r2 h hv hr1 hr2 hh p (confusion * 0.5 * (r2 + h)) (by positivity)).1 _
    (cylinder_bound hr hh hM hb) hp
  rwa [← hv.outer, ← hv.height] at this

/-- Disks: coordinates up to ten times the smaller axis, and up to `10 ^ 8`. -/
theorem C141_disk_partial (d : Elliptical) (h : ValidElliptical d) (M : ℝ) (hM : 0 < M) (h1 : M ≤ 10 ^ 8)
    (h2 : M ≤ 10 * min d.majLen d.minLen) :
    Spec.KeepsRounded M (fun p => Disk.containsDefault d p)
      (Spec.InDisk d.center d.major d.minor d.majLen d.minLen) := by
  have hm : 0 < min d.majLen d.minLen := lt_min h.maj_pos h.min_pos
  refine keeps_of_within hM fun p hp => ?_
  refine (C139_disk_partial d h p confusion confusion_pos).1 _ ?_ ?_ hp
  · have := bound_size hM (s := 1) (by linarith)
    linarith
  · set m := min d.majLen d.minLen
    have e1 : M / 2 ^ 51 / m ≤ 10 / 2 ^ 51 := by
      rw [div_div, div_le_div_iff₀ (by positivity) (by positivity)]
      nlinarith
    have e0 : 0 ≤ M / 2 ^ 51 / m := by positivity
    have e2 : (1 + M / 2 ^ 51 / m) ^ 2 ≤ (1 + 10 / 2 ^ 51) ^ 2 := by gcongr
    refine e2.trans ?_
    unfold confusion
    norm_num

theorem area_bound {P s M : ℝ} (h : M * P ≤ 40 * s ^ 2) :
    P * (M / 2 ^ 51 / 2) ≤ (confusion * s) ^ 2 := by
  have e : P * (M / 2 ^ 51 / 2) = M * P / 2 ^ 52 := by ring
  rw [e]
  have : M * P / 2 ^ 52 ≤ 40 * s ^ 2 / 2 ^ 52 := by gcongr
  refine this.trans ?_
  have : 0 ≤ s ^ 2 := by positivity
  unfold confusion
  norm_num
  nlinarith

/-- Convex quadrilaterals: coordinates up to forty times the squared diagonal divided by the perimeter. -/
theorem C141_quadrilateral_partial (n o p0 p1 p2 p3 : V3) (M : ℝ) (hM : 0 < M)
    (hn : Spec.IsUnit n) (hpl : Spec.PlanarPolygon n o [p0, p1, p3, p2])
    (hcv : Spec.ConvexPolygon n [p0, p1, p3, p2]) (h0 : Spec.turn n p2 p0 p1 ≠ 0)
    (h1 : M ≤ 2 * 10 ^ 8 * Spec.dist p0 p3)
    (h2 : M * (Spec.dist p0 p1 + Spec.dist p1 p3 + Spec.dist p3 p2 + Spec.dist p2 p0) ≤ 40 * Spec.dist p0 p3 ^ 2) :
    Spec.KeepsRounded M (fun p => (Quadrilateral.make p0 p1 p2 p3).containsDefault p)
      (Spec.InPolygon n o [p0, p1, p3, p2]) := by
  refine keeps_of_within hM fun p hp => ?_
  unfold Quadrilateral.containsDefault
  have e : ((Quadrilateral.make p0 p1 p2 p3).p3 - (Quadrilateral.make p0 p1 p2 p3).p0).len = Spec.dist p0 p3 := by
    rw [Spec.dist_comm, Spec.dist_eq_len]
    rfl
  rw [e]
  exact C139_quadrilateral_partial n o p0 p1 p2 p3 p _ _ true hn hpl hcv h0 (bound_size hM h1) (area_bound h2) hp

/-- Convex polygons: coordinates up to forty times the squared distance of the first corner to the centre divided by the
perimeter. -/
theorem C141_polygon_partial (n o c : V3) (cs : List V3) (pg : Polygon) (M : ℝ) (hM : 0 < M)
    (hn : Spec.IsUnit n) (hpl : Spec.PlanarPolygon n o cs) (hcv : Spec.ConvexPolygon n cs)
    (hm : Polygon.make cs = .val pg) (h012 : Spec.cornerTurn n cs 1 ≠ 0) (hc : pg.center = .val c)
    (h1 : M ≤ 2 * 10 ^ 8 * Spec.dist c (cs.getD 0 0))
    (h2 : M * Spec.perimeter cs ≤ 40 * Spec.dist c (cs.getD 0 0) ^ 2) :
    Spec.KeepsRounded M (fun p => ∃ r : Prop, pg.containsDefault p = .val r ∧ r) (Spec.InPolygon n o cs) := by
  refine keeps_of_within hM fun p hp => ?_
  obtain ⟨h3, hpr⟩ := polygon_make_val hm
  obtain ⟨pg', hm', hcs, _⟩ := polygon_make h3 hpr
  rw [hm] at hm'
  obtain rfl := Outcome.val.inj hm'
  unfold Polygon.containsDefault
  rw [hc]
  have e : (c - pg.corners.getD 0 0).len = Spec.dist c (cs.getD 0 0) := by
    rw [Spec.dist_eq_len, hcs]
  simp only [e]
  exact C139_polygon_partial n o cs pg p _ _ true hn hpl hcv hm h012 (bound_size hM h1) (area_bound h2) hp

/-! ## Points that are lost far from the origin -/

/-- Numbers of type `double` above `2 ^ 19` are multiples of `2 ^ -33`. -/
theorem double_grid {d : ℝ} (h : Spec.IsDouble d) (hd : 2 ^ 19 < d) : ∃ k : ℤ, d * 2 ^ 33 = k := by
  obtain ⟨m, e, hm, rfl⟩ := h
  have hm' : (m : ℝ) ≤ 2 ^ 53 := by exact_mod_cast (abs_le.1 hm).2
  have he : -33 ≤ e := by
    by_contra hc
    push Not at hc
    have h1 : (2 : ℝ) ^ e ≤ 2 ^ (-34 : ℤ) := zpow_le_zpow_right₀ (by norm_num) (by omega)
    have h2 : (0 : ℝ) < 2 ^ e := by positivity
    have h3 : (m : ℝ) * 2 ^ e ≤ 2 ^ 53 * 2 ^ (-34 : ℤ) := by
      calc (m : ℝ) * 2 ^ e ≤ 2 ^ 53 * 2 ^ e := by gcongr
        _ ≤ _ := by gcongr
    have h4 : (2 : ℝ) ^ 53 * 2 ^ (-34 : ℤ) = 2 ^ 19 := by norm_num
    linarith
  obtain ⟨k, rfl⟩ : ∃ k : ℕ, e = k - 33 := ⟨(e + 33).toNat, by omega⟩
  refine ⟨m * 2 ^ k, ?_⟩
  rw [zpow_sub₀ (by norm_num)]
  push_cast
  rw [show ((2 : ℝ) ^ (33 : ℤ)) = 2 ^ 33 by norm_cast, zpow_natCast]
  field_simp

/-- Rounding upwards by a quarter of the distance of neighbouring numbers. -/
theorem nearest_up (m : ℤ) (h1 : 2 ^ 52 ≤ m) (h2 : m + 1 ≤ 2 ^ 53) :
    Spec.NearestDouble (((m : ℝ) + 1) / 2 ^ 33) (((m : ℝ) + 3 / 4) / 2 ^ 33) := by
  constructor
  · refine ⟨m + 1, -33, by rw [abs_of_nonneg (by omega)]; exact h2, ?_⟩
    push_cast
    rw [zpow_neg, div_eq_mul_inv]
    norm_num
  · intro d hd
    have e : ((m : ℝ) + 1) / 2 ^ 33 - ((m : ℝ) + 3 / 4) / 2 ^ 33 = 1 / 4 / 2 ^ 33 := by ring
    rw [e, abs_of_pos (by positivity)]
    have hm : ((2 : ℝ) ^ 52) ≤ m := by exact_mod_cast h1
    by_cases hlt : 2 ^ 19 < d
    · obtain ⟨k, hk⟩ := double_grid hd hlt
      have ek : d = k / 2 ^ 33 := by rw [← hk]; field_simp
      rw [ek, ← sub_div, abs_div, abs_of_pos (show (0 : ℝ) < 2 ^ 33 by positivity)]
      gcongr
      rw [le_abs]
      by_cases hkm : k ≤ m
      · right
        have : (k : ℝ) ≤ m := by exact_mod_cast hkm
        linarith
      · left
        have : (m : ℝ) + 1 ≤ k := by exact_mod_cast (by omega : m + 1 ≤ k)
        linarith
    · push Not at hlt
      rw [le_abs]
      right
      have : (2 : ℝ) ^ 52 / 2 ^ 33 = 2 ^ 19 := by norm_num
      have h3 : ((2 : ℝ) ^ 52 + 3 / 4) / 2 ^ 33 ≤ ((m : ℝ) + 3 / 4) / 2 ^ 33 := by gcongr
      have h4 : ((2 : ℝ) ^ 52 + 3 / 4) / 2 ^ 33 = 2 ^ 19 + 3 / 4 / 2 ^ 33 := by rw [add_div, this]
      have h5 : (0 : ℝ) < 1 / 2 ^ 33 := by positivity
      have h6 : (3 : ℝ) / 4 / 2 ^ 33 = 3 / 4 * (1 / 2 ^ 33) := by ring
      have h7 : (1 : ℝ) / 4 / 2 ^ 33 = 1 / 4 * (1 / 2 ^ 33) := by ring
      linarith

theorem nearest_self {x : ℝ} (h : Spec.IsDouble x) : Spec.NearestDouble x x :=
  ⟨h, fun d _ => by simp⟩

theorem double_zero : Spec.IsDouble 0 := ⟨0, 0, by norm_num, by simp⟩

/-- Some point of the figure with coordinates up to one million is not contained after rounding. -/
def Loses (contains S : V3 → Prop) : Prop := ¬ Spec.KeepsRounded (10 ^ 6) contains S

theorem loses_of {contains S : V3 → Prop} (x y : ℝ) (m : ℤ) (h1 : 2 ^ 52 ≤ m) (h2 : m + 1 ≤ 2 ^ 52 + 2 ^ 40)
    (hx : x * 2 ^ 33 = m + 3 / 4) (hy : Spec.IsDouble y) (hy1 : |y| ≤ 1) (hq : S ⟨x, y, 0⟩)
    (hp : ¬ contains ⟨x + 1 / 2 ^ 35, y, 0⟩) : Loses contains S := by
  intro h
  have ex : x = ((m : ℝ) + 3 / 4) / 2 ^ 33 := by rw [← hx]; field_simp
  have ex' : x + 1 / 2 ^ 35 = ((m : ℝ) + 1) / 2 ^ 33 := by rw [ex]; field_simp; norm_num; ring
  have m1 : ((m : ℝ) + 1) ≤ 2 ^ 52 + 2 ^ 40 := by exact_mod_cast h2
  have m0 : ((2 : ℝ) ^ 52) ≤ m := by exact_mod_cast h1
  refine hp (h ⟨x + 1 / 2 ^ 35, y, 0⟩ ⟨x, y, 0⟩ hq ?_ (hy1.trans (by norm_num)) (by norm_num) ?_)
  · rw [ex, abs_le]
    constructor
    · refine le_trans (by norm_num) (div_nonneg ?_ (by positivity) : (0 : ℝ) ≤ _)
      linarith
    · rw [div_le_iff₀ (by positivity)]
      refine (show (m : ℝ) + 3 / 4 ≤ 2 ^ 52 + 2 ^ 40 by linarith).trans ?_
      norm_num
  · refine ⟨?_, nearest_self hy, nearest_self double_zero⟩
    simp only
    rw [ex', ex]
    exact nearest_up m h1 (by omega)

/-- A radius of about one. -/
noncomputable def farRadius : ℝ := 1 + 3 / 2 ^ 35

/-- The centre of the figures below, 524 kilometres from the origin. -/
noncomputable def farCenter : V3 := ⟨2 ^ 19, 0, 0⟩

/-- A disk of radius `farRadius`. -/
noncomputable def farDisk : Elliptical := ⟨farCenter, ⟨1, 0, 0⟩, ⟨0, 1, 0⟩, ⟨0, 0, 1⟩, farRadius, farRadius⟩

theorem farDisk_valid : ValidElliptical farDisk := by
  refine ⟨⟨?_, ?_, ?_, ?_, ?_, ?_, ?_⟩, ?_, ?_⟩ <;>
    norm_num [farDisk, farRadius, Spec.IsUnit, Spec.Orthogonal, Spec.inner, Spec.det]

theorem far_axial (p : V3) : Spec.axial farCenter ⟨0, 0, 1⟩ p = p.z := by simp [Spec.axial, farCenter]

theorem far_radial (x z : ℝ) (hx : 0 ≤ x) : Spec.radial farCenter ⟨0, 0, 1⟩ ⟨2 ^ 19 + x, 0, z⟩ = x := by
  unfold Spec.radial
  rw [far_axial]
  simp [Spec.dist, Real.sqrt_sq hx, farCenter]

theorem far_outside : (2 : ℝ) ^ 19 + farRadius + 1 / 2 ^ 35 = 2 ^ 19 + (1 + 1 / 2 ^ 33) := by
  unfold farRadius
  norm_num

/-- Spheres, cylinders, hollow cylinders, disks and quadrilaterals of a size of at least one and at most six, at a distance
of 524288 to the origin, which do not contain all of their points after rounding. -/
theorem C141_lost_points :
    (∃ s : Sphere, 1 ≤ s.radius ∧ Loses s.containsDefault (Spec.InBall s.center s.radius)) ∧
    (∃ c, ValidCylinder c ∧ 1 ≤ c.radius ∧ 1 ≤ c.height ∧
      Loses c.containsDefault (Spec.InCylinder c.bottom.center c.bottom.normal c.radius c.height)) ∧
    (∃ c center axis r, ValidHollow c center axis (1 / 2) r 1 ∧ 1 ≤ r ∧
      Loses c.containsDefault (Spec.InShell center axis (1 / 2) r 1)) ∧
    (∃ d, ValidElliptical d ∧ 1 ≤ d.majLen ∧ 1 ≤ d.minLen ∧
      Loses (fun p => Disk.containsDefault d p) (Spec.InDisk d.center d.major d.minor d.majLen d.minLen)) ∧
    (∃ n o p0 p1 p2 p3, Spec.IsUnit n ∧ Spec.PlanarPolygon n o [p0, p1, p3, p2] ∧
      Spec.ConvexPolygon n [p0, p1, p3, p2] ∧ 1 ≤ Spec.dist p0 p3 ∧
      Loses (fun p => (Quadrilateral.make p0 p1 p2 p3).containsDefault p) (Spec.InPolygon n o [p0, p1, p3, p2])) := by
  have hx : (2 ^ 19 + farRadius) * 2 ^ 33 = ((2 ^ 52 + 2 ^ 33 : ℤ) : ℝ) + 3 / 4 := by
    unfold farRadius
    norm_num
  have hr : (1 : ℝ) ≤ farRadius := by norm_num [farRadius]
  have hr0 : (0 : ℝ) ≤ farRadius := by linarith
  refine ⟨⟨⟨farCenter, farRadius⟩, hr, ?_⟩, ?_, ?_, ⟨farDisk, farDisk_valid, hr, hr, ?_⟩, ?_⟩
  · refine loses_of (2 ^ 19 + farRadius) 0 (2 ^ 52 + 2 ^ 33) (by norm_num) (by norm_num) hx double_zero (by simp) ?_ ?_
    · simp [Spec.InBall, Spec.dist, farCenter, Real.sqrt_sq hr0]
    · rw [far_outside]
      norm_num [Sphere.containsDefault, Sphere.contains, V3.sqLen, farCenter, farRadius, confusion]
  · obtain ⟨c, _, hv, hb, hh⟩ := (C14_construction farDisk 1 farDisk_valid one_pos).1 (by norm_num [farDisk, farRadius])
    have hcr : c.radius = farRadius := by rw [Cylinder.radius, hb]; rfl
    refine ⟨c, hv, by rw [hcr]; exact hr, by rw [hh], ?_⟩
    rw [hb, hcr, hh]
    refine loses_of (2 ^ 19 + farRadius) 0 (2 ^ 52 + 2 ^ 33) (by norm_num) (by norm_num) hx double_zero (by simp) ?_ ?_
    · unfold Spec.InCylinder
      change 0 ≤ Spec.axial farCenter ⟨0, 0, 1⟩ _ ∧ Spec.axial farCenter ⟨0, 0, 1⟩ _ ≤ 1 ∧
        Spec.radial farCenter ⟨0, 0, 1⟩ _ ≤ _
      rw [far_axial, far_radial _ _ hr0]
      norm_num
    · rw [far_outside]
      unfold Cylinder.containsDefault
      rw [hcr, hh, C14_contains_iff c _ _ hv (by norm_num [farRadius, confusion]), hb, hcr, hh]
      change ¬ (_ < Spec.axial farCenter ⟨0, 0, 1⟩ _ ∧ Spec.axial farCenter ⟨0, 0, 1⟩ _ < _ ∧
        Spec.radial farCenter ⟨0, 0, 1⟩ _ ^ 2 ≤ _)
      rw [far_axial, far_radial _ _ (by norm_num)]
      norm_num [farRadius, confusion]
  · obtain ⟨c, _, hv⟩ := (C15_construction farCenter ⟨0, 0, 1⟩ (1 / 2) farRadius 1 unit_z).2 (by linarith)
    refine ⟨c, _, _, _, hv, hr, ?_⟩
    refine loses_of (2 ^ 19 + farRadius) 0 (2 ^ 52 + 2 ^ 33) (by norm_num) (by norm_num) hx double_zero (by simp) ?_ ?_
    · unfold Spec.InShell
      rw [far_axial, far_radial _ _ hr0]
      norm_num
      linarith
    · rw [far_outside]
      unfold HollowCylinder.containsDefault
      rw [hv.outer, hv.height, C15_contains_iff c _ _ _ _ _ _ _ hv (by norm_num) (by norm_num [farRadius, confusion]),
        far_axial, far_radial _ _ (by norm_num)]
      norm_num [farRadius, confusion]
  · refine loses_of (2 ^ 19 + farRadius) 0 (2 ^ 52 + 2 ^ 33) (by norm_num) (by norm_num) hx double_zero (by simp) ?_ ?_
    · refine ⟨farRadius, 0, ?_, ?_⟩
      · have : farRadius ≠ 0 := by linarith
        simp [farDisk, this]
      · simp [Spec.localPoint, farDisk, farCenter]
    · rw [far_outside]
      rintro ⟨_, _, _, h⟩
      norm_num [farDisk, farCenter, farRadius, V3.dot, confusion] at h
  · refine ⟨⟨0, 0, 1⟩, ⟨0, 0, 0⟩, ⟨2 ^ 19, 0, 0⟩, ⟨2 ^ 19 + 3, 1, 0⟩, ⟨2 ^ 19, 4, 0⟩, ⟨2 ^ 19 + 3, 5, 0⟩, unit_z, ?_, ?_, ?_, ?_⟩
    · simp [Spec.PlanarPolygon, Spec.OnPlane]
    · rw [quad_convex_iff]
      norm_num [Spec.turn, Spec.det]
    · rw [Spec.dist, Real.one_le_sqrt]
      norm_num
    · refine loses_of (2 ^ 19 + 3 / 2 ^ 35) (1 / 2 ^ 35) (2 ^ 52) (by norm_num) (by norm_num) (by norm_num)
        ⟨1, -35, by norm_num, by norm_num⟩ (by rw [abs_of_pos] <;> norm_num) ?_ ?_
      · refine ⟨by simp [Spec.OnPlane], ?_⟩
        rw [quad_edges]
        simp only [List.forall_mem_cons, List.not_mem_nil, false_imp_iff, implies_true, and_true]
        norm_num [Spec.turn, Spec.det]
      · rintro ⟨_, h⟩
        revert h
        rw [← pow_two, mul_pow, V3.len_sq]
        change ¬ |(Triangle.make ⟨2 ^ 19, 0, 0⟩ ⟨2 ^ 19 + 3, 1, 0⟩ ⟨2 ^ 19 + 3, 5, 0⟩).area
            + (Triangle.make ⟨2 ^ 19, 0, 0⟩ ⟨2 ^ 19 + 3, 5, 0⟩ ⟨2 ^ 19, 4, 0⟩).area
          - ((Triangle.make ⟨2 ^ 19, 0, 0⟩ ⟨2 ^ 19 + 3, 1, 0⟩ _).area
            + (Triangle.make ⟨2 ^ 19 + 3, 1, 0⟩ ⟨2 ^ 19 + 3, 5, 0⟩ _).area
            + (Triangle.make ⟨2 ^ 19 + 3, 5, 0⟩ ⟨2 ^ 19, 4, 0⟩ _).area
            + (Triangle.make ⟨2 ^ 19, 4, 0⟩ ⟨2 ^ 19, 0, 0⟩ _).area)| < _
        rw [area_z0 _ _ _ rfl rfl rfl, area_z0 _ _ _ rfl rfl rfl, area_z0 _ _ _ rfl rfl rfl,
          area_z0 _ _ _ rfl rfl rfl, area_z0 _ _ _ rfl rfl rfl, area_z0 _ _ _ rfl rfl rfl]
        norm_num [abs_of_pos, abs_of_neg, Quadrilateral.make, confusion, V3.dot, V3.sqLen]

/-- Geometries of a size of at least one contain all of their points with coordinates up to one million after rounding. -/
def C141_full : Prop :=
  (∀ s : Sphere, 1 ≤ s.radius → Spec.KeepsRounded (10 ^ 6) s.containsDefault (Spec.InBall s.center s.radius)) ∧
  (∀ c, ValidCylinder c → 1 ≤ c.radius → 1 ≤ c.height → Spec.KeepsRounded (10 ^ 6) c.containsDefault
    (Spec.InCylinder c.bottom.center c.bottom.normal c.radius c.height)) ∧
  (∀ d, ValidElliptical d → 1 ≤ d.majLen → 1 ≤ d.minLen → Spec.KeepsRounded (10 ^ 6)
    (fun p => Disk.containsDefault d p) (Spec.InDisk d.center d.major d.minor d.majLen d.minLen)) ∧
  (∀ n o p0 p1 p2 p3, Spec.IsUnit n → Spec.PlanarPolygon n o [p0, p1, p3, p2] →
    Spec.ConvexPolygon n [p0, p1, p3, p2] → 1 ≤ Spec.dist p0 p3 → Spec.KeepsRounded (10 ^ 6)
    (fun p => (Quadrilateral.make p0 p1 p2 p3).containsDefault p) (Spec.InPolygon n o [p0, p1, p3, p2]))

theorem C141_disproof : ¬ C141_full := by
  rintro ⟨h, -⟩
  obtain ⟨⟨s, hs, hl⟩, -⟩ := C141_lost_points
  exact hl (h s hs)

/-! ## The hypotheses can be met -/

example : Spec.KeepsRounded (10 ^ 6) (fun p => (⟨⟨0, 0, 0⟩, ⟨3, 4, 0⟩⟩ : Segment).containsDefault p)
    (Spec.OnSegment ⟨0, 0, 0⟩ ⟨3, 4, 0⟩) := by
  refine C141_segment ⟨⟨0, 0, 0⟩, ⟨3, 4, 0⟩⟩ _ (by norm_num) ?_
  have : Spec.dist (⟨0, 0, 0⟩ : V3) ⟨3, 4, 0⟩ = 5 := by
    rw [Spec.dist, Real.sqrt_eq_iff_mul_self_eq] <;> norm_num
  simp only [this]
  norm_num

example : Spec.KeepsRounded 10 (Sphere.containsDefault ⟨⟨1, 2, 3⟩, 2⟩) (Spec.InBall ⟨1, 2, 3⟩ 2) :=
  C141_sphere_partial ⟨⟨1, 2, 3⟩, 2⟩ 10 (by norm_num) (by norm_num)

example : Spec.KeepsRounded 5 (fun p => (Quadrilateral.make ⟨0, 0, 0⟩ ⟨1, 0, 0⟩ ⟨0, 1, 0⟩ ⟨1, 1, 0⟩).containsDefault p)
    (Spec.InPolygon ⟨0, 0, 1⟩ ⟨0, 0, 0⟩ [⟨0, 0, 0⟩, ⟨1, 0, 0⟩, ⟨1, 1, 0⟩, ⟨0, 1, 0⟩]) := by
  have e : Spec.dist (⟨0, 0, 0⟩ : V3) ⟨1, 1, 0⟩ = √2 := by norm_num [Spec.dist]
  have s2 : (1 : ℝ) ≤ √2 := by rw [Real.one_le_sqrt]; norm_num
  refine C141_quadrilateral_partial ⟨0, 0, 1⟩ ⟨0, 0, 0⟩ _ _ _ _ _ (by norm_num) unit_z ?_ ?_ ?_ ?_ ?_
  · simp [Spec.PlanarPolygon, Spec.OnPlane]
  · rw [quad_convex_iff]
    norm_num [Spec.turn, Spec.det]
  · norm_num [Spec.turn, Spec.det]
  · rw [e]; linarith
  · rw [e]
    norm_num [Spec.dist]

end Props
