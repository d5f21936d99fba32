import Verif.Spec.Motion
import Verif.Model.Geometry.Cylinder
import Verif.Model.Distance.Distance
import Verif.Model.Intersection.Angle
import Verif.Props.Common
import Verif.Props.Similarity
import Verif.Props.Solids

/-!
# The position and orientation of the coordinate system does not matter (C120)
-/

namespace Props
open Verif Frackit
open Spec (IsRotation move)

/-! ## Rotations -/

section
variable {R : V3 → V3} (H : IsRotation R)
include H

theorem rot_sub (a b : V3) : R (a - b) = R a - R b := by
  have h : R ((-1 : ℝ) • b) = (-1 : ℝ) • R b := H.smul _ _
  rw [show a - b = a + (-1 : ℝ) • b by module, H.add, h]
  module

theorem rot_zero : R 0 = 0 := by
  have := H.smul 0 0
  simpa using this

theorem rot_dot (a b : V3) : (R a).dot (R b) = a.dot b := H.inner a b

theorem rot_sqLen (a : V3) : (R a).sqLen = a.sqLen := H.inner a a

theorem rot_len (a : V3) : (R a).len = a.len := by
  unfold V3.len
  rw [rot_sqLen H]

theorem rot_cross (a b : V3) : (R a).cross (R b) = R (a.cross b) := by
  have key : ((R a).cross (R b) - R (a.cross b)).sqLen = 0 := by
    have e1 : ∀ u w : V3, (u - w).sqLen = u.sqLen - 2 * u.dot w + w.sqLen := by
      intro u w; simp only [V3.sqLen, V3.dot, V3.sub_x, V3.sub_y, V3.sub_z]; ring
    have e2 : ∀ u w : V3, (u.cross w).sqLen = u.sqLen * w.sqLen - u.dot w ^ 2 := by
      intro u w; simp only [V3.sqLen, V3.dot, V3.cross]; ring
    have e3 : ∀ u w c : V3, (u.cross w).dot c = Spec.det u w c := by
      intro u w c; simp only [Spec.det, V3.dot, V3.cross]; ring
    rw [e1, e2, e3, H.det, rot_sqLen H, rot_sqLen H, rot_sqLen H, rot_dot H, ← e3, ← V3.sqLen_eq_dot, e2]
    ring
  exact sub_eq_zero.1 (V3.sqLen_eq_zero.1 key)

theorem rot_sdiv (a : V3) (c : ℝ) : (R a).sdiv c = R (a.sdiv c) := by
  rw [V3.sdiv_eq, V3.sdiv_eq, H.smul]

theorem rot_inj {a b : V3} (h : R a = R b) : a = b := by
  have h1 : (R a - R b).sqLen = 0 := by rw [h, sub_self]; simp [V3.sqLen]
  rw [← rot_sub H, rot_sqLen H] at h1
  exact sub_eq_zero.1 (V3.sqLen_eq_zero.1 h1)

theorem mkDirection_rot (w : V3) : mkDirection (R w) = mkDirection w >>= fun d => .val (R d) := by
  unfold mkDirection
  rw [rot_len H]
  by_cases h : w.len = 0
  · rw [if_pos h, if_pos h]; rfl
  · rw [if_neg h, if_neg h, rot_sdiv H]; rfl

theorem move_sub (t p q : V3) : move R t p - move R t q = R (p - q) := by
  rw [rot_sub H]
  unfold move
  module

theorem move_inj {t p q : V3} (h : move R t p = move R t q) : p = q := by
  unfold move at h
  exact rot_inj H (add_right_cancel h)

theorem move_add (t p w : V3) : move R t (p + w) = move R t p + R w := by
  unfold move
  rw [H.add]
  module

end

/-- The function `rotate` of the library is such a rotation, for every axis and angle. -/
theorem C120_rotate (axis : V3) (angle : ℝ) (h : Spec.IsUnit axis) : IsRotation fun v => rotate v axis angle where
  add a b := by
    simp only [rotate, V3.dot_add]
    rfl
  smul c a := by
    simp only [rotate, V3.dot_smul]
    rfl
  inner a b := C01_rotate_preserves_inner a b axis angle h
  det a b c := by
    have hcs := Real.sin_sq_add_cos_sq angle
    have hu : axis.x * axis.x + axis.y * axis.y + axis.z * axis.z = 1 := by
      unfold Spec.IsUnit at h
      linarith
    have key : Spec.det (rotate a axis angle) (rotate b axis angle) (rotate c axis angle) =
        (Real.cos angle ^ 2 + Real.sin angle ^ 2 * (axis.x * axis.x + axis.y * axis.y + axis.z * axis.z)) *
        (Real.cos angle + (1 - Real.cos angle) * (axis.x * axis.x + axis.y * axis.y + axis.z * axis.z)) *
        Spec.det a b c := by
      rw [rotate_eq, rotate_eq, rotate_eq]
      simp only [Spec.det, V3.add_x, V3.add_y, V3.add_z, V3.smul_x, V3.smul_y, V3.smul_z, V3.cross, V3.dot]
      ring
    have hcs' : Real.cos angle ^ 2 + Real.sin angle ^ 2 * 1 = 1 := by linarith
    rw [key, hu, hcs']
    ring

/-- Example: the quarter turn about the z-axis. -/
theorem quarter_turn (v : V3) : rotate v ⟨0, 0, 1⟩ (Real.pi / 2) = ⟨-v.y, v.x, v.z⟩ := by
  rw [rotate_eq]
  ext <;> simp [V3.cross, V3.dot]

theorem quarter_isRotation : IsRotation fun v => rotate v ⟨0, 0, 1⟩ (Real.pi / 2) :=
  C120_rotate _ _ (by norm_num [Spec.IsUnit])

/-! ## Moved geometries: points are moved, directions and vectors are rotated -/

variable (R : V3 → V3) (t : V3)

def moveSegment (s : Segment) : Segment := ⟨move R t s.source, move R t s.target⟩
def moveLine (l : Line) : Line := ⟨move R t l.supp, R l.dir⟩
def movePlane (pl : Plane) : Plane := ⟨move R t pl.supp, R pl.base1, R pl.base2, R pl.normal⟩
def moveElliptical (e : Elliptical) : Elliptical :=
  ⟨move R t e.center, R e.major, R e.minor, R e.normal, e.majLen, e.minLen⟩
def moveArc (a : EllipseArc) : EllipseArc :=
  ⟨moveElliptical R t a.ellipse, move R t a.source, move R t a.target, a.sourceAngle, a.targetAngle, a.isFullEllipse⟩
def moveSphere (s : Sphere) : Sphere := ⟨move R t s.center, s.radius⟩
def moveCylinder (c : Cylinder) : Cylinder := ⟨c.height, moveElliptical R t c.top, moveElliptical R t c.bottom⟩
def moveSurface (c : CylinderSurface) : CylinderSurface :=
  ⟨c.height, moveElliptical R t c.top, moveElliptical R t c.bottom⟩
def moveHollow (c : HollowCylinder) : HollowCylinder :=
  ⟨moveElliptical R t c.bottomInner, moveElliptical R t c.topInner, c.outerRadius, c.height⟩

variable {R t} (H : IsRotation R)
include H

/-! ## Lines, planes and segments -/

/-- Lines: the projection moves along with the line and the point, and containment does not change. -/
theorem C120_line (l : Line) (p : V3) (eps : ℝ) :
    (moveLine R t l).projection (move R t p) = move R t (l.projection p) ∧
    ((moveLine R t l).contains (move R t p) eps ↔ l.contains p eps) := by
  have h : (moveLine R t l).projection (move R t p) = move R t (l.projection p) := by
    unfold Line.projection moveLine
    simp only
    rw [move_add H, move_sub H, rot_dot H, H.smul]
  refine ⟨h, ?_⟩
  unfold Line.contains
  rw [h, move_sub H, rot_sqLen H]

/-- Planes, with any basis. -/
theorem C120_plane (pl : Plane) (p : V3) (eps : ℝ) :
    (movePlane R t pl).projection (move R t p) = move R t (pl.projection p) ∧
    ((movePlane R t pl).contains (move R t p) eps ↔ pl.contains p eps) := by
  constructor
  · unfold Plane.projection movePlane
    simp only
    rw [move_add H, move_sub H, rot_dot H, H.smul, H.smul]
  · unfold Plane.contains movePlane
    simp only
    rw [move_sub H, rot_dot H]

/-- A plane given by three points: the whole plane moves with the points. -/
theorem C120_plane_through_points (a b c : V3) : Plane.ofPoints (move R t a) (move R t b) (move R t c) =
    Plane.ofPoints a b c >>= fun pl => .val (movePlane R t pl) := by
  unfold Plane.ofPoints
  simp only [move_sub H, mkDirection_rot H]
  cases mkDirection (b - a) with
  | val d =>
    simp only [Outcome.val_bind, rot_cross H, mkDirection_rot H]
    cases mkDirection (d.cross (c - a)) with
    | val n =>
      simp only [Outcome.val_bind, rot_cross H, mkDirection_rot H]
      cases mkDirection (n.cross d) <;> rfl
    | _ => rfl
  | _ => rfl

theorem supportingLine_move (s : Segment) : (moveSegment R t s).supportingLine =
    s.supportingLine >>= fun l => .val (moveLine R t l) := by
  unfold Segment.supportingLine Segment.direction moveSegment
  simp only [move_sub H, mkDirection_rot H]
  cases mkDirection (s.target - s.source) <;> rfl

/-- Segments. -/
theorem C120_segment (s : Segment) (p : V3) (eps c : ℝ) (b : Bool) :
    (moveSegment R t s).length = s.length ∧
    (moveSegment R t s).getPoint c = move R t (s.getPoint c) ∧
    ((moveSegment R t s).contains (move R t p) eps b ↔ s.contains p eps b) ∧
    ((moveSegment R t s).containsDefault (move R t p) b ↔ s.containsDefault p b) := by
  have hl : (moveSegment R t s).length = s.length := by
    simp only [Segment.length, moveSegment, move_sub H, rot_len H]
  have main : ∀ eps, (moveSegment R t s).contains (move R t p) eps b ↔ s.contains p eps b := by
    intro eps
    unfold Segment.contains
    rw [supportingLine_move H]
    simp only [moveSegment, move_sub H, rot_sqLen H]
    cases h : s.supportingLine with
    | val l =>
      simp only [Outcome.val_bind, (C120_line H l p eps).2]
      simp only [moveLine, rot_dot H]
    | thrown e => rfl
    | nan => rfl
    | ub => rfl
  refine ⟨hl, ?_, main eps, ?_⟩
  · simp only [Segment.getPoint, moveSegment, move_sub H]
    rw [move_add H, H.smul]
  · unfold Segment.containsDefault
    rw [hl, main]

/-! ## Circles, ellipses, arcs and disks -/

/-- Ellipses and disks constructed from moved arguments are the moved ellipses and disks. -/
theorem C120_elliptical_make (c a b : V3) (la lb : ℝ) : Elliptical.make (move R t c) (R a) (R b) la lb =
    Elliptical.make c a b la lb >>= fun e => .val (moveElliptical R t e) := by
  unfold Elliptical.make
  rw [rot_cross H, mkDirection_rot H]
  cases mkDirection (a.cross b) <;> rfl

theorem supportingPlane_move (e : Elliptical) (p : V3) (eps : ℝ) :
    (moveElliptical R t e).supportingPlane.contains (move R t p) eps ↔ e.supportingPlane.contains p eps :=
  (C120_plane H e.supportingPlane p eps).2

/-- Circles, ellipses and disks: containment with and without a tolerance. -/
theorem C120_elliptical (e : Elliptical) (p : V3) (eps : ℝ) (b : Bool) :
    (Circle.contains (moveElliptical R t e) (move R t p) eps ↔ Circle.contains e p eps) ∧
    (Circle.containsDefault (moveElliptical R t e) (move R t p) ↔ Circle.containsDefault e p) ∧
    (Ellipse.contains (moveElliptical R t e) (move R t p) eps b ↔ Ellipse.contains e p eps b) ∧
    (Ellipse.containsDefault (moveElliptical R t e) (move R t p) b ↔ Ellipse.containsDefault e p b) ∧
    (Disk.contains (moveElliptical R t e) (move R t p) eps b ↔ Disk.contains e p eps b) ∧
    (Disk.containsDefault (moveElliptical R t e) (move R t p) b ↔ Disk.containsDefault e p b) := by
  have hc : ∀ eps, Circle.contains (moveElliptical R t e) (move R t p) eps ↔ Circle.contains e p eps := by
    intro eps
    unfold Circle.contains
    rw [supportingPlane_move H]
    simp only [moveElliptical, move_sub H, rot_len H]
  have he : ∀ eps, Ellipse.contains (moveElliptical R t e) (move R t p) eps b ↔ Ellipse.contains e p eps b := by
    intro eps
    unfold Ellipse.contains
    rw [supportingPlane_move H]
    simp only [moveElliptical, move_sub H, rot_dot H]
  have hd : ∀ eps, Disk.contains (moveElliptical R t e) (move R t p) eps b ↔ Disk.contains e p eps b := by
    intro eps
    unfold Disk.contains
    rw [supportingPlane_move H]
    simp only [moveElliptical, move_sub H, rot_dot H]
  exact ⟨hc _, hc _, he _, he _, hd _, hd _⟩

/-- Points of ellipses and disks, and angles of points on ellipses. -/
theorem C120_ellipse_points (e : Elliptical) (p : V3) (x y : ℝ) (b : Bool) :
    Ellipse.getPoint (moveElliptical R t e) x = move R t (Ellipse.getPoint e x) ∧
    Circle.getPoint (moveElliptical R t e) x = move R t (Circle.getPoint e x) ∧
    Disk.getPoint (moveElliptical R t e) x y = (Disk.getPoint e x y >>= fun q => .val (move R t q)) ∧
    Ellipse.getAngle (moveElliptical R t e) (move R t p) b = Ellipse.getAngle e p b := by
  have hp : ∀ (e : Elliptical) x, Ellipse.getPoint (moveElliptical R t e) x = move R t (Ellipse.getPoint e x) := by
    intro e x
    unfold Ellipse.getPoint Ellipse.getPointFromAngle moveElliptical
    simp only
    rw [move_add H, move_add H, H.smul, H.smul]
  refine ⟨hp e x, ?_, ?_, ?_⟩
  · unfold Circle.getPoint Circle.getPointFromAngle moveElliptical
    simp only
    rw [move_add H, move_add H, H.smul, H.smul]
  · unfold Disk.getPoint
    have : Disk.boundingEllipse (moveElliptical R t e) =
        Disk.boundingEllipse e >>= fun e' => .val (moveElliptical R t e') := C120_elliptical_make H _ _ _ _ _
    rw [this]
    cases Disk.boundingEllipse e with
    | val e' =>
      simp only [Outcome.val_bind, Outcome.pure_eq, hp, move_add H]
      congr 2
      rw [H.smul, rot_sub H]
      unfold moveElliptical move
      simp
    | _ => rfl
  · unfold Ellipse.getAngle
    have hc := (C120_elliptical (t := t) H e p 0 true).2.2.2.1
    by_cases h : b = true ∧ ¬ Ellipse.containsDefault e p
    · rw [if_pos h, if_pos (by rwa [hc])]
    rw [if_neg h, if_neg (by rwa [hc])]
    simp only [moveElliptical, move_sub H, rot_dot H]

/-- Arcs: construction, containment with and without a tolerance, and points. -/
theorem C120_arc (e : Elliptical) (src tgt : V3) :
    EllipseArc.make (moveElliptical R t e) (move R t src) (move R t tgt) =
      (EllipseArc.make e src tgt >>= fun a => .val (moveArc R t a)) ∧
    ∀ (a : EllipseArc) (p : V3) (eps x : ℝ) (b : Bool),
      (moveArc R t a).contains (move R t p) eps b = a.contains p eps b ∧
      (moveArc R t a).containsDefault (move R t p) b = a.containsDefault p b ∧
      (moveArc R t a).getPoint x = move R t (a.getPoint x) := by
  constructor
  · unfold EllipseArc.make
    have h1 : ∀ p, Ellipse.getAngle (moveElliptical R t e) (move R t p) = Ellipse.getAngle e p :=
      fun p => (C120_ellipse_points H e p 0 0 true).2.2.2
    have h2 : pointIsEqual (move R t src) (move R t tgt) ((moveElliptical R t e).majLen * confusion) ↔
        pointIsEqual src tgt (e.majLen * confusion) := by
      unfold pointIsEqual
      rw [move_sub H, rot_sqLen H]
      rfl
    simp only [h1]
    by_cases h : pointIsEqual src tgt (e.majLen * confusion)
    · rw [if_pos h, if_pos (h2.2 h)]
      cases Ellipse.getAngle e src <;> rfl
    · rw [if_neg h, if_neg (fun h' => h (h2.1 h'))]
      cases Ellipse.getAngle e src with
      | val sa =>
        simp only [Outcome.val_bind]
        cases Ellipse.getAngle e tgt <;> rfl
      | _ => rfl
  · intro a p eps x b
    have main : ∀ eps, (moveArc R t a).contains (move R t p) eps b = a.contains p eps b := by
      intro eps
      unfold EllipseArc.contains
      have h1 := (C120_ellipse_points (t := t) H a.ellipse p 0 0 b).2.2.2
      have h2 := (C120_elliptical (t := t) H a.ellipse p eps true).2.2.1
      rw [show (moveArc R t a).ellipse = moveElliptical R t a.ellipse from rfl, h1]
      by_cases h : b = true ∧ ¬ Ellipse.contains a.ellipse p eps
      · rw [if_pos h, if_pos (by rwa [h2])]
      · rw [if_neg h, if_neg (by rwa [h2])]
        rfl
    refine ⟨main eps, main _, ?_⟩
    unfold EllipseArc.getPoint Ellipse.getPointFromAngle moveArc moveElliptical
    simp only
    rw [move_add H, move_add H, H.smul, H.smul]

theorem unit_rot {n : V3} (h : Spec.IsUnit n) : Spec.IsUnit (R n) := by
  rw [Spec.isUnit_iff] at h ⊢
  rw [rot_sqLen H, h]

/-- A circle constructed from its centre, normal and radius: its axes are chosen by the library and depend on the
coordinate system, the points contained do not. -/
theorem C120_circle_make (c n : V3) (r : ℝ) (hn : Spec.IsUnit n) :
    ∃ k k', Circle.make c n r = .val k ∧ Circle.make (move R t c) (R n) r = .val k' ∧ ∀ p eps,
      (Circle.contains k' (move R t p) eps ↔ Circle.contains k p eps) ∧
      (Circle.containsDefault k' (move R t p) ↔ Circle.containsDefault k p) := by
  obtain ⟨u, v, -, hk, -⟩ := circle_frame c n r hn
  obtain ⟨u', v', -, hk', -⟩ := circle_frame (move R t c) (R n) r (unit_rot H hn)
  have key : ∀ p eps, Circle.contains ⟨move R t c, u', v', R n, r, r⟩ (move R t p) eps ↔
      Circle.contains ⟨c, u, v, n, r, r⟩ p eps := by
    intro p eps
    simp only [Circle.contains, Elliptical.supportingPlane, Plane.ofBasis, Plane.contains, move_sub H, rot_dot H,
      rot_len H]
  exact ⟨_, _, hk, hk', fun p eps => ⟨key p eps, key p _⟩⟩

/-! ## Spheres and cylinders -/

/-- Spheres. -/
theorem C120_sphere (s : Sphere) (p : V3) (eps : ℝ) :
    ((moveSphere R t s).contains (move R t p) eps ↔ s.contains p eps) ∧
    ((moveSphere R t s).containsDefault (move R t p) ↔ s.containsDefault p) := by
  have key : ∀ eps, (moveSphere R t s).contains (move R t p) eps ↔ s.contains p eps := by
    intro eps
    unfold Sphere.contains moveSphere
    rw [move_sub H, rot_sqLen H]
  exact ⟨key eps, key _⟩

theorem holds_move (s : Segment) (P Q : Line → Prop) (h : ∀ l, P (moveLine R t l) ↔ Q l) :
    holdsIfVal (moveSegment R t s).supportingLine P ↔ holdsIfVal s.supportingLine Q := by
  rw [supportingLine_move H]
  cases s.supportingLine with
  | val l => exact h l
  | _ => rfl

/-- Cylinders, cylinder surfaces and hollow cylinders in terms of the centres and radii they are made of. -/
theorem cylinder_key (c c' : Cylinder) (h1 : c'.bottom.center = move R t c.bottom.center)
    (h2 : c'.top.center = move R t c.top.center) (h3 : c'.bottom.majLen = c.bottom.majLen) (h4 : c'.height = c.height)
    (p : V3) (eps : ℝ) : (c'.contains (move R t p) eps ↔ c.contains p eps) ∧
      (c'.containsDefault (move R t p) ↔ c.containsDefault p) := by
  have hs : c'.centerSegment = moveSegment R t c.centerSegment := by
    unfold Cylinder.centerSegment moveSegment
    rw [h1, h2]
  have main : ∀ eps, c'.contains (move R t p) eps ↔ c.contains p eps := by
    intro eps
    unfold Cylinder.contains Cylinder.radius
    rw [hs, h3]
    apply holds_move H
    intro l
    simp only [(C120_line H l p 0).1, (C120_segment H _ _ _ 0 _).2.2.1, move_sub H, rot_sqLen H]
  refine ⟨main eps, ?_⟩
  unfold Cylinder.containsDefault Cylinder.radius
  rw [h3, h4]
  exact main _

theorem surface_key (c c' : CylinderSurface) (h1 : c'.bottom.center = move R t c.bottom.center)
    (h2 : c'.top.center = move R t c.top.center) (h3 : c'.bottom.majLen = c.bottom.majLen) (h4 : c'.height = c.height)
    (p : V3) (eps : ℝ) : (c'.contains (move R t p) eps ↔ c.contains p eps) ∧
      (c'.containsDefault (move R t p) ↔ c.containsDefault p) := by
  have hs : c'.centerSegment = moveSegment R t c.centerSegment := by
    unfold CylinderSurface.centerSegment moveSegment
    rw [h1, h2]
  have main : ∀ eps, c'.contains (move R t p) eps ↔ c.contains p eps := by
    intro eps
    unfold CylinderSurface.contains CylinderSurface.radius
    rw [hs, h3]
    apply holds_move H
    intro l
    simp only [(C120_line H l p 0).1, (C120_segment H _ _ _ 0 _).2.2.1, move_sub H, rot_len H]
  refine ⟨main eps, ?_⟩
  unfold CylinderSurface.containsDefault CylinderSurface.radius
  rw [h3, h4]
  exact main _

theorem hollow_key (c c' : HollowCylinder) (h1 : c'.bottomInner.center = move R t c.bottomInner.center)
    (h2 : c'.topInner.center = move R t c.topInner.center) (h3 : c'.bottomInner.majLen = c.bottomInner.majLen)
    (h4 : c'.height = c.height) (h5 : c'.outerRadius = c.outerRadius)
    (p : V3) (eps : ℝ) : (c'.contains (move R t p) eps ↔ c.contains p eps) ∧
      (c'.containsDefault (move R t p) ↔ c.containsDefault p) := by
  have hs : c'.centerSegment = moveSegment R t c.centerSegment := by
    unfold HollowCylinder.centerSegment moveSegment
    rw [h1, h2]
  have main : ∀ eps, c'.contains (move R t p) eps ↔ c.contains p eps := by
    intro eps
    unfold HollowCylinder.contains HollowCylinder.innerRadius
    rw [hs, h3, h5]
    apply holds_move H
    intro l
    simp only [(C120_line H l p 0).1, (C120_segment H _ _ _ 0 _).2.2.1, move_sub H, rot_sqLen H]
  refine ⟨main eps, ?_⟩
  unfold HollowCylinder.containsDefault
  rw [h4, h5]
  exact main _

/-- A cylinder constructed from a moved disk (or the exception for disks that are not circular). -/
theorem C120_cylinder (d : Elliptical) (h : ℝ) :
    Cylinder.ofDisk (moveElliptical R t d) h = (Cylinder.ofDisk d h >>= fun c => .val (moveCylinder R t c)) ∧
    ∀ (c : Cylinder) p eps, ((moveCylinder R t c).contains (move R t p) eps ↔ c.contains p eps) ∧
      ((moveCylinder R t c).containsDefault (move R t p) ↔ c.containsDefault p) := by
  refine ⟨?_, fun c p eps => cylinder_key H c (moveCylinder R t c) rfl rfl rfl rfl p eps⟩
  unfold Cylinder.ofDisk
  have ht : makeTopDisk (moveElliptical R t d) h = makeTopDisk d h >>= fun e => .val (moveElliptical R t e) := by
    unfold makeTopDisk
    rw [← C120_elliptical_make H, move_add H, H.smul]
    rfl
  rw [ht]
  cases makeTopDisk d h with
  | val top =>
    simp only [Outcome.val_bind]
    by_cases hc : |d.majLen - d.minLen| > d.majLen * confusion
    · rw [if_pos hc, if_pos (show |(moveElliptical R t d).majLen - (moveElliptical R t d).minLen| >
        (moveElliptical R t d).majLen * confusion from hc)]
      rfl
    · rw [if_neg hc, if_neg (show ¬ |(moveElliptical R t d).majLen - (moveElliptical R t d).minLen| >
        (moveElliptical R t d).majLen * confusion from hc)]
      rfl
  | _ => rfl

/-- The lateral surface of a cylinder around a circle, and a hollow cylinder, constructed from moved points and
directions.  If the radii do not fit, both are refused. -/
theorem C120_surface_and_hollow (c n : V3) (r1 r2 h : ℝ) (hn : Spec.IsUnit n) :
    (∃ k k' s s', Circle.make c n r1 = .val k ∧ CylinderSurface.ofCircle k h = .val s ∧
      Circle.make (move R t c) (R n) r1 = .val k' ∧ CylinderSurface.ofCircle k' h = .val s' ∧ ∀ p eps,
        (s'.contains (move R t p) eps ↔ s.contains p eps) ∧
        (s'.containsDefault (move R t p) ↔ s.containsDefault p)) ∧
    (r1 ≤ r2 → ∃ y y', HollowCylinder.make c n r1 r2 h = .val y ∧
      HollowCylinder.make (move R t c) (R n) r1 r2 h = .val y' ∧ ∀ p eps,
        (y'.contains (move R t p) eps ↔ y.contains p eps) ∧
        (y'.containsDefault (move R t p) ↔ y.containsDefault p)) ∧
    (r2 < r1 → (HollowCylinder.make c n r1 r2 h).isThrown ∧
      (HollowCylinder.make (move R t c) (R n) r1 r2 h).isThrown) := by
  have hn' := unit_rot H hn
  have htop : ∀ c : V3, move R t c + h • R n = move R t (c + h • n) := by
    intro c
    rw [move_add H, H.smul]
  refine ⟨?_, ?_, ?_⟩
  · obtain ⟨k, s, h1, h2, h3⟩ := (C69_surface_construction c n r1 h hn).1
    obtain ⟨k', s', h1', h2', h3'⟩ := (C69_surface_construction (move R t c) (R n) r1 h hn').1
    refine ⟨k, k', s, s', h1, h2, h1', h2', fun p eps => surface_key H s s' ?_ ?_ ?_ ?_ p eps⟩
    · rw [h3.bottom_center, h3'.bottom_center]
    · rw [h3.top_center, h3'.top_center, htop]
    · exact h3'.radius.trans h3.radius.symm
    · rw [h3.height, h3'.height]
  · intro hr
    obtain ⟨y, hy, h3⟩ := (C15_construction c n r1 r2 h hn).2 hr
    obtain ⟨y', hy', h3'⟩ := (C15_construction (move R t c) (R n) r1 r2 h hn').2 hr
    refine ⟨y, y', hy, hy', fun p eps => hollow_key H y y' ?_ ?_ ?_ ?_ ?_ p eps⟩
    · rw [h3.bottom_center, h3'.bottom_center]
    · rw [h3.top_center, h3'.top_center, htop]
    · exact h3'.inner.trans h3.inner.symm
    · rw [h3.height, h3'.height]
    · rw [h3.outer, h3'.outer]
  · intro hr
    exact ⟨(C15_construction c n r1 r2 h hn).1 hr, (C15_construction _ _ r1 r2 h hn').1 hr⟩

/-! ## Planar figures -/

omit H in
theorem mkDirection_unit {w n : V3} (h : mkDirection w = .val n) : Spec.IsUnit n := by
  have hw : w ≠ 0 := by
    rintro rfl
    simp [mkDirection, V3.len, V3.sqLen] at h
  obtain ⟨d, h1, h2, -⟩ := C02_direction_unit w hw
  rw [h1] at h
  exact (Outcome.val.inj h) ▸ h2

theorem planeContains_move (a b c p : V3) (eps : ℝ) :
    planeContains (Plane.ofPoints (move R t a) (move R t b) (move R t c)) (move R t p) eps ↔
      planeContains (Plane.ofPoints a b c) p eps := by
  rw [C120_plane_through_points H]
  cases Plane.ofPoints a b c with
  | val pl => exact (C120_plane H pl p eps).2
  | _ => rfl

theorem area_move (a b c : V3) :
    (Triangle.make (move R t a) (move R t b) (move R t c)).area = (Triangle.make a b c).area := by
  unfold Triangle.make
  simp only [move_sub H, rot_cross H, rot_len H]

theorem center_move (a b c : V3) :
    (Triangle.make (move R t a) (move R t b) (move R t c)).center = move R t (Triangle.make a b c).center := by
  have e : ∀ a b c : V3, (Triangle.make a b c).center = (1 / 3 : ℝ) • (a + b + c) := by
    intro a b c
    ext <;> simp [Triangle.make] <;> ring
  rw [e, e]
  unfold move
  rw [H.smul, H.add, H.add]
  module

/-- Triangles. -/
theorem C120_triangle (a b c p : V3) (eps : ℝ) (f : Bool) :
    (Triangle.make (move R t a) (move R t b) (move R t c)).area = (Triangle.make a b c).area ∧
    (Triangle.make (move R t a) (move R t b) (move R t c)).center = move R t (Triangle.make a b c).center ∧
    (Triangle.make (move R t a) (move R t b) (move R t c)).normal =
      ((Triangle.make a b c).normal >>= fun n => .val (R n)) ∧
    ((Triangle.make (move R t a) (move R t b) (move R t c)).contains (move R t p) eps f ↔
      (Triangle.make a b c).contains p eps f) := by
  have hn : (Triangle.make (move R t a) (move R t b) (move R t c)).normal =
      ((Triangle.make a b c).normal >>= fun n => .val (R n)) := by
    unfold Triangle.make
    simp only [move_sub H, rot_cross H, mkDirection_rot H]
  refine ⟨area_move H a b c, center_move H a b c, hn, ?_⟩
  unfold Triangle.contains
  apply and_congr
  · apply imp_congr_right
    intro _
    unfold Triangle.supportingPlane
    rw [hn]
    cases hno : (Triangle.make a b c).normal with
    | val n =>
      have hu : Spec.IsUnit n := mkDirection_unit hno
      obtain ⟨pl, hpl, hs, hnn, -⟩ := C03_plane_from_normal a n hu
      obtain ⟨pl', hpl', hs', hnn', -⟩ := C03_plane_from_normal (move R t a) (R n) (unit_rot H hu)
      simp only [Outcome.val_bind]
      rw [show (Triangle.make a b c).c0 = a from rfl,
        show (Triangle.make (move R t a) (move R t b) (move R t c)).c0 = move R t a from rfl, hpl, hpl']
      simp only [planeContains, Plane.contains]
      rw [hs, hnn, hs', hnn', move_sub H, rot_dot H]
    | _ => rfl
  · rw [area_move H, show (Triangle.make (move R t a) (move R t b) (move R t c)).c0 = move R t a from rfl,
      show (Triangle.make (move R t a) (move R t b) (move R t c)).c1 = move R t b from rfl,
      show (Triangle.make (move R t a) (move R t b) (move R t c)).c2 = move R t c from rfl, area_move H, area_move H,
      area_move H]
    rfl

/-- Quadrilaterals: area, centre, convexity and containment. -/
theorem C120_quadrilateral (p0 p1 p2 p3 p : V3) (eps : ℝ) (b : Bool) :
    let q := Quadrilateral.make p0 p1 p2 p3
    let q' := Quadrilateral.make (move R t p0) (move R t p1) (move R t p2) (move R t p3)
    q'.area = q.area ∧ q'.center = (q.center >>= fun c => .val (move R t c)) ∧ (q'.isConvex ↔ q.isConvex) ∧
      (q'.contains (move R t p) eps b ↔ q.contains p eps b) ∧
      (q'.containsDefault (move R t p) b ↔ q.containsDefault p b) := by
  intro q q'
  have ha : q'.area = q.area := by
    simp only [q, q', Quadrilateral.make, area_move H]
  have main : ∀ eps, q'.contains (move R t p) eps b ↔ q.contains p eps b := by
    intro eps
    unfold Quadrilateral.contains
    rw [ha]
    apply and_congr
    · apply imp_congr_right
      intro _
      exact planeContains_move H p0 p1 p2 p eps
    · simp only [q, q', Quadrilateral.make, area_move H]
  refine ⟨ha, ?_, ?_, main eps, ?_⟩
  · simp only [q, q', Quadrilateral.make, area_move H, center_move H]
    by_cases h0 : (Triangle.make p0 p1 p3).area + (Triangle.make p0 p3 p2).area = 0
    · rw [if_pos h0, if_pos h0]; rfl
    · rw [if_neg h0, if_neg h0]
      simp only [Outcome.val_bind]
      congr 1
      rw [V3.sdiv_eq, V3.sdiv_eq]
      unfold move
      rw [H.smul, H.add, H.smul, H.smul]
      have : ((Triangle.make p0 p1 p3).area • (R (Triangle.make p0 p1 p3).center + t) +
          (Triangle.make p0 p3 p2).area • (R (Triangle.make p0 p3 p2).center + t)) =
          (Triangle.make p0 p1 p3).area • R (Triangle.make p0 p1 p3).center +
          (Triangle.make p0 p3 p2).area • R (Triangle.make p0 p3 p2).center +
          ((Triangle.make p0 p1 p3).area + (Triangle.make p0 p3 p2).area) • t := by module
      rw [this, smul_add, smul_smul, inv_mul_cancel₀ h0, one_smul]
  · simp only [q, q', Quadrilateral.make, quadConvexity, move_sub H, rot_cross H, rot_dot H]
  · unfold Quadrilateral.containsDefault
    rw [show q'.p3 = move R t q.p3 from rfl, show q'.p0 = move R t q.p0 from rfl, move_sub H, rot_len H]
    exact main _

omit H in
theorem getD_move (cs : List V3) (i : ℕ) (hi : i < cs.length) :
    (cs.map (move R t)).getD i 0 = move R t (cs.getD i 0) := by
  simp [List.getD, hi]

theorem edgeDir_move (cs : List V3) (i : ℕ) (hi : i < cs.length) :
    polygonEdgeDir (cs.map (move R t)) i = R (polygonEdgeDir cs i) := by
  have h2 : (i + 1) % cs.length < cs.length := Nat.mod_lt _ (by omega)
  unfold polygonEdgeDir polygonEdge
  simp only [List.length_map, getD_move cs i hi, getD_move cs _ h2, move_sub H, rot_len H, rot_sdiv H]

omit H in
theorem polygonEdge_move (cs : List V3) (i : ℕ) (hi : i < cs.length) :
    polygonEdge (cs.map (move R t)) i = moveSegment R t (polygonEdge cs i) := by
  have h2 : (i + 1) % cs.length < cs.length := Nat.mod_lt _ (by omega)
  unfold polygonEdge moveSegment
  simp only [List.length_map, getD_move cs i hi, getD_move cs _ h2]

theorem convexity_move (cs : List V3) (h3 : 3 ≤ cs.length) :
    polygonConvexity (cs.map (move R t)) = polygonConvexity cs := by
  unfold polygonConvexity
  have hdeg : (∃ i < (cs.map (move R t)).length, (polygonEdge (cs.map (move R t)) i).source =
      (polygonEdge (cs.map (move R t)) i).target) ↔
      ∃ i < cs.length, (polygonEdge cs i).source = (polygonEdge cs i).target := by
    rw [List.length_map]
    constructor
    · rintro ⟨i, hi, h⟩
      rw [polygonEdge_move cs i hi] at h
      exact ⟨i, hi, move_inj H h⟩
    · rintro ⟨i, hi, h⟩
      refine ⟨i, hi, ?_⟩
      rw [polygonEdge_move cs i hi]
      exact congrArg (move R t) h
  by_cases hd : ∃ i < cs.length, (polygonEdge cs i).source = (polygonEdge cs i).target
  · simp only [if_pos hd, if_pos (hdeg.2 hd)]
  · simp only [if_neg hd, if_neg (fun h => hd (hdeg.1 h)), List.length_map]
    congr 1
    apply propext
    apply forall_congr'
    intro i
    apply imp_congr_right
    intro h1
    apply imp_congr_right
    intro h2
    rw [edgeDir_move H cs _ (by omega), edgeDir_move H cs _ (by omega), edgeDir_move H cs _ (by omega),
      edgeDir_move H cs _ (by omega), rot_cross H, rot_cross H, rot_dot H]

omit H in
theorem triangulate_move (cs : List V3) (h3 : 3 ≤ cs.length) :
    ∃ ts : List (V3 × V3 × V3), triangulate cs = ts.map (fun a => Triangle.make a.1 a.2.1 a.2.2) ∧
      triangulate (cs.map (move R t)) =
        ts.map (fun a => Triangle.make (move R t a.1) (move R t a.2.1) (move R t a.2.2)) := by
  refine ⟨(cs.getD 0 0, cs.getD 1 0, cs.getD 2 0) ::
    (List.range' 2 (cs.length - 1 - 2)).map fun i => (cs.getD 0 0, cs.getD i 0, cs.getD (i + 1) 0), ?_, ?_⟩
  · simp [triangulate]
  · unfold triangulate
    simp only [List.map_cons, List.map_map, List.length_map, getD_move cs 0 (by omega),
      getD_move cs 1 (by omega), getD_move cs 2 (by omega)]
    congr 1
    apply List.map_congr_left
    intro i hi
    rw [List.mem_range'_1] at hi
    simp only [Function.comp]
    rw [getD_move cs i (by omega), getD_move cs (i + 1) (by omega)]

theorem subAreas_move (cs : List V3) (h3 : 3 ≤ cs.length) (p : V3) :
    subTriangleAreas (cs.map (move R t)) (move R t p) = subTriangleAreas cs p := by
  unfold subTriangleAreas
  rw [List.length_map, getD_move cs _ (by omega), getD_move cs _ (by omega), area_move H]
  congr 1
  apply Finset.sum_congr rfl
  intro i hi
  rw [Finset.mem_range] at hi
  rw [getD_move cs _ (by omega), getD_move cs _ (by omega), area_move H]

/-- The moved polygon. -/
def movePolygon (R : V3 → V3) (t : V3) (pg : Polygon) : Polygon where
  corners := pg.corners.map (move R t)
  plane := pg.plane >>= fun pl => .val (movePlane R t pl)
  center := pg.center >>= fun c => .val (move R t c)
  area_ := pg.area_
  isConvex := pg.isConvex

/-- Polygons: construction (including the exception for less than three corners), containment with and without
a tolerance (including the exception for non-convex polygons). -/
theorem C120_polygon (cs : List V3) :
    Polygon.make (cs.map (move R t)) = (Polygon.make cs >>= fun pg => .val (movePolygon R t pg)) ∧
    ∀ pg, Polygon.make cs = .val pg → ∀ p eps b,
      (movePolygon R t pg).contains (move R t p) eps b = pg.contains p eps b ∧
      (movePolygon R t pg).containsDefault (move R t p) b = pg.containsDefault p b := by
  constructor
  · unfold Polygon.make
    rw [List.length_map]
    by_cases hlt : cs.length < 3
    · rw [if_pos hlt, if_pos hlt]; rfl
    rw [if_neg hlt, if_neg hlt]
    have h3 : 3 ≤ cs.length := by omega
    rw [convexity_move H cs h3]
    cases polygonConvexity cs with
    | val conv =>
      simp only [Outcome.val_bind, Outcome.pure_eq, movePolygon]
      obtain ⟨ts, ht1, ht2⟩ := triangulate_move (R := R) (t := t) cs h3
      set A := ((triangulate cs).map (·.area)).sum with hA
      have hA' : ((triangulate (cs.map (move R t))).map (·.area)).sum = A := by
        rw [hA, ht1, ht2, List.map_map, List.map_map]
        congr 1
        apply List.map_congr_left
        intro a _
        exact area_move H _ _ _
      set S := ((triangulate cs).map fun a => a.area • a.center).sum with hS
      have hS' : ((triangulate (cs.map (move R t))).map fun a => a.area • a.center).sum = R S + A • t := by
        rw [hS, hA, ht1, ht2, List.map_map, List.map_map, List.map_map]
        clear ht1 ht2
        induction ts with
        | nil => simp [rot_zero H]
        | cons a r ih =>
          simp only [List.map_cons, List.sum_cons, Function.comp] at ih ⊢
          rw [ih, area_move H, center_move H, H.add, H.smul]
          unfold move
          module
      rw [hA', hS', getD_move cs 0 (by omega), getD_move cs 1 (by omega), getD_move cs 2 (by omega),
        C120_plane_through_points H]
      congr 2
      by_cases h0 : A = 0
      · rw [if_pos h0, if_pos h0]; rfl
      · rw [if_neg h0, if_neg h0]
        simp only [Outcome.val_bind]
        congr 1
        rw [V3.sdiv_eq, V3.sdiv_eq, smul_add, smul_smul, inv_mul_cancel₀ h0, one_smul]
        unfold move
        rw [H.smul]
    | _ => rfl
  · intro pg hm
    have h3 : 3 ≤ cs.length := by
      by_contra hlt
      unfold Polygon.make at hm
      rw [if_pos (by omega)] at hm
      cases hm
    have hcs : pg.corners = cs ∧ pg.plane = Plane.ofPoints (cs.getD 0 0) (cs.getD 1 0) (cs.getD 2 0) := by
      unfold Polygon.make at hm
      rw [if_neg (by omega)] at hm
      obtain ⟨conv, -, hm⟩ := Outcome.bind_eq_val.1 hm
      rw [← Outcome.val.inj hm]
      exact ⟨rfl, rfl⟩
    have main : ∀ p eps b, (movePolygon R t pg).contains (move R t p) eps b = pg.contains p eps b := by
      intro p eps b
      unfold Polygon.contains
      by_cases hc : pg.isConvex
      · rw [if_pos hc, if_pos (show (movePolygon R t pg).isConvex from hc)]
        congr 1
        apply propext
        unfold Polygon.convexContains
        apply and_congr
        · apply imp_congr_right
          intro _
          simp only [movePolygon]
          cases pg.plane with
          | val pl => exact (C120_plane H pl p eps).2
          | _ => rfl
        · simp only [movePolygon, hcs.1, subAreas_move H cs h3]
      · rw [if_neg hc, if_neg (show ¬ (movePolygon R t pg).isConvex from hc)]
    intro p eps b
    refine ⟨main p eps b, ?_⟩
    unfold Polygon.containsDefault
    have hcen : (movePolygon R t pg).center = pg.center >>= fun c => .val (move R t c) := rfl
    rw [hcen]
    cases hc : pg.center with
    | val c =>
      simp only [Outcome.val_bind]
      rw [main]
      congr 2
      rw [show (movePolygon R t pg).corners = pg.corners.map (move R t) from rfl,
        getD_move pg.corners 0 (by rw [hcs.1]; omega), move_sub H, rot_len H]
    | _ => rfl

/-! ## Distances and angles -/

/-- Distances between points, lines and segments. -/
theorem C120_distance (p q : V3) (l : Line) (s : Segment) :
    distPointPoint (move R t p) (move R t q) = distPointPoint p q ∧
    distPointLine (move R t p) (moveLine R t l) = distPointLine p l ∧
    distPointSegment (move R t p) (moveSegment R t s) = distPointSegment p s := by
  refine ⟨?_, ?_, ?_⟩
  · unfold distPointPoint
    rw [move_sub H, rot_len H]
  · unfold distPointLine
    rw [(C120_line H l p 0).1, move_sub H, rot_len H]
  · unfold distPointSegment
    have h1 : (moveSegment R t s).source - move R t p = R (s.source - p) := move_sub H t _ _
    have h2 : (moveSegment R t s).target - move R t p = R (s.target - p) := move_sub H t _ _
    rw [supportingLine_move H, h1, h2]
    cases s.supportingLine with
    | val l =>
      rw [Outcome.val_bind]
      dsimp only
      rw [(C120_line H l p 0).1, move_sub H]
      simp only [rot_len H]
      have hc := (C120_segment (t := t) H s (l.projection p) 0 0 true).2.2.2
      by_cases h : s.containsDefault (l.projection p)
      · rw [if_pos h, if_pos (hc.2 h)]
      · rw [if_neg h, if_neg (fun h' => h (hc.1 h'))]
    | _ =>
      show min (R (s.source - p)).len (R (s.target - p)).len = _
      rw [rot_len H, rot_len H]

/-- Distances of a point from the boundary of quadrilaterals and polygons, and the checks whether it is on the
boundary. -/
theorem C120_boundary (p p0 p1 p2 p3 : V3) (pg : Polygon) (eps : ℝ) :
    boundaryDistQuad (move R t p) (Quadrilateral.make (move R t p0) (move R t p1) (move R t p2) (move R t p3)) =
      boundaryDistQuad p (Quadrilateral.make p0 p1 p2 p3) ∧
    onBoundaryQuad (move R t p) (Quadrilateral.make (move R t p0) (move R t p1) (move R t p2) (move R t p3)) eps =
      onBoundaryQuad p (Quadrilateral.make p0 p1 p2 p3) eps ∧
    boundaryDistPolygon (move R t p) (movePolygon R t pg) = boundaryDistPolygon p pg ∧
    onBoundaryPolygon (move R t p) (movePolygon R t pg) eps = onBoundaryPolygon p pg eps := by
  have hq : ∀ i, (Quadrilateral.make (move R t p0) (move R t p1) (move R t p2) (move R t p3)).edge i =
      (Quadrilateral.make p0 p1 p2 p3).edge i >>= fun s => .val (moveSegment R t s) := by
    intro i
    match i with
    | 0 => rfl
    | 1 => rfl
    | 2 => rfl
    | 3 => rfl
    | i + 4 => rfl
  have hp : ∀ i, (movePolygon R t pg).edge i = pg.edge i >>= fun s => .val (moveSegment R t s) := by
    intro i
    unfold Polygon.edge movePolygon
    simp only [List.length_map]
    by_cases h : i < pg.corners.length
    · rw [if_pos h, if_pos h, polygonEdge_move _ i h]; rfl
    · rw [if_neg h, if_neg h]; rfl
  have hd : ∀ (e e' : ℕ → Outcome Segment), (∀ i, e' i = e i >>= fun s => .val (moveSegment R t s)) →
      edgeDist e' (move R t p) = edgeDist e p := by
    intro e e' he
    funext i
    unfold edgeDist
    rw [he]
    cases e i with
    | val s => simp only [Outcome.val_bind, distSegmentPoint, (C120_distance H p p ⟨0, 0⟩ s).2.2]
    | _ => rfl
  have ho : ∀ (e e' : ℕ → Outcome Segment), (∀ i, e' i = e i >>= fun s => .val (moveSegment R t s)) → ∀ l,
      onEdgeLoop e' (move R t p) eps l = onEdgeLoop e p eps l := by
    intro e e' he l
    induction l with
    | nil => rfl
    | cons i r ih =>
      unfold onEdgeLoop
      rw [he]
      cases e i with
      | val s =>
        have : pointOnSegment (move R t p) (moveSegment R t s) eps = pointOnSegment p s eps := by
          unfold pointOnSegment
          rw [(C120_distance H p p ⟨0, 0⟩ s).2.2]
        simp only [Outcome.val_bind, this, ih]
      | _ => rfl
  refine ⟨?_, ?_, ?_, ?_⟩
  · unfold boundaryDistQuad
    rw [hd _ _ hq]
    rfl
  · exact ho _ _ hq _
  · unfold boundaryDistPolygon
    rw [hd _ _ hp]
    simp only [Polygon.numEdges, movePolygon, List.length_map]
  · unfold onBoundaryPolygon
    rw [ho _ _ hp]
    simp only [Polygon.numEdges, movePolygon, List.length_map]

/-- Angles between planes, and between a plane and a cylinder surface in a point. -/
theorem C120_angle (pl1 pl2 : Plane) (c : CylinderSurface) (p : V3) :
    planeAngle (movePlane R t pl1) (movePlane R t pl2) = planeAngle pl1 pl2 ∧
    cylinderAngleAt (movePlane R t pl1) (moveSurface R t c) (move R t p) = cylinderAngleAt pl1 c p := by
  constructor
  · unfold planeAngle movePlane
    simp only [rot_dot H]
  · unfold cylinderAngleAt CylinderSurface.getTangentPlane
    have hs : (moveSurface R t c).centerSegment = moveSegment R t c.centerSegment := rfl
    rw [hs, supportingLine_move H]
    cases c.centerSegment.supportingLine with
    | val l =>
      simp only [Outcome.val_bind, (C120_line H l p 0).1, move_sub H, mkDirection_rot H]
      cases hn : mkDirection (p - l.projection p) with
      | val n =>
        have hu := mkDirection_unit hn
        obtain ⟨pl, hpl, -, hnn, -⟩ := C03_plane_from_normal p n hu
        obtain ⟨pl', hpl', -, hnn', -⟩ := C03_plane_from_normal (move R t p) (R n) (unit_rot H hu)
        simp only [Outcome.val_bind, hpl, hpl', planeAngle, hnn, hnn', movePlane, rot_dot H]
      | _ => rfl
    | _ => rfl

omit H in
/-- Example: a unit disk in the xy-plane around `(1, 0, 0)`, turned by 90 degrees about the z-axis and lifted by 5. -/
example : Disk.contains ⟨⟨0, 1, 5⟩, ⟨0, 1, 0⟩, ⟨-1, 0, 0⟩, ⟨0, 0, 1⟩, 1, 1⟩ ⟨0, 3 / 2, 5⟩ (1 / 10) := by
  have h := (C120_elliptical (t := ⟨0, 0, 5⟩) quarter_isRotation
    ⟨⟨1, 0, 0⟩, ⟨1, 0, 0⟩, ⟨0, 1, 0⟩, ⟨0, 0, 1⟩, 1, 1⟩ ⟨3 / 2, 0, 0⟩ (1 / 10) true).2.2.2.2.1
  simp only [moveElliptical, move, quarter_turn] at h
  norm_num [V3.ext_iff] at h
  have e : ∀ x y z : ℝ, (⟨x, y, z⟩ : V3) + ⟨0, 0, 5⟩ = ⟨x, y, z + 5⟩ := by intro x y z; ext <;> simp
  simp only [e] at h
  norm_num at h
  rw [h]
  norm_num [Disk.contains, Plane.contains, Elliptical.supportingPlane, Plane.ofBasis, V3.dot]

omit H in
/-- Example: a quadrilateral and its turned copy have the same area. -/
example : (Quadrilateral.make ⟨0, 0, 5⟩ ⟨0, 1, 5⟩ ⟨-1, 0, 5⟩ ⟨-1, 1, 5⟩).area =
    (Quadrilateral.make ⟨0, 0, 0⟩ ⟨1, 0, 0⟩ ⟨0, 1, 0⟩ ⟨1, 1, 0⟩).area := by
  have h := (C120_quadrilateral (t := ⟨0, 0, 5⟩) quarter_isRotation ⟨0, 0, 0⟩ ⟨1, 0, 0⟩ ⟨0, 1, 0⟩ ⟨1, 1, 0⟩ 0 0
    true).1
  have e : ∀ x y z : ℝ, (⟨x, y, z⟩ : V3) + ⟨0, 0, 5⟩ = ⟨x, y, z + 5⟩ := by intro x y z; ext <;> simp
  simp only [move, quarter_turn, e] at h
  norm_num at h
  exact h

end Props
