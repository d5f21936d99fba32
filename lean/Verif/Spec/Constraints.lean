import Verif.Model.EntityNetwork.Constraints

/-!
# What it means to fulfil constraints

Shared with the model are only the types: the calls that configure the constraints, the kinds of
intersections, and the geometric computations.  Histories have the most recent call first.
-/

namespace Spec.Constraints
open Verif Frackit
open Frackit.Constraints (Op)

/-- Configured thresholds (`none`: not configured). -/
structure Config where
  minDistance : Option ℝ
  minAngle : Option ℝ
  minMagnitude : Option ℝ
  minBoundaryDistance : Option ℝ
  eps : Option ℝ
  allowEquiDim : Bool

/-- The last call concerning the distance decides. -/
def minDistance : List Op → Option ℝ
  | [] => none
  | .setMinDistance d :: _ => some d
  | .neglectMinDistance :: _ => none
  | _ :: h => minDistance h

/-- The last call concerning the angle decides. -/
def minAngle : List Op → Option ℝ
  | [] => none
  | .setMinIntersectingAngle d :: _ => some d
  | .neglectMinIntersectionAngle :: _ => none
  | _ :: h => minAngle h

/-- The last call concerning the magnitude decides. -/
def minMagnitude : List Op → Option ℝ
  | [] => none
  | .setMinIntersectionMagnitude d :: _ => some d
  | .neglectMinIntersectionMagnitude :: _ => none
  | _ :: h => minMagnitude h

/-- The last call concerning the distance to boundaries decides. -/
def minBoundaryDistance : List Op → Option ℝ
  | [] => none
  | .setMinIntersectionDistance d :: _ => some d
  | .neglectMinIntersectionDistance :: _ => none
  | _ :: h => minBoundaryDistance h

/-- The last call concerning the tolerance decides. -/
def eps : List Op → Option ℝ
  | [] => none
  | .setIntersectionEpsilon d :: _ => some d
  | .setDefaultIntersectionEpsilon :: _ => none
  | _ :: h => eps h

/-- The last call concerning equi-dimensional intersections decides; prohibited by default. -/
def allowEquiDim : List Op → Bool
  | [] => false
  | .allowEquiDimensionalIntersections v :: _ => v
  | _ :: h => allowEquiDim h

/-- The configuration a history amounts to. -/
def config (h : List Op) : Config :=
  ⟨minDistance h, minAngle h, minMagnitude h, minBoundaryDistance h, eps h, allowEquiDim h⟩

/-- No constraint is configured. -/
def Config.Inactive (c : Config) : Prop :=
  c.minDistance = none ∧ c.minAngle = none ∧ c.minMagnitude = none ∧ c.minBoundaryDistance = none

/-- The parts of an intersection. -/
def parts : IsResult → List IsGeom
  | .single g => [g]
  | .list gs => gs

/-- All parts are empty. -/
def NoIntersection (r : IsResult) : Prop := ∀ g ∈ parts r, g = .empty

/-- A part that is a curve. -/
def IsCurve (g : IsGeom) : Prop :=
  (∃ s, g = .segment s) ∨ (∃ a, g = .arc a) ∨ (∃ e, g = .ellipse e) ∨ (∃ n p q, g = .edge n p q)

/-- A part that is a surface. -/
def IsSurface (g : IsGeom) : Prop := (∃ p, g = .polygon p) ∨ (∃ n, g = .face n)

/-- A part of dimension at most `d` (points and empty parts: zero; curves: one; surfaces: two). -/
def DimAtMost (g : IsGeom) (d : ℤ) : Prop :=
  0 ≤ d ∧ (IsCurve g → 1 ≤ d) ∧ (IsSurface g → 2 ≤ d)

variable {E : Type} (eng : Engine E)

/-- The computation returned a value that is at least the threshold. -/
def AtLeast (o : Outcome ℝ) (t : ℝ) : Prop := ∃ x, o = .val x ∧ t ≤ x

/-- The value is not below the threshold as C++ compares: this is so as well if it is not a number. -/
def NotLess (o : Outcome ℝ) (t : ℝ) : Prop := o = .nan ∨ AtLeast o t

variable (Q : Outcome ℝ → ℝ → Prop)

/-- A point is on the boundary of the entity, or far enough from it (`Q`: how values are compared with the
threshold). -/
def PointOkBy (e : E) (t : ℝ) (p : V3) : Prop :=
  eng.onBoundary p e = .val true ∨
    (eng.onBoundary p e = .val false ∧ Q (eng.boundaryDist p e) t)

/-- A point is on the boundary of the entity, or its distance to it is at least the threshold. -/
abbrev PointOk (e : E) (t : ℝ) (p : V3) : Prop := PointOkBy eng AtLeast e t p

/-- Requirement on a part concerning the boundary of an entity.  End points may be on the boundary.
If both end points of an arc are not on the boundary, five points of the arc are considered.  `Q`: comparison of the
distances of end points of arcs. -/
def BoundaryOkBy (e : E) (t : ℝ) (g : IsGeom) : Prop :=
  match g with
  | .empty => True
  | .point p => PointOk eng e t p
  | .segment s => PointOk eng e t s.source ∧ PointOk eng e t s.target
  | .edge _ p q => PointOk eng e t p ∧ PointOk eng e t q
  | .ellipse el => AtLeast (eng.ellipseBoundaryDist el e) t
  | .arc a =>
      (PointOkBy eng Q e t a.source ∧ PointOkBy eng Q e t a.target ∧
        (eng.onBoundary a.source e = .val true ∨ eng.onBoundary a.target e = .val true)) ∨
      (eng.onBoundary a.source e = .val false ∧ eng.onBoundary a.target e = .val false ∧
        ∀ k : ℕ, k ≤ 4 → AtLeast (eng.boundaryDist (a.getPoint (k / 4)) e) t)
  | .polygon _ => False
  | .face _ => False

/-- All distances to the boundary are at least the threshold. -/
abbrev BoundaryOk (e : E) (t : ℝ) (g : IsGeom) : Prop := BoundaryOkBy eng AtLeast e t g

/-- Two entities fulfil the constraints (if at least one is configured).  `Q`: comparison of angles, and of the distances
of end points of arcs. -/
def AcceptBy (c : Config) (a b : E) : Prop :=
  ∃ r, eng.intersect a b c.eps = .val r ∧
    ((NoIntersection r ∧ ∀ d, c.minDistance = some d → AtLeast (eng.distance a b) d) ∨
     (¬ NoIntersection r ∧
      (c.allowEquiDim = false → ∀ g ∈ parts r, DimAtMost g (eng.dim - 1)) ∧
      (∀ m, c.minMagnitude = some m →
        ∀ g ∈ parts r, IsCurve g ∨ IsSurface g → AtLeast (eng.magnitude g) m) ∧
      (∀ t, c.minAngle = some t → Q (eng.angle a b r) t) ∧
      (∀ t, c.minBoundaryDistance = some t →
        ∀ g ∈ parts r, BoundaryOkBy eng Q a t g ∧ BoundaryOkBy eng Q b t g)))

/-- Two entities fulfil the constraints (if at least one is configured): all values are at least the thresholds. -/
abbrev Accept (c : Config) (a b : E) : Prop := AcceptBy eng AtLeast c a b

/-- Angles and distances to boundaries are numbers (or their computation fails). -/
structure NoNaN : Prop where
  angle : ∀ a b r, eng.angle a b r ≠ .nan
  boundaryDist : ∀ p e, eng.boundaryDist p e ≠ .nan

/-- All computations return values, for entities that are surfaces. -/
structure Total : Prop where
  intersect : ∀ a b e, (eng.intersect a b e).isVal
  magnitude : ∀ g, (eng.magnitude g).isVal
  angle : ∀ a b r, (eng.angle a b r).isVal
  distance : ∀ a b, (eng.distance a b).isVal
  onBoundary : ∀ p e, (eng.onBoundary p e).isVal
  boundaryDist : ∀ p e, (eng.boundaryDist p e).isVal
  ellipseBoundaryDist : ∀ el e, (eng.ellipseBoundaryDist el e).isVal

/-- `c'` is at least as strict as `c`. -/
def Stricter (c' c : Config) : Prop :=
  let le (x y : Option ℝ) : Prop := ∀ t, x = some t → ∃ t', y = some t' ∧ t ≤ t'
  le c.minDistance c'.minDistance ∧ le c.minAngle c'.minAngle ∧ le c.minMagnitude c'.minMagnitude ∧
  le c.minBoundaryDistance c'.minBoundaryDistance ∧ c'.eps = c.eps ∧
  (c'.allowEquiDim = true → c.allowEquiDim = true)

end Spec.Constraints
