import Verif.Model.Intersection.Result

/-!
# Constraints on entities

frackit/entitynetwork/constraints.hh and frackit/entitynetwork/constraints_impl/
-/

namespace Frackit
open Verif

/-- `std::all_of` with a predicate that may fail: stops at the first element for which the predicate
is false or fails. -/
def allOf {α : Type} (f : α → Outcome Bool) : List α → Outcome Bool
  | [] => .val true
  | a :: t =>
      match f a with
      | .val true => allOf f t
      | .val false => .val false
      | .thrown e => .thrown e
      | .nan => .nan
      | .ub => .ub

open Classical in
/-- `x < t` for a computed value: comparisons with NaN are false. -/
noncomputable def lessThan (o : Outcome ℝ) (t : ℝ) : Outcome Bool :=
  match o with
  | .val x => .val (decide (x < t))
  | .nan => .val false
  | .thrown e => .thrown e
  | .ub => .ub

open Classical in
/-- `x >= t` for a computed value: comparisons with NaN are false. -/
noncomputable def greaterEqual (o : Outcome ℝ) (t : ℝ) : Outcome Bool :=
  match o with
  | .val x => .val (decide (x ≥ t))
  | .nan => .val false
  | .thrown e => .thrown e
  | .ub => .ub

/-- The geometric computations which `evaluate` relies on, for entities of type `E`:
`intersect(a, b[, eps])`, `computeMagnitude(is)`, `angleEngine_(a, b, is)`, `computeDistance(a, b)`,
`pointOnGeometryBoundary(p, e)`, `computeDistanceToBoundary(p, e)` and
`computeDistanceToBoundary(ellipse, e)`; each may fail.  They are parameters here; `dim` is the
(compile-time) dimension of the entities. -/
structure Engine (E : Type) where
  dim : ℤ
  intersect : E → E → Option ℝ → Outcome IsResult
  magnitude : IsGeom → Outcome ℝ
  angle : E → E → IsResult → Outcome ℝ
  distance : E → E → Outcome ℝ
  onBoundary : V3 → E → Outcome Bool
  boundaryDist : V3 → E → Outcome ℝ
  ellipseBoundaryDist : Elliptical → E → Outcome ℝ

/-- Data of `EntityNetworkConstraints`, frackit/entitynetwork/constraints.hh:319-334. -/
structure Constraints where
  minDistance : ℝ
  minIsAngle : ℝ
  minIsMagnitude : ℝ
  minIsDistance : ℝ
  useMinDistance : Bool
  useMinIsAngle : Bool
  useMinIsMagnitude : Bool
  useMinIsDistance : Bool
  intersectionEps : ℝ
  useIntersectionEps : Bool
  allowEquiDimIS : Bool

namespace Constraints

/-- The constructor, frackit/entitynetwork/constraints.hh:113-123. -/
def init : Constraints :=
  ⟨0, 0, 0, 0, false, false, false, false, 0, false, false⟩

/-- Modifiers of the class, frackit/entitynetwork/constraints.hh:126-180. -/
inductive Op where
  | setMinDistance (d : ℝ)
  | setMinIntersectingAngle (a : ℝ)
  | setMinIntersectionMagnitude (m : ℝ)
  | setMinIntersectionDistance (d : ℝ)
  | neglectMinDistance
  | neglectMinIntersectionAngle
  | neglectMinIntersectionMagnitude
  | neglectMinIntersectionDistance
  | setIntersectionEpsilon (eps : ℝ)
  | setDefaultIntersectionEpsilon
  | allowEquiDimensionalIntersections (value : Bool)

/-- Effect of a modifier, frackit/entitynetwork/constraints.hh:126-180. -/
def step (c : Constraints) : Op → Constraints
  | .setMinDistance d => { c with minDistance := d, useMinDistance := true }
  | .setMinIntersectingAngle a => { c with minIsAngle := a, useMinIsAngle := true }
  | .setMinIntersectionMagnitude m => { c with minIsMagnitude := m, useMinIsMagnitude := true }
  | .setMinIntersectionDistance d => { c with minIsDistance := d, useMinIsDistance := true }
  | .neglectMinDistance => { c with useMinDistance := false }
  | .neglectMinIntersectionAngle => { c with useMinIsAngle := false }
  | .neglectMinIntersectionMagnitude => { c with useMinIsMagnitude := false }
  | .neglectMinIntersectionDistance => { c with useMinIsDistance := false }
  | .setIntersectionEpsilon e => { c with intersectionEps := e, useIntersectionEps := true }
  | .setDefaultIntersectionEpsilon => { c with useIntersectionEps := false }
  | .allowEquiDimensionalIntersections v => { c with allowEquiDimIS := v }

/-- State after a sequence of calls. -/
def run (ops : List Op) : Constraints := ops.foldl step init

variable {E : Type} (eng : Engine E)

/-- `isAdmissibleDimension` of a geometry,
frackit/entitynetwork/constraints_impl/admissibledimension.hh:42-44. -/
def admissibleDimensionGeom (maxDim : ℤ) (g : IsGeom) : Bool := decide (g.dimension ≤ maxDim)

/-- `isAdmissibleDimension`, frackit/entitynetwork/constraints_impl/admissibledimension.hh:49-62. -/
def isAdmissibleDimension (r : IsResult) (maxDim : ℤ) : Bool :=
  match r with
  | .single g => admissibleDimensionGeom maxDim g
  | .list gs => gs.all (admissibleDimensionGeom maxDim)

/-- `isAdmissibleMagnitude` of a geometry,
frackit/entitynetwork/constraints_impl/admissiblemagnitude.hh:39-47. -/
noncomputable def admissibleMagnitudeGeom (threshold : ℝ) (g : IsGeom) : Outcome Bool :=
  if g.dimension = 0 then .val true
  else if isEmptyGeom g = true then .val true
  else greaterEqual (eng.magnitude g) threshold

/-- `isAdmissibleMagnitude`, frackit/entitynetwork/constraints_impl/admissiblemagnitude.hh:53-66. -/
noncomputable def isAdmissibleMagnitude (r : IsResult) (threshold : ℝ) : Outcome Bool :=
  match r with
  | .single g => admissibleMagnitudeGeom eng threshold g
  | .list gs => allOf (admissibleMagnitudeGeom eng threshold) gs

/-- `isAdmissibleDistanceToBoundary` of a point,
frackit/entitynetwork/constraints_impl/distancetoboundary.hh:79-87. -/
noncomputable def pointAdmissible (e : E) (threshold : ℝ) (p : V3) : Outcome Bool := do
  let b ← eng.onBoundary p e
  if b then pure true
  else greaterEqual (eng.boundaryDist p e) threshold

/-- The checks for an ellipse arc,
frackit/entitynetwork/constraints_impl/distancetoboundary.hh:105-131. -/
noncomputable def arcAdmissible (e : E) (threshold : ℝ) (a : EllipseArc) : Outcome Bool := do
  let s ← eng.onBoundary a.source e
  let t ← eng.onBoundary a.target e
  if s || t then do
    let okS ← (if !s then do
        let l ← lessThan (eng.boundaryDist a.source e) threshold
        pure (!l) else pure true)
    if !okS then pure false
    else do
      let okT ← (if !t then do
          let l ← lessThan (eng.boundaryDist a.target e) threshold
          pure (!l) else pure true)
      if !okT then pure false else pure true
  else
    allOf (fun param => greaterEqual (eng.boundaryDist (a.getPoint param) e) threshold) [0, 1 / 4, 1 / 2, 3 / 4, 1]

/-- `isAdmissibleDistanceToBoundary` of a geometry,
frackit/entitynetwork/constraints_impl/distancetoboundary.hh:54-163.  The overload taken for polygons
is the generic one, which throws. -/
noncomputable def boundaryAdmissibleGeom (e : E) (threshold : ℝ) : IsGeom → Outcome Bool
  | .empty => .val true
  | .point p => pointAdmissible eng e threshold p
  | .segment s => do
      let b ← pointAdmissible eng e threshold s.source
      if !b then pure false else pointAdmissible eng e threshold s.target
  | .arc a => arcAdmissible eng e threshold a
  | .ellipse el => greaterEqual (eng.ellipseBoundaryDist el e) threshold
  | .edge _ p q => do
      let b ← pointAdmissible eng e threshold p
      if !b then pure false else pointAdmissible eng e threshold q
  | .polygon _ => .thrown "Distance to boundary not implemented for intersection geometry"
  | .face _ => .thrown "NotImplemented: face-entity boundary distance"

/-- `isAdmissibleDistanceToBoundary` of an intersection,
frackit/entitynetwork/constraints_impl/distancetoboundary.hh:168-192. -/
noncomputable def isAdmissibleDistanceToBoundary (r : IsResult) (e : E) (threshold : ℝ) : Outcome Bool :=
  match r with
  | .single g => boundaryAdmissibleGeom eng e threshold g
  | .list gs => allOf (boundaryAdmissibleGeom eng e threshold) gs

/-- `evaluate_(geo1, geo2)`, frackit/entitynetwork/constraints.hh:274-317; `evaluate` of two geometries
(188-218) forwards to it after casting pointers. -/
noncomputable def evaluate (c : Constraints) (a b : E) : Outcome Bool :=
  let checkIs := c.useMinIsMagnitude || c.useMinIsAngle || c.useMinIsDistance
  if !checkIs && !c.useMinDistance then .val true
  else do
    let isection ← (if !c.useIntersectionEps then eng.intersect a b none
      else eng.intersect a b (some c.intersectionEps))
    if !isEmptyIntersection isection then
      if !c.allowEquiDimIS && !isAdmissibleDimension isection (eng.dim - 1) then pure false
      else do
        let magOk ← (if c.useMinIsMagnitude then isAdmissibleMagnitude eng isection c.minIsMagnitude
          else pure true)
        if !magOk then pure false
        else do
          let angleOk ← (if c.useMinIsAngle then do
              let l ← lessThan (eng.angle a b isection) c.minIsAngle
              pure (!l) else pure true)
          if !angleOk then pure false
          else if !c.useMinIsDistance then pure true
          else do
            let ok1 ← isAdmissibleDistanceToBoundary eng isection a c.minIsDistance
            if !ok1 then pure false
            else isAdmissibleDistanceToBoundary eng isection b c.minIsDistance
    else if c.useMinDistance then greaterEqual (eng.distance a b) c.minDistance
    else pure true

/-- `evaluate(entitySet, entity)`, frackit/entitynetwork/constraints.hh:229-235. -/
noncomputable def evaluateSet (c : Constraints) (set : List E) (x : E) : Outcome Bool :=
  allOf (fun e => evaluate eng c e x) set

/-- `evaluate(entity, entitySet)`, frackit/entitynetwork/constraints.hh:246-248. -/
noncomputable def evaluateEntitySet (c : Constraints) (x : E) (set : List E) : Outcome Bool :=
  evaluateSet eng c set x

/-- `evaluate(entitySet1, entitySet2)`, frackit/entitynetwork/constraints.hh:259-265. -/
noncomputable def evaluateSets (c : Constraints) (set1 set2 : List E) : Outcome Bool :=
  allOf (fun e => evaluateEntitySet eng c e set2) set1

end Constraints
end Frackit
