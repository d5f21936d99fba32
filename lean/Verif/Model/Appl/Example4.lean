import Verif.Model.Appl.Examples

/-!
# The network generation of example 4

appl/example4/example4.cc (appl/example4/example4.py is the same except for the constraints of the third
set): entities around a tunnel, then entities intersecting those, then entities intersecting the latter.

`P` are the sampled polygons, `E` the faces the network consists of.  Computations of the geometry kernel
are arbitrary functions.  Messages are not modelled, except for the number of messages about unsuccessful
searches.
-/

namespace Frackit
open Verif
namespace Appl
variable {P E : Type}

/-- Domain and geometric computations of the example. -/
structure TunnelModel (P E : Type) where
  /-- `tunnelSurfaceShape`, `sphereSurfaceShape` -/
  tunnel : E
  sphere : E
  /-- `intersect(tunnel.lateralFace(), candidate)` -/
  isTunnel : P → Outcome IsResult
  /-- `intersect(candidate, e)` -/
  isEntity : P → E → Outcome IsResult
  /-- `getVertices(getShape(geometry))` -/
  vertices : P → List V3
  verticesOf : E → List V3
  /-- `computeDistance(v, is)` -/
  distance : V3 → IsResult → Outcome ℝ
  /-- `getFaces(intersect(getShape(candidate), domain, 1e-6))` -/
  contained : P → Outcome (List E)
  /-- `computeMagnitude(containedFace)` -/
  faceArea : E → Outcome ℝ
  /-- `candidate.area()` -/
  area : P → Outcome ℝ

/-- `std::any_of` with a predicate that may fail. -/
def anyOf {α : Type} (f : α → Outcome Bool) : List α → Outcome Bool
  | [] => .val false
  | a :: t =>
      match f a with
      | .val true => .val true
      | .val false => anyOf f t
      | .thrown e => .thrown e
      | .nan => .nan
      | .ub => .ub

open Classical in
/-- The lambda `producesSmallLengthScale`, appl/example4/example4.cc:187-195, appl/example4/example4.py:136-142, for the vertices of the
geometry. -/
noncomputable def smallLength (g : TunnelModel P E) (vs : List V3) (is : IsResult) : Outcome Bool :=
  anyOf (fun v => g.distance v is >>= fun d => .val (decide (d < 1e-3))) vs

/-- `constraints1`, appl/example4/example4.cc:160-164, appl/example4/example4.py:104-113. -/
noncomputable def ops41 : List Constraints.Op :=
  [.setMinDistance 1, .setMinIntersectingAngle (toRadians 25),
    .setMinIntersectionMagnitude 0.1, .setMinIntersectionDistance 0.1]

/-- `constraints2`, appl/example4/example4.cc:168-169, 173: the minimum distance meant for the third
set is set for the second one. -/
noncomputable def ops42 : List Constraints.Op := ops41 ++ [.setMinDistance 0.5, .setMinDistance 0.15]

/-- `constraints3`, appl/example4/example4.cc:172. -/
noncomputable def ops43 : List Constraints.Op := ops41

/-- `constraints2` of the Python version, appl/example4/example4.py:117-118. -/
noncomputable def ops42Py : List Constraints.Op := ops41 ++ [.setMinDistance 0.5]

/-- `constraints3` of the Python version, appl/example4/example4.py:121-122. -/
noncomputable def ops43Py : List Constraints.Op := ops41 ++ [.setMinDistance 0.15]

/-- `constraintsOnOther`, appl/example4/example4.cc:176-178, appl/example4/example4.py:125-127. -/
noncomputable def ops4Other : List Constraints.Op :=
  ops41 ++ [.setMinDistance 0.25, .setMinIntersectingAngle (toRadians 30)]

/-- `constraintsOnBoundary`, appl/example4/example4.cc:181-182, appl/example4/example4.py:130-131. -/
noncomputable def ops4Boundary : List Constraints.Op := ops41 ++ [.setMinIntersectingAngle (toRadians 10)]

open Classical in
/-- The part of a candidate inside the domain and its area, if it is a single face that is large enough,
appl/example4/example4.cc:236-248 (and 308-320, 378-390). -/
noncomputable def containedPart (g : TunnelModel P E) (c : P) : Outcome (Option (E × ℝ)) := do
  let faces ← g.contained c
  match faces with
  | [face] => do
      let area ← g.faceArea face
      let full ← g.area c
      if area < 0.25 * full then pure none
      else pure (some (face, area))
  | _ => pure none

/-- A sequence of checks of constraints, of which the first one that fails leads to rejection. -/
noncomputable def checkAll (eng : Engine E) (checks : List (List Constraints.Op × List E)) (face : E) :
    Outcome Bool :=
  allOf (fun c => Constraints.evaluateSet eng (Constraints.run c.1) c.2 face) checks

/-- One candidate of the first set, appl/example4/example4.cc:226-256, appl/example4/example4.py:173-203: `none` if it is rejected,
otherwise the face and its area.  (The evaluation on a single boundary is that on a set with one
element.) -/
noncomputable def candidate1 (eng : Engine E) (g : TunnelModel P E) (set1 : List E) (c : P) :
    Outcome (Option (E × ℝ)) := do
  let is ← g.isTunnel c
  if isEmptyIntersection is then pure none
  else do
    let small ← smallLength g (g.vertices c) is
    if small then pure none
    else do
      let part ← containedPart g c
      match part with
      | none => pure none
      | some (face, area) => do
          let ok ← checkAll eng [(ops41, set1), (ops4Boundary, [g.tunnel]), (ops4Boundary, [g.sphere])] face
          if ok then pure (some (face, area)) else pure none

/-- One candidate for an entity `e` of the previous set, appl/example4/example4.cc:296-330, 366-402;
`checks` are the constraints towards the existing sets. -/
noncomputable def candidateNear (eng : Engine E) (g : TunnelModel P E)
    (checks : List (List Constraints.Op × List E)) (e : E) (c : P) : Outcome (Option (E × ℝ)) := do
  let is ← g.isEntity c e
  if isEmptyIntersection is then pure none
  else do
    let small ← smallLength g (g.vertices c) is
    if small then pure none
    else do
      let smallE ← smallLength g (g.verticesOf e) is
      if smallE then pure none
      else do
        let part ← containedPart g c
        match part with
        | none => pure none
        | some (face, area) => do
            let ok ← checkAll eng
              (checks ++ [(ops4Boundary, [g.sphere]), (ops4Boundary, [g.tunnel])]) face
            if ok then pure (some (face, area)) else pure none

/-- A set under construction, the status and the accumulated area. -/
structure Stage (E : Type) where
  set : List E
  status : SamplingStatus
  area : ℝ

/-- Acceptance, appl/example4/example4.cc:258-260. -/
def Stage.accept (s : Stage E) (id : ℕ) (x : E × ℝ) : Stage E :=
  ⟨s.set ++ [x.1], s.status.increaseCounter id, s.area + x.2⟩

/-- `{ status.increaseRejectedCounter(); continue; }` -/
def Stage.reject (s : Stage E) : Stage E := ⟨s.set, s.status.increaseRejectedCounter, s.area⟩

/-- One pass of the first loop, appl/example4/example4.cc:224-262, appl/example4/example4.py:172-208. -/
noncomputable def pass41 (eng : Engine E) (g : TunnelModel P E) (draw : ℕ → Outcome P) (k : ℕ)
    (s : Stage E) : Outcome (Stage E) := do
  let c ← draw k
  let r ← candidate1 eng g s.set c
  match r with
  | none => pure s.reject
  | some x => pure (s.accept 1 x)

/-- The first loop with target count `n`, appl/example4/example4.cc:214-262. -/
noncomputable def stage1 (eng : Engine E) (g : TunnelModel P E) (order : SamplingStatus → List (ℕ × ℕ))
    (draw : ℕ → Outcome P) (n fuel : ℕ) : Outcome (Option (ℕ × Stage E)) :=
  whileLoop (fun s => s.status.finishedOn (order s.status)) (pass41 eng g draw) fuel 0
    ⟨[], SamplingStatus.init.setTargetCount 1 n, 0⟩

/-- The search for an entity close to another one,
`while (!accepted && tryCount <= maxTriesForEntity)`, appl/example4/example4.cc:288-337, 359-409.
Returned are the state and the number of tries. -/
noncomputable def search (id max : ℕ) (check : P → Outcome (Option (E × ℝ))) (draw : ℕ → Outcome P)
    (tryCount : ℕ) (s : Stage E) : Outcome (Stage E × ℕ) :=
  if tryCount ≤ max then do
    let c ← draw (tryCount + 1)
    let r ← check c
    match r with
    | none => search id max check draw (tryCount + 1) s.reject
    | some x => pure (s.accept id x, tryCount + 1)
  else pure (s, tryCount)
termination_by max + 1 - tryCount

/-- The loop over the entities of the previous set, appl/example4/example4.cc:276-340, 346-412,
appl/example4/example4.py:219-277, 281-342; `draw e`
are the candidates sampled in the vicinity of `e`, `checks set` the constraints, given the entities of
the set so far.  Counted are the messages about unsuccessful searches. -/
noncomputable def stageNear (eng : Engine E) (g : TunnelModel P E) (id max : ℕ)
    (checks : List E → List (List Constraints.Op × List E)) (draw : ℕ → E → ℕ → Outcome P) :
    ℕ → List E → Stage E × ℕ → Outcome (Stage E × ℕ)
  | _, [], s => pure s
  | i, e :: t, (s, msgs) => do
      let r ← search id max (candidateNear eng g (checks s.set) e) (draw i e) 0 s
      stageNear eng g id max checks draw (i + 1) t (r.1, if max ≤ r.2 then msgs + 1 else msgs)

/-- The three sets, the area, and the number of messages about unsuccessful searches. -/
structure Network4 (E : Type) where
  set1 : List E
  set2 : List E
  set3 : List E
  area : ℝ
  messages : ℕ

/-- The generation of the network with target count `n` for the first set and at most `max` tries, where `ops2` and
`ops3` are the constraints among the entities of the second and third set,
appl/example4/example4.cc:201-412.  `none` if the first loop has not been left after `fuel` passes. -/
noncomputable def network4 (eng : Engine E) (g : TunnelModel P E) (order : SamplingStatus → List (ℕ × ℕ))
    (ops2 ops3 : List Constraints.Op) (draw1 : ℕ → Outcome P) (draw2 draw3 : ℕ → E → ℕ → Outcome P)
    (n max fuel : ℕ) :
    Outcome (Option (Network4 E)) := do
  let r1 ← stage1 eng g order draw1 n fuel
  match r1 with
  | none => pure none
  | some (_, s1) => do
      let status2 := s1.status.reset.setTargetCount 2 s1.set.length
      let s2 ← stageNear eng g 2 max (fun set2 => [(ops4Other, s1.set), (ops2, set2)]) draw2 0 s1.set
        (⟨[], status2, s1.area⟩, 0)
      let status3 := s2.1.status.reset.setTargetCount 3 s2.1.set.length
      let s3 ← stageNear eng g 3 max
        (fun set3 => [(ops4Other, s1.set), (ops4Other, s2.1.set), (ops3, set3)]) draw3 0 s2.1.set
        (⟨[], status3, s2.1.area⟩, s2.2)
      pure (some ⟨s1.set, s2.1.set, s3.1.set, s3.1.area, s3.2⟩)

/-- The example with its numbers, appl/example4/example4.cc:201, 269. -/
noncomputable def example4 (eng : Engine E) (g : TunnelModel P E) (order : SamplingStatus → List (ℕ × ℕ))
    (draw1 : ℕ → Outcome P) (draw2 draw3 : ℕ → E → ℕ → Outcome P) (fuel : ℕ) :
    Outcome (Option (Network4 E)) :=
  network4 eng g order ops42 ops43 draw1 draw2 draw3 75 500 fuel

/-- The Python version with its constraints, appl/example4/example4.py. -/
noncomputable def example4Py (eng : Engine E) (g : TunnelModel P E)
    (order : SamplingStatus → List (ℕ × ℕ))
    (draw1 : ℕ → Outcome P) (draw2 draw3 : ℕ → E → ℕ → Outcome P) (fuel : ℕ) :
    Outcome (Option (Network4 E)) :=
  network4 eng g order ops42Py ops43Py draw1 draw2 draw3 75 500 fuel

end Appl
end Frackit
