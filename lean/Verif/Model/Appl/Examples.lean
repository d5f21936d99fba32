import Verif.Model.Common.Math
import Verif.Model.Sampling.Status
import Verif.Model.Sampling.Strategy
import Verif.Model.EntityNetwork.Constraints
import Verif.Model.EntityNetwork.Matrix
import Verif.Model.EntityNetwork.EntitySet

/-!
# The network generation loops of the example applications

appl/example1, appl/example2, appl/example3: the loops in which candidates are sampled, checked against
the constraints, and accepted or rejected.  What follows the loops (building and writing of the network)
is modelled in `Verif.Model.EntityNetwork.Builder` and `Verif.Model.IO.BRepWriter`.  Messages on the
terminal are not modelled.

Entities and the faces of the domain are elements of one type `E`, on which the geometric computations
act (`Engine`).  `draw k` is the candidate sampled in pass `k`.
-/

namespace Frackit
open Verif

/-- `while (!finished) body`, where `body` is given the number of the pass.  At most `fuel` passes are
considered: the result is `none` if the loop has not been left by then, otherwise the number of passes
and the state when the loop is left. -/
def whileLoop {σ : Type} (finished : σ → Outcome Bool) (body : ℕ → σ → Outcome σ) :
    ℕ → ℕ → σ → Outcome (Option (ℕ × σ))
  | 0, _, _ => .val none
  | fuel + 1, k, s =>
      match finished s with
      | .val true => .val (some (k, s))
      | .val false =>
          match body k s with
          | .val s' => whileLoop finished body fuel (k + 1) s'
          | .thrown e => .thrown e
          | .nan => .nan
          | .ub => .ub
      | .thrown e => .thrown e
      | .nan => .nan
      | .ub => .ub

namespace Appl
variable {E : Type}

/-! ## Examples 1 and 2: two sets, alternating -/

/-- Variables of the loop, appl/example1/example1.cc:79-92, appl/example2/example2.cc:68-77. -/
structure TwoSets (E : Type) where
  set1 : List E
  set2 : List E
  status : SamplingStatus
  into1 : Bool

/-- `{ status.increaseRejectedCounter(); continue; }` -/
def TwoSets.reject (s : TwoSets E) : TwoSets E := { s with status := s.status.increaseRejectedCounter }

/-- The candidate is stored, counted, and the next one is sampled for the other set,
appl/example1/example1.cc:113-121, appl/example2/example2.cc:110-114; the ids are 1 and 2. -/
def TwoSets.accept (s : TwoSets E) (quad : E) : TwoSets E :=
  { set1 := if s.into1 then s.set1 ++ [quad] else s.set1
    set2 := if s.into1 then s.set2 else s.set2 ++ [quad]
    status := s.status.increaseCounter (if s.into1 then 1 else 2)
    into1 := !s.into1 }

/-- The state before the loop, with the two target counts, appl/example1/example1.cc:79-92,
appl/example2/example2.cc:68-77, appl/example1/example1.py:61-75, appl/example2/example2.py:69-83. -/
def TwoSets.init (n1 n2 : ℕ) : TwoSets E :=
  ⟨[], [], (SamplingStatus.init.setTargetCount 1 n1).setTargetCount 2 n2, true⟩

/-- `constraintsOnSelf`, appl/example1/example1.cc:68-72, appl/example2/example2.cc:56-60,
appl/example1/example1.py:46-50, appl/example2/example2.py:44-50, 58, and `constraintsOnBoundary`,
appl/example2/example2.cc:66, appl/example2/example2.py:65. -/
noncomputable def selfOps : List Constraints.Op :=
  [.setMinDistance 0.05, .setMinIntersectingAngle (toRadians 30),
    .setMinIntersectionMagnitude 0.05, .setMinIntersectionDistance 0.05]

/-- `constraintsOnOther`: a copy with another angle, appl/example1/example1.cc:75-76,
appl/example2/example2.cc:62-63, appl/example2/example2.py:61-62; the same calls in a different order,
appl/example1/example1.py:53-57. -/
noncomputable def otherOps : List Constraints.Op :=
  selfOps ++ [.setMinIntersectingAngle (toRadians 40)]

/-- One pass of the loop of example 1, appl/example1/example1.cc:95-122 (appl/example1/example1.py:78-101
is the same). -/
noncomputable def pass1 (eng : Engine E) (draw1 draw2 : ℕ → Outcome E) (k : ℕ) (s : TwoSets E) :
    Outcome (TwoSets E) := do
  let quad ← (if s.into1 then draw1 k else draw2 k)
  let entitySet := if s.into1 then s.set1 else s.set2
  let otherEntitySet := if s.into1 then s.set2 else s.set1
  let okSelf ← Constraints.evaluateSet eng (Constraints.run selfOps) entitySet quad
  if !okSelf then pure s.reject
  else do
    let okOther ← Constraints.evaluateSet eng (Constraints.run otherOps) otherEntitySet quad
    if !okOther then pure s.reject
    else pure (s.accept quad)

/-- The loop of example 1 with target counts `n1` and `n2`, appl/example1/example1.cc:86-122.  `order`
gives the order in which the map of counters is traversed. -/
noncomputable def loop1 (eng : Engine E) (order : SamplingStatus → List (ℕ × ℕ))
    (draw1 draw2 : ℕ → Outcome E) (n1 n2 fuel : ℕ) : Outcome (Option (ℕ × TwoSets E)) :=
  whileLoop (fun s => s.status.finishedOn (order s.status)) (pass1 eng draw1 draw2) fuel 0
    (TwoSets.init n1 n2)

/-- Example 1 with its target counts, appl/example1/example1.cc:87-89. -/
noncomputable def example1 (eng : Engine E) (order : SamplingStatus → List (ℕ × ℕ))
    (draw1 draw2 : ℕ → Outcome E) (fuel : ℕ) : Outcome (Option (ℕ × TwoSets E)) :=
  loop1 eng order draw1 draw2 15 15 fuel

/-- The domain of example 2: top, bottom and lateral face of the cylinder, and the area of the part of
an entity inside the cylinder (`computeContainedMagnitude`). -/
structure CylinderDomain (E : Type) where
  top : E
  bottom : E
  lateral : E
  containedArea : E → Outcome ℝ

open Classical in
/-- One pass of the loop of example 2, appl/example2/example2.cc:80-115
(appl/example2/example2.py:86-129 is the same). -/
noncomputable def pass2 (eng : Engine E) (dom : CylinderDomain E) (draw1 draw2 : ℕ → Outcome E) (k : ℕ)
    (s : TwoSets E) : Outcome (TwoSets E) := do
  let quad ← (if s.into1 then draw1 k else draw2 k)
  let entitySet := if s.into1 then s.set1 else s.set2
  let otherEntitySet := if s.into1 then s.set2 else s.set1
  let okSelf ← Constraints.evaluateSet eng (Constraints.run selfOps) entitySet quad
  if !okSelf then pure s.reject
  else do
    let okOther ← Constraints.evaluateSet eng (Constraints.run otherOps) otherEntitySet quad
    if !okOther then pure s.reject
    else do
      let okTop ← Constraints.evaluate eng (Constraints.run selfOps) dom.top quad
      if !okTop then pure s.reject
      else do
        let okBottom ← Constraints.evaluate eng (Constraints.run selfOps) dom.bottom quad
        if !okBottom then pure s.reject
        else do
          let okLateral ← Constraints.evaluate eng (Constraints.run selfOps) dom.lateral quad
          if !okLateral then pure s.reject
          else do
            let area ← dom.containedArea quad
            if area < 0.01 then pure s.reject
            else pure (s.accept quad)

/-- The loop of example 2, appl/example2/example2.cc:73-115. -/
noncomputable def loop2 (eng : Engine E) (dom : CylinderDomain E)
    (order : SamplingStatus → List (ℕ × ℕ)) (draw1 draw2 : ℕ → Outcome E) (n1 n2 fuel : ℕ) :
    Outcome (Option (ℕ × TwoSets E)) :=
  whileLoop (fun s => s.status.finishedOn (order s.status)) (pass2 eng dom draw1 draw2) fuel 0
    (TwoSets.init n1 n2)

/-- Example 2 with its target counts, appl/example2/example2.cc:74-75 (15 instead of 12 in
appl/example2/example2.py:75-76). -/
noncomputable def example2 (eng : Engine E) (dom : CylinderDomain E)
    (order : SamplingStatus → List (ℕ × ℕ)) (draw1 draw2 : ℕ → Outcome E) (fuel : ℕ) :
    Outcome (Option (ℕ × TwoSets E)) :=
  loop2 eng dom order draw1 draw2 12 12 fuel

/-! ## Example 3: several geometry types, with the constraints matrix -/

/-- The geometry types of example 3. -/
inductive Kind where
  | disk
  | quad
  deriving DecidableEq

/-- `name()` of the geometries, frackit/geometry/disk.hh, frackit/geometry/quadrilateral.hh. -/
def Kind.name : Kind → String
  | .disk => "Disk"
  | .quad => "Quadrilateral_3d"

/-- `MultiGeometryEntitySet<Disk, Quad>`: the order of the types. -/
def kinds : List Kind := [.disk, .quad]

/-- `constraints1`, appl/example3/example3.cc:117-121, appl/example3/example3.py:84-93. -/
noncomputable def ops31 : List Constraints.Op :=
  [.setMinDistance 2.5, .setMinIntersectingAngle (toRadians 25),
    .setMinIntersectionMagnitude 5, .setMinIntersectionDistance 2.5]

/-- `constraints2`, appl/example3/example3.cc:125-126, appl/example3/example3.py:97-98. -/
noncomputable def ops32 : List Constraints.Op := ops31 ++ [.setMinDistance 5]

/-- `constraintsOnOther`, appl/example3/example3.cc:129-131, appl/example3/example3.py:101-103. -/
noncomputable def ops3Other : List Constraints.Op :=
  ops31 ++ [.setMinDistance 2.5, .setMinIntersectingAngle (toRadians 40)]

/-- `constraintsOnDomain`, appl/example3/example3.cc:146-147, appl/example3/example3.py:118-119. -/
noncomputable def ops3Domain : List Constraints.Op := ops31 ++ [.setMinIntersectingAngle (toRadians 15)]

/-- The calls on the constraints matrix, appl/example3/example3.cc:134-143; disks have id 1,
quadrilaterals id 2. -/
noncomputable def matrixCalls : List (Constraints × List (ℕ × ℕ)) :=
  [(Constraints.run ops31, [(1, 1)]), (Constraints.run ops32, [(2, 2)]),
    (Constraints.run ops3Other, [(1, 2), (2, 1)])]

/-- The calls on the sampler, appl/example3/example3.cc:103-105: the samplers are distinguished by
their types only. -/
def samplerCalls : List (MultiSampler.Op Kind Unit ℕ) := [.add .disk () 1, .add .quad () 2]

/-- Variables of the loop, appl/example3/example3.cc:103-167; `ω` is the state of the random number
generators. -/
structure MultiState (E ω : Type) where
  sampler : MultiSampler Kind Unit ℕ
  rng : ω
  sets : EntitySets Kind E
  status : SamplingStatus
  area : ℝ

/-- The domain of example 3: the boundary faces, and the area of the part of an entity inside the
domain (`computeContainedMagnitude`). -/
structure ShapeDomain (E : Type) where
  faces : List E
  containedArea : Kind × E → Outcome ℝ

variable {ω : Type}

/-- `{ status.increaseRejectedCounter(); continue; }` -/
def MultiState.reject (s : MultiState E ω) : MultiState E ω :=
  { s with status := s.status.increaseRejectedCounter }

/-- The state before the loop, appl/example3/example3.cc:103-167. -/
noncomputable def MultiState.init (draw : Kind → ω → Outcome E × ω) (w : ω) (n1 n2 : ℕ) : MultiState E ω :=
  let x := MultiSampler.run Strategy.nextSequential
    (fun k (_ : Unit) w => ((draw k w).1 >>= fun e => .val (k, e), (draw k w).2)) kinds
    (MultiSampler.init Strategy.sequential, w) samplerCalls
  ⟨x.1, x.2, EntitySets.init, (SamplingStatus.init.setTargetCount 1 n1).setTargetCount 2 n2, 0⟩

open Classical in
/-- One pass of the loop of example 3, appl/example3/example3.cc:168-199.  A geometry is returned by
the sampler as pointer to the interface class; its type is part of the value here. -/
noncomputable def pass3 (eng : Engine E) (dom : ShapeDomain E) (draw : Kind → ω → Outcome E × ω)
    (_k : ℕ) (s : MultiState E ω) : Outcome (MultiState E ω) :=
  let r := MultiSampler.call Strategy.nextSequential
    (fun k (_ : Unit) w => ((draw k w).1 >>= fun e => .val (k, e), (draw k w).2)) kinds s.sampler s.rng
  let s : MultiState E ω := { s with sampler := r.2.1, rng := r.2.2 }
  r.1 >>= fun x => do
    let done ← s.status.finishedId x.1
    if done then pure s.reject
    else do
      let area ← dom.containedArea x.2
      if area < 350 then pure s.reject
      else do
        let okSets ← (Matrix.run matrixCalls).evaluate (Constraints.evaluateSet eng)
          (s.sets.applyOnSet kinds) x.2.2 x.1
        if !okSets then pure s.reject
        else do
          let okDomain ← Constraints.evaluateSet eng (Constraints.run ops3Domain) dom.faces x.2.2
          if !okDomain then pure s.reject
          else match s.sets.addPointer Kind.name kinds x.2.1 x.2.2 x.1 with
            | (.val _, sets) =>
                pure { s with sets := sets, status := s.status.increaseCounter x.1, area := s.area + area }
            | (.thrown e, _) => .thrown e
            | (.nan, _) => .nan
            | (.ub, _) => .ub

/-- The loop of example 3, appl/example3/example3.cc:160-199. -/
noncomputable def loop3 (eng : Engine E) (dom : ShapeDomain E) (order : SamplingStatus → List (ℕ × ℕ))
    (draw : Kind → ω → Outcome E × ω) (w : ω) (n1 n2 fuel : ℕ) :
    Outcome (Option (ℕ × MultiState E ω)) :=
  whileLoop (fun s => s.status.finishedOn (order s.status)) (pass3 eng dom draw) fuel 0
    (MultiState.init draw w n1 n2)

/-- Example 3 with its target counts, appl/example3/example3.cc:163-164. -/
noncomputable def example3 (eng : Engine E) (dom : ShapeDomain E) (order : SamplingStatus → List (ℕ × ℕ))
    (draw : Kind → ω → Outcome E × ω) (w : ω) (fuel : ℕ) : Outcome (Option (ℕ × MultiState E ω)) :=
  loop3 eng dom order draw w 12 16 fuel

/-! ## Example 3, Python -/

/-- Variables of the loop, appl/example3/example3.py:129-138.  The dictionary of entity sets has the
keys 1 and 2. -/
structure PyState (E : Type) where
  disks : List E
  quads : List E
  status : SamplingStatus
  into1 : Bool
  area : ℝ

/-- `{ status.increaseRejectedCounter(); continue; }` -/
def PyState.reject (s : PyState E) : PyState E := { s with status := s.status.increaseRejectedCounter }

/-- The dictionary of entity sets, appl/example3/example3.py:134. -/
def PyState.dict (s : PyState E) (id : ℕ) : Option (List E) :=
  if id = 1 then some s.disks else if id = 2 then some s.quads else none

/-- The calls on the Python constraints matrix, appl/example3/example3.py:106-115. -/
noncomputable def pyMatrixCalls : List (Constraints × List PyItem) :=
  [(Constraints.run ops31, [.id 1, .id 1]), (Constraints.run ops32, [.id 2, .id 2]),
    (Constraints.run ops3Other, [.list [1, 2], .list [2, 1]])]

/-- The evaluation of a constraints object on a list and a geometry in Python. -/
noncomputable def evalPy (eng : Engine E) (c : Constraints) (set : List E) (x : E) : Outcome Bool :=
  PyConstraints.evaluate (Constraints.evaluate eng c) (.list set) (.geo x)

open Classical in
/-- One pass of the loop, appl/example3/example3.py:139-175. -/
noncomputable def passPy (eng : Engine E) (dom : ShapeDomain E) (draw : Kind → ℕ → Outcome E) (k : ℕ)
    (s : PyState E) : Outcome (PyState E) := do
  let id := if s.into1 then 1 else 2
  let kind := if s.into1 then Kind.disk else Kind.quad
  let geom ← draw kind k
  let done ← s.status.finishedId id
  if done then pure ⟨s.disks, s.quads, s.status.increaseRejectedCounter, !s.into1, s.area⟩
  else do
    let area ← dom.containedArea (kind, geom)
    if area < 350 then pure s.reject
    else do
      let okSets ← PyMatrix.evaluate (evalPy eng) (PyMatrix.run pyMatrixCalls) s.dict geom id
      if !okSets then pure s.reject
      else do
        let okDomain ← evalPy eng (Constraints.run ops3Domain) dom.faces geom
        if !okDomain then pure s.reject
        else pure ⟨if id = 1 then s.disks ++ [geom] else s.disks,
          if id = 1 then s.quads else s.quads ++ [geom], s.status.increaseCounter id, !s.into1,
          s.area + area⟩

/-- The loop, appl/example3/example3.py:129-175. -/
noncomputable def loopPy (eng : Engine E) (dom : ShapeDomain E) (order : SamplingStatus → List (ℕ × ℕ))
    (draw : Kind → ℕ → Outcome E) (n1 n2 fuel : ℕ) : Outcome (Option (ℕ × PyState E)) :=
  whileLoop (fun s => s.status.finishedOn (order s.status)) (passPy eng dom draw) fuel 0
    ⟨[], [], (SamplingStatus.init.setTargetCount 1 n1).setTargetCount 2 n2, true, 0⟩

/-- Example 3 in Python with its target counts, appl/example3/example3.py:130-131. -/
noncomputable def example3Py (eng : Engine E) (dom : ShapeDomain E) (order : SamplingStatus → List (ℕ × ℕ))
    (draw : Kind → ℕ → Outcome E) (fuel : ℕ) : Outcome (Option (ℕ × PyState E)) :=
  loopPy eng dom order draw 12 16 fuel

end Appl
end Frackit
