import Verif.Model.Float.Elliptical
import Verif.Model.Float.Vector

/-!
# Angles of points on ellipses and ellipse arcs in double precision

frackit/geometry/{ellipse,ellipsearc}.hh once more, with the arithmetic of `double`.
-/

namespace Frackit.Fp
open Verif

/-- `std::atan` of `double`.  Simplified: assumes that the implementation is correctly rounded. -/
noncomputable def atan (x : ℝ) : ℝ := rnd (Real.arctan x)

open Classical in
/-- `Ellipse::getAngle(p, checkIfOnEllipse)`, frackit/geometry/ellipse.hh:174-198.  Simplified: the number zero has no
sign, and a division by zero in the argument of `atan` (possible only if an axis length is not positive) is the outcome
`nan`. -/
noncomputable def ellipseAngle (d : Elliptical) (p : V3) (checkIfOnEllipse : Bool := true) : Outcome ℝ :=
  if checkIfOnEllipse = true ∧ ¬ ellipseContainsDefault d p then .thrown "Point not on ellipse!"
  else
    let v := vectorBetween d.center p
    let x := scalarProduct v d.major
    let y := scalarProduct v d.minor
    if |x| < mul d.majLen confusion then
      .val (if y < 0 then div (mul 3 pi) 2 else div pi 2)
    else if |y| < mul d.minLen confusion then
      .val (if x < 0 then pi else 0)
    else if d.minLen = 0 ∨ x = 0 then .nan
    else
      let a := atan (div (mul y (div d.majLen d.minLen)) x)
      if ¬ y < 0 ∧ ¬ x < 0 then .val a
      else if y < 0 ∧ ¬ x < 0 then .val (add (mul 2 pi) a)
      else .val (add pi a)

/-- `Ellipse::getParam(p, checkIfOnEllipse)`, frackit/geometry/ellipse.hh:163-164. -/
noncomputable def ellipseParam (d : Elliptical) (p : V3) (checkIfOnEllipse : Bool := true) : Outcome ℝ := do
  let angle ← ellipseAngle d p checkIfOnEllipse
  pure (div angle (mul 2 pi))

open Classical in
/-- `EllipseArc(ellipse, source, target)`, frackit/geometry/ellipsearc.hh:77-101 (asserts compiled out). -/
noncomputable def arcMake (d : Elliptical) (source target : V3) : Outcome EllipseArc :=
  let eps := mul d.majLen confusion
  if pointIsEqual source target eps then do
    let sa ← ellipseAngle d source
    let ta := if sa < angular then mul 2 pi else sa
    pure ⟨d, source, target, sa, ta, True⟩
  else do
    let sa ← ellipseAngle d source
    let ta ← ellipseAngle d target
    pure ⟨d, source, target, sa, ta, False⟩

open Classical in
/-- `EllipseArc::contains(p, eps, checkIfOnEllipse)`, frackit/geometry/ellipsearc.hh:130-141. -/
noncomputable def arcContains (arc : EllipseArc) (p : V3) (eps : ℝ) (checkIfOnEllipse : Bool := true) : Outcome Prop :=
  if checkIfOnEllipse = true ∧ ¬ ellipseContains arc.ellipse p eps then .val False
  else do
    let angle ← ellipseAngle arc.ellipse p checkIfOnEllipse
    pure (if arc.sourceAngle > arc.targetAngle then
        angle ≥ sub arc.sourceAngle eps ∨ angle ≤ add arc.targetAngle eps
      else
        angle ≥ sub arc.sourceAngle eps ∧ angle ≤ add arc.targetAngle eps)

/-- `EllipseArc::contains(p, checkIfOnEllipse)`, frackit/geometry/ellipsearc.hh:150-151. -/
noncomputable def arcContainsDefault (arc : EllipseArc) (p : V3) (checkIfOnEllipse : Bool := true) : Outcome Prop :=
  arcContains arc p angular checkIfOnEllipse

open Classical in
/-- `EllipseArc::getPoint(param)`, frackit/geometry/ellipsearc.hh:156-166 (assert compiled out): the value assigned for a
full ellipse (line 161) is always overwritten by the following `if`/`else`. -/
noncomputable def arcGetPoint (arc : EllipseArc) (param : ℝ) : V3 :=
  let deltaAngle :=
    if arc.sourceAngle < arc.targetAngle then sub arc.targetAngle arc.sourceAngle
    else add (sub (mul 2 pi) arc.sourceAngle) arc.targetAngle
  pointFromAngle arc.ellipse (add arc.sourceAngle (mul deltaAngle param))

end Frackit.Fp
