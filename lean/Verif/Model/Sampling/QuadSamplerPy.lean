import Verif.Model.Sampling.PolygonSamplerPy
import Verif.Model.Sampling.DeprecatedQuadSampler

/-!
# Quadrilateral sampler of the Python module

python/frackit/sampling/__init__.py, class `QuadrilateralSampler`: constructor, which selects one of the two
algorithms, and call.
-/

namespace Frackit
open Verif

/-- The last argument of the constructor: a number or a callable.  The first call of a callable may raise an
exception.  (Simplified: later calls of it do not.) -/
inductive DipArg where
  | number (x : ℝ)
  | callable (raises : Bool) (values : Draws ℝ)

/-- The constructed object: which algorithm it uses (`useDeprecated`), and the last argument as the minimum
edge length or as the sampler of the dip length; in the second case the values are those that the callable will
return from now on. -/
inductive QuadSamplerPy where
  | deprecated (minEdgeLength : DipArg)
  | polygon (dipLength : Draws ℝ)

namespace QuadSamplerPy

/-- `__init__`, python/frackit/sampling/__init__.py:372-408: `dipLengthSampler()` is tried; a number is not
callable, which raises an exception. -/
def init : DipArg → QuadSamplerPy
  | .number x => .deprecated (.number x)
  | .callable true s => .deprecated (.callable true (s.drop 1))
  | .callable false s => .polygon (s.drop 1)

/-- `__init__` without the last argument, python/frackit/sampling/__init__.py:371-372; `Precision.confusion`
is a static property, i.e. a number, frackit/python/precision/precision.hh:31. -/
noncomputable def initDefault : QuadSamplerPy := init (.number confusion)

/-- `__call__`, python/frackit/sampling/__init__.py:410-458.  `d` are the values returned by the other samplers;
in the deprecated case the sampler of the strike length is the one of the edge lengths.  A comparison of a number
with a callable raises a `TypeError`. -/
noncomputable def call (sort : List V3 → List V3) (fuel : ℕ) (d : PolygonDraws) :
    QuadSamplerPy → Option (Outcome Quadrilateral)
  | .deprecated (.number m) => quadSamplePy m fuel
      ⟨fun _ => d.center, fun _ => d.strikeAngle, fun _ => d.dipAngle, d.strikeLength⟩
  | .deprecated (.callable _ _) => some (.thrown "TypeError")
  | .polygon s =>
    match sampleCornersPy sort fuel { d with corners := fun _ => 4, dipLength := s } with
    | none => none
    | some r => some do
        let c ← r
        match c with
        | [c0, c1, c2, c3] => pure (Quadrilateral.make c0 c1 c3 c2)
        | _ => .thrown "Size mismatch of corner list!"

end QuadSamplerPy
end Frackit
