import Verif.Model.Distance.Shapes
import Verif.Model.Python.Classes

/-!
# Free functions on geometries in Python

frackit/python/geometry/getboundingbox.hh, frackit/python/precision/defaultepsilon.hh
-/

namespace Frackit
open Verif

/-- `getBoundingBox(geo)` in Python, frackit/python/geometry/getboundingbox.hh:45-47, 66-86, for geometries and for
wrapped shapes; lines are not registered. -/
noncomputable def pyGetBoundingBox (K : ShapeKernel) : DistArg → Outcome Box
  | .shape s => getBoundingBox K (.shape s)
  | .line _ => .thrown "TypeError"
  | .geom g => pyDispatch boundingBoxOverloads (fun g => getBoundingBox K (.geom g)) g

/-- `defaultEpsilon(geo)` in Python, frackit/python/precision/defaultepsilon.hh:43-46, 61-68, for geometries and
for wrapped shapes of the class `OCCShapeWrapper`; lines are not registered. -/
noncomputable def pyDefaultEpsilon (K : ShapeKernel) : DistArg → Outcome ℝ
  | .shape s => defaultEpsilon K (.shape s)
  | .line _ => .thrown "TypeError"
  | .geom g => pyDispatch epsilonOverloads (fun g => defaultEpsilon K (.geom g)) g

end Frackit
