import Verif.Model.Python.Classes

/-!
# Lengths, areas and volumes in Python

python/frackit/geometry/__init__.py:96-137, frackit/python/geometry/magnitude.hh:64-105
-/

namespace Frackit
open Verif

/-- The argument of the functions below.  `geometry` stands for the geometries in three-dimensional space,
`wrapper k m` for a wrapped OpenCASCADE shape together with the magnitude OpenCASCADE computes for it,
`unbounded d` for geometries that state the dimension `d` but have no magnitude (lines, planes, directions and empty
intersections, as well as vectors and segments in one or two dimensions), and `other` for all objects that are not
geometries. -/
inductive PyGeo where
  | geometry (g : AnyGeometry)
  | vector (v : V3)
  | wrapper (k : WrapperKind) (m : ℝ)
  | unbounded (d : ℕ)
  | other

/-- `DimensionalityTraits<…>::geometryDimension()` of the wrapped shapes, frackit/geometry/dimension.hh:64-123;
shapes and compounds have none, and hence no property `myDimension`
(frackit/python/geometry/registerdimensionproperties.hh:32-36). -/
def WrapperKind.dimension : WrapperKind → Option ℕ
  | .shape => none
  | .vertex => some 0
  | .edge => some 1
  | .wire => some 1
  | .face => some 2
  | .shell => some 2
  | .solid => some 3
  | .compound => none

/-- The property `myDimension`, frackit/python/geometry/registerdimensionproperties.hh:32-36; `none` if the access
raises an exception.  Vectors: frackit/geometry/vector.hh:74. -/
def PyGeo.myDimension : PyGeo → Option ℕ
  | .geometry g => some g.dimension
  | .vector _ => some 1
  | .wrapper k _ => k.dimension
  | .unbounded d => some d
  | .other => none

/-- The overloads of `computeMagnitude` registered in frackit/python/geometry/magnitude.hh:86-104; other arguments
raise `TypeError`. -/
noncomputable def pyComputeMagnitude : PyGeo → Outcome ℝ
  | .geometry g => pyDispatch magnitudeOverloads computeMagnitude g
  | .vector v => .val v.len
  | .wrapper .edge m => .val m
  | .wrapper .wire m => .val m
  | .wrapper .face m => .val m
  | .wrapper .shell m => .val m
  | .wrapper .solid m => .val m
  | _ => .thrown "TypeError"

/-- `computeLength`, python/frackit/geometry/__init__.py:98-109. -/
noncomputable def pyComputeLength (geo : PyGeo) : Outcome ℝ :=
  match geo.myDimension with
  | none => .thrown "TypeError"
  | some geoDim => if geoDim ≠ 1 then .thrown "TypeError" else pyComputeMagnitude geo

/-- `computeArea`, python/frackit/geometry/__init__.py:112-123. -/
noncomputable def pyComputeArea (geo : PyGeo) : Outcome ℝ :=
  match geo.myDimension with
  | none => .thrown "TypeError"
  | some geoDim => if geoDim ≠ 2 then .thrown "TypeError" else pyComputeMagnitude geo

/-- `computeVolume`, python/frackit/geometry/__init__.py:126-137. -/
noncomputable def pyComputeVolume (geo : PyGeo) : Outcome ℝ :=
  match geo.myDimension with
  | none => .thrown "TypeError"
  | some geoDim => if geoDim ≠ 3 then .thrown "TypeError" else pyComputeMagnitude geo

end Frackit
