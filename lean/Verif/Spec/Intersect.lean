/-!
# Which pairs of geometries can be intersected
-/

namespace Spec

/-- Types of the arguments of `intersect`. -/
inductive GeoType where
  | point | segment | circle | ellipse | arc | triangle | quadrilateral | polygon | disk
  | cylinderSurface | box | sphere | cylinder | hollowCylinder | line | plane | face | otherShape
deriving DecidableEq

/-- The pairs of types for which there is an algorithm (in either order). -/
def algorithms : List (GeoType × GeoType) :=
  [(.segment, .segment), (.plane, .plane), (.plane, .line),
   (.disk, .line), (.quadrilateral, .line),
   (.disk, .disk), (.quadrilateral, .quadrilateral), (.polygon, .polygon),
   (.quadrilateral, .disk), (.polygon, .disk),
   (.cylinderSurface, .disk), (.cylinderSurface, .quadrilateral), (.cylinderSurface, .polygon),
   (.cylinderSurface, .face), (.face, .face), (.disk, .face), (.quadrilateral, .face), (.polygon, .face)]

/-- There is an algorithm for the pair. -/
def HasAlgorithm (a b : GeoType) : Prop := (a, b) ∈ algorithms ∨ (b, a) ∈ algorithms

instance (a b : GeoType) : Decidable (HasAlgorithm a b) := by unfold HasAlgorithm; infer_instance

end Spec
