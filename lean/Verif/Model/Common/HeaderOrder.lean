import Verif.Model.Common.Headers

/-!
# Names declared and used in the headers

A source file can be compiled only if the classes and templates whose names occur in a header have been declared before:
in one of the headers read before it or in the header itself.  This holds for the text of templates as well, since the
name of a template is looked up where it is written.  Modelled are the classes, class templates and alias templates of the
library that are used in a header other than the one that defines them.  Functions, classes of other packages and the
order within a header are left out.
-/

namespace Frackit
open Verif

/-- The names, denoted by their position. -/
def classNames : List String := [
  "BRepWriter",  -- 0
  "BoundingBox",  -- 1
  "Box",  -- 2
  "BoxPointSampler",  -- 3
  "Circle",  -- 4
  "ContainedEntityNetwork",  -- 5
  "ContainedEntityNetworkInterface",  -- 6
  "Contains",  -- 7
  "CoordinateTypeTraits",  -- 8
  "Cylinder",  -- 9
  "CylinderPointSampler",  -- 10
  "CylinderSurface",  -- 11
  "DimensionalityTraits",  -- 12
  "Direction",  -- 13
  "Disk",  -- 14
  "Ellipse",  -- 15
  "EllipseArc",  -- 16
  "EllipticalGeometry",  -- 17
  "EmptyIntersection",  -- 18
  "EntityNetwork",  -- 19
  "EntityNetworkInterface",  -- 20
  "Geometry",  -- 21
  "GeometrySampler",  -- 22
  "HollowCylinder",  -- 23
  "Id",  -- 24
  "IdPair",  -- 25
  "Intersection",  -- 26
  "IntersectionAngle",  -- 27
  "IsEmptyIntersection",  -- 28
  "IsPlanarGeometry",  -- 29
  "Line",  -- 30
  "PCT",  -- 31
  "Plane",  -- 32
  "Point",  -- 33
  "PointSampler",  -- 34
  "Polygon",  -- 35
  "PolygonSampler",  -- 36
  "Precision",  -- 37
  "PromotedType",  -- 38
  "Quadrilateral",  -- 39
  "SamplingStrategy",  -- 40
  "Segment",  -- 41
  "SequentialSamplingStrategy",  -- 42
  "Sphere",  -- 43
  "Triangle",  -- 44
  "UniformPointSamplerTraits",  -- 45
  "Vector"  -- 46
  ]

/-- For each header of `headers`, in the same order: the names it declares (including forward declarations) and the
other names that occur in it.  Specialisations of templates are uses, not declarations. -/
def declarations : List (List ℕ × List ℕ) := [
  ([24], []),  -- 0 common/id.hh
  ([25], [24]),  -- 1 common/idpair.hh
  ([13, 46], [37]),  -- 2 common/math.hh
  ([38], []),  -- 3 common/promotedtype.hh
  ([7], []),  -- 4 common/typetraits.hh
  ([31], [30, 33, 37, 38, 41, 46]),  -- 5 distance/distance.hh
  ([], [2, 11, 14, 31, 33, 35, 37, 38, 39]),  -- 6 distance/distancetoboundary.hh
  ([], [11, 12, 14, 33, 35, 39]),  -- 7 distance/pointonboundary.hh
  ([], [12, 33]),  -- 8 distance/pointongeometry.hh
  ([], [12, 21, 27]),  -- 9 entitynetwork/constraints.hh
  ([], []),  -- 10 entitynetwork/constraints_impl/admissibledimension.hh
  ([], [28]),  -- 11 entitynetwork/constraints_impl/admissiblemagnitude.hh
  ([], [15, 16, 18, 33, 41]),  -- 12 entitynetwork/constraints_impl/distancetoboundary.hh
  ([], [24, 25]),  -- 13 entitynetwork/constraintsmatrix.hh
  ([5], [6, 24]),  -- 14 entitynetwork/containedentitynetwork.hh
  ([6], [24]),  -- 15 entitynetwork/containedentitynetworkinterface.hh
  ([19], [20]),  -- 16 entitynetwork/entitynetwork.hh
  ([20], []),  -- 17 entitynetwork/entitynetworkinterface.hh
  ([], [7, 21, 24]),  -- 18 entitynetwork/multigeometryentityset.hh
  ([], [5, 24, 37]),  -- 19 entitynetwork/networkbuilder.hh
  ([1], [2]),  -- 20 geometry/boundingbox.hh
  ([2], [21, 33, 37, 39, 41, 46]),  -- 21 geometry/box.hh
  ([4], [13, 17, 21, 33, 37, 46]),  -- 22 geometry/circle.hh
  ([8], []),  -- 23 geometry/ctype.hh
  ([9, 11], [4, 13, 14, 21, 33, 37, 41]),  -- 24 geometry/cylinder.hh
  ([9, 11], [4, 13, 21, 32, 33, 37, 41]),  -- 25 geometry/cylindersurface.hh
  ([12], [21]),  -- 26 geometry/dimension.hh
  ([13, 46], [21]),  -- 27 geometry/direction.hh
  ([14], [15, 17, 21, 33, 37, 46]),  -- 28 geometry/disk.hh
  ([15], [17, 21, 33, 37, 46]),  -- 29 geometry/ellipse.hh
  ([16], [15, 33, 37]),  -- 30 geometry/ellipsearc.hh
  ([13, 17, 32, 33, 46], []),  -- 31 geometry/ellipticalgeometry.hh
  ([21], []),  -- 32 geometry/geometry.hh
  ([11, 23], [4, 9, 13, 21, 33, 37, 41]),  -- 33 geometry/hollowcylinder.hh
  ([13, 30, 33], [21, 37, 46]),  -- 34 geometry/line.hh
  ([32], [13, 21, 30, 33, 37, 41, 46]),  -- 35 geometry/plane.hh
  ([33, 46], [21, 37]),  -- 36 geometry/point.hh
  ([35], [21, 32, 33, 37, 41, 44, 46]),  -- 37 geometry/polygon.hh
  ([39], [21, 32, 33, 37, 41, 44, 46]),  -- 38 geometry/quadrilateral.hh
  ([13, 30, 33, 41, 46], [21, 37]),  -- 39 geometry/segment.hh
  ([43], [21, 33, 37, 46]),  -- 40 geometry/sphere.hh
  ([44], [13, 21, 32, 33, 37, 41, 46]),  -- 41 geometry/triangle.hh
  ([], [33, 44]),  -- 42 geometry/triangulation.hh
  ([13, 33, 46], [21, 37]),  -- 43 geometry/vector.hh
  ([], [14, 21, 39]),  -- 44 geometryutilities/applyongeometry.hh
  ([], [21]),  -- 45 geometryutilities/assign.hh
  ([], []),  -- 46 geometryutilities/getboundingbox.hh
  ([29], [11, 12]),  -- 47 geometryutilities/isplanar.hh
  ([], []),  -- 48 geometryutilities/name.hh
  ([], [11, 14, 26]),  -- 49 intersection/algorithms/algo_cylsurface_disk.hh
  ([], [11, 26]),  -- 50 intersection/algorithms/algo_cylsurface_face.hh
  ([], [11, 12, 15, 16, 18, 26, 33, 37, 41]),  -- 51 intersection/algorithms/algo_cylsurface_planargeom.hh
  ([], [11, 26, 35, 39]),  -- 52 intersection/algorithms/algo_cylsurface_polygon.hh
  ([], [11, 26, 39]),  -- 53 intersection/algorithms/algo_cylsurface_quadrilateral.hh
  ([], [14, 26, 37]),  -- 54 intersection/algorithms/algo_disk_disk.hh
  ([], [14, 26, 30, 37]),  -- 55 intersection/algorithms/algo_disk_line.hh
  ([], [8, 18, 26, 33]),  -- 56 intersection/algorithms/algo_face_face_3d.hh
  ([], [12, 18, 26, 30, 33, 41, 46]),  -- 57 intersection/algorithms/algo_planargeom_line.hh
  ([], [12, 18, 26, 30, 32, 33, 41]),  -- 58 intersection/algorithms/algo_planargeom_planargeom.hh
  ([], [18, 26, 30, 32, 37, 46]),  -- 59 intersection/algorithms/algo_plane_line.hh
  ([], [18, 26, 30, 32, 37]),  -- 60 intersection/algorithms/algo_plane_plane.hh
  ([], [14, 26, 35, 41]),  -- 61 intersection/algorithms/algo_polygon_disk.hh
  ([], [26, 35]),  -- 62 intersection/algorithms/algo_polygon_polygon.hh
  ([], [14, 26, 39]),  -- 63 intersection/algorithms/algo_quadrilateral_disk.hh
  ([], [26, 30, 39]),  -- 64 intersection/algorithms/algo_quadrilateral_line.hh
  ([], [26, 39]),  -- 65 intersection/algorithms/algo_quadrilateral_quadrilateral.hh
  ([], [18, 26, 37, 41, 46]),  -- 66 intersection/algorithms/algo_segment_segment.hh
  ([], [1]),  -- 67 intersection/bboxintersection.hh
  ([18, 28], [21]),  -- 68 intersection/emptyintersection.hh
  ([], [8, 11, 14, 18, 26, 30, 32, 35, 39, 41]),  -- 69 intersection/intersect.hh
  ([27], [11, 13, 15, 16, 29, 30, 32, 33, 41, 46]),  -- 70 intersection/intersectionangle.hh
  ([26], [8, 11, 14, 15, 16, 18, 30, 32, 33, 35, 39, 41]),  -- 71 intersection/intersectiontraits.hh
  ([0], [5, 19]),  -- 72 io/brepwriter.hh
  ([], [0]),  -- 73 io/gmshwriter.hh
  ([], [37]),  -- 74 magnitude/area.hh
  ([], [8, 12]),  -- 75 magnitude/containedmagnitude.hh
  ([], [4, 15, 16]),  -- 76 magnitude/length.hh
  ([], [37]),  -- 77 magnitude/magnitude.hh
  ([], [37]),  -- 78 magnitude/volume.hh
  ([], [1, 2, 4, 9, 11, 14, 15, 16, 33, 35, 39, 41, 43, 46]),  -- 79 occ/breputilities.hh
  ([], [15, 16]),  -- 80 occ/geomutilities.hh
  ([], [13, 33, 46]),  -- 81 occ/gputilities.hh
  ([], [2, 4, 11, 14, 15, 35, 37, 39, 41, 43]),  -- 82 precision/defaultepsilon.hh
  ([37], []),  -- 83 precision/precision.hh
  ([3], [2, 34]),  -- 84 sampling/boxpointsampler.hh
  ([10], [9, 34, 46]),  -- 85 sampling/cylinderpointsampler.hh
  ([], [13, 14, 22, 33, 34, 46]),  -- 86 sampling/disksampler.hh
  ([22], []),  -- 87 sampling/geometrysampler.hh
  ([], [2, 3, 9, 10, 23]),  -- 88 sampling/makepointsampler.hh
  ([], [8, 12, 45]),  -- 89 sampling/makeuniformpointsampler.hh
  ([], [7, 21, 22, 24, 40, 42]),  -- 90 sampling/multigeometrysampler.hh
  ([34], []),  -- 91 sampling/pointsampler.hh
  ([36], [13, 22, 33, 34, 35, 46]),  -- 92 sampling/polygonsampler.hh
  ([], [13, 22, 33, 34, 36, 37, 39, 46]),  -- 93 sampling/quadrilateralsampler.hh
  ([40], [24]),  -- 94 sampling/samplingstrategy.hh
  ([42], [24, 40]),  -- 95 sampling/sequentialsamplingstrategy.hh
  ([], [24]),  -- 96 sampling/status.hh
  ([45], [])  -- 97 sampling/uniformpointsamplertraits.hh
  ]

/-- The names declared in a header. -/
def declaresOf (h : ℕ) : List ℕ := ((declarations[h]?).map Prod.fst).getD []

/-- The names used in a header. -/
def needsOf (h : ℕ) : List ℕ := ((declarations[h]?).map Prod.snd).getD []

/-- The compiler reads the headers in the given order; `known` are the names that have been declared. -/
def compileText (known : List ℕ) : List ℕ → Outcome Unit
  | [] => .val ()
  | h :: t =>
      if ∀ n ∈ needsOf h, n ∈ known ++ declaresOf h then compileText (known ++ declaresOf h) t
      else .thrown "was not declared in this scope"

/-- The compilation of a source file that includes the given headers in the given order. -/
def compileUnit (unit : List ℕ) : Outcome Unit := compileText [] (preprocess unit)

/-- frackit/geometry/dimension.hh -/
def dimensionHeader : ℕ := 26

/-- frackit/geometryutilities/isplanar.hh: uses `DimensionalityTraits` in line 44 and includes only the header of
cylinder surfaces (line 31). -/
def planarHeader : ℕ := 47

/-- frackit/intersection/intersectionangle.hh: includes the header above in line 57, before
frackit/geometry/dimension.hh in line 58. -/
def angleHeader : ℕ := 70

/-- The position of `DimensionalityTraits` among the names. -/
def dimensionalityTraits : ℕ := 12

end Frackit
