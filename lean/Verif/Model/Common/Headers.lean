import Verif.Core.Outcome
import Mathlib.Data.Nat.Notation

/-!
# Headers, source files and programs

The library consists of headers.  Modelled are their inclusion of each other, the include guards, and the functions that
are defined in them and can be defined in one source file of a program only: functions that are neither templates nor
members of classes nor declared `inline`.  The headers of the Python bindings, frackit/python, and of other packages are
left out.
-/

namespace Frackit
open Verif

/-- A header: its name, the headers of the library it includes, in the order of the file, and the functions it defines
that are neither templates nor inline. -/
structure Header where
  name : String
  includes : List ℕ
  definitions : List String

/-- The headers under frackit, without frackit/python.  They are denoted by their position in this list.  Each of them
begins with `#ifndef` and `#define` of a macro of its own, followed by the `#include` lines; the lines of the definitions are
noted. -/
def headers : List Header := [
  ⟨"frackit/common/id.hh", [], []⟩,  -- 0
  ⟨"frackit/common/idpair.hh", [0], []⟩,  -- 1
  ⟨"frackit/common/math.hh", [83, 43, 27], []⟩,  -- 2
  ⟨"frackit/common/promotedtype.hh", [], []⟩,  -- 3
  ⟨"frackit/common/typetraits.hh", [], []⟩,  -- 4
  ⟨"frackit/distance/distance.hh", [83, 3, 79, 36, 43, 34, 39], []⟩,  -- 5
  ⟨"frackit/distance/distancetoboundary.hh", [83, 28, 38, 37, 25, 48, 5], []⟩,  -- 6
  ⟨"frackit/distance/pointonboundary.hh", [82, 36, 28, 38, 37, 25, 26, 48, 8], []⟩,  -- 7
  ⟨"frackit/distance/pointongeometry.hh", [82, 36, 26, 5], []⟩,  -- 8
  ⟨"frackit/entitynetwork/constraints.hh", [5, 77, 32, 44, 69, 68, 70, 10, 11, 12], []⟩,  -- 9
  ⟨"frackit/entitynetwork/constraints_impl/admissibledimension.hh", [26], []⟩,  -- 10
  ⟨"frackit/entitynetwork/constraints_impl/admissiblemagnitude.hh", [77, 68, 26], []⟩,  -- 11
  -- 12
  ⟨"frackit/entitynetwork/constraints_impl/distancetoboundary.hh", [5, 6, 7, 79, 77, 68, 36, 39, 30, 29, 48], []⟩,
  ⟨"frackit/entitynetwork/constraintsmatrix.hh", [0, 1], []⟩,  -- 13
  ⟨"frackit/entitynetwork/containedentitynetwork.hh", [0, 15], []⟩,  -- 14
  ⟨"frackit/entitynetwork/containedentitynetworkinterface.hh", [0], []⟩,  -- 15
  ⟨"frackit/entitynetwork/entitynetwork.hh", [17], []⟩,  -- 16
  ⟨"frackit/entitynetwork/entitynetworkinterface.hh", [], []⟩,  -- 17
  ⟨"frackit/entitynetwork/multigeometryentityset.hh", [48, 45, 4, 0], []⟩,  -- 18
  ⟨"frackit/entitynetwork/networkbuilder.hh", [0, 26, 82, 83, 79, 16, 14], []⟩,  -- 19
  ⟨"frackit/geometry/boundingbox.hh", [21], []⟩,  -- 20
  ⟨"frackit/geometry/box.hh", [83, 32, 36, 39, 38, 43], []⟩,  -- 21
  ⟨"frackit/geometry/circle.hh", [2, 83, 32, 31, 43], []⟩,  -- 22
  ⟨"frackit/geometry/ctype.hh", [], []⟩,  -- 23
  ⟨"frackit/geometry/cylinder.hh", [83, 32, 36, 39, 27, 43, 22, 28, 25], []⟩,  -- 24
  ⟨"frackit/geometry/cylindersurface.hh", [83, 32, 36, 39, 27, 43, 22, 24, 35], []⟩,  -- 25
  ⟨"frackit/geometry/dimension.hh", [32], []⟩,  -- 26
  ⟨"frackit/geometry/direction.hh", [32, 43], []⟩,  -- 27
  ⟨"frackit/geometry/disk.hh", [83, 32, 31, 29, 43], []⟩,  -- 28
  ⟨"frackit/geometry/ellipse.hh", [83, 32, 31, 43], []⟩,  -- 29
  ⟨"frackit/geometry/ellipsearc.hh", [83, 29], []⟩,  -- 30
  ⟨"frackit/geometry/ellipticalgeometry.hh", [2, 36, 27, 43, 35], []⟩,  -- 31
  ⟨"frackit/geometry/geometry.hh", [], []⟩,  -- 32
  ⟨"frackit/geometry/hollowcylinder.hh", [83, 32, 36, 39, 27, 22, 43, 24, 25], []⟩,  -- 33
  ⟨"frackit/geometry/line.hh", [83, 32, 36, 27, 43], []⟩,  -- 34
  ⟨"frackit/geometry/plane.hh", [2, 83, 32, 36, 43, 39, 34], []⟩,  -- 35
  ⟨"frackit/geometry/point.hh", [83, 32, 43], []⟩,  -- 36
  ⟨"frackit/geometry/polygon.hh", [2, 83, 32, 36, 43, 39, 41, 35, 42], []⟩,  -- 37
  ⟨"frackit/geometry/quadrilateral.hh", [83, 32, 36, 43, 39, 41, 35], []⟩,  -- 38
  ⟨"frackit/geometry/segment.hh", [83, 32, 36, 43, 27, 34], []⟩,  -- 39
  ⟨"frackit/geometry/sphere.hh", [83, 36, 43], []⟩,  -- 40
  ⟨"frackit/geometry/triangle.hh", [2, 32, 36, 39, 43, 27, 35], []⟩,  -- 41
  ⟨"frackit/geometry/triangulation.hh", [36, 41], []⟩,  -- 42
  ⟨"frackit/geometry/vector.hh", [2, 83, 32, 36, 27], []⟩,  -- 43
  ⟨"frackit/geometryutilities/applyongeometry.hh", [32, 48, 28, 38, 45], []⟩,  -- 44
  ⟨"frackit/geometryutilities/assign.hh", [32, 48], []⟩,  -- 45
  ⟨"frackit/geometryutilities/getboundingbox.hh", [79], []⟩,  -- 46
  ⟨"frackit/geometryutilities/isplanar.hh", [25], []⟩,  -- 47
  -- 48, definitions in lines 55, 62, 69, 76, 83, 90, 97
  ⟨"frackit/geometryutilities/name.hh", [], ["geometryName(TopoDS_Solid)", "geometryName(TopoDS_Shell)",
    "geometryName(TopoDS_Face)", "geometryName(TopoDS_Wire)", "geometryName(TopoDS_Edge)",
    "geometryName(TopoDS_Vertex)", "geometryName(TopoDS_Shape)"]⟩,
  ⟨"frackit/intersection/algorithms/algo_cylsurface_disk.hh", [28, 25, 71, 51], []⟩,  -- 49
  ⟨"frackit/intersection/algorithms/algo_cylsurface_face.hh", [25, 79, 71, 56], []⟩,  -- 50
  ⟨"frackit/intersection/algorithms/algo_cylsurface_planargeom.hh", [79, 80, 81, 25, 26, 71, 68], []⟩,  -- 51
  ⟨"frackit/intersection/algorithms/algo_cylsurface_polygon.hh", [37, 25, 71, 51], []⟩,  -- 52
  ⟨"frackit/intersection/algorithms/algo_cylsurface_quadrilateral.hh", [38, 25, 71, 51], []⟩,  -- 53
  ⟨"frackit/intersection/algorithms/algo_disk_disk.hh", [83, 28, 58], []⟩,  -- 54
  ⟨"frackit/intersection/algorithms/algo_disk_line.hh", [28, 34, 83, 71, 57], []⟩,  -- 55
  -- 56, definitions in lines 54-57
  ⟨"frackit/intersection/algorithms/algo_face_face_3d.hh", [23, 36, 79, 71, 68],
    ["IntersectionAlgorithms::intersect_face_face_3d(TopoDS_Face, TopoDS_Face, double)"]⟩,
  ⟨"frackit/intersection/algorithms/algo_planargeom_line.hh", [34, 26, 79, 83, 71, 68, 59], []⟩,  -- 57
  -- 58
  ⟨"frackit/intersection/algorithms/algo_planargeom_planargeom.hh", [36, 34, 39, 35, 26, 71, 68, 66, 60, 57], []⟩,
  ⟨"frackit/intersection/algorithms/algo_plane_line.hh", [35, 34, 83, 79, 81, 71, 68], []⟩,  -- 59
  ⟨"frackit/intersection/algorithms/algo_plane_plane.hh", [35, 83, 81, 71, 68], []⟩,  -- 60
  ⟨"frackit/intersection/algorithms/algo_polygon_disk.hh", [83, 37, 28, 39, 71, 58], []⟩,  -- 61
  ⟨"frackit/intersection/algorithms/algo_polygon_polygon.hh", [37, 71, 58], []⟩,  -- 62
  ⟨"frackit/intersection/algorithms/algo_quadrilateral_disk.hh", [83, 38, 28, 71, 58], []⟩,  -- 63
  ⟨"frackit/intersection/algorithms/algo_quadrilateral_line.hh", [38, 34, 71, 57], []⟩,  -- 64
  ⟨"frackit/intersection/algorithms/algo_quadrilateral_quadrilateral.hh", [38, 71, 58], []⟩,  -- 65
  ⟨"frackit/intersection/algorithms/algo_segment_segment.hh", [39, 83, 79, 71, 68], []⟩,  -- 66
  ⟨"frackit/intersection/bboxintersection.hh", [2, 82, 20], []⟩,  -- 67
  ⟨"frackit/intersection/emptyintersection.hh", [32], []⟩,  -- 68
  -- 69
  ⟨"frackit/intersection/intersect.hh", [34, 39, 35, 28, 38, 37, 25, 23, 48, 46, 79, 82, 71, 67, 68, 66, 60, 59,
    55, 64, 65, 63, 61, 62, 54, 49, 50, 53, 52, 56], []⟩,
  -- 70
  ⟨"frackit/intersection/intersectionangle.hh", [82, 36, 39, 29, 30, 35, 28, 34, 25, 48, 47, 26, 81, 80, 79, 68,
    69], []⟩,
  ⟨"frackit/intersection/intersectiontraits.hh", [23, 36, 39, 35, 28, 38, 37, 29, 30, 25, 68], []⟩,  -- 71
  ⟨"frackit/io/brepwriter.hh", [79, 16, 14], []⟩,  -- 72
  ⟨"frackit/io/gmshwriter.hh", [72], []⟩,  -- 73
  ⟨"frackit/magnitude/area.hh", [79, 83], []⟩,  -- 74
  ⟨"frackit/magnitude/containedmagnitude.hh", [79, 82, 26, 23, 32, 44, 77], []⟩,  -- 75
  ⟨"frackit/magnitude/length.hh", [80, 79, 22, 29, 30], []⟩,  -- 76
  ⟨"frackit/magnitude/magnitude.hh", [83, 76, 74, 78], []⟩,  -- 77
  ⟨"frackit/magnitude/volume.hh", [83], []⟩,  -- 78
  -- 79, definitions in lines 109, 122, 354-360, 568, 587
  ⟨"frackit/occ/breputilities.hh", [43, 22, 29, 30, 28, 38, 37, 24, 25, 21, 20, 40, 48, 81, 80],
    ["OCCUtilities::readShape(string)", "OCCUtilities::point(TopoDS_Vertex)",
    "OCCUtilities::getShape(TopoDS_Vertex)", "OCCUtilities::getShape(TopoDS_Edge)",
    "OCCUtilities::getShape(TopoDS_Wire)", "OCCUtilities::getShape(TopoDS_Face)",
    "OCCUtilities::getShape(TopoDS_Shell)", "OCCUtilities::getShape(TopoDS_Solid)",
    "OCCUtilities::getShape(TopoDS_Compound)", "OCCUtilities::getOverlapEdges(vector, vector)",
    "OCCUtilities::getOverlapEdges(TopoDS_Face, TopoDS_Face)"]⟩,
  -- 80, definitions in lines 95, 109
  ⟨"frackit/occ/geomutilities.hh", [29, 30, 81], ["OCCUtilities::getGeomHandle(TopoDS_Edge)",
    "OCCUtilities::getGeomHandle(TopoDS_Face)"]⟩,
  ⟨"frackit/occ/gputilities.hh", [36, 27, 43], ["OCCUtilities::point(gp_Pnt)"]⟩,  -- 81, definitions in lines 61
  ⟨"frackit/precision/defaultepsilon.hh", [79, 39, 22, 29, 28, 38, 37, 25, 21, 40, 83], []⟩,  -- 82
  ⟨"frackit/precision/precision.hh", [], []⟩,  -- 83
  ⟨"frackit/sampling/boxpointsampler.hh", [21, 91], []⟩,  -- 84
  ⟨"frackit/sampling/cylinderpointsampler.hh", [24, 43, 91], []⟩,  -- 85
  ⟨"frackit/sampling/disksampler.hh", [2, 36, 43, 27, 28, 91, 87], []⟩,  -- 86
  ⟨"frackit/sampling/geometrysampler.hh", [], []⟩,  -- 87
  ⟨"frackit/sampling/makepointsampler.hh", [21, 24, 33, 85, 84], []⟩,  -- 88
  ⟨"frackit/sampling/makeuniformpointsampler.hh", [23, 26, 97, 88], []⟩,  -- 89
  ⟨"frackit/sampling/multigeometrysampler.hh", [32, 4, 0, 87, 94, 95], []⟩,  -- 90
  ⟨"frackit/sampling/pointsampler.hh", [], []⟩,  -- 91
  ⟨"frackit/sampling/polygonsampler.hh", [2, 83, 36, 43, 27, 37, 91, 87], []⟩,  -- 92
  ⟨"frackit/sampling/quadrilateralsampler.hh", [2, 83, 36, 43, 27, 38, 91, 87, 92], []⟩,  -- 93
  ⟨"frackit/sampling/samplingstrategy.hh", [0], []⟩,  -- 94
  ⟨"frackit/sampling/sequentialsamplingstrategy.hh", [94], []⟩,  -- 95
  ⟨"frackit/sampling/status.hh", [0], []⟩,  -- 96
  ⟨"frackit/sampling/uniformpointsamplertraits.hh", [], []⟩  -- 97
  ]

/-- The headers included by a header. -/
def includesOf (h : ℕ) : List ℕ := ((headers[h]?).map Header.includes).getD []

/-- The functions defined in a header. -/
def definitionsOf (h : ℕ) : List String := ((headers[h]?).map Header.definitions).getD []

/-- The preprocessor: the headers whose content becomes part of the source file, in this order, and those whose macro has
been defined.  The macro of a header is defined before the headers it includes are read; a header whose macro is defined
is skipped.  The first argument limits the depth of nested inclusion. -/
def expand (inc : ℕ → List ℕ) : ℕ → List ℕ → List ℕ → List ℕ × List ℕ
  | _, seen, [] => (seen, [])
  | 0, seen, _ :: _ => (seen, [])
  | n + 1, seen, h :: t =>
      if h ∈ seen then expand inc (n + 1) seen t
      else
        let inner := expand inc n (h :: seen) (inc h)
        let rest := expand inc (n + 1) inner.1 t
        (rest.1, inner.2 ++ h :: rest.2)
termination_by n _ l => (n, l.length)

/-- The headers whose content becomes part of a source file that includes the given ones.  The nesting is at most as deep
as there are headers. -/
def preprocess (unit : List ℕ) : List ℕ := (expand includesOf (headers.length + 1) [] unit).2

/-- The functions a source file defines by including headers. -/
def unitDefinitions (unit : List ℕ) : List String := (preprocess unit).flatMap definitionsOf

open Classical in
/-- Linking of object files; `defined` are the functions defined in those that have been read. -/
noncomputable def linkUnits (defined : List String) : List (List ℕ) → Outcome Unit
  | [] => .val ()
  | u :: us =>
      if ∃ s ∈ unitDefinitions u, s ∈ defined then .thrown "multiple definition"
      else linkUnits (defined ++ unitDefinitions u) us

open Classical in
/-- A program is made from source files that include the given headers: each of them is compiled, and the results are
linked. -/
noncomputable def buildProgram (units : List (List ℕ)) : Outcome Unit :=
  if ∃ u ∈ units, ¬ (unitDefinitions u).Nodup then .thrown "redefinition"
  else linkUnits [] units

end Frackit
