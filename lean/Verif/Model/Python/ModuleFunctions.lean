/-
  The functions and methods of the Python package with the C++ classes of their arguments and
  results.  See Modules.lean for what is left out (numbers, strings, flags, tolerances).
-/
import Verif.Model.Python.Modules

namespace Frackit
open Verif

namespace Py

/-- A constructor (`py::init`). -/
def ctor (m : Mod) (c : Cls) (args : List Cls) : Fn := ⟨"__init__", m, args, [], [c]⟩

/-- A method of a class of the geometry module. -/
def meth (c : Cls) (name : String) (args results : List Cls) : Fn :=
  ⟨name, .geometry, c :: args, [], results⟩

/-- A function of the extension module of `m`. -/
def func (m : Mod) (name : String) (args results : List Cls) : Fn := ⟨name, m, args, [], results⟩

/-- frackit/python/common/id.hh:34-37 and frackit/python/common/math.hh:36-46. -/
def commonFns : List Fn :=
  [ctor .common .id [],
   func .common "Id.get" [.id] [], func .common "Id.__eq__" [.id, .id] [],
   func .common "Id.__hash__" [.id] [],
   func .common "toDegrees" [] [], func .common "toRadians" [] [],
   func .common "rotate" [.vector 3, .direction 3] []]

/-- Points, vectors, directions, segments and lines of one dimension:
    frackit/python/geometry/point.hh:56-128, vector.hh:51-124, direction.hh:45-75,
    segment.hh:46-75, line.hh:47-62. -/
def basicFns (n : ℕ) : List Fn :=
  [meth (.pointBase n) "name" [] [],
   meth (.pointBase n) "__iadd__" [.vector n] [.point n],
   meth (.pointBase n) "__add__" [.vector n] [.point n],
   meth (.pointBase n) "__isub__" [.vector n] [.point n],
   meth (.pointBase n) "__sub__" [.vector n] [.point n],
   meth (.pointBase n) "__imul__" [] [.point n], meth (.pointBase n) "__itruediv__" [] [.point n],
   meth (.pointBase n) "isEqual" [.point n] [],
   ctor .geometry (.point n) [],
   meth (.point n) "x" [] [], meth (.point n) "__repr__" [] [],
   meth (.vectorBase n) "name" [] [], meth (.vectorBase n) "squaredLength" [] [],
   meth (.vectorBase n) "length" [] [], meth (.vectorBase n) "isParallel" [.vector n] [],
   meth (.vectorBase n) "__mul__" [.vector n] [],
   meth (.vectorBase n) "__add__" [.vector n] [.vector n],
   meth (.vectorBase n) "__sub__" [.vector n] [.vector n],
   meth (.vectorBase n) "__imul__" [] [.vector n],
   meth (.vectorBase n) "__itruediv__" [] [.vector n],
   ctor .geometry (.vector n) [],
   ctor .geometry (.vector n) [.point n, .point n],
   ctor .geometry (.vector n) [.direction n],
   meth (.vector n) "x" [] [], meth (.vector n) "__repr__" [] [],
   ctor .geometry (.direction n) [],
   ctor .geometry (.direction n) [.vector n],
   meth (.direction n) "name" [] [], meth (.direction n) "invert" [] [],
   meth (.direction n) "__mul__" [] [.vector n],
   meth (.direction n) "x" [] [], meth (.direction n) "__repr__" [] [],
   ctor .geometry (.segment n) [.point n, .point n],
   meth (.segment n) "name" [] [], meth (.segment n) "source" [] [.point n],
   meth (.segment n) "target" [] [.point n], meth (.segment n) "direction" [] [.direction n],
   meth (.segment n) "length" [] [], meth (.segment n) "supportingLine" [] [.line n],
   meth (.segment n) "center" [] [.point n], meth (.segment n) "getPoint" [] [.point n],
   meth (.segment n) "getReversed" [] [.segment n],
   meth (.segment n) "contains" [.point n] [],
   ctor .geometry (.line n) [.point n, .direction n],
   meth (.line n) "name" [] [], meth (.line n) "direction" [] [.direction n],
   meth (.line n) "supportingPoint" [] [.point n],
   meth (.line n) "projection" [.point n] [.point n],
   meth (.line n) "contains" [.point n] [],
   meth (.emptyIntersection n) "name" [] []]

/-- Conics and discs: frackit/python/geometry/ellipticalgeometry.hh:44-56, ellipse.hh:49-76,
    ellipsearc.hh:45-76, circle.hh:53-72, disk.hh:44-66. -/
def conicFns : List Fn :=
  [ctor .geometry .elliptical [],
   ctor .geometry .elliptical [.point 3, .direction 3, .direction 3],
   meth .elliptical "majorAxis" [] [.direction 3], meth .elliptical "minorAxis" [] [.direction 3],
   meth .elliptical "normal" [] [.direction 3], meth .elliptical "center" [] [.point 3],
   meth .elliptical "majorAxisLength" [] [], meth .elliptical "minorAxisLength" [] [],
   meth .elliptical "supportingPlane" [] [.plane],
   ctor .geometry .ellipse [.point 3, .direction 3, .direction 3],
   meth .ellipse "name" [] [], meth .ellipse "contains" [.point 3] [],
   meth .ellipse "getPoint" [] [.point 3], meth .ellipse "getPointFromAngle" [] [.point 3],
   meth .ellipse "getParam" [.point 3] [], meth .ellipse "getAngle" [.point 3] [],
   ctor .geometry .ellipseArc [.ellipse, .point 3, .point 3],
   meth .ellipseArc "name" [] [], meth .ellipseArc "source" [] [.point 3],
   meth .ellipseArc "target" [] [.point 3], meth .ellipseArc "supportingEllipse" [] [.ellipse],
   meth .ellipseArc "isFullEllipse" [] [], meth .ellipseArc "sourceAngleOnEllipse" [] [],
   meth .ellipseArc "targetAngleOnEllipse" [] [], meth .ellipseArc "contains" [.point 3] [],
   meth .ellipseArc "getPoint" [] [.point 3],
   ctor .geometry .circle [.point 3, .direction 3],
   meth .circle "name" [] [], meth .circle "radius" [] [],
   meth .circle "base1" [] [.direction 3], meth .circle "base2" [] [.direction 3],
   meth .circle "contains" [.point 3] [], meth .circle "getPoint" [] [.point 3],
   meth .circle "getPointFromAngle" [] [.point 3],
   ctor .geometry .disk [.ellipse],
   meth .disk "name" [] [], meth .disk "area" [] [],
   meth .disk "boundingEllipse" [] [.ellipse], meth .disk "contains" [.point 3] [],
   meth .disk "getPoint" [] [.point 3]]

/-- Planes, triangles, quadrilaterals and polygons: frackit/python/geometry/plane.hh:49-74,
    triangle.hh:46-72, quadrilateral.hh:46-73, polygon.hh:47-73. -/
def planarFns : List Fn :=
  [ctor .geometry .plane [], ctor .geometry .plane [.point 3, .direction 3],
   ctor .geometry .plane [.point 3, .point 3, .point 3],
   ctor .geometry .plane [.point 3, .direction 3, .direction 3, .direction 3],
   meth .plane "name" [] [], meth .plane "normal" [] [.direction 3],
   meth .plane "base1" [] [.direction 3], meth .plane "base2" [] [.direction 3],
   meth .plane "supportingPoint" [] [.point 3],
   meth .plane "projection" [.point 3] [.point 3],
   meth .plane "projection" [.segment 3] [.segment 3],
   meth .plane "projection" [.line 3] [.line 3],
   meth .plane "contains" [.point 3] [],
   ctor .geometry .triangle [.point 3, .point 3, .point 3],
   meth .triangle "name" [] [], meth .triangle "area" [] [],
   meth .triangle "center" [] [.point 3], meth .triangle "normal" [] [.direction 3],
   meth .triangle "supportingPlane" [] [.plane], meth .triangle "corner" [] [.point 3],
   meth .triangle "edge" [] [.segment 3], meth .triangle "contains" [.point 3] [],
   ctor .geometry .quad [.point 3, .point 3, .point 3, .point 3],
   meth .quad "name" [] [], meth .quad "area" [] [], meth .quad "center" [] [.point 3],
   meth .quad "supportingPlane" [] [.plane], meth .quad "isConvex" [] [],
   meth .quad "corner" [] [.point 3], meth .quad "edge" [] [.segment 3],
   meth .quad "contains" [.point 3] [],
   ctor .geometry .polygon [.point 3],
   meth .polygon "name" [] [], meth .polygon "area" [] [], meth .polygon "center" [] [.point 3],
   meth .polygon "supportingPlane" [] [.plane], meth .polygon "isConvex" [] [],
   meth .polygon "numCorners" [] [], meth .polygon "corner" [] [.point 3],
   meth .polygon "numEdges" [] [], meth .polygon "edge" [] [.segment 3],
   meth .polygon "contains" [.point 3] []]

/-- Bodies and cylinder surfaces: frackit/python/geometry/cylindersurface.hh:42-73,
    cylinder.hh:44-74, hollowcylinder.hh:43-80, box.hh:41-74, sphere.hh:41-58. -/
def bodyFns : List Fn :=
  [ctor .geometry .cylinderSurface [], ctor .geometry .cylinderSurface [.circle],
   meth .cylinderSurface "name" [] [], meth .cylinderSurface "base1" [] [.direction 3],
   meth .cylinderSurface "base2" [] [.direction 3],
   meth .cylinderSurface "base3" [] [.direction 3],
   meth .cylinderSurface "direction" [] [.direction 3],
   meth .cylinderSurface "upperBoundingCircle" [] [.circle],
   meth .cylinderSurface "lowerBoundingCircle" [] [.circle],
   meth .cylinderSurface "cylinder" [] [.cylinder],
   meth .cylinderSurface "centerSegment" [] [.segment 3],
   meth .cylinderSurface "getTangentPlane" [.point 3] [.plane],
   meth .cylinderSurface "height" [] [], meth .cylinderSurface "radius" [] [],
   meth .cylinderSurface "area" [] [], meth .cylinderSurface "contains" [.point 3] [],
   ctor .geometry .cylinder [], ctor .geometry .cylinder [.circle],
   ctor .geometry .cylinder [.disk],
   meth .cylinder "name" [] [], meth .cylinder "base1" [] [.direction 3],
   meth .cylinder "base2" [] [.direction 3], meth .cylinder "base3" [] [.direction 3],
   meth .cylinder "direction" [] [.direction 3], meth .cylinder "topFace" [] [.disk],
   meth .cylinder "bottomFace" [] [.disk], meth .cylinder "lateralFace" [] [.cylinderSurface],
   meth .cylinder "centerSegment" [] [.segment 3], meth .cylinder "height" [] [],
   meth .cylinder "radius" [] [], meth .cylinder "volume" [] [],
   meth .cylinder "contains" [.point 3] [],
   ctor .geometry .hollowCylinder [], ctor .geometry .hollowCylinder [.point 3, .direction 3],
   meth .hollowCylinder "name" [] [], meth .hollowCylinder "base1" [] [.direction 3],
   meth .hollowCylinder "base2" [] [.direction 3], meth .hollowCylinder "base3" [] [.direction 3],
   meth .hollowCylinder "axis" [] [.direction 3],
   meth .hollowCylinder "bottomInnerCircle" [] [.circle],
   meth .hollowCylinder "topInnerCircle" [] [.circle],
   meth .hollowCylinder "bottomOuterCircle" [] [.circle],
   meth .hollowCylinder "topOuterCircle" [] [.circle],
   meth .hollowCylinder "innerLateralFace" [] [.cylinderSurface],
   meth .hollowCylinder "outerLateralFace" [] [.cylinderSurface],
   meth .hollowCylinder "centerSegment" [] [.segment 3],
   meth .hollowCylinder "fullCylinder" [] [.cylinder], meth .hollowCylinder "height" [] [],
   meth .hollowCylinder "innerRadius" [] [], meth .hollowCylinder "outerRadius" [] [],
   meth .hollowCylinder "volume" [] [], meth .hollowCylinder "contains" [.point 3] [],
   ctor .geometry .box [], ctor .geometry .box [.point 3, .point 3],
   meth .box "name" [] [], meth .box "volume" [] [], meth .box "xMin" [] [],
   meth .box "yMin" [] [], meth .box "zMin" [] [], meth .box "xMax" [] [],
   meth .box "yMax" [] [], meth .box "zMax" [] [], meth .box "corner" [] [.point 3],
   meth .box "center" [] [.point 3], meth .box "edge" [] [.segment 3],
   meth .box "face" [] [.quad], meth .box "contains" [.point 3] [],
   ctor .geometry .sphere [.point 3],
   meth .sphere "name" [] [], meth .sphere "center" [] [.point 3], meth .sphere "radius" [] [],
   meth .sphere "volume" [] [], meth .sphere "contains" [.point 3] []]

/-- All kinds of wrappers. -/
def allWraps : List Wrap := [.shape, .vertex, .edge, .wire, .face, .shell, .solid, .compound]

/-- frackit/python/geometry/brepwrappers.hh:40-72. -/
def wrapFns : List Fn :=
  allWraps.map (fun k => meth (.wrap k) "name" [] []) ++
  allWraps.map (fun k => ctor .geometry (.wrap .shape) [.wrap k]) ++
  [ctor .geometry (.wrap .compound) []] ++
  [Wrap.shape, .vertex, .edge, .wire, .face, .shell, .solid].map
    (fun k => meth (.wrap .compound) "add" [.wrap k] [])

/-- The classes in the result types of the intersections: frackit/intersection/
    intersectiontraits.hh, with the conversion of shapes into wrappers of
    frackit/python/geometry/intersect.hh:52-80. -/
def intersectFns : List Fn :=
  let i (a b : Cls) (r : List Cls) : Fn := func .geometry "intersect" [a, b] r
  let planar : List Cls := [.point 3, .segment 3, .polygon, .emptyIntersection 3]
  let withFace : List Cls := [.point 3, .segment 3, .wrap .face, .emptyIntersection 3]
  let withArcs : List Cls := [.point 3, .segment 3, .ellipseArc, .ellipse, .emptyIntersection 3]
  let faceFace : List Cls := [.point 3, .wrap .edge, .wrap .face, .emptyIntersection 3]
  [i (.segment 3) (.segment 3) [.segment 3, .point 3, .emptyIntersection 3],
   i .quad .quad planar, i .polygon .polygon planar, i .disk .disk planar,
   i (.wrap .face) (.wrap .face) faceFace,
   i .quad .disk withFace, i .disk .quad withFace,
   i .polygon .disk withFace, i .disk .polygon withFace,
   i (.wrap .face) .disk faceFace, i .disk (.wrap .face) faceFace,
   i (.wrap .face) .quad faceFace, i .quad (.wrap .face) faceFace,
   i (.wrap .face) .polygon faceFace, i .polygon (.wrap .face) faceFace,
   i .cylinderSurface .disk withArcs, i .disk .cylinderSurface withArcs,
   i .cylinderSurface .quad withArcs, i .quad .cylinderSurface withArcs,
   i .cylinderSurface .polygon withArcs, i .polygon .cylinderSurface withArcs,
   i .cylinderSurface (.wrap .face) faceFace, i (.wrap .face) .cylinderSurface faceFace]

/-- Free functions of the geometry module: frackit/python/geometry/distance.hh:50-66,
    distancetoboundary.hh:61-96, magnitude.hh:84-125, getboundingbox.hh:66-86, and the Python
    functions computeDistance and computeDistanceToBoundary, which import `frackit.occutilities`
    when called (python/frackit/geometry/__init__.py:141-173). -/
def geometryFreeFns : List Fn :=
  [func .geometry "_geometry.computeDistance" [.point 3, .point 3] [],
   func .geometry "_geometry.computeDistance" [.segment 3, .point 3] [],
   func .geometry "_geometry.computeDistance" [.point 3, .segment 3] [],
   func .geometry "_geometry.computeDistance" [.wrap .shape, .wrap .shape] [],
   ⟨"computeDistance", .geometry, [], [.occutilities], []⟩,
   ⟨"computeDistanceToBoundary", .geometry, [], [.occutilities], []⟩] ++
  [Cls.quad, .polygon, .box].map
    (fun c => func .geometry "_geometry.computeDistanceToBoundary" [.point 3, c] []) ++
  [Cls.disk, .cylinderSurface, .wrap .face, .quad, .polygon, .wrap .solid].map
    (fun c => func .geometry "_geometry.computeDistanceToBoundary" [.wrap .shape, c] []) ++
  [Cls.vector 3, .segment 3, .circle, .ellipse, .ellipseArc, .disk, .triangle, .quad, .polygon,
    .cylinderSurface, .cylinder, .hollowCylinder, .box, .sphere, .wrap .edge, .wrap .wire,
    .wrap .face, .wrap .shell, .wrap .solid].map
    (fun c => func .geometry "computeMagnitude" [c] []) ++
  [Cls.segment 3, .disk, .quad, .wrap .face].flatMap (fun c =>
    [Cls.box, .cylinder, .wrap .solid].map
      (fun d => func .geometry "computeContainedMagnitude" [c, d] [])) ++
  ([Cls.box, .cylinder, .cylinderSurface, .disk, .sphere, .circle, .ellipse, .ellipseArc,
    .polygon, .quad, .segment 3] ++ allWraps.map Cls.wrap).map
    (fun c => func .geometry "getBoundingBox" [c] [.box])

/-- frackit/python/occutilities/breputilities.hh:254-390 (the classes of the shapes of the
    geometries are those of frackit/occ/breputilities.hh) and
    python/frackit/occutilities/__init__.py. -/
def occFns : List Fn :=
  let shapeOf : List (Cls × Wrap) :=
    [(.point 1, .vertex), (.point 2, .vertex), (.point 3, .vertex), (.segment 1, .edge),
     (.segment 2, .edge), (.segment 3, .edge), (.circle, .wire), (.ellipse, .wire),
     (.ellipseArc, .edge), (.quad, .face), (.polygon, .face), (.disk, .face), (.box, .solid),
     (.cylinder, .solid), (.cylinderSurface, .face), (.sphere, .solid)]
  let subShapes : List (Wrap × List Wrap) :=
    [(.vertex, allWraps),
     (.edge, [.shape, .edge, .wire, .face, .shell, .solid, .compound]),
     (.wire, [.shape, .wire, .face, .shell, .solid, .compound]),
     (.face, [.shape, .face, .shell, .solid, .compound]),
     (.shell, [.shape, .shell, .solid, .compound]),
     (.solid, [.shape, .solid, .compound])]
  shapeOf.map (fun p => func .occutilities "getShape" [p.1] [.wrap p.2]) ++
  allWraps.map (fun k => func .occutilities "getShape" [.wrap k] [.wrap k]) ++
  subShapes.flatMap (fun p => p.2.map fun k =>
    func .occutilities "getVertices etc." [.wrap k] [.wrap p.1]) ++
  [func .occutilities "readShape" [] [.wrap .shape],
   func .occutilities "getBoundingBox" [.wrap .shape] [.box]] ++
  allWraps.map (fun k => func .occutilities "translate" [.wrap k, .vector 3]
    [.wrap (if k = .compound then .shape else k)]) ++
  [func .occutilities "cut" [.wrap .shape, .wrap .shape] [.wrap .shape],
   func .occutilities "intersect" [.wrap .shape, .wrap .shape] [.wrap .shape],
   func .occutilities "fragment" [.wrap .shape] [.wrap .shape],
   func .occutilities "fuse" [.wrap .shape] [.wrap .shape],
   func .occutilities "write" [.wrap .shape] []]

/-- frackit/python/entitynetwork/constraints.hh:57-128, networkbuilder.hh:47-135. -/
def networkFns : List Fn :=
  let e : Mod := .entitynetwork
  let ents : List Cls := [.disk, .quad, .polygon, .wrap .face]
  let doms : List Cls := [.box, .cylinder, .wrap .solid]
  [ctor e .constraints [],
   func e "setMinDistance etc." [.constraints] []] ++
  ents.flatMap (fun a => ents.map fun b => func e "evaluate" [.constraints, a, b] []) ++
  [func e "setConfineToSubDomainUnion" [.builderBase] [], func e "setEpsilon" [.builderBase] [],
   func e "setDefaultEpsilon" [.builderBase] [], func e "clear" [.builderBase] [],
   func e "build" [.builder] [.network], func e "build" [.containedBuilder] [.containedNetwork],
   ctor e .builderWrapper [], ctor e .containedBuilderWrapper []] ++
  ents.map (fun a => func e "addEntity" [.builderWrapper, a] []) ++
  [Cls.builderWrapper, .containedBuilderWrapper].flatMap (fun b =>
    ents.map (fun a => func e "addSubDomainEntity" [b, a, .id] []) ++
    doms.map (fun d => func e "addSubDomain" [b, d, .id] []) ++
    doms.map (fun d => func e "addConfiningSubDomain" [b, d, .id] []))

/-- frackit/python/io/gmshwriter.hh:39-50 and frackit/python/precision/defaultepsilon.hh:62-69. -/
def writerFns : List Fn :=
  [ctor .io .gmshWriter [.network], ctor .io .gmshWriter [.containedNetwork],
   func .io "write" [.gmshWriter] []] ++
  [Cls.segment 3, .circle, .ellipse, .disk, .quad, .cylinderSurface, .box, .wrap .shape].map
    (fun c => func .precision "defaultEpsilon" [c] [])

/-- frackit/python/sampling/status.hh:34-66, boxpointsampler.hh:53-57,
    cylinderpointsampler.hh:55-59 and python/frackit/sampling/_sampling.cc:52-57. -/
def samplingFns : List Fn :=
  let s : Mod := .sampling
  [ctor s .status [],
   func s "setTargetCount" [.status, .id] [], func s "finished" [.status] [],
   func s "finished" [.status, .id] [], func s "increaseCounter" [.status, .id] [],
   func s "resetCounters" [.status] [], func s "resetCounter" [.status, .id] [],
   func s "reset" [.status] [], func s "increaseRejectedCounter" [.status] [],
   func s "getCount" [.status] [], func s "getCount" [.status, .id] [],
   func s "print" [.status] [],
   func s "UniformBoxPointSampler.__call__" [.boxSampler] [.point 3],
   func s "UniformCylinderPointSampler.__call__" [.cylinderSampler] [.point 3],
   func s "makeUniformPointSampler" [.box] [.boxSampler],
   func s "makeUniformPointSampler" [.cylinder] [.cylinderSampler],
   func s "makeUniformPointSampler" [.hollowCylinder] [.cylinderSampler]]

/-- The sampler classes written in Python, called after construction, with the modules they
    import (python/frackit/sampling/__init__.py:3-25, 28-72, 141-200, 202-365, 368-460).  The
    point sampler given to the last three is represented by the point it returns. -/
def pythonSamplerFns : List Fn :=
  [⟨"BoxPointSampler", .sampling, [], [.geometry], [.point 3]⟩,
   ⟨"CylinderPointSampler", .sampling, [.cylinder], [.geometry], [.point 3]⟩,
   ⟨"DiskSampler", .sampling, [.point 3], [.geometry, .common], [.disk]⟩,
   ⟨"PolygonSampler", .sampling, [.point 3], [.geometry, .common], [.polygon]⟩,
   ⟨"QuadrilateralSampler", .sampling, [.point 3], [.geometry, .common], [.quad]⟩]

/-- The constructors of the uniform point samplers (frackit/python/sampling/boxpointsampler.hh:53-54,
    cylinderpointsampler.hh:55-56), which take the distributions of the C++ standard library. -/
def distributionFns : List Fn :=
  [ctor .sampling .boxSampler [.distribution, .distribution, .distribution],
   ctor .sampling .cylinderSampler [.cylinder, .distribution, .distribution, .distribution]]

/-- All functions of the package. -/
def functions : List Fn :=
  commonFns ++ [1, 2, 3].flatMap basicFns ++ conicFns ++ planarFns ++ bodyFns ++ wrapFns ++
  intersectFns ++ geometryFreeFns ++ occFns ++ networkFns ++ writerFns ++ samplingFns ++
  pythonSamplerFns ++ distributionFns

end Py

end Frackit
