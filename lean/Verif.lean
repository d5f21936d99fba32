import Verif.Props.Common
import Verif.Props.Plane
import Verif.Props.Segment
import Verif.Props.Box
import Verif.Props.Triangle
import Verif.Props.Quadrilateral
import Verif.Props.Polygon
import Verif.Props.Ellipse
import Verif.Props.EllipseAngle
import Verif.Props.EllipseArc
import Verif.Props.Disk
import Verif.Props.Cylinder
import Verif.Props.HollowCylinder
import Verif.Props.Status
import Verif.Props.StatusOutput
import Verif.Props.Strategy
import Verif.Props.MultiSampler
import Verif.Props.Constraints
import Verif.Props.Matrix
import Verif.Props.PyMatrix
import Verif.Props.EntitySet
import Verif.Props.Builder
import Verif.Props.Fragments
import Verif.Props.Merge
import Verif.Props.BuildLifecycle
import Verif.Model.Magnitude.Magnitude
import Verif.Spec.Measure
import Verif.Lemmas.Measure
import Verif.Props.Magnitude
import Verif.Model.Distance.Distance
import Verif.Props.Distance
import Verif.Model.Sampling.DiskSampler
import Verif.Model.Sampling.DeprecatedQuadSampler
import Verif.Model.Sampling.PolygonSampler
import Verif.Spec.Rotation
import Verif.Spec.SampledPolygon
import Verif.Lemmas.AngularOrder
import Verif.Lemmas.PolygonSampler
import Verif.Lemmas.SortedEdges
import Verif.Props.DiskSampler
import Verif.Props.DeprecatedQuadSampler
import Verif.Props.PolygonSampler
import Verif.Props.SampledPolygons
import Verif.Model.Sampling.PolygonSamplerPy
import Verif.Props.PolygonSamplerErrors
import Verif.Props.PolygonSamplerPy
import Verif.Model.IO.BRepWriter
import Verif.Spec.BRep
import Verif.Props.BRepWriter
import Verif.Props.Intersections
import Verif.Props.Gmsh
import Verif.Model.Intersection.Kernel
import Verif.Model.Intersection.SegmentSegment
import Verif.Model.Intersection.Planar
import Verif.Props.SegmentSegment
import Verif.Model.Intersection.CylinderPlanar
import Verif.Model.Intersection.Angle
import Verif.Model.Intersection.FaceFace
import Verif.Spec.Angle
import Verif.Model.EntityNetwork.LibraryEngine
import Verif.Spec.AcceptedPair
import Verif.Props.Angle
import Verif.Props.CylinderPlane
import Verif.Props.IntersectionLists
import Verif.Props.Probing
import Verif.Props.PlanarPlanar
import Verif.Model.Appl.Examples
import Verif.Spec.Network
import Verif.Props.Generation
import Verif.Props.GenerationMulti
import Verif.Props.GenerationTunnel
import Verif.Spec.Solids
import Verif.Props.Solids
import Verif.Spec.Distance
import Verif.Model.Python.Classes
import Verif.Model.Python.Functions
import Verif.Model.Python.Contains
import Verif.Model.Distance.Shapes
import Verif.Props.Shapes
import Verif.Props.PyDispatch
import Verif.Props.PyContains
import Verif.Props.BoundaryDistance
import Verif.Props.Similarity
import Verif.Spec.Intersect
import Verif.Model.Intersection.Intersect
import Verif.Props.Intersect
import Verif.Props.AcceptedPair
import Verif.Props.AcceptedPlanar
import Verif.Props.EvaluationOrder
import Verif.Props.ExactLibrary
import Verif.Props.GeneratedNetwork
import Verif.Props.GeneratedExample
import Verif.Props.ExampleSamplers
import Verif.Lemmas.ConvexFan
import Verif.Lemmas.PolygonMeasure
import Verif.Lemmas.PlaneMeasure
import Verif.Props.PolygonArea
import Verif.Spec.Contained
import Verif.Model.Magnitude.Contained
import Verif.Lemmas.Contained
import Verif.Props.Contained
import Verif.Props.EllipseLength
import Verif.Props.Accessors
import Verif.Model.Geometry.NDim
import Verif.Model.Geometry.PyFactories
import Verif.Model.Magnitude.PyMagnitude
import Verif.Props.NDim
import Verif.Props.PyFactories
import Verif.Props.PyMagnitude
import Verif.Props.FloatVector
import Verif.Props.FloatBox
import Verif.Props.CylinderShapes
import Verif.Props.CylinderArc
import Verif.Spec.Chance
import Verif.Lemmas.PolarMeasure
import Verif.Props.Uniform
import Verif.Model.Occ.SubShapes
import Verif.Model.Occ.Compounds
import Verif.Model.Occ.Boolean
import Verif.Spec.Topology
import Verif.Spec.SetOps
import Verif.Props.SubShapes
import Verif.Props.Compounds
import Verif.Props.Boolean
import Verif.Model.IO.GeoText
import Verif.Spec.GeoFile
import Verif.Props.GeoText
import Verif.Props.GeoTags
import Verif.Model.Geometry.NDimLine
import Verif.Props.NDimLine
import Verif.Model.EntityNetwork.PyBuilder
import Verif.Props.PyBuilder
import Verif.Props.Tolerances
import Verif.Model.Float.Sampler
import Verif.Props.FloatSampler
import Verif.Model.Float.Geometry
import Verif.Lemmas.FloatGeometry
import Verif.Props.FloatDistance
import Verif.Props.FloatPlane
import Verif.Props.FloatSegment
import Verif.Props.ArcParam
import Verif.Model.EntityNetwork.BuilderIds
import Verif.Props.BuilderIds
import Verif.Props.Export
import Verif.Model.Distance.NDim
import Verif.Props.LowDim
import Verif.Model.Python.Objects
import Verif.Props.PyObjects
import Verif.Props.EndToEnd
import Verif.Model.Geometry.HollowCylinderCache
import Verif.Props.Concurrent
import Verif.Spec.Motion
import Verif.Props.Orientation
import Verif.Props.OrientationIntersection
import Verif.Model.Sampling.Sharing
import Verif.Spec.Draws
import Verif.Props.SamplerSharing
import Verif.Model.Sampling.QuadSamplerPy
import Verif.Props.QuadSamplerPy
import Verif.Props.ToleranceKept
import Verif.Props.ExampleNetworks
import Verif.Props.PyStatus
import Verif.Props.PyConstructors
import Verif.Props.NetworkAccess
import Verif.Props.GenerationMultiEnd
import Verif.Props.GeneratedMulti
import Verif.Props.GeneratedMultiExample
import Verif.Spec.AcceptedFaces
import Verif.Spec.FaceBoundary
import Verif.Props.AcceptedFaces
import Verif.Props.AcceptedFaceExamples
import Verif.Props.CurvedFaces
import Verif.Props.FaceHoles
import Verif.Model.Appl.Tunnel
import Verif.Spec.TunnelDomain
import Verif.Props.TunnelDomain
import Verif.Props.GeneratedTunnel
import Verif.Props.TunnelExample
import Verif.Props.TunnelNetworkExample
import Verif.Model.Python.Indices
import Verif.Props.PyIndices
import Verif.Spec.Tolerance
import Verif.Props.ToleranceDistance
import Verif.Model.Python.Operators
import Verif.Spec.Operators
import Verif.Props.PyOperators
import Verif.Spec.Rounded
import Verif.Props.RoundedPoints
import Verif.Model.IO.GeometryText
import Verif.Spec.GeometryText
import Verif.Props.GeometryText
import Verif.Model.IO.ShapeFiles
import Verif.Spec.ShapeFiles
import Verif.Props.ShapeFiles
import Verif.Model.Python.SamplerObjects
import Verif.Props.SamplerObjects
import Verif.Model.Common.Headers
import Verif.Props.Headers
import Verif.Model.Common.Names
import Verif.Props.Names
import Verif.Model.Common.HeaderOrder
import Verif.Props.HeaderOrder
import Verif.Model.Python.Modules
import Verif.Model.Python.ModuleFunctions
import Verif.Props.Modules
import Verif.Props.FloatSegmentDistance
import Verif.Spec.TriangleArea
import Verif.Props.FloatArea
import Verif.Model.Float.Elliptical
import Verif.Props.FloatCircle
import Verif.Model.Float.Rotation
import Verif.Props.FloatRotation
import Verif.Props.FloatDisk
import Verif.Model.Float.Range
import Verif.Spec.DoubleRange
import Verif.Lemmas.DoubleRange
import Verif.Props.FloatRange
import Verif.Model.Float.Polygon
import Verif.Spec.PolygonAccuracy
import Verif.Props.FloatPolygon
import Verif.Model.Float.Cylinder
import Verif.Props.FloatCylinder
import Verif.Model.Float.Boundary
import Verif.Props.FloatBoundary
import Verif.Model.Float.CylinderSurface
import Verif.Props.FloatCylinderSurface
import Verif.Model.Float.HollowCylinder
import Verif.Props.FloatHollowCylinder
import Verif.Model.Float.SurfaceAngle
import Verif.Props.FloatSurfaceAngle
import Verif.Model.Float.Centroid
import Verif.Spec.Fan
import Verif.Props.FloatCentroid
import Verif.Model.Float.PolygonContains
import Verif.Props.FloatPolygonContains
import Verif.Props.FloatInfinity
import Verif.Model.Float.Convexity
import Verif.Props.FloatConvexity
import Verif.Model.Float.Arc
import Verif.Props.FloatArc
