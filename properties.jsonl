{"id": "C01", "title": "Rotation is a rigid motion about the axis", "statement": "rotate(v, axis, angle) changes neither the length of any vector nor the inner product of any two vectors rotated together; it leaves vectors along the axis unchanged; rotating by a then by b equals rotating by a+b; a zero (or full) turn is the identity; the overload taking a list of vectors does the same to every element as the single-vector overload.", "quantifier": "every vector, every unit axis, every pair of angles, every list of vectors", "why_tests_cant": "A continuum of axes and angles: tests check a few multiples of 90 degrees about coordinate axes, where wrong off-diagonal terms vanish.", "anchors": ["frackit/common/math.hh: rotate"]}
{"id": "C02", "title": "Directions are unit vectors", "statement": "Constructing a Direction from any non-zero vector yields a vector of length exactly one which is a positive multiple of the input; only the zero vector yields an invalid (NaN) direction; inverting a direction twice gives it back and inverting keeps unit length.", "quantifier": "every vector in 3d space", "why_tests_cant": "Infinitely many inputs; the only failing input (zero vector) is easily left out of a test.", "anchors": ["frackit/geometry/direction.hh: Direction", "frackit/geometry/vector.hh: Vector::length"]}
{"id": "C03", "title": "Planes carry a right-handed orthonormal basis", "statement": "A plane constructed from a point and a unit normal, or from three non-collinear points, has a unit normal and two unit basis vectors which are mutually orthogonal and form a right-handed system with the normal; the defining points lie on the plane; three collinear points never give a valid plane.", "quantifier": "every support point and unit normal (including axis-aligned ones), every triple of points", "why_tests_cant": "The helper that selects an orthogonal vector has four branches on exact zeros; only a proof covers all normals.", "anchors": ["frackit/geometry/plane.hh: Plane", "frackit/geometry/vector.hh: makeOrthogonalVector", "frackit/common/math.hh: crossProduct, isRightHandSystem"]}
{"id": "C04", "title": "Parallelism does not depend on the sense of the vectors", "statement": "Vector::isParallel gives the same answer for (a, b) and (a, -b): vectors on the same line are parallel whether they point the same or the opposite way; the test is symmetric.", "quantifier": "every pair of non-zero vectors and every angular tolerance", "why_tests_cant": "The tests of the repository never call it with opposite vectors, and the set of pairs is infinite.", "anchors": ["frackit/geometry/vector.hh: VectorBase::isParallel"]}
{"id": "C05", "title": "Bounding-box pre-check never discards touching geometries", "statement": "If two bounding boxes have a common point, doIntersect with any positive tolerance returns true; if it returns true then the boxes are at most the tolerance apart in every coordinate direction.", "quantifier": "every pair of boxes and every positive tolerance", "why_tests_cant": "A false negative silently drops an intersection between entities; boundary cases (touching, nested, degenerate boxes) are infinite.", "anchors": ["frackit/intersection/bboxintersection.hh: doIntersect", "frackit/common/math.hh: intervalsOverlap"]}
{"id": "C06", "title": "Bounding-box pre-check is symmetric", "statement": "doIntersect(b1, b2, eps) equals doIntersect(b2, b1, eps).", "quantifier": "every pair of boxes and every non-negative tolerance", "why_tests_cant": "The asymmetry only shows for boxes degenerate in one direction at exactly the tolerance boundary, which a sampled test does not hit.", "anchors": ["frackit/intersection/bboxintersection.hh: doIntersect", "frackit/common/math.hh: intervalsOverlap"]}
{"id": "C07", "title": "Projections return the nearest point", "statement": "plane.projection(p) and line.projection(p) return a point of the plane/line, the returned point is the unique nearest one to p, and projecting twice is the same as projecting once; the projection is contained in the plane/line for every positive tolerance. The projection of a segment or line onto a plane consists of the projections of its points.", "quantifier": "every plane, every line, every point", "why_tests_cant": "Optimality is a statement over all points of the plane/line.", "anchors": ["frackit/geometry/plane.hh: Plane::projection", "frackit/geometry/line.hh: Line::projection"]}
{"id": "C08", "title": "Segment containment is exact up to the tolerance", "statement": "segment.contains(p, eps) with eps > 0 returns true exactly if some point of the segment is closer to p than eps; in particular every point of the segment is contained for every eps > 0. getPoint(t) for t in [0,1] yields exactly the points of the segment, and reversing a segment does not change containment.", "quantifier": "every non-degenerate segment, every point, every positive tolerance", "why_tests_cant": "The decision uses sign bits of scalar products; failures hide at end points and in tolerance corners.", "anchors": ["frackit/geometry/segment.hh: Segment::contains, getPoint, getReversed"]}
{"id": "C09", "title": "Ellipse and circle parametrisation stays on the curve", "statement": "Every point returned by getPoint(t) or getPointFromAngle(a) of a circle or ellipse lies in its plane and satisfies its equation, hence is contained for every positive tolerance; conversely every point which exactly lies on the curve is returned for some angle in [0, 2*pi).", "quantifier": "every circle and ellipse in 3d, every parameter and angle", "why_tests_cant": "Trigonometric identities over a continuum of parameters and orientations.", "anchors": ["frackit/geometry/circle.hh: Circle", "frackit/geometry/ellipse.hh: Ellipse::getPointFromAngle, contains"]}
{"id": "C10", "title": "Ellipse angle query inverts the parametrisation", "statement": "For every point on an ellipse, getAngle(p) lies in [0, 2*pi), getParam(p) in [0, 1), and getPointFromAngle(getAngle(p)) is p unless p is within the tolerance of an axis, where it differs from p by at most the tolerance relative to each semi-axis; for every angle a in [0, 2*pi) whose point is not within the tolerance of an axis, and for the four axis angles, getAngle(getPointFromAngle(a)) is a; points off the ellipse are rejected by an exception.", "quantifier": "every ellipse, every point on it, every angle", "why_tests_cant": "Four quadrants and four tolerance windows; tests only sample a few angles.", "anchors": ["frackit/geometry/ellipse.hh: Ellipse::getAngle, getParam"]}
{"id": "C11", "title": "Points produced from an ellipse arc are on the arc", "statement": "For an arc, getPoint(0) is its source, getPoint(1) its target and getPoint(t) with t in [0,1] is contained in the arc for every positive tolerance; this also holds for arcs that describe the full ellipse.", "quantifier": "every ellipse, every pair of end points on it (including equal ones), every t in [0,1]", "why_tests_cant": "Arcs which wrap around the zero angle or cover the full ellipse form separate branches over a continuum of end points.", "anchors": ["frackit/geometry/ellipsearc.hh: EllipseArc::EllipseArc, getPoint, contains"]}
{"id": "C12", "title": "Points produced from a disk are on the disk", "statement": "Disk::getPoint(a, r) with angle parameter a and radial parameter r in [0,1] returns a point of the disk: r = 0 gives the centre-most, r = 1 the outermost point in that direction, and the point is contained in the disk.", "quantifier": "every disk, every a and r in [0,1]", "why_tests_cant": "A continuum of parameters; a single test with a loose check (or none) does not reveal points outside of the disk.", "anchors": ["frackit/geometry/disk.hh: Disk::getPoint, contains"]}
{"id": "C13", "title": "Box topology and containment are consistent", "statement": "A box can only be constructed from ordered bounds; its eight corners are exactly the combinations of its bounds; each of the 12 edges joins two corners differing in one coordinate and all edges are distinct; each of the six faces lies on the boundary and the faces cover the boundary; every point between the bounds is contained for every positive tolerance and every contained point is within tolerance of the bounds; asking for a corner, edge or face index out of range is rejected.", "quantifier": "every box, every index, every point, every tolerance", "why_tests_cant": "Wrong corner indices only show for boxes without equal edge lengths and for specific indices; universally quantified over real bounds.", "anchors": ["frackit/geometry/box.hh: Box::Box, corner, edge, face, contains"]}
{"id": "C14", "title": "Points sampled within a cylinder are in the cylinder", "statement": "Cylinder::contains accepts exactly the points whose foot on the axis lies on the axis segment (up to the tolerance) and whose distance to the axis is at most the radius (up to the tolerance); every point produced by the C++ point sampler that makePointSampler creates for a cylinder is contained in it, whatever values in the requested intervals the distributions return.", "quantifier": "every cylinder, every draw of the three distributions within the requested intervals", "why_tests_cant": "Random sampling cannot cover all draws; a wrong radius transformation is a measure-zero/region error.", "anchors": ["frackit/geometry/cylinder.hh: Cylinder::contains", "frackit/sampling/makepointsampler.hh: makePointSampler", "frackit/sampling/cylinderpointsampler.hh: CylinderPointSampler::operator()"]}
{"id": "C15", "title": "Hollow cylinder is the shell between two cylinders", "statement": "Construction is rejected exactly if the outer radius is below the inner radius; the volume is the difference of the volumes of the full and the inner cylinder; contains(p) accepts exactly the points of the full cylinder whose distance to the axis is not below the inner radius (up to the tolerance); every point of the C++ point sampler lies in the shell.", "quantifier": "every hollow cylinder, every point, every draw within the requested intervals", "why_tests_cant": "Quantifies over all radii, points and draws.", "anchors": ["frackit/geometry/hollowcylinder.hh: HollowCylinder", "frackit/sampling/makepointsampler.hh: makePointSampler"]}
{"id": "C16", "title": "Python point samplers stay in the domain", "statement": "Every point produced by the Python makePointSampler for a cylinder or hollow cylinder lies in that geometry, for every value the interval samplers may return.", "quantifier": "every cylinder and hollow cylinder, every draw within the requested intervals", "why_tests_cant": "Whether points leave the domain depends on the radius (below or above one) and on the draw.", "anchors": ["python/frackit/sampling/__init__.py: makePointSampler, CylinderPointSampler"]}
{"id": "C17", "title": "Triangle containment with the default tolerance is defined", "statement": "Triangle::contains(p) without tolerance argument is defined behaviour for every triangle and point: it accepts all points of the triangle and honours the request to skip the plane check.", "quantifier": "every triangle and point", "why_tests_cant": "Undefined behaviour (reading beyond the corner array) need not show in a test run.", "anchors": ["frackit/geometry/triangle.hh: Triangle::contains"]}
{"id": "C18", "title": "Area-based containment accepts exactly the figure", "statement": "For a triangle (and a convex quadrilateral) the area criterion behind contains() accepts every point of the figure for every positive tolerance, and a point in its plane accepted for every positive tolerance belongs to the figure.", "quantifier": "every non-degenerate triangle / convex quadrilateral, every point of space", "why_tests_cant": "A continuum of shapes and points; boundary and corner points have zero measure.", "anchors": ["frackit/geometry/triangle.hh: Triangle::contains", "frackit/geometry/quadrilateral.hh: Quadrilateral::contains"]}
{"id": "C19", "title": "Quadrilateral convexity flag is correct", "statement": "isConvex() of a planar quadrilateral is true exactly if its boundary p0-p1-p3-p2 turns the same way at all four corners.", "quantifier": "every planar quadrilateral in 3d space with non-zero corner angles", "why_tests_cant": "The flag depends on sign patterns of four cross products in arbitrary orientation.", "anchors": ["frackit/geometry/quadrilateral.hh: Quadrilateral::determineConvexity_, isConvex"]}
{"id": "C20", "title": "Polygon convexity flag is correct", "statement": "If isConvex() of a polygon with at least three corners returns true, the polygon turns the same way at each of its corners.", "quantifier": "every planar polygon with any number of corners, whatever corner comes first", "why_tests_cant": "The corner that is not inspected is only relevant for polygons whose sole reflex corner is at that position.", "anchors": ["frackit/geometry/polygon.hh: Polygon::determineConvexity_, isConvex"]}
{"id": "C21", "title": "Polygon triangulation, area and centre", "statement": "Construction with fewer than three corners is rejected; the fan triangulation of an n-corner polygon has n-2 triangles that share the first corner and consecutive corner pairs; for a convex planar polygon the area equals the shoelace area, and the centre is a convex combination of the corners (lies within the polygon).", "quantifier": "every polygon with any number of corners", "why_tests_cant": "Arbitrary corner counts and positions; requires induction over the corner list.", "anchors": ["frackit/geometry/polygon.hh: Polygon::Polygon, area", "frackit/geometry/triangulation.hh: triangulate"]}
{"id": "C22", "title": "Polygon containment accepts all points of the polygon", "statement": "contains() of a convex polygon accepts every convex combination of its corners for every positive tolerance; contains() and area() of a polygon flagged non-convex always raise an error instead of returning a wrong answer.", "quantifier": "every convex polygon, every point in it, every positive tolerance", "why_tests_cant": "Needs an area identity for an arbitrary number of corners and arbitrary interior points.", "anchors": ["frackit/geometry/polygon.hh: Polygon::contains, convexContains_"]}
{"id": "C23", "title": "Magnitudes agree with geometry", "statement": "computeMagnitude, computeLength, computeArea and computeVolume return the exact measure: zero for points, the length of segments and circles, the area of disks, triangles, convex quadrilaterals, convex polygons with any number of corners and cylinder surfaces, the volume of boxes, spheres and (hollow) cylinders.", "quantifier": "every geometry of the listed types", "why_tests_cant": "Exact equality with an integral over all semi-axes cannot be tested point-wise with a tolerance.", "anchors": ["frackit/magnitude/length.hh: computeLength", "frackit/magnitude/magnitude.hh: computeMagnitude", "frackit/geometry/cylinder.hh: volume", "frackit/geometry/disk.hh: area"]}
{"id": "C24", "title": "Point-line and point-segment distances are exact", "statement": "computeDistance(point, line) is the minimum distance over all points of the line; computeDistance(point, segment) is never larger than the distance to the nearest point of the segment and smaller by at most the default tolerance of the segment; the distance does not depend on argument order; the distance to a non-empty list is the minimum over its elements, for an empty list the largest double is returned and Python raises an error.", "quantifier": "every point, line, non-degenerate segment and list of geometries", "why_tests_cant": "Optimality over all points; the tolerance-dependent branch is only reached in a thin region.", "anchors": ["frackit/distance/distance.hh: computeDistance"]}
{"id": "C25", "title": "Distance to the boundary of polygons and quadrilaterals", "statement": "computeDistanceToBoundary(point, quadrilateral/polygon) is the minimum of the distances to all of its edges, up to the default tolerance of an edge; every edge is taken into account, and the closing edge is included.", "quantifier": "every point, quadrilateral and polygon with any number of corners", "why_tests_cant": "Dropping one edge only matters for points closest to it; any number of corners.", "anchors": ["frackit/distance/distancetoboundary.hh: computeDistanceToBoundary", "frackit/geometry/polygon.hh: edge", "frackit/geometry/quadrilateral.hh: edge"]}
{"id": "C26", "title": "Sampled disks are valid", "statement": "DiskSampler returns a disk with positive semi-axes, minor not larger than major, with orthonormal axis directions, centred at the sampled point, for every sequence of values drawn from the distributions; values that are not positive are skipped and never used.", "quantifier": "every stream of draws, every triple of angles", "why_tests_cant": "All random streams, including those with long runs of rejected values.", "anchors": ["frackit/sampling/disksampler.hh: DiskSampler::operator()"]}
{"id": "C27", "title": "Sampled polygons are closed, planar and have the sampled position and corner count", "statement": "PolygonSampler returns as many corners as were drawn; the edge vectors sum to zero so the polygon closes; all corners lie in one plane with the sampled strike and dip; the centre of the bounding box is the sampled point; the extents in dip and strike direction are between 0.8 and 1 times the sampled lengths; the polygon is convex.", "quantifier": "every corner count of at least three and every stream of draws", "why_tests_cant": "All random streams and corner counts; the combinatorial pairing of edge components has exponentially many cases.", "anchors": ["frackit/sampling/polygonsampler.hh: PolygonSampler::sampleCorners", "python/frackit/sampling/__init__.py: PolygonSampler.sampleCorners"]}
{"id": "C28", "title": "Polygon sampler rejects negative dimensions", "statement": "The polygon sampler never builds a polygon from a negative strike or dip length: negative draws are repeated up to 100 times and then an error is raised; if an admissible value is drawn within the allowed tries it is used and no error is raised.", "quantifier": "every stream of draws for lengths and corner counts", "why_tests_cant": "Depends on rare runs of bad draws (exactly 100 of them) that a random test will not produce.", "anchors": ["frackit/sampling/polygonsampler.hh: PolygonSampler::sampleCorners", "python/frackit/sampling/__init__.py: PolygonSampler.sampleCorners"]}
{"id": "C29", "title": "Deprecated quadrilateral sampler terminates", "statement": "The deprecated quadrilateral sampling algorithm terminates and uses only edge lengths of at least the minimum edge length, whenever the edge length distribution returns admissible values infinitely often.", "quantifier": "every stream of edge length draws", "why_tests_cant": "Termination for every stream cannot be tested; the first rejected draw decides.", "anchors": ["frackit/sampling/quadrilateralsampler.hh: operator()", "python/frackit/sampling/__init__.py: QuadrilateralSampler"]}
{"id": "C30", "title": "Sampling status counters reflect the history", "statement": "After any sequence of operations on SamplingStatus, the count of an id equals the number of accepted samples registered since its last reset, the rejected count equals the number of registered rejections since the last full reset, and finished() is true exactly if every id with a target has reached it.", "quantifier": "every finite history of setTargetCount, increaseCounter, increaseRejectedCounter, reset, resetCounters, resetCounter calls", "why_tests_cant": "Unbounded call histories.", "anchors": ["frackit/sampling/status.hh: SamplingStatus"]}
{"id": "C31", "title": "Querying the sampling status has no side effects and does not fail", "statement": "getCount(id) is an observer: it changes the result of no later call; finished() never throws, whatever ids have been queried or reset before.", "quantifier": "every history including queries for ids without target count", "why_tests_cant": "Only histories which query an unknown id before asking finished() fail.", "anchors": ["frackit/sampling/status.hh: SamplingStatus::getCount, finished, resetCounter"]}
{"id": "C32", "title": "Overall sample count is the sum of the counts", "statement": "getCount() returns the sum of the counts over all ids.", "quantifier": "every history of counter updates", "why_tests_cant": "The deviation starts at 2^31 accepted samples, out of reach for a test.", "anchors": ["frackit/sampling/status.hh: SamplingStatus::getCount"]}
{"id": "C33", "title": "Sequential strategy is a fair round robin", "statement": "With n registered ids, k*n consecutive calls of getNextId return each id exactly k times, in registration order, starting over after the last; registering an id twice has no effect; calling it without ids raises an error.", "quantifier": "every list of ids, every number of calls", "why_tests_cant": "Unbounded number of calls and ids.", "anchors": ["frackit/sampling/sequentialsamplingstrategy.hh: SequentialSamplingStrategy::getNextId", "frackit/sampling/samplingstrategy.hh: SamplingStrategy::addId"]}
{"id": "C34", "title": "Multi-geometry sampler reports the id of the sampler it used", "statement": "Calling the sampler returns a geometry produced by the sampler that was registered under the id it writes to the output argument; an id can be registered only once, irrespective of the geometry type; every registered id is served.", "quantifier": "every sequence of registrations and calls", "why_tests_cant": "Unbounded histories over ids and geometry types.", "anchors": ["frackit/sampling/multigeometrysampler.hh: MultiGeometrySampler"]}
{"id": "C35", "title": "Constraint evaluation decides exactly the configured constraints", "statement": "With at least one constraint configured, evaluate(a, b) returns true exactly if: the geometries do not intersect and their distance is at least the minimum distance (if set), or they intersect, the intersection has no larger dimension than allowed, its magnitude, angle and distances to the boundaries of both entities are at least the configured minima (if set). With no constraint configured everything is accepted. Neglecting a constraint restores the behaviour of never having set it; enlarging a threshold never turns a rejection into an acceptance.", "quantifier": "every configuration history and every outcome of the geometric computations", "why_tests_cant": "Combination of five switches with every kind of intersection result.", "anchors": ["frackit/entitynetwork/constraints.hh: EntityNetworkConstraints::evaluate", "frackit/entitynetwork/constraints_impl/admissibledimension.hh", "frackit/entitynetwork/constraints_impl/admissiblemagnitude.hh", "frackit/entitynetwork/constraints_impl/distancetoboundary.hh"]}
{"id": "C36", "title": "Equi-dimensional intersections are prohibited by default", "statement": "Unless allowed explicitly, two entities intersecting in a geometry of their own dimension are rejected by evaluate, whatever other constraints are configured.", "quantifier": "every pair of entities and every configuration in which they have not been allowed", "why_tests_cant": "The early exit only applies for the configuration without any threshold, i.e. the default-constructed object.", "anchors": ["frackit/entitynetwork/constraints.hh: EntityNetworkConstraints::evaluate, allowEquiDimensionalIntersections"]}
{"id": "C37", "title": "Constraint evaluation on sets is the conjunction over pairs", "statement": "evaluate on a set and an entity (either order) or on two sets is true exactly if it is true for each pair; the result does not depend on the order of the elements, an empty set is admissible, and an error in one evaluation is reported only if no earlier pair fails.", "quantifier": "every pair of finite sets of entities", "why_tests_cant": "Arbitrary set sizes and orders.", "anchors": ["frackit/entitynetwork/constraints.hh: EntityNetworkConstraints::evaluate"]}
{"id": "C38", "title": "Constraints matrix applies all constraints of a set", "statement": "After any sequence of addConstraints calls, evaluate(entitySets, entity, id) is true exactly if the entity fulfils each constraints object registered for the pair (id, other) against every entity in the set other; ids without any registered constraints raise an error; registering the same ordered pair twice raises an error.", "quantifier": "every history of addConstraints and every content of the entity sets", "why_tests_cant": "Unbounded histories and set contents.", "anchors": ["frackit/entitynetwork/constraintsmatrix.hh: EntityNetworkConstraintsMatrix"]}
{"id": "C39", "title": "Constraints matrix is symmetric in the id pair", "statement": "Registering constraints for the pair (a, b) makes them apply when a candidate for set a is checked against set b and also when a candidate for set b is checked against set a.", "quantifier": "every pair of distinct ids and every history", "why_tests_cant": "A user relies on an id pair being unordered; only evaluation from the second id shows the difference.", "anchors": ["frackit/entitynetwork/constraintsmatrix.hh: EntityNetworkConstraintsMatrix::addConstraints, evaluate"]}
{"id": "C40", "title": "Python constraints matrix applies all constraints of a set", "statement": "In Python, evaluate(entitySets, entity, id) is true exactly if the entity fulfils the constraints registered for (id, other) against each entity of the set other, for each registered other.", "quantifier": "every history of addConstraints and every content of the entity sets", "why_tests_cant": "Constraints towards a set which has no constraints of its own are skipped; tests register symmetric pairs.", "anchors": ["python/frackit/entitynetwork/__init__.py: EntityNetworkConstraintsMatrix.evaluate"]}
{"id": "C41", "title": "Python constraint evaluation accepts lists on either side", "statement": "In Python, EntityNetworkConstraints.evaluate(a, b) accepts a geometry or list for each argument and returns the conjunction over all pairs.", "quantifier": "every combination of geometries and lists", "why_tests_cant": "Only one of the four argument combinations is exercised by the examples.", "anchors": ["python/frackit/entitynetwork/__init__.py: EntityNetworkConstraints.evaluate"]}
{"id": "C42", "title": "Entity sets keep what was added", "statement": "After any sequence of addEntity calls, the number of entities of an id is the number of successful additions to it, the total number is the sum, exporting to a builder passes on each stored entity exactly once, in insertion order; a geometry of another type cannot be added to an id in use, and a failed call changes nothing.", "quantifier": "every history of additions over ids and geometry types", "why_tests_cant": "Unbounded histories.", "anchors": ["frackit/entitynetwork/multigeometryentityset.hh: MultiGeometryEntitySet"]}
{"id": "C43", "title": "Network builder accepts only consistent sub-domains", "statement": "A sub-domain id can be defined once; all sub-domains have the same dimension, which is larger than that of the entities; after any sequence of registrations either these conditions hold or the offending call raised an error and changed nothing.", "quantifier": "every history of registrations", "why_tests_cant": "Unbounded histories of calls in any order.", "anchors": ["frackit/entitynetwork/networkbuilder.hh: EntityNetworkBuilderBase::addSubDomain, addConfiningSubDomain, addSubDomainEntity"]}
{"id": "C44", "title": "Fragments map to the entity they stem from", "statement": "After build(), each entity fragment of a sub-domain is mapped to the position (starting from one) of the entity it was generated from in the order of addition; fragments of different entities of a sub-domain have different indices; fragments outside of a confining sub-domain are removed.", "quantifier": "every registration history and every outcome of the boolean operations", "why_tests_cant": "All histories and all outcomes of the CAD kernel.", "anchors": ["frackit/entitynetwork/networkbuilder.hh: EntityNetworkBuilderBase::confineNetworks_, fragment_"]}
{"id": "C45", "title": "Entities of different sub-domains stay distinguishable in a merged network", "statement": "In an EntityNetwork built from several sub-domains, fragments of different entities carry different entity indices.", "quantifier": "every number of sub-domains, entities and fragments", "why_tests_cant": "Indices collide only if a sub-domain loses entities by confinement, or has fewer fragments than entities.", "anchors": ["frackit/entitynetwork/networkbuilder.hh: EntityNetworkBuilder::build", "frackit/io/brepwriter.hh: BRepWriter::makeEntityMap_"]}
{"id": "C46", "title": "Building is a function of the registered data", "statement": "The network built does not depend on what was built or registered before the last clear(): clearing and registering the same data gives the same network as a fresh builder; build() after further registrations reflects them; asking for the network before a successful build raises an error.", "quantifier": "every history of registrations, builds and clears", "why_tests_cant": "Stale state only shows for histories with several builds.", "anchors": ["frackit/entitynetwork/networkbuilder.hh: clear, build, network, getEpsilon_"]}
{"id": "C47", "title": "Exported BRep compound contains each sub-shape once", "statement": "The compound written by BRepWriter contains each vertex, edge, wire, face, shell and solid of the network exactly once; indices are 1..n without gaps; each fragment of an entity is listed under exactly one primary entity index, and each solid under exactly one sub-domain.", "quantifier": "every network", "why_tests_cant": "Arbitrary numbers of fragments that share sub-shapes.", "anchors": ["frackit/io/brepwriter.hh: BRepWriter"]}
{"id": "C48", "title": "Each intersection edge is exported once", "statement": "Each edge shared by two entity fragments belongs to exactly one exported intersection and each exported intersection contains only edges shared by at least two fragments.", "quantifier": "every set of entity fragments", "why_tests_cant": "Quadratic pairs with shared edges, three or more fragments on a common edge.", "anchors": ["frackit/io/brepwriter.hh: findEntityIntersectionShapes_, addEdges_", "frackit/occ/breputilities.hh: getOverlapEdges"]}
{"id": "C49", "title": "Gmsh export lists every fragment in one physical group", "statement": "The .geo file written by GmshWriter defines one physical volume per sub-domain that owns solids, one physical surface per primary entity and one physical line per intersection, listing exactly the compound indices of their fragments, and no group is empty.", "quantifier": "every network of two-dimensional entities", "why_tests_cant": "Any number of fragments; access to the first list element is undefined for empty lists.", "anchors": ["frackit/io/gmshwriter.hh: GmshWriter::write"]}
{"id": "C50", "title": "Intersections lie on both geometries", "statement": "The result of intersecting two planar entities lies on both of them; the result is empty only if they have no common point.", "quantifier": "every pair of planar entities, for exact boolean operations", "why_tests_cant": "The case distinction on results of sub-algorithms misses one combination that only occurs for entities that both touch the line of intersection in a single point.", "anchors": ["frackit/intersection/algorithms/algo_planargeom_planargeom.hh: intersect_planarGeometry_planarGeometry", "frackit/intersection/algorithms/algo_planargeom_line.hh: intersect_planarGeometry_line"]}
{"id": "C51", "title": "Collinear segments intersect in their overlap", "statement": "The intersection of two collinear segments is their common part: a segment if they overlap, a point if they touch in an end point, empty otherwise.", "quantifier": "every pair of collinear segments in 3d space", "why_tests_cant": "Relative positions of four points on any line.", "anchors": ["frackit/intersection/algorithms/algo_segment_segment.hh: intersect_segment_segment"]}
{"id": "C52", "title": "A plane cuts a cylinder in the computed ellipse", "statement": "The ellipse constructed when intersecting a lateral cylinder surface with a planar geometry which is not parallel to the axis lies in the plane and on the (infinitely extended) cylinder surface, and contains all common points of the two.", "quantifier": "every cylinder and every plane whose normal is parallel to the axis or deviates by more than the angular tolerance 1e-10 both from the axis and from the orthogonal directions; planes closer than that to being orthogonal, with error bounds", "why_tests_cant": "A continuum of inclinations; the axis-aligned cases used in tests are degenerate.", "anchors": ["frackit/intersection/algorithms/algo_cylsurface_planargeom.hh: intersect_cylinderSurface_planarGeometry"]}
{"id": "C53", "title": "Intersection angles are well-defined", "statement": "The angle between two planes lies in [0, pi/2], does not depend on the order of the arguments or the sense of the normals and is zero exactly for parallel planes; the angle reported for a plane and a cylinder surface intersecting in a full ellipse is the minimum over all points of the ellipse; the angle for several intersections is the minimum of the individual ones.", "quantifier": "every pair of planes, every cylinder surface and plane", "why_tests_cant": "The reported minimum is computed from nine sample points; exactness for all inclinations needs a proof.", "anchors": ["frackit/intersection/intersectionangle.hh: IntersectionAngle"]}
{"id": "C54", "title": "The probing segment covers the face", "statement": "When a face is intersected with a line in its plane, the finite segment used in place of the line covers all common points of the line and the face.", "quantifier": "every pair of faces (disks, quadrilaterals, polygons) and every line in the plane of the face", "why_tests_cant": "Only faces of very different size reveal a wrong length scale.", "anchors": ["frackit/intersection/algorithms/algo_planargeom_line.hh", "frackit/intersection/algorithms/algo_polygon_disk.hh: intersect_polygon_disk", "frackit/intersection/algorithms/algo_disk_disk.hh", "frackit/intersection/algorithms/algo_quadrilateral_disk.hh"]}
{"id": "C55", "title": "Empty intersections are recognised", "statement": "isEmptyIntersection of a result is true exactly if all of its parts are empty intersections; the lists returned for cylinder surfaces with planar geometries and for faces are either non-empty geometry only (at least one) or a single empty intersection.", "quantifier": "every intersection result", "why_tests_cant": "Any number of parts of any type.", "anchors": ["frackit/intersection/emptyintersection.hh: isEmptyIntersection", "frackit/intersection/algorithms/algo_cylsurface_planargeom.hh", "frackit/intersection/algorithms/algo_face_face_3d.hh"]}
{"id": "C56", "title": "Length of an ellipse", "statement": "computeLength of an ellipse is the length of the curve.", "quantifier": "every ellipse", "why_tests_cant": "Exact equality with an elliptic integral for all semi-axes.", "anchors": ["frackit/magnitude/length.hh: computeLength"]}
{"id": "C57", "title": "Points on the boundary of polygons and quadrilaterals", "statement": "pointOnGeometryBoundary(point, quadrilateral/polygon, eps) is true whenever the point is closer than eps to one of the edges, the closing edge included, and only if it is closer to one of them than eps plus the default tolerance of that edge.", "quantifier": "every point, tolerance, quadrilateral and polygon with any number of corners", "why_tests_cant": "Dropping one edge only matters for points on it; any number of corners.", "anchors": ["frackit/distance/pointonboundary.hh: pointOnGeometryBoundary"]}
{"id": "C58", "title": "Tangent planes of faces are taken at the intersection point", "statement": "The intersection angle reported for a planar geometry (or a face) and a face which intersect in a point is the angle between the plane and the tangent plane of the face at that point.", "quantifier": "every planar geometry and every parametrised surface", "why_tests_cant": "The wrong parameter is passed through an implicit conversion that compiles silently and is harmless for flat faces.", "anchors": ["frackit/intersection/intersectionangle.hh: IntersectionAngle"]}
{"id": "C59", "title": "Non-parallel segments intersect in their common point", "statement": "If the intersection of two segments is reported as a point, this point is closer than the tolerance to both segments; if two segments of different directions have a common point, a point is reported, and if they stay further apart than the tolerance the result is empty.", "quantifier": "every pair of segments of different directions; the first claim for any behaviour of the geometry kernel, the others for exact fragmentation", "why_tests_cant": "Any relative position and any number of edges returned by the kernel.", "anchors": ["frackit/intersection/algorithms/algo_segment_segment.hh: intersect_segment_segment"]}
{"id": "C60", "title": "Intersection lists contain no duplicates and lose nothing", "statement": "In the list returned for two faces, no edge is reported twice or together with a common face it overlaps; touching points are at least the tolerance apart from each other and from the vertices of reported edges and faces; every candidate point and edge found by the boolean operations is represented by a part of the result. In the list returned for a cylinder surface and a planar geometry, touching points are within the tolerance of the cylinder surface, at least the tolerance apart and not on a reported segment or arc.", "quantifier": "every result of the boolean operations, any number of edges, faces and points", "why_tests_cant": "Any number of candidates in any order; clusters of nearly coinciding points.", "anchors": ["frackit/intersection/algorithms/algo_face_face_3d.hh: intersect_face_face_3d", "frackit/intersection/algorithms/algo_cylsurface_planargeom.hh: intersect_cylinderSurface_planarGeometry"]}
{"id": "C61", "title": "Networks of two sets generated by the examples satisfy their constraints", "statement": "Whenever the generation loop of example 1 or 2 ends, both sets have the desired number of entities, any two entities of a set and any two of different sets satisfy the configured constraints, the entities of example 2 also satisfy them towards top, bottom and lateral surface of the cylinder and have an area of at least 0.01 inside it, and the number of passes is the number of accepted plus that of rejected candidates. If all computations return values, the loop does not fail; it can only run forever if from some pass on all candidates are rejected.", "quantifier": "every sequence of sampled candidates, any behaviour of the geometric computations, every traversal order of the counter map, any number of passes", "why_tests_cant": "The loop runs on random candidates until it ends; tests see a few seeds.", "anchors": ["appl/example1/example1.cc: main", "appl/example2/example2.cc: main", "frackit/sampling/status.hh: SamplingStatus", "frackit/entitynetwork/constraints.hh: EntityNetworkConstraints"]}
{"id": "C62", "title": "Networks of several geometry types generated by the example satisfy their constraints", "statement": "Whenever the generation loop of example 3 ends, the entity sets contain exactly the desired numbers of disks and quadrilaterals, any two of them satisfy the constraints registered in the matrix for their sets, all of them satisfy the constraints towards all faces of the domain boundary and have an area of at least 350 inside the domain, the accumulated area is the sum of these areas, exactly these entities are exported, and each pass has accepted one candidate or counted a rejection.", "quantifier": "every random number stream, any behaviour of the geometric computations, every traversal order of the counter map, any number of passes", "why_tests_cant": "Interplay of sampler, status, matrix and entity sets over an unbounded number of passes.", "anchors": ["appl/example3/example3.cc: main", "frackit/sampling/multigeometrysampler.hh: MultiGeometrySampler", "frackit/entitynetwork/constraintsmatrix.hh: EntityNetworkConstraintsMatrix", "frackit/entitynetwork/multigeometryentityset.hh: MultiGeometryEntitySet"]}
{"id": "C63", "title": "Python networks of several geometry types satisfy their constraints", "statement": "Whenever the generation loop of the Python version of example 3 ends, the lists contain exactly the desired numbers of disks and quadrilaterals, any two of them satisfy the constraints that the Python constraints matrix holds for their sets, all of them satisfy the constraints towards all faces of the domain boundary and have an area of at least 350 inside the domain, the accumulated area is the sum of these areas, and each pass has accepted one candidate or counted a rejection.", "quantifier": "every sequence of sampled candidates, any behaviour of the geometric computations, any number of passes", "why_tests_cant": "Interplay of the Python classes over an unbounded number of passes.", "anchors": ["appl/example3/example3.py", "python/frackit/entitynetwork/__init__.py: EntityNetworkConstraintsMatrix"]}
{"id": "C64", "title": "The network around a tunnel satisfies its constraints", "statement": "Whenever the generation of example 4 ends, the first set has the desired number of entities and the other two at most one for each entity of the previous set; any two entities of the same set, of different sets, and any entity and the boundaries of the domain satisfy the constraints configured for them; each entity is the only part inside the domain of a polygon that intersects the tunnel or the entity it was created for, no vertex of these being closer than 1e-3 to the intersection, and has at least a quarter of the area of the polygon; the accumulated area is the sum of the areas of all entities.", "quantifier": "every sequence of sampled candidates, any behaviour of the geometric computations, every number of desired entities and tries", "why_tests_cant": "Three nested stages over random candidates.", "anchors": ["appl/example4/example4.cc: main", "appl/example4/example4.py"]}
{"id": "C65", "title": "The search for an intersecting entity is limited", "statement": "In example 4, the search for an entity that intersects a given one ends after 500 rejected candidates, and is reported as unsuccessful if and only if no entity was found.", "quantifier": "every sequence of sampled candidates, any behaviour of the geometric computations", "why_tests_cant": "The boundary cases need 500 rejections in a row.", "anchors": ["appl/example4/example4.cc: main", "appl/example4/example4.py"]}
{"id": "C66", "title": "The sets of example 4 keep the distances intended for them", "statement": "In the network of example 4, the entities of the second set keep a distance of 0.5 from each other, those of the third set a distance of 0.15.", "quantifier": "every sequence of sampled candidates, any behaviour of the geometric computations", "why_tests_cant": "A copied variable name compiles and produces a plausible network.", "anchors": ["appl/example4/example4.cc: main", "appl/example4/example4.py"]}
{"id": "C67", "title": "The printed status is a well-formed row of the table", "statement": "SamplingStatus::print never fails: it prints one row with the numbers of accepted and rejected samples, the acceptance ratio and the progress in percent rounded to two decimals, whose columns are below those of the header.", "quantifier": "every history of calls of the sampling status, any counts and targets", "why_tests_cant": "The widths are computed with unsigned arithmetic and depend on the numbers; failures need particular counts.", "anchors": ["frackit/sampling/status.hh: SamplingStatus::print"]}
{"id": "C68", "title": "Messages of the sampling status", "statement": "The header of the table is printed exactly by those calls of print that request it or are the first since construction or the last full reset. Accepting a sample is reported to surpass the target exactly if more samples have been accepted for its id than desired, and setting a target is reported to be too small exactly if it is below the current count; no other call prints anything, and printing does not change the counters.", "quantifier": "every history of calls of the sampling status", "why_tests_cant": "Depends on the whole history.", "anchors": ["frackit/sampling/status.hh: SamplingStatus"]}
{"id": "C69", "title": "Spheres and cylinder surfaces contain exactly their points", "statement": "For positive tolerances, Sphere::contains is true for all points of the ball and only for points closer to it than the tolerance; CylinderSurface::contains is true exactly for points whose position along the axis and whose distance to the axis deviate from those of the lateral surface by less than the tolerance. The points contained for every positive tolerance are exactly the ball and the lateral surface, and those points are also contained for the default tolerance. Both constructors of the cylinder surface give the requested axis, radius and height.", "quantifier": "all centres, axes, radii, heights, points and tolerances", "why_tests_cant": "Needs all points and tolerances.", "anchors": ["frackit/geometry/sphere.hh: Sphere::contains", "frackit/geometry/cylindersurface.hh: CylinderSurface::contains, CylinderSurface::CylinderSurface"]}
{"id": "C70", "title": "Faces and circles of cylinders and hollow cylinders", "statement": "Cylinder::lateralFace, CylinderSurface::cylinder, HollowCylinder::innerLateralFace/outerLateralFace and bottomOuterCircle/topOuterCircle have the axis, radius and height of the solid they belong to: a lateral face contains exactly the points of the solid at the respective radius, all points of the outer circles are points of the solid at the bottom and at the top, and cylinder and lateral face determine each other.", "quantifier": "all cylinders and hollow cylinders built by the constructors, all points", "why_tests_cant": "Needs all positions and orientations of the axis.", "anchors": ["frackit/geometry/cylinder.hh: Cylinder::lateralFace", "frackit/geometry/cylindersurface.hh: CylinderSurface::cylinder", "frackit/geometry/hollowcylinder.hh: HollowCylinder::innerLateralFace, outerLateralFace, bottomOuterCircle, topOuterCircle"]}
{"id": "C71", "title": "Containment does not depend on the unit of length and the origin", "statement": "Expressing a geometry and a point in another unit of length and relative to another origin does not change the answer of contains(p) with the default tolerance, nor the one of contains(p, eps) if the tolerance is converted, too: for segments, boxes, circles, ellipses, disks, triangles, quadrilaterals, polygons, spheres, cylinders, hollow cylinders and cylinder surfaces.", "quantifier": "all geometries, points, tolerances, scale factors and translations", "why_tests_cant": "A tolerance that does not scale shows up only for particular sizes of the geometry.", "anchors": ["frackit/geometry/segment.hh: contains", "frackit/geometry/box.hh: contains", "frackit/geometry/circle.hh: contains", "frackit/geometry/disk.hh: contains", "frackit/geometry/ellipse.hh: contains", "frackit/geometry/triangle.hh: contains", "frackit/geometry/quadrilateral.hh: contains", "frackit/geometry/polygon.hh: contains", "frackit/geometry/cylinder.hh: contains", "frackit/geometry/hollowcylinder.hh: contains", "frackit/geometry/cylindersurface.hh: contains", "frackit/geometry/sphere.hh: contains"]}
{"id": "C72", "title": "The shape of a geometry occupies the points of the geometry", "statement": "OCCUtilities::getShape returns, for every geometry, a vertex, edge, wire, face or solid (depending on the dimension of the geometry) that occupies exactly the points of the geometry, provided the primitive shapes of the geometry kernel occupy the points they are documented to occupy.", "quantifier": "all valid geometries, every kernel with these properties", "why_tests_cant": "Depends on the arguments passed to the kernel for arbitrary positions and orientations.", "anchors": ["frackit/occ/breputilities.hh: getShape"]}
{"id": "C73", "title": "Distances between geometries are distances between their sets of points", "statement": "computeDistance of any two geometries, lines or shapes is the infimum of the distances between their points (for a point and a segment up to the tolerance of the segment), does not depend on the order of the arguments, and is computed for all pairs of geometries that have a shape.", "quantifier": "all pairs of valid geometries, every kernel whose primitive shapes and distances are correct", "why_tests_cant": "Quantifies over all pairs of geometries and all their points.", "anchors": ["frackit/distance/distance.hh: computeDistance"]}
{"id": "C74", "title": "Distance to the boundary of any geometry", "statement": "computeDistanceToBoundary is the infimum of the distances to the points of the boundary: the bounding curve of a disk, quadrilateral, polygon or face, both circles of a cylinder surface, the six faces of a box, the outer shell of a solid. For a point and a quadrilateral or polygon it is never larger than the infimum and smaller by at most 1e-7 times the length of an edge. For pairs of geometries that are not supported an exception is thrown.", "quantifier": "all supported pairs of valid geometries, every kernel whose primitive shapes and distances are correct", "why_tests_cant": "Quantifies over all pairs of geometries and all points of the boundary.", "anchors": ["frackit/distance/distancetoboundary.hh: computeDistanceToBoundary"]}
{"id": "C75", "title": "Distance to the boundary in Python", "statement": "computeDistanceToBoundary of the Python package returns the distance to the boundary of the second argument, as the function of the C++ library does.", "quantifier": "all pairs of valid geometries", "why_tests_cant": "Wrong results are still plausible distances, and correct for arguments outside of the geometry.", "anchors": ["frackit/python/geometry/distancetoboundary.hh", "python/frackit/geometry/__init__.py: computeDistanceToBoundary"]}
{"id": "C76", "title": "Points on the boundary of disks, cylinder surfaces and faces", "statement": "pointOnGeometryBoundary is true exactly if some point of the boundary (bounding ellipse of a disk, circles of a cylinder surface, outer wire of a face) is closer to the point than the given tolerance.", "quantifier": "all points, tolerances, disks, cylinder surfaces and faces", "why_tests_cant": "Needs all points of the boundary and all tolerances.", "anchors": ["frackit/distance/pointonboundary.hh: pointOnGeometryBoundary"]}
{"id": "C77", "title": "The intersection function works in both orders and never discards common points beforehand", "statement": "intersect(a, b, eps) is available for exactly the supported pairs of geometry types and throws for all others; for arguments of different types the order of the arguments does not change the result. The check of the bounding boxes in front of the algorithms never discards a pair of geometries with a common point: the result is the one of the algorithm for the pair, or an empty intersection for geometries without common point. Without tolerance argument the smaller of the default tolerances of the two geometries is used, and it is positive. The Python function offers the same pairs except those with lines or planes and returns the same results.", "quantifier": "for all pairs of geometries, lines, planes and shapes, all positive tolerances and all (exact) geometry kernels", "why_tests_cant": "tests intersect some dozens of pairs in one order; whether a bounding box check drops a pair depends on all positions", "anchors": ["frackit/intersection/intersect.hh: intersect", "frackit/geometryutilities/getboundingbox.hh: getBoundingBox", "frackit/python/geometry/intersect.hh: registerIntersections"]}
{"id": "C78", "title": "Magnitude of the part of a geometry in a domain", "statement": "computeContainedMagnitude(geometry, domain) returns the length (segments) or area (disks, convex quadrilaterals, convex polygons, planar faces) of the set of points that belong to the geometry and the domain. It is between zero and the magnitude of the geometry, equal to it if the geometry is inside the domain, zero if it is outside, does not decrease if the domain grows, and adds up over the parts of a divided domain. It is zero for points. Boxes, spheres and cylinders can be used as domains; in Python, the registered types give the same result.", "quantifier": "All geometries and domains, and all ways in which the geometry kernel divides the common part into pieces.", "why_tests_cant": "The number and shape of the pieces depend on the configuration; the identity with a measure cannot be sampled.", "anchors": ["frackit/magnitude/containedmagnitude.hh: computeContainedMagnitude", "frackit/occ/breputilities.hh: OCCUtilities::intersect", "frackit/python/geometry/magnitude.hh: registerContainedMagnitude"]}
{"id": "C79", "title": "Pointers to the geometry interface", "statement": "A pointer to the abstract geometry class that refers to a planar entity (disk, quadrilateral or polygon) can be passed to computeContainedMagnitude and to the evaluation of constraints (as first, second or both arguments) with the same result as the entity itself; geometries that are not supported are rejected with an error and never accepted silently.", "quantifier": "All geometries, constraints and domains.", "why_tests_cant": "The claim is about every geometry class and every way of passing it; the unit tests only use the supported ones.", "anchors": ["frackit/geometryutilities/applyongeometry.hh: applyOnGeometry", "frackit/geometryutilities/assign.hh: assign", "frackit/entitynetwork/constraints.hh: EntityNetworkConstraints::evaluate", "frackit/magnitude/containedmagnitude.hh: computeContainedMagnitude"]}
{"id": "C80", "title": "Error of the length of ellipses", "statement": "The value that computeLength and computeMagnitude return for an ellipse is never larger than the length of the curve and never smaller than pi/4 times the length; it is exact for circles and for no other ellipse.", "quantifier": "All ellipses.", "why_tests_cant": "The length is an elliptic integral; tests compare with the same formula.", "anchors": ["frackit/magnitude/length.hh: computeLength", "frackit/magnitude/magnitude.hh: computeMagnitude"]}
{"id": "C81", "title": "Conversions between degrees and radians are inverse", "statement": "toDegrees and toRadians undo each other, are additive and increasing, map a full turn to a full turn, and angles that differ by full turns give the same direction.", "quantifier": "all angles", "why_tests_cant": "A statement about all real numbers; tests convert a few values.", "anchors": ["frackit/common/math.hh: toDegrees, toRadians"]}
{"id": "C82", "title": "Corners and edges of triangles, quadrilaterals and polygons", "statement": "corner(i) returns the points passed to the constructor, in their order; the edges (without direction) are exactly the sides of the closed boundary: consecutive corners for triangles and polygons, and 0-1, 1-3, 3-2, 2-0 for quadrilaterals. Other edge indices of triangles and quadrilaterals raise an error.", "quantifier": "all corner points, all numbers of corners, all indices", "why_tests_cant": "All corner counts; wrap-around at the last edge is index arithmetic.", "anchors": ["frackit/geometry/triangle.hh: Triangle::corner, Triangle::edge", "frackit/geometry/quadrilateral.hh: Quadrilateral::corner, Quadrilateral::edge", "frackit/geometry/polygon.hh: Polygon::corner, Polygon::edge"]}
{"id": "C83", "title": "Arithmetic of points, vectors and directions in every dimension", "statement": "In one, two and three dimensions (and any other), length and scalar product of vectors are those of the Euclidean space, sums, differences and multiples obey the laws of a vector space, points are moved by vectors such that moving back restores the point and the vector between two points moves the first to the second, equality with tolerance is symmetric and means that the distance is smaller than the tolerance, and directions are unit vectors, defined for every vector except zero.", "quantifier": "for all dimensions, points, vectors, scalars and tolerances", "why_tests_cant": "Laws over all real coordinates and dimensions.", "anchors": ["frackit/geometry/point.hh: PointBase", "frackit/geometry/vector.hh: VectorBase, Vector", "frackit/geometry/direction.hh: Direction"]}
{"id": "C84", "title": "Construction of points, vectors, directions and circles in Python", "statement": "`Point(...)`, `Vector(...)`, `Direction(...)` and `Circle(...)` return the object of the dimension that is meant by the arguments - coordinates, a list of coordinates, two points, a direction, a vector - with exactly these coordinates, no matter which arguments are passed by keyword, and raise an exception for all other arguments.", "quantifier": "for all combinations of positional and keyword arguments of all types", "why_tests_cant": "The number of combinations of types, dimensions and ways to pass arguments is unlimited.", "anchors": ["python/frackit/geometry/__init__.py: Point, Vector, Direction, Circle", "frackit/python/geometry/point.hh: registerPoint", "frackit/python/geometry/vector.hh: registerVector", "frackit/python/geometry/direction.hh: registerDirection", "frackit/python/geometry/circle.hh: registerCircle"]}
{"id": "C85", "title": "Lengths, areas and volumes in Python", "statement": "`computeLength` answers for curves, vectors, edges and wires only, `computeArea` for surfaces, faces and shells only, `computeVolume` for solids only; all other arguments raise `TypeError`. Whatever they return equals the result of `computeMagnitude` and of the C++ function.", "quantifier": "for all objects, geometries and shapes", "why_tests_cant": "Quantifies over all geometries and over arbitrary objects.", "anchors": ["python/frackit/geometry/__init__.py: computeLength, computeArea, computeVolume", "frackit/python/geometry/magnitude.hh: registerMagnitude", "frackit/python/geometry/registerdimensionproperties.hh: registerDimensionProperties"]}
{"id": "C86", "title": "Accurate intersection angles in double precision", "statement": "In double precision, the angle between two planes is a number and differs from the angle between the exact planes by less than 1e-7, whatever vectors the normals were constructed from; hence a constraint on the minimum intersection angle accepts all geometries that exceed it by 1e-7 and rejects all geometries that fall short of it by 1e-7.", "quantifier": "for all pairs of vectors of doubles other than zero, all minimum angles", "why_tests_cant": "Rounding errors depend on all bits of six coordinates; tests use a handful of axis-aligned planes.", "anchors": ["frackit/intersection/intersectionangle.hh: IntersectionAngle::operator()", "frackit/geometry/direction.hh: Direction", "frackit/geometry/vector.hh: operator*", "frackit/entitynetwork/constraints.hh: EntityNetworkConstraints::evaluate_"]}
{"id": "C87", "title": "Unit length of directions in double precision", "statement": "In double precision, a direction constructed from any vector other than zero has the length one up to an error of 2^-50, and its coordinates are those of the exact unit vector up to the same relative error.", "quantifier": "for all vectors other than zero", "why_tests_cant": "Rounding errors depend on all bits of the coordinates.", "anchors": ["frackit/geometry/direction.hh: Direction", "frackit/geometry/vector.hh: length, squaredLength, operator/="]}
{"id": "C88", "title": "Parallel vectors in double precision", "statement": "In double precision, every vector other than zero is parallel to itself, and vectors that are found to be parallel with the default tolerance enclose an angle of less than 1e-7.", "quantifier": "for all vectors of doubles other than zero", "why_tests_cant": "Rounding errors depend on all bits of the coordinates; tests use a handful of vectors for which they happen to vanish.", "anchors": ["frackit/geometry/vector.hh: isParallel", "frackit/precision/precision.hh: Precision::angular"]}
{"id": "C89", "title": "Containment in boxes in double precision", "statement": "In double precision, a box contains all of its points including its boundary, and no points that are further away than 2e-7 times its diagonal; its centre lies in it; its volume has the relative error 2^-50.", "quantifier": "for all boxes and points of doubles", "why_tests_cant": "Whether the tolerance survives rounding depends on the ratio of the coordinates and the size of the box.", "anchors": ["frackit/geometry/box.hh: contains, center, volume", "frackit/precision/defaultepsilon.hh: defaultEpsilon"]}
{"id": "C90", "title": "Touching bounding boxes in double precision", "statement": "In double precision, two bounding boxes with a common point are found to intersect, and boxes with a gap of more than 2e-7 times the mean of their diagonals are not.", "quantifier": "for all pairs of boxes of doubles", "why_tests_cant": "Whether the tolerance survives rounding depends on the ratio of the coordinates and the size of the boxes.", "anchors": ["frackit/intersection/bboxintersection.hh: doIntersect", "frackit/common/math.hh: intervalsOverlap"]}
{"id": "C91", "title": "Sampled points are uniformly distributed", "statement": "If the draws of the uniform distributions are independent and uniform, then a point drawn by a uniform point sampler is uniformly distributed in the geometry the sampler was made for: the probability of a part of the geometry is its share of the volume. This holds for boxes, cylinders and hollow cylinders of any position and orientation, in C++ and in Python.", "quantifier": "for all boxes, cylinders and hollow cylinders and all measurable sets of points", "why_tests_cant": "A statement about the distribution of points: it involves every set of points, and samples only give estimates. Sampling the radius instead of the squared radius gives points that look plausible.", "anchors": ["frackit/sampling/makeuniformpointsampler.hh: makeUniformPointSampler", "frackit/sampling/cylinderpointsampler.hh: CylinderPointSampler", "frackit/sampling/boxpointsampler.hh: BoxPointSampler", "python/frackit/sampling/__init__.py: makeUniformPointSampler"]}
{"id": "C92", "title": "Sub-shapes of a shape", "statement": "getVertices, getEdges, getWires, getFaces, getShells and getSolids return exactly the vertices, edges, ... a shape consists of, at their place in the shape, each of them once; in Python they are returned in wrappers of their class, and an error is raised for wrappers of shapes that can not contain the requested class. For the face of a quadrilateral or polygon, the edges are its sides and the vertices its corners.", "quantifier": "for all shapes, of any depth and with any sharing of sub-shapes", "why_tests_cant": "Shapes are graphs of arbitrary depth with shared nodes; tests look at a few.", "anchors": ["frackit/occ/breputilities.hh: getVertices, getEdges, getWires, getFaces, getShells, getSolids, getShape", "frackit/python/occutilities/breputilities.hh: registerSubShapeGetterFunctions", "frackit/python/geometry/brepwrapper.hh: BRepWrapper"]}
{"id": "C93", "title": "Translation of shapes", "statement": "translate(shape, v) returns a shape of the same class (for compounds a general shape) whose parts are the parts of the shape moved by v; it never fails. The sub-shape getters return the moved sub-shapes in the same order, translations compose, and translating back restores the shape.", "quantifier": "for all wrapped shapes and vectors", "why_tests_cant": "Whether the result can be converted to the class of the argument depends on the sub-shapes that are found in it.", "anchors": ["frackit/occ/breputilities.hh: translate", "frackit/python/occutilities/breputilities.hh: translate, parseShape, getSingleEntity"]}
{"id": "C94", "title": "Compounds of shapes", "statement": "In Python, a compound lists exactly the shapes that were added to it, in the order of the calls; compounds may contain compounds, but never themselves, so that the search for sub-shapes ends. A refused call of add has no effect, and a shape that was made from a compound is not changed by later calls.", "quantifier": "for all histories of additions, with any nesting of compounds", "why_tests_cant": "Sharing between compounds and wrappers only shows in certain histories.", "anchors": ["frackit/python/geometry/brepwrapper.hh: BRepWrapper<TopoDS_Compound>::add, BRepWrapper<TopoDS_Shape>", "frackit/python/geometry/brepwrappers.hh: registerCompoundWrapper"]}
{"id": "C95", "title": "Boolean operators in Python", "statement": "Nested calls of cut, intersect, fragment and fuse with geometries or wrapped shapes return shapes that occupy the set difference, intersection and union of the geometries, up to sets without volume; the volumes of cut(a, b) and intersect(a, b) add up to the volume of a. Objects without shape raise a TypeError.", "quantifier": "for all nested calls of any depth", "why_tests_cant": "Expressions of any depth and all geometries; a swapped argument or an argument used twice shows in some of them only.", "anchors": ["python/frackit/occutilities/__init__.py: cut, intersect, fragment, fuse, _getShapeWrapper", "frackit/python/occutilities/breputilities.hh: cut, intersect, fragment, fuse", "frackit/occ/breputilities.hh: cut, intersect, fragment, fuse"]}
{"id": "C96", "title": "The Python functions use the class of the object", "statement": "What computeMagnitude, getShape, getBoundingBox and defaultEpsilon return in Python for a geometry is what the C++ functions return for it; geometries without overload raise a TypeError.", "quantifier": "for all geometries and kernels", "why_tests_cant": "Which overload is called depends on the order of registration and the class hierarchy, for every class.", "anchors": ["frackit/python/geometry/magnitude.hh: registerMagnitude", "frackit/python/geometry/getboundingbox.hh: registerGetBoundingBox", "frackit/python/occutilities/breputilities.hh: getShape", "frackit/python/precision/defaultepsilon.hh: registerDefaultEpsilon", "frackit/python/geometry/ellipsearc.hh: registerEllipseArc"]}
{"id": "C97", "title": "Distances in Python", "statement": "computeDistance in Python returns the distance between the points of its arguments (up to the tolerance for points and segments), never more than the distance between two of their points, and for a list the smallest distance to its elements; an empty list is an error.", "quantifier": "for all pairs of geometries and shapes, lists of any length", "why_tests_cant": "All pairs of classes, with a fallback on shapes after an exception, and lists of any length.", "anchors": ["python/frackit/geometry/__init__.py: computeDistance", "frackit/python/geometry/distance.hh: registerComputeDistance", "frackit/python/occutilities/breputilities.hh: getShape"]}
{"id": "C98", "title": "Tolerances of any numeric type in Python", "statement": "`g.contains(point, eps)` in Python decides whether the point is in g with the tolerance eps, whether eps is written as an integer (`1`, `0`) or as a floating point number (`1.0`, `0.0`): it returns what the C++ function returns for that tolerance.", "quantifier": "all geometries with a `contains` method, all points, all integers and floating point numbers", "why_tests_cant": "Which of the overloads is called depends on the type of the number and on the order in which they were registered; a test uses one literal.", "anchors": ["frackit/python/geometry/segment.hh: contains", "frackit/python/geometry/ellipse.hh: contains", "frackit/python/geometry/ellipsearc.hh: contains", "frackit/python/geometry/triangle.hh: contains", "frackit/python/geometry/quadrilateral.hh: contains", "frackit/python/geometry/polygon.hh: contains", "frackit/python/geometry/disk.hh: contains", "frackit/python/geometry/box.hh: contains", "frackit/python/geometry/plane.hh: contains"]}
{"id": "C99", "title": "The .geo file can be read", "statement": "For every file name without quotation marks, the text that GmshWriter::write puts into the .geo file is a sequence of complete Gmsh commands; reading it yields the merge of the .brep file, the two mesh sizes, exactly the physical groups of sub-domains, entities and intersections, and the mesh sizes of entities come after those of the sub-domains.", "quantifier": "every network, every file name without quotation marks, all mesh sizes, all orders in which the maps are traversed", "why_tests_cant": "Lists of any length, any number of digits and names of any length are concatenated to a text; a test reads one file.", "anchors": ["frackit/io/gmshwriter.hh: GmshWriter::write", "frackit/io/brepwriter.hh: BRepWriter::write"]}
{"id": "C100", "title": "Mesh sizes are written as given", "statement": "The mesh sizes read from the .geo file are the numbers passed to GmshWriter::write.", "quantifier": "all mesh sizes", "why_tests_cant": "The text depends on the magnitude and the digits of the number; a test uses a few short decimal numbers.", "anchors": ["frackit/io/gmshwriter.hh: GmshWriter::write", "frackit/io/brepwriter.hh: BRepWriter::write"]}
{"id": "C101", "title": "The merged file is the one that was written", "statement": "When Gmsh opens the .geo file, the file named in the Merge command is the .brep file written by the same call, for every file name including a path.", "quantifier": "all file names, absolute or relative, with or without directories", "why_tests_cant": "Tests write to the working directory.", "anchors": ["frackit/io/gmshwriter.hh: GmshWriter::write", "frackit/io/brepwriter.hh: BRepWriter::write"]}
{"id": "C102", "title": "A write that fails is reported", "statement": "If GmshWriter::write returns without an exception, both files exist with their complete contents.", "quantifier": "all file names, all states of the file system", "why_tests_cant": "File systems that cannot be written are not part of a unit test.", "anchors": ["frackit/io/gmshwriter.hh: GmshWriter::write", "frackit/io/brepwriter.hh: BRepWriter::write"]}
{"id": "C103", "title": "Tags of physical groups are strictly positive", "statement": "The tags of all physical groups in the .geo file, and the indices listed in them, are strictly positive, as Gmsh requires.", "quantifier": "all networks that any sequence of calls on a builder can build, all sub-domain ids", "why_tests_cant": "The indices are assigned by the builder, changed when entities are confined and fragmented, and shifted when maps are merged.", "anchors": ["frackit/io/gmshwriter.hh: GmshWriter::write", "frackit/io/brepwriter.hh: BRepWriter::write", "frackit/entitynetwork/networkbuilder.hh: build"]}
{"id": "C104", "title": "Lines and segments in every dimension", "statement": "In one, two and three dimensions: the projection of a point on a line is the nearest point of the line; contains of lines and segments with a tolerance returns true exactly if a point of the line or segment is closer than the tolerance; getPoint yields exactly the points of the segment, and the reversed segment has the same points.", "quantifier": "every dimension, all lines, all segments that are not a point, all points, all positive tolerances", "why_tests_cant": "Infinitely many positions relative to the ends, in each dimension; tests use a few.", "anchors": ["frackit/geometry/line.hh: Line::projection, Line::contains", "frackit/geometry/segment.hh: Segment::contains, Segment::getPoint, Segment::getReversed", "frackit/python/geometry/line.hh: registerLine", "frackit/python/geometry/segment.hh: registerSegment"]}
{"id": "C105", "title": "Network builders in Python behave as those in C++", "statement": "In Python, addEntity, addSubDomainEntity, addSubDomain and addConfiningSubDomain have the effect of the C++ calls for objects of the supported classes (disks, quadrilaterals, polygons, faces; boxes, cylinders, solids); any other argument is a type error that leaves the builder unchanged. addEntities and addSubDomainEntities add the elements of a list in order; if one of them cannot be added, those before it have been added and those after it have not. Every state reached in Python, also after errors, can be reached by C++ calls.", "quantifier": "all states of the builder, all arguments, all lists, all sequences of calls", "why_tests_cant": "Sequences of calls with errors in between; tests add a few valid entities.", "anchors": ["frackit/python/entitynetwork/networkbuilder.hh: registerSubDomainAdder, registerEntityAdder", "frackit/python/entitynetwork/networkbuilderwrappers.hh: EntityNetworkBuilderWrapper", "python/frackit/entitynetwork/__init__.py: addEntities, addSubDomainEntities"]}
{"id": "C106", "title": "Default tolerance of network builders", "statement": "setDefaultEpsilon sets the tolerance to the smallest one of the default tolerances of the sub-domains, or of the entities if no sub-domains have been added, and to 1e-7 for an empty builder.", "quantifier": "all states of the builder, all orders of traversal of its containers", "why_tests_cant": "The containers are unordered; the minimum must be found in every order.", "anchors": ["frackit/entitynetwork/networkbuilder.hh: setDefaultEpsilon", "frackit/precision/precision.hh: Precision"]}
{"id": "C107", "title": "When planes and lines are treated as parallel", "statement": "Two planes are treated as parallel exactly if the angle between them is at most 1e-10, a line and a plane if the angle of the line with the normal differs from a right angle by at most 1e-10. Parallel planes have no intersection unless they are closer to each other than the tolerance; a line is returned as intersection with a plane exactly if it is parallel to it and at most the tolerance away from it; a point returned is closer to the plane than the tolerance.", "quantifier": "all planes, all lines, all tolerances, any result of the geometry kernel", "why_tests_cant": "The limits are angles of 1e-10; tests use angles far from them.", "anchors": ["frackit/intersection/algorithms/algo_plane_plane.hh: intersect_plane_plane", "frackit/intersection/algorithms/algo_plane_line.hh: intersect_plane_line", "frackit/precision/precision.hh: Precision::angular"]}
{"id": "C108", "title": "Sampled points in double precision", "statement": "In double precision arithmetic the point samplers do not leave the domain they are created for. Numbers drawn by a uniform distribution on an interval whose bounds are numbers of type double are in the closed interval, and points sampled in a box are in the closed box, without any tolerance. Points sampled in a cylinder or a hollow cylinder differ from a point of the (hollow) cylinder by at most 2^-50 times the sum of the coordinate of the centre, two radii and the height; in particular the radius and the height that are used never exceed the bounds.", "quantifier": "for all intervals, boxes, cylinders with an orthonormal basis and all numbers the random number generators can return", "why_tests_cant": "rounding can push a result across a bound for rare combinations of bounds and random numbers that tests do not hit", "anchors": ["frackit/sampling/boxpointsampler.hh: BoxPointSampler::operator()", "frackit/sampling/cylinderpointsampler.hh: CylinderPointSampler::operator()", "frackit/sampling/makepointsampler.hh: makePointSampler", "frackit/sampling/uniformpointsamplertraits.hh: UniformPointSamplerTraits", "python/frackit/sampling/__init__.py: uniformIntervalSamplerCreator"]}
{"id": "C109", "title": "Local coordinates of points on ellipse arcs", "statement": "The local coordinate that getParam returns for a point of an ellipse arc is the one for which getPoint of the arc returns that point.", "quantifier": "for all arcs made by the constructor and all points of the arc that are not within the tolerance of an axis of the ellipse", "why_tests_cant": "arcs with any source and target angle have to be considered, including those that contain the major axis", "anchors": ["frackit/geometry/ellipsearc.hh: EllipseArc, EllipseArc::getPoint", "frackit/geometry/ellipse.hh: Ellipse::getParam", "frackit/python/geometry/ellipsearc.hh: registerEllipseArc"]}
{"id": "C110", "title": "Any identifier can be used for a sub-domain", "statement": "For every history of calls with identifiers of the type of the interface (std::size_t), if no shape is registered for two sub-domains and no operation of the CAD kernel fails, the network can be built, and the fragments of entities and sub-domains are found under the identifier for which they have been registered.", "quantifier": "for all histories of calls, all identifiers of 64 bits and all results of the operations of the CAD kernel", "why_tests_cant": "tests use small identifiers; conversions between integer types only matter for large ones", "anchors": ["frackit/common/id.hh: Id", "frackit/entitynetwork/networkbuilder.hh: EntityNetworkBuilderBase::fragment_", "frackit/entitynetwork/networkbuilder.hh: ContainedEntityNetworkBuilder::build"]}
{"id": "C111", "title": "Built networks can be exported completely", "statement": "Every contained network of two-dimensional entities in three-dimensional sub-domains that has been built by a network builder can be passed to the writer without an exception, and the exported compound contains the faces of all entity fragments and the solids of all sub-domain fragments of the network.", "quantifier": "for all histories of calls on the builder, all results of the operations of the CAD kernel, all orders of the containers", "why_tests_cant": "the writer looks up data that depend on which of the sub-domains, networks and fragments exist after the build; tests cover few combinations", "anchors": ["frackit/io/brepwriter.hh: BRepWriter", "frackit/entitynetwork/containedentitynetwork.hh: ContainedEntityNetwork", "frackit/entitynetwork/networkbuilder.hh: ContainedEntityNetworkBuilder::build"]}
{"id": "C112", "title": "Distances of points, lines and segments in one and two dimensions", "statement": "The distance computed between points, lines and segments given in one or two dimensions, between such objects of different dimension, and between such an object and any geometry in space, is the smallest distance between their points, where the coordinates that are missing are zero. For a point and a segment of the same dimension the result is never too large and at most 1e-7 times the length of the segment too small. The OCC shapes made of such points and segments occupy exactly these points. The same holds for the Python functions.", "quantifier": "for all points, segments and lines in one and two dimensions, all geometries in space, and all pairs of them", "why_tests_cant": "Tests use a few points in three dimensions; the claim is about all coordinates and all combinations of dimensions and types.", "anchors": ["frackit/distance/distance.hh: computeDistance", "frackit/occ/gputilities.hh: point", "frackit/occ/breputilities.hh: getShape, makeEdge", "frackit/python/occutilities/breputilities.hh: getShape", "python/frackit/geometry/__init__.py: computeDistance"]}
{"id": "C113", "title": "Supporting ellipse of an arc in Python", "statement": "The object returned by supportingEllipse() of an arc in Python behaves as the ellipse: its points for local coordinates, its centre, its axes and its points for given angles are those of the ellipse the arc is part of.", "quantifier": "for every arc, every sequence of calls of the package before, and every local coordinate", "why_tests_cant": "The property is about the interplay of the returned C++ reference with the objects that exist in the interpreter, for all arcs and all states; a test of one arc that begins at the major axis and covers the ellipse would pass.", "anchors": ["frackit/python/geometry/ellipsearc.hh: supportingEllipse, getPoint", "frackit/geometry/ellipsearc.hh: supportingEllipse"]}
{"id": "C114", "title": "Objects returned in Python are independent", "statement": "The objects returned by functions of the Python package are independent values: modifying one with +=, -=, *=, /=, invert or rotate changes this object and no other one. In particular an ellipse, circle, disk or arc is not changed by modifying points and directions that were obtained from it, and its axes stay a right-handed orthonormal frame.", "quantifier": "for every sequence of constructions, queries and modifications of points, vectors, directions, ellipses, circles, disks and arcs", "why_tests_cant": "Sharing shows only after particular sequences of calls; the claim is about all sequences.", "anchors": ["frackit/python/geometry/ellipticalgeometry.hh: center, majorAxis, minorAxis, normal", "frackit/python/geometry/circle.hh: base1, base2", "frackit/python/geometry/point.hh: operators +=, -=, *=, /=", "frackit/python/geometry/direction.hh: invert", "frackit/python/common/math.hh: rotate"]}
{"id": "C115", "title": "Spheres contain their surface in double precision", "statement": "In double precision, a sphere contains with its default tolerance the points of its ball and the points of its surface whose coordinates have been rounded, wherever the sphere is, and it contains no point that is farther away by more than the tolerance.", "quantifier": "for all spheres and points of doubles", "why_tests_cant": "The tolerance is applied to squares of distances, so that it is 1e-14 instead of 1e-7 in relation to the radius; whether a rounded point passes depends on the position of the centre, and tests use spheres around the origin.", "anchors": ["frackit/geometry/sphere.hh: Sphere::contains"]}
{"id": "C116", "title": "Distances of points and lines in double precision", "statement": "In double precision, the distance of two points has a relative error of at most 2^-50, is zero only for equal points and does not depend on their order. Points compare equal iff their distance is below the tolerance, except for distances that agree with the tolerance up to 2^-50. The distance of a point from a line has an error of at most 2^-48 times the magnitude of the coordinates involved.", "quantifier": "for all points, lines with normalised directions and positive tolerances", "why_tests_cant": "Rounding errors accumulate over differences, squares, sums and the square root; tests compare a few values with a tolerance.", "anchors": ["frackit/distance/distance.hh: computeDistance", "frackit/geometry/point.hh: isEqual", "frackit/geometry/line.hh: Line::projection"]}
{"id": "C117", "title": "Segments contain their points in double precision", "statement": "In double precision, a segment contains with its default tolerance the points it computes for parameters between zero and one, and every contained point is closer to the segment than 2e-7 times its length.", "quantifier": "for all segments of doubles, parameters and points", "why_tests_cant": "Whether a computed point passes the check depends on the ratio of the coordinates and the length of the segment, on the rounding of the direction and on the signs of scalar products near the ends.", "anchors": ["frackit/geometry/segment.hh: Segment::contains, Segment::getPoint", "frackit/geometry/line.hh: Line::contains"]}
{"id": "C118", "title": "Physical groups tell the registered entities apart", "statement": "If faces are registered for sub-domains with a builder, the network is built and exported with GmshWriter, and the .geo file is read by Gmsh, then every part of a registered face is in exactly one physical surface, faces in the same physical surface stem from the same registered face, and every solid is in the physical volume that carries the id of its sub-domain.", "quantifier": "all sequences of calls on the builder, all behaviours of the CAD kernel, all traversal orders of hash maps, all networks of faces with and without volumes", "why_tests_cant": "The chain leads through registration, confinement, fragmentation, merging of index maps, collection of sub-shapes and a text format; tags coincide only if entities are lost by confinement in a sub-domain that is traversed before others.", "anchors": ["frackit/entitynetwork/networkbuilder.hh: ContainedEntityNetworkBuilder::build, EntityNetworkBuilder::build", "frackit/io/brepwriter.hh: BRepWriter", "frackit/io/gmshwriter.hh: GmshWriter::write"]}
{"id": "C119", "title": "Accessors of a hollow cylinder may be called from several threads", "statement": "bottomOuterCircle(), topOuterCircle(), innerLateralFace() and outerLateralFace() are const member functions. Whatever calls of them are made on one hollow cylinder in any number of threads, and in whatever order the steps of the threads are interleaved, all returned references refer to objects that are alive and have the value that belongs to the accessor, repeated calls return the same object, and all calls return.", "quantifier": "for all hollow cylinders, all numbers of threads, all sequences of calls per thread, all schedules", "why_tests_cant": "Tests run one schedule, and faults appear only if the first calls overlap; the number of interleavings is unbounded.", "anchors": ["frackit/geometry/hollowcylinder.hh: HollowCylinder::bottomOuterCircle, topOuterCircle, innerLateralFace, outerLateralFace"]}
{"id": "C120", "title": "The orientation of the coordinate system does not matter for geometries", "statement": "Apply the same rotation and translation to all points, and the same rotation to all directions, that describe a geometry and a query. Then the answers are the same, and the points, normals and centres that are returned are the moved ones: containment with a given and with the default tolerance in lines, planes, segments, circles, ellipses, ellipse arcs, disks, spheres, cylinders, cylinder surfaces, hollow cylinders, triangles, quadrilaterals and polygons; lengths, areas, centres, convexity; points and angles on ellipses and arcs; distances between points, lines and segments and to the boundary of quadrilaterals and polygons; angles between planes and with tangent planes. This includes geometries constructed from a centre and a normal, for which the library selects axes that depend on the coordinate system, and the cases in which an exception is thrown. rotate() about any axis by any angle is such a rotation.", "quantifier": "all rotations (linear maps that preserve inner products and determinants) and translations, all geometries, points and tolerances", "why_tests_cant": "Tests use a few orientations; the branches of the choice of the axes and the formulas with cross products must agree for every orientation.", "anchors": ["frackit/geometry/segment.hh: contains", "frackit/geometry/disk.hh: contains", "frackit/geometry/ellipse.hh: getAngle", "frackit/geometry/ellipsearc.hh: contains", "frackit/geometry/circle.hh: Circle", "frackit/geometry/cylinder.hh: contains", "frackit/geometry/hollowcylinder.hh: contains", "frackit/geometry/triangle.hh: contains", "frackit/geometry/quadrilateral.hh: contains", "frackit/geometry/polygon.hh: contains", "frackit/distance/distance.hh: computeDistance", "frackit/common/math.hh: rotate"]}
{"id": "C121", "title": "The orientation of the coordinate system does not matter for intersections", "statement": "If the algorithms of the geometry kernel give moved results for moved arguments, so do the intersection algorithms of the library: for segments, disks, quadrilaterals and polygons with each other and with lines, and for cylinder surfaces with disks, quadrilaterals and polygons, the intersection of moved geometries is the moved intersection (of the same kind, or the same exception). The intersection angle computed for moved geometries and a moved intersection is the same.", "quantifier": "all rotations and translations, all geometries and tolerances, all results of the geometry kernel that move along with the arguments", "why_tests_cant": "Tests use a few orientations; the algorithms select axes, orientations, probing segments and candidates by comparisons that must agree for every orientation.", "anchors": ["frackit/intersection/algorithms/algo_segment_segment.hh: intersect_segment_segment", "frackit/intersection/algorithms/algo_planargeom_planargeom.hh: intersect_planarGeometry_planarGeometry", "frackit/intersection/algorithms/algo_planargeom_line.hh: intersect_planarGeometry_line", "frackit/intersection/algorithms/algo_cylsurface_planargeom.hh: intersect_cylinderSurface_planarGeometry", "frackit/intersection/intersectionangle.hh: IntersectionAngle"]}
{"id": "C122", "title": "Random points and shapes are not used twice", "statement": "Whatever samplers a program creates, copies (for example by adding them to a MultiGeometrySampler) and calls in which order: the points obtained from one point sampler, by calling it or as centers of the geometries that are sampled with it, are the successive values of its random number generator, each used once; and calls of one sampler do not change what an unrelated sampler returns.", "quantifier": "all random number generators and seeds, all programs that create, copy and call samplers in any order", "why_tests_cant": "Each sampler works on its own; that two of them return correlated geometries depends on which objects are copied and which are shared, and is only visible in the joint sequence of results.", "anchors": ["frackit/sampling/disksampler.hh: DiskSampler::DiskSampler", "frackit/sampling/polygonsampler.hh: PolygonSampler::PolygonSampler", "frackit/sampling/quadrilateralsampler.hh: QuadrilateralSampler", "frackit/sampling/multigeometrysampler.hh: MultiGeometrySampler::addGeometrySampler", "frackit/sampling/boxpointsampler.hh: BoxPointSampler", "python/frackit/sampling/__init__.py: DiskSampler, PolygonSampler"]}
{"id": "C123", "title": "The Python quadrilateral sampler uses the algorithm that was asked for", "statement": "With a callable as last argument, QuadrilateralSampler returns quadrilaterals in the sampled plane, centered at the sampled point and not larger than the sampled strike length and the first value of the callable; with a number as last argument, or without one, it returns quadrilaterals with edges that are not shorter than that number (or the tolerance).", "quantifier": "all values returned by the samplers, all numbers and callables, also those that raise exceptions", "why_tests_cant": "The constructor finds out by a trial call what it was given; tests construct the sampler with one kind of argument and do not see values that are lost.", "anchors": ["python/frackit/sampling/__init__.py: QuadrilateralSampler.__init__, QuadrilateralSampler.__call__"]}
{"id": "C124", "title": "Constraints accept and reject planar entities according to their geometry", "statement": "Let any sequence of calls configure an `EntityNetworkConstraints` object, and let two planar entities (disks, quadrilaterals, polygons) be evaluated with it. If they are accepted, they fulfil the configured constraints as point sets: they keep the minimum distance (or almost meet); if they have common points, these form a segment or point, the angle between the planes is not below the minimum, the segment is not shorter than the minimum length minus twice the tolerance, and its end points are on the boundaries or not closer to them than the minimum (up to the tolerances). If they are rejected, one of these requirements is violated, up to the same tolerances. The same for an entity and a set of entities.", "quantifier": "all sequences of configuring calls, all planar entities, all tolerances, all results of the geometry kernel that are exact for the line of intersection and its parts in the entities", "why_tests_cant": "Tests evaluate a few hand-made pairs. The decision combines bounding boxes, the intersection algorithm with its tolerance, lengths, angles, distances to boundaries and the order of the checks; that the decision agrees with the geometric meaning for every pair and configuration is a statement about the composition of all of them.", "anchors": ["frackit/entitynetwork/constraints.hh: EntityNetworkConstraints::evaluate, evaluate_", "frackit/entitynetwork/constraints_impl/admissiblemagnitude.hh", "frackit/entitynetwork/constraints_impl/distancetoboundary.hh", "frackit/entitynetwork/constraints_impl/admissibledimension.hh", "frackit/intersection/intersect.hh", "frackit/intersection/algorithms/algo_planargeom_planargeom.hh", "frackit/intersection/intersectionangle.hh", "frackit/distance/distance.hh", "frackit/distance/distancetoboundary.hh", "frackit/distance/pointonboundary.hh", "frackit/magnitude/magnitude.hh"]}
{"id": "C125", "title": "Constraints do not depend on the order of the two entities", "statement": "Evaluating the constraints for the entities (a, b) accepts them exactly if evaluating them for (b, a) does: for each configuration of the constraints (any sequence of calls of the setters) and for all disks, quadrilaterals, polygons, cylinder surfaces and faces, for entities and for sets of entities. As a consequence it does not matter for the networks made by the examples whether the new entity is the first or the second argument.", "quantifier": "all configurations reachable by calls of the setters, all pairs of surfaces of a network, all sets of them, all algorithms of OpenCASCADE whose distances are symmetric", "why_tests_cant": "Tests evaluate a few pairs in one order; the intersection algorithms are written for one order of the types and swap otherwise, and within the tolerance the algorithm for collinear segments returns the second of them, which shows only for ends closer than the tolerance.", "anchors": ["frackit/entitynetwork/constraints.hh: EntityNetworkConstraints::evaluate", "frackit/intersection/intersect.hh: intersect", "frackit/intersection/algorithms/algo_segment_segment.hh: intersect_segment_segment", "frackit/intersection/intersectionangle.hh: IntersectionAngle"]}
{"id": "C126", "title": "Fractures generated by the example programs keep the constraints as point sets", "statement": "The program of example 1 generates a network of fifteen quadrilaterals of each of two sets, that of example 2 twelve of each set. Every quadrilateral is made of the values drawn: it lies in a plane of the drawn orientation, and its bounding box is centred at the drawn point. Any two of them, in the sense of point sets, are at least 0.05 apart or meet in a point or segment; if they meet, the angle between their planes is at least 30 degrees (within a set) or 40 degrees (between the sets), the segment is no shorter than 0.05, and its ends are on the boundaries or at least 0.05 away from them, up to a tolerance of 2.5e-7. Example 3 generates twelve disks and sixteen quadrilaterals; any two of them are at least 2.5 apart (two quadrilaterals: 5) or meet at an angle of at least 25 degrees (a disk and a quadrilateral: 40 degrees) in a segment no shorter than 5 whose ends are on the boundaries or at least 2.5 away, up to 2e-7 of the largest size.", "quantifier": "all sequences of random numbers (sizes, orientations, centres, edges), all numbers of passes until the targets are reached, all orders in the hash map of the status, all geometry libraries that are exact for the line of intersection and its parts in the quadrilaterals, all pairs of quadrilaterals of the network without tiny edges and with corners in general position", "why_tests_cant": "The programs draw random numbers; a run shows one network, and the constraints are checked by the same code that generates it. That what is written out keeps them geometrically is a statement about the sampler, the shape and intersection algorithms, the constraints and the loop for all draws.", "anchors": ["appl/example1/example1.cc: main", "appl/example2/example2.cc: main", "appl/example3/example3.cc: main", "appl/example3/example3.py", "frackit/sampling/quadrilateralsampler.hh: QuadrilateralSampler", "frackit/entitynetwork/constraints.hh: EntityNetworkConstraints::evaluate", "frackit/intersection/algorithms/algo_quadrilateral_quadrilateral.hh"]}
{"id": "C127", "title": "The example programs draw random numbers from proper distributions", "statement": "All random distributions that the example programs create have parameters which the standard library allows (a positive standard deviation, a lower bound that is not above the upper one). For all values that these distributions can return, the samplers for quadrilaterals and polygons return a geometry: they never fail, the corners are in a plane of the drawn orientation, the size in strike and dip direction does not exceed the upper bound of the interval, the number of corners is in the requested range and the bounding box is centred at a point of the domain of the point sampler.", "quantifier": "all values that the distributions may return (any real number for normal distributions, any number of the interval for uniform ones), all sampler objects of the four examples in C++ and Python", "why_tests_cant": "A run of an example draws one sequence of random numbers; that a distribution is requested with parameters outside the allowed range has no visible effect with many standard libraries, and is undefined behaviour with all of them.", "anchors": ["appl/example1/example1.cc: quadSampler1, quadSampler2", "appl/example2/example2.cc: quadSampler1, quadSampler2", "appl/example3/example3.cc: diskSampler, quadSampler", "appl/example4/example4.cc: getSampler", "frackit/sampling/quadrilateralsampler.hh: QuadrilateralSampler", "frackit/sampling/polygonsampler.hh: PolygonSampler"]}
{"id": "C128", "title": "The example programs build and write their networks", "statement": "With a CAD kernel whose operations do not fail, none of the calls on the network builders in the four example programs fails, for any non-empty sets of faces the generation has produced and any domain solids (example 3: three different ones). The network of example 1 is not confined; those of examples 2 and 4 are confined to the domain; in example 3 the four networks are confined to the middle layer, to the union of the layers, to the middle layer, and not at all. In each case the written file can be read back, each part of an entity is in exactly one physical surface, physical surface k consists of parts of the k-th entity in the order of registration, and the physical volumes are the sub-domains (none for the networks without a domain). The networks of example 3 that are built after clear() use the tolerance of the build before.", "quantifier": "for all sets of entities, domains, CAD kernels without failures, traversal orders of the maps and file parameters", "why_tests_cant": "The example programs are run by hand with random input; the property concerns all outcomes of the generation and all traversal orders of the hash maps.", "anchors": ["appl/example1/example1.cc:main", "appl/example2/example2.cc:main", "appl/example3/example3.cc:main", "appl/example4/example4.cc:main", "frackit/entitynetwork/networkbuilder.hh:EntityNetworkBuilder::build", "frackit/entitynetwork/networkbuilder.hh:ContainedEntityNetworkBuilder::build", "frackit/io/gmshwriter.hh:GmshWriter::write"]}
{"id": "C129", "title": "Planes, lines and projections in double precision", "statement": "With IEEE double arithmetic (round to nearest), the projection of a point on a plane with a computed normal is the nearest point of the plane up to 2^-48 times the sum of the length of the point and its distance from the supporting point; Plane.contains with the default tolerance accepts points nearer than 0.99e-7 and rejects points further than 1.01e-7 away, up to 2^-50 times the distance from the supporting point; the plane through three points of a well shaped triangle contains its three points; and the projection of any point on a plane (a line) is contained in that plane (line) with the default tolerance.", "quantifier": "for all planes and lines with computed directions and all points with double coordinates", "why_tests_cant": "The errors depend on the magnitudes of all coordinates and on the shape of the triangle; tests with coordinates of ordinary size never meet the range in which the fixed tolerance of 1e-7 is smaller than the rounding errors.", "anchors": ["frackit/geometry/plane.hh: Plane::Plane(p1, p2, p3), Plane::projection, Plane::contains", "frackit/geometry/line.hh: Line::projection, Line::contains", "frackit/common/math.hh: crossProduct", "frackit/geometry/direction.hh: Direction::Direction"]}
{"id": "C130", "title": "Sampling status and ids in Python", "statement": "Used from Python, the sampling status behaves as in C++: after any sequence of method calls, getCount(Id(i)) is the number of increaseCounter(Id(i)) calls since the last reset, getCount() is their sum, finished() and finished(Id(i)) tell whether the targets are reached and do not raise for known ids. A call with arguments that do not fit (a number instead of an Id, a negative or floating point count, unnamed arguments passed by keyword, too many arguments) raises TypeError and changes nothing; integers from 0 to 2^64-1 and truth values are accepted as counts and ids. Two Ids are equal exactly if their numbers are, equal Ids have equal hash values, and an Id never equals its number.", "quantifier": "for all sequences of method calls with arbitrary arguments, all iteration orders of the maps", "why_tests_cant": "Tests call the methods with proper arguments a few times; that no sequence of calls, proper or not, leads to different counts needs an argument over all histories.", "anchors": ["frackit/python/sampling/status.hh:registerSamplingStatus", "frackit/python/common/id.hh:registerId", "frackit/sampling/status.hh:SamplingStatus", "frackit/common/id.hh:Id"]}
{"id": "C131", "title": "Constructors of geometries in Python", "statement": "Calling a geometry class of the Python module constructs the object that the C++ constructor with the documented parameters makes of the values, whether these are passed by position, by keyword in any order, or both; it raises the same exception as C++ for inadmissible values. A TypeError is raised exactly for the calls that are not documented, and no two documented forms of the constructor compete for the same call. In particular Box(xmin=.., ..) consists of the points between the six limits and raises an error if a lower limit exceeds the upper one, Cylinder(radius=r, height=h) stands on the origin along the third axis, and a plane made of unit directions has a unit normal vector.", "quantifier": "for all classes, argument lists and keyword arguments of any type, number and order", "why_tests_cant": "The calls form an unbounded family (splits into positional and keyword arguments, orders, types of values); tests use a few positional calls per class and cannot show that no other call is accepted or resolved to a different overload.", "anchors": ["frackit/python/geometry/segment.hh:registerSegment", "frackit/python/geometry/line.hh:registerLine", "frackit/python/geometry/ellipse.hh:registerEllipse", "frackit/python/geometry/ellipsearc.hh:registerEllipseArc", "frackit/python/geometry/circle.hh:registerCircle", "frackit/python/geometry/plane.hh:registerPlane", "frackit/python/geometry/triangle.hh:registerTriangle", "frackit/python/geometry/quadrilateral.hh:registerQuadrilateral", "frackit/python/geometry/polygon.hh:registerPolygon", "frackit/python/geometry/disk.hh:registerDisk", "frackit/python/geometry/cylindersurface.hh:registerCylinderSurface", "frackit/python/geometry/cylinder.hh:registerCylinder", "frackit/python/geometry/hollowcylinder.hh:registerHollowCylinder", "frackit/python/geometry/box.hh:registerBox", "frackit/python/geometry/sphere.hh:registerSphere"]}
{"id": "C132", "title": "Access to a built network by the ids of its sub-domains", "statement": "After any sequence of builder calls that ends with a successful build of a contained network, subDomainIds() lists each registered sub-domain exactly once; the fragments of a sub-domain, the fragments of its entities and the map of their indices can be accessed for each listed id, the entity data also for ids for which only entities were added; any other id raises an error. The dimensions of the network are those of the registered geometries, and that of the entities is smaller than that of the sub-domains.", "quantifier": "for all sequences of builder calls (including failing ones, clearing and earlier builds), all results of the CAD kernel and all traversal orders of the containers", "why_tests_cant": "Which ids have entries depends on every path through confinement and fragmentation, on what the CAD kernel returns and on shapes that are shared between sub-domains; tests build a few networks with distinct boxes.", "anchors": ["frackit/entitynetwork/containedentitynetwork.hh:ContainedEntityNetwork", "frackit/entitynetwork/containedentitynetworkinterface.hh:ContainedEntityNetworkInterface", "frackit/entitynetwork/networkbuilder.hh:ContainedEntityNetworkBuilder::build"]}
{"id": "C133", "title": "A built network stays as it was built", "statement": "The network returned by build() can be used and remains unchanged whatever is done with the builder afterwards: adding geometries, changing settings, clearing, building again. Right after a build, network() returns the same network.", "quantifier": "for all sequences of calls before and after the build, for both kinds of builders, in C++ (reference) and Python (copy)", "why_tests_cant": "Use of a destroyed network is undefined behaviour that usually goes unnoticed in a test; the claim ranges over all later calls.", "anchors": ["frackit/entitynetwork/networkbuilder.hh:EntityNetworkBuilder::build", "frackit/entitynetwork/networkbuilder.hh:ContainedEntityNetworkBuilder::build", "frackit/entitynetwork/networkbuilder.hh:EntityNetworkBuilder::network", "frackit/python/entitynetwork/networkbuilder.hh:registerEntityNetworkBuilders"]}
{"id": "C134", "title": "Accepted faces fulfil the constraints geometrically", "statement": "If the network constraints accept two plane faces (shapes of the geometry kernel, as the fractures of example 4 after cutting) and the boolean operations of the kernel are exact, then: faces without common points have at least the minimum distance; the angle between the planes of faces that meet is at least the minimum angle; and unless the planes are parallel, the common points are finitely many segments and points, each segment at least as long as the minimum magnitude, with ends that are on the outer wires (up to their default tolerances) or at least the minimum distance from them.", "quantifier": "for every configuration history, all pairs of plane faces (convex or not), all tolerances", "why_tests_cant": "Two non-convex faces can meet in any number of segments, and the acceptance combines a list of parts with five settings; tests cover single examples.", "anchors": ["frackit/entitynetwork/constraints.hh EntityNetworkConstraints::evaluate", "frackit/intersection/algorithms/algo_face_face_3d.hh intersect_face_face_3d", "frackit/intersection/intersectionangle.hh IntersectionAngle", "frackit/entitynetwork/constraints_impl/distancetoboundary.hh", "frackit/entitynetwork/constraints_impl/admissiblemagnitude.hh"]}
{"id": "C135", "title": "The angle between accepted faces is large enough wherever they meet", "statement": "If the network constraints with a minimum intersection angle accept two faces that meet, then the angle between the tangent planes is at least the minimum angle in all common points of the faces.", "quantifier": "for all pairs of smooth faces, all configuration histories with a minimum angle", "why_tests_cant": "The angle is evaluated in five points of an edge; a test with plane faces or with those points cannot tell.", "anchors": ["frackit/intersection/intersectionangle.hh IntersectionAngle", "frackit/entitynetwork/constraints.hh EntityNetworkConstraints::setMinIntersectingAngle"]}
{"id": "C136", "title": "Intersections of accepted faces end on the boundaries or keep their distance to them", "statement": "If the network constraints with a minimum distance of intersections to boundaries accept two plane faces, then each end of an intersection is on the boundary of each face (up to the tolerance), or at least the minimum distance from the boundary, where the boundary includes that of holes.", "quantifier": "for all pairs of plane faces, with and without holes, all configuration histories with a minimum distance to boundaries", "why_tests_cant": "Depends on the shape of the faces: the tests use faces without holes only, but faces cut by a tunnel have holes.", "anchors": ["frackit/distance/distancetoboundary.hh computeDistanceToBoundary", "frackit/distance/pointonboundary.hh pointOnGeometryBoundary", "frackit/entitynetwork/constraints_impl/distancetoboundary.hh"]}
{"id": "C137", "title": "The fractures of example 4 are parts of drawn polygons in the domain around the tunnel", "statement": "After example 4 has finished, its domain consists of the points of the ball and of the layer that are outside of the tunnel, and each fracture is the part of one drawn convex polygon in this domain, in one piece and with at least a quarter of its area. The fractures of the second and third set stem from polygons that have been drawn for a fracture of the set before and cross it, away from the corners of both. All pairs of fractures keep the minimum distances and angles of the example, as point sets, and each fracture meets tunnel wall and sphere or keeps a distance of 1 m from them. The reported area is the sum of the areas of the fractures.", "quantifier": "for all sequences of drawn polygons, all orders of the map of counts, all geometry kernels the boolean operations of which are exact", "why_tests_cant": "Example 4 has no test at all: its result depends on random numbers and on boolean operations on curved solids, and the statement is about all points of all fractures.", "anchors": ["appl/example4/example4.cc main", "appl/example4/example4.py", "frackit/occ/breputilities.hh cut, intersect, getSolids, getFaces", "frackit/entitynetwork/constraints.hh evaluate", "frackit/intersection/intersect.hh intersect"]}
{"id": "C138", "title": "Corners, edges and faces by index in Python", "statement": "In Python, corner(i), edge(i) and face(i) with i = 0, 1, ... up to the number of items return the corners that the geometry was constructed from (or, for boxes, spans), the sides of its boundary, and the sides of the box; the loops over numCorners(), numEdges() and numFaces() return all of them in their order. Every other number (negative, too large, a floating point number) and every other list of arguments raises an exception.", "quantifier": "all triangles, quadrilaterals, polygons and boxes, all Python numbers and argument lists", "why_tests_cant": "An index beyond the end reads memory behind the array: what happens depends on what is stored there, so that a test with a single wrong index can pass by accident.", "anchors": ["frackit/python/geometry/triangle.hh: registerTriangle", "frackit/python/geometry/quadrilateral.hh: registerQuadrilateral", "frackit/python/geometry/polygon.hh: registerPolygon", "frackit/python/geometry/box.hh: registerBox", "frackit/geometry/triangle.hh: Triangle::corner", "frackit/geometry/quadrilateral.hh: Quadrilateral::corner", "frackit/geometry/polygon.hh: Polygon::corner, Polygon::edge", "frackit/geometry/box.hh: Box::corner, Box::edge, Box::face"]}
{"id": "C139", "title": "The tolerance of contains(p, eps) is a distance", "statement": "For every geometry with a containment query, the tolerance eps passed to contains(p, eps) is a distance in the units of the coordinates: every point closer than eps to the geometry is contained, and every contained point is closer to the geometry than three times eps.  (Claimed for lines, planes, segments, boxes, circles, cylinder surfaces, spheres, cylinders, hollow cylinders, disks, ellipses, triangles, convex quadrilaterals and convex polygons.)", "quantifier": "all valid geometries of these types, all points and all positive tolerances", "why_tests_cant": "The relation is between a real tolerance and the infimum of distances over a continuum of points of the figure, for all sizes of the figure; single test points at single scales (tests use figures of size about one with the default tolerance) cannot show that the unit of the tolerance is a length, an area or a ratio.", "anchors": ["frackit/geometry/line.hh", "frackit/geometry/plane.hh", "frackit/geometry/segment.hh", "frackit/geometry/box.hh", "frackit/geometry/circle.hh", "frackit/geometry/cylindersurface.hh", "frackit/geometry/sphere.hh", "frackit/geometry/cylinder.hh", "frackit/geometry/hollowcylinder.hh", "frackit/geometry/disk.hh", "frackit/geometry/ellipse.hh", "frackit/geometry/triangle.hh", "frackit/geometry/quadrilateral.hh", "frackit/geometry/polygon.hh"]}
{"id": "C140", "title": "Arithmetic operators in Python", "statement": "In Python, `a + b`, `a - b`, `a * b` and `a / b` of points, vectors, directions and numbers have the value of the C++ operators wherever these are exposed, leave both operands unmodified, and raise an exception otherwise; `x += y`, `x -= y`, `x *= y`, `x /= y` give `x` the value of the expression where it exists, keep the class of `x`, and change other variables only if these refer to the same object, exactly when the object is modified in place.", "quantifier": "for all programs of assignments and operators, all values and dimensions, all sharing of objects between variables", "why_tests_cant": "Whether other variables change depends on the history of assignments in the program and on which of the methods the class happens to define; a test inspects a few variables after one program. The cases where an operator is missing and Python falls back to another one (and changes the class of the variable) are not visible in any test that only uses the operators in their common form.", "anchors": ["frackit/python/geometry/point.hh: registerPoint", "frackit/python/geometry/vector.hh: registerVector", "frackit/python/geometry/direction.hh: registerDirection", "frackit/geometry/point.hh: PointBase::operator+=", "frackit/geometry/vector.hh: VectorBase::operator*"]}
{"id": "C141", "title": "Points with rounded coordinates are contained", "statement": "If the coordinates of a point of a geometry are rounded to the nearest numbers of type double, contains(p) with the default tolerance accepts the rounded point, for geometries of a size of at least one and coordinates up to one million (a fracture network in metres, in a national coordinate system).", "quantifier": "for all geometries of each type with the given size and all of their points", "why_tests_cant": "Tests place geometries around the origin, where the rounding error is far below every tolerance. Whether the tolerance covers the rounding error at larger coordinates depends on how the tolerance enters the criterion (as a distance, as a difference of squares or as an area).", "anchors": ["frackit/geometry/sphere.hh: Sphere::contains", "frackit/geometry/cylinder.hh: Cylinder::contains", "frackit/geometry/hollowcylinder.hh: HollowCylinder::contains", "frackit/geometry/disk.hh: Disk::contains", "frackit/geometry/quadrilateral.hh: Quadrilateral::contains", "frackit/geometry/polygon.hh: Polygon::contains", "frackit/geometry/segment.hh: Segment::contains", "frackit/geometry/box.hh: Box::contains"]}
{"id": "C142", "title": "Text of points, vectors and directions", "statement": "The text written for a point, vector or direction (stream output in C++, the representation in Python) can be read back: the class, the dimension and the coordinates are recovered with a known error, and points of equal text are equal up to the default tolerance of the comparison of points.", "quantifier": "for all classes, dimensions and coordinates", "why_tests_cant": "Tests print a few points with short decimal coordinates; what is lost depends on the magnitude of the coordinates and on the rounding of the number formats.", "anchors": ["frackit/geometry/point.hh: operator<<", "frackit/geometry/vector.hh: operator<<", "frackit/geometry/direction.hh: operator<<", "frackit/python/geometry/point.hh: __repr__", "frackit/python/geometry/vector.hh: __repr__", "frackit/python/geometry/direction.hh: __repr__"]}
{"id": "C143", "title": "Shapes in files and the domain of example 3", "statement": "A shape written to a file is read from it again with the same parts, and calls that fail are reported: readShape raises an error if there is no such file or it cannot be read, write raises an error if the file cannot be opened. Example 3 works with the second of the three solids in its file and with all faces of its single shell, or it stops with a message; the script does the same as the program.", "quantifier": "for all contents of the file system, all shapes and all file names", "why_tests_cant": "The files and shapes are unbounded, and failures depend on the state of the file system; a test uses one file.", "anchors": ["frackit/occ/breputilities.hh: readShape, getSolids, getShells, getFaces", "frackit/python/occutilities/breputilities.hh: readShape, write, getBoundingBox", "appl/example3/example3.cc", "appl/example3/example3.py"]}
{"id": "C144", "title": "Samplers in Python return new objects and change none", "statement": "A call of the point sampler of a cylinder, of the disk sampler, of the quadrilateral sampler (as made in the deprecated way) or of the polygon sampler of the Python package works on its own objects although it uses the operators that modify their operand: the geometry it samples from, the points, disks and corners returned by earlier calls and every other object of the program keep their values; the returned point, disk or corners are new objects and have the values given by the drawn numbers; modifying one of them in place later on (`+=`, `*=`, `rotate`) changes neither another one nor any object that existed before, and modifying one of these does not change the returned ones. If the edges of a polygon do not close, the call raises the error of the sampler.", "quantifier": "every program that has run before the call, with any objects and any references to centres and axes it has asked for, all drawn numbers, any number of edges, every later modification", "why_tests_cant": "Tests call a sampler and look at the returned values; whether objects are shared depends on which functions of the bindings return references and on the history of the program", "anchors": ["python/frackit/sampling/__init__.py: CylinderPointSampler.__call__, DiskSampler.__call__, QuadrilateralSampler.__call__, PolygonSampler.sampleCorners", "frackit/python/geometry/ellipticalgeometry.hh: registerEllipticalGeometry", "frackit/python/geometry/cylinder.hh: bottomFace"]}
{"id": "C145", "title": "The headers can be used in programs of several source files", "statement": "A program may consist of any number of source files, each of which includes any headers of the library in any order, possibly several times. In each source file the content of a header is read exactly once if it is included directly or through other headers, and the program can be linked: no function of the library is defined by two of its object files.", "quantifier": "every program: any number of source files, any lists of included headers in any order", "why_tests_cant": "Each test and each example is a single source file, so a function that is defined without `inline` in a header never collides; the number of combinations of headers and files is unbounded.", "anchors": ["frackit/geometryutilities/name.hh: geometryName", "frackit/intersection/algorithms/algo_face_face_3d.hh: intersect_face_face_3D", "frackit/occ/breputilities.hh", "frackit/occ/geomutilities.hh", "frackit/occ/gputilities.hh"]}
{"id": "C146", "title": "Objects behind base class pointers are identified by their names", "statement": "The names of two geometry classes are equal only if the classes and the dimensions of their spaces are equal. Hence assign(pointer, target) copies the object and returns true exactly if it is of the type of the target, and returns false and leaves the target unchanged otherwise; an entity behind a pointer is added to the set of its own type; and the point sampler created in Python is that of the class of the argument.", "quantifier": "all classes, dimensions and coordinate types; all objects and targets; all sequences of attempts; all entity sets and lists of types", "why_tests_cant": "A test can try a few pairs of classes; that no two of all the names collide, for all dimensions, and that no combination of types leads to an invalid cast is a statement about all of them.", "anchors": ["frackit/geometryutilities/assign.hh: assign", "frackit/geometryutilities/name.hh: geometryName", "frackit/entitynetwork/multigeometryentityset.hh: addEntity", "frackit/geometry/*.hh: name", "python/frackit/sampling/__init__.py: makePointSampler"]}
{"id": "C147", "title": "Empty intersections are recognised for every coordinate type and by name", "statement": "An intersection result is recognised as empty exactly if all of its parts are empty intersections, whatever the coordinate type and the dimension; and the test of names used in Python scripts gives the same answer as the function of the C++ interface.", "quantifier": "all lists of results of all classes, dimensions and coordinate types", "why_tests_cant": "The tests only use coordinates of type double; the test of names in Python relies on no other name containing the word.", "anchors": ["frackit/intersection/emptyintersection.hh: isEmptyIntersection, IsEmptyIntersection", "appl/example4/example4.py"]}
{"id": "C148", "title": "Headers can be included in any order", "statement": "A source file that includes any headers of the library in any order can be compiled: each class or template whose name occurs in a header has been declared when the header is read. In particular each header can be included on its own, and exchanging include lines makes no difference.", "quantifier": "all lists of headers in all orders, including headers that include each other", "why_tests_cant": "The number of orders is unbounded, and each test fixes one; a missing include is hidden if the test happens to include another header before.", "anchors": ["frackit/geometryutilities/isplanar.hh: IsPlanarGeometry", "frackit/intersection/intersectionangle.hh", "frackit/geometry/dimension.hh: DimensionalityTraits", "frackit/common/math.hh", "frackit/geometry/vector.hh"]}
{"id": "C149", "title": "The Python modules can be imported in any order and every call returns objects of known classes", "statement": "The modules of the Python package can be imported at any time, in any order and repeatedly; the classes Python knows afterwards depend only on which modules were imported. After any sequence of imports and calls, a call of any function or method of an imported module with objects that fit its parameters (of the class of the parameter or of a derived class) never fails because the class of its result is unknown, also if the user has not imported the module that provides that class; other arguments are rejected with a TypeError. Every function of the package can be called with success in some program.", "quantifier": "for every sequence of imports and calls of functions of the package with objects created before, every function, every choice of fitting arguments and every possible result class", "why_tests_cant": "The failure depends on the set and order of the modules imported before the call and on the way the arguments were obtained; the test-suite imports each module in a fixed order in separate processes.", "anchors": ["python/frackit/geometry/_geometry.cc:PYBIND11_MODULE", "python/frackit/sampling/_sampling.cc:PYBIND11_MODULE", "python/frackit/entitynetwork/_entitynetwork.cc:PYBIND11_MODULE", "python/frackit/occutilities/__init__.py", "python/frackit/sampling/__init__.py", "frackit/python/sampling/boxpointsampler.hh:registerBoxPointSampler", "frackit/python/sampling/cylinderpointsampler.hh:registerCylinderPointSampler", "frackit/python/geometry/intersect.hh:registerIntersectionFunctions", "frackit/python/occutilities/breputilities.hh:registerBRepUtilities"]}
{"id": "C150", "title": "Distance of a point from a segment in double precision", "statement": "The distance that computeDistance returns for a point and a segment with double coordinates differs from the distance between the point and the closest point of the segment by no more than a small fraction of the length of the segment and the rounding of a distance (a relative error of about 1e-14 of the distance between the point and the segment's source), wherever the segment lies. For a segment whose two ends coincide it is the distance from that point, up to the rounding.", "quantifier": "for all points and segments, all positions of the foot of the perpendicular and all rounding errors of the operations on the way", "why_tests_cant": "The result depends on whether the rounded foot of the perpendicular is found on the segment; the cases where it is not are those with unfavourable rounding, which sample coordinates do not hit.", "anchors": ["frackit/distance/distance.hh: computeDistance", "frackit/geometry/segment.hh: Segment::contains, Segment::supportingLine", "frackit/geometry/line.hh: Line::projection"]}
{"id": "C151", "title": "Areas and corners of quadrilaterals in double precision", "statement": "The areas of triangles and quadrilaterals with double coordinates are those of the figures with these corners, up to a relative error of 2^-50 of the product of two sides, and a convex quadrilateral contains its corners with the default tolerance, whatever the ratio of its sides and diagonals.", "quantifier": "for all corners with double coordinates and all rounding errors of the operations on the way", "why_tests_cant": "Containment compares sums of areas that are computed from different pairs of sides; tests use rectangles whose areas are computed without rounding errors.", "anchors": ["frackit/geometry/triangle.hh: Triangle::Triangle, Triangle::area", "frackit/geometry/quadrilateral.hh: Quadrilateral::Quadrilateral, Quadrilateral::area, Quadrilateral::contains"]}
{"id": "C152", "title": "Circles and ellipses contain the points they compute in double precision", "statement": "With IEEE double arithmetic (round to nearest, correctly rounded sin and cos), a circle constructed from a centre, a computed normal direction and a positive radius has axes and a normal that are orthonormal up to 2^-49, and contains(p) with the default tolerance accepts the point p that getPointFromAngle (and getPoint) computes for any angle; the same holds for ellipses with orthonormal axes. A point that a circle contains is at a distance of one radius from the centre and on the plane of the circle, up to 1.01e-7 radii.", "quantifier": "for all centres, normals, radii, axis lengths and angles of type double", "why_tests_cant": "The roundings depend on centre, axes, lengths and angle at the same time; tests sample a few circles near the origin and cannot establish the error bound or the distance at which it exceeds the tolerance.", "anchors": ["frackit/geometry/circle.hh: Circle::contains, getPointFromAngle, getPoint, makeBaseGeometry_", "frackit/geometry/ellipse.hh: Ellipse::contains, getPointFromAngle, getPoint", "frackit/geometry/ellipticalgeometry.hh: EllipticalGeometry", "frackit/geometry/vector.hh: makeOrthogonalVector, crossProduct"]}
{"id": "C153", "title": "Rotations and sampled disks in double precision", "statement": "With IEEE double arithmetic (round to nearest, correctly rounded sin and cos, no overflow or underflow), rotate(v, axis, angle) about the direction of a nonzero vector returns the rotation of v about the exact direction of this vector up to 2^-46 times the length of v; lengths are kept up to 2^-46 and scalar products of two rotated vectors up to 2^-44 times the product of the lengths. A disk made from sampled centre, axis lengths and angles has this centre, the major length as sampled, a minor length that does not exceed it, axes within 2^-44 and a normal within 2^-43 of the basis vectors rotated about the x-, y- and z-axis, and passes the check of its constructor that the axes are orthogonal up to 1e-7.", "quantifier": "for all vectors, axes, angles, centres and axis lengths of type double", "why_tests_cant": "The bounds hold for every axis and angle at the same time and take the rounding of about forty operations into account; a test samples a few angles and compares with a tolerance that is chosen by hand.", "anchors": ["frackit/common/math.hh: rotate", "frackit/sampling/disksampler.hh: DiskSampler::operator()", "frackit/geometry/ellipticalgeometry.hh: EllipticalGeometry", "frackit/geometry/direction.hh: Direction"]}
{"id": "C154", "title": "Containment in disks in double precision", "statement": "With IEEE double arithmetic (round to nearest, no overflow or underflow), a disk contains with the default tolerance its centre and the points that its bounding ellipse computes for any angle. A point whose coordinates relative to the axes, divided by the axis lengths, have a sum of squares below one by a margin of 2^-48 (1 + distance from the centre / smallest axis length) is contained if it is on the plane up to 0.99e-7, and for a contained point this sum is at most one, up to 1.1e-14 and the same margin, and the point is on the plane up to 1.01e-7; area() is accurate up to 2^-51.", "quantifier": "for all disks with axes of unit length up to 2^-49 and all points that are at most 10^6 times the smallest axis length away from the centre", "why_tests_cant": "The tolerance for the sum of squares is the square of the tolerance for lengths, about ninety units of rounding; whether roundings exceed it depends on the position of the disk, which tests do not vary.", "anchors": ["frackit/geometry/disk.hh: Disk::contains, Disk::area", "frackit/geometry/ellipse.hh: Ellipse::getPointFromAngle", "frackit/precision/precision.hh: Precision::confusion"]}
{"id": "C155", "title": "Overflow and underflow of lengths, directions and distances", "statement": "For every vector of finite numbers of type double other than the null vector, `Direction(v)` is a unit vector up to rounding, and the distance of the origin to the point with these coordinates is its length up to rounding. (Holds for coordinates that are zero or of magnitude 2^-147 to 2^200; for these also scalar and cross products, areas of triangles and quadrilaterals, volumes of boxes, equality of points and containment in spheres are free of overflow and underflow. Fails at both ends of the range: from 2^512 directions are null vectors and distances infinite, below 2^-537 directions are NaN and distances of distinct points zero. Once infinite values occur, sums, products, quotients, roots and comparisons follow the rules of the extended real numbers, and undefined ones are NaN.)", "quantifier": "all vectors, points, radii and tolerances with finite coordinates of type double", "why_tests_cant": "Tests use coordinates close to one; overflow and underflow of intermediate squares appear for coordinates whose own magnitude is well within the range of double.", "anchors": ["frackit/geometry/vector.hh: VectorBase::squaredLength, VectorBase::length, operator*, operator/=", "frackit/geometry/direction.hh: Direction(const Vector&)", "frackit/distance/distance.hh: computeDistance(point, point)", "frackit/common/math.hh: crossProduct", "frackit/geometry/sphere.hh: Sphere::contains", "frackit/geometry/point.hh: PointBase::isEqual", "frackit/geometry/triangle.hh: Triangle::area", "frackit/geometry/quadrilateral.hh: Quadrilateral::area", "frackit/geometry/box.hh: Box::volume"]}
{"id": "C156", "title": "Sampled polygons in double precision", "statement": "In double precision, the corners returned by a polygon or quadrilateral sampler are the partial sums of the sampled edges, turned into the plane with the sampled strike and dip angle and moved by one vector, up to an error of (2^-45 + n 2^-52) times the total length of the edges plus 2^-52 times the distance of the sampled point from the origin; the corners therefore lie in one plane with that strike and dip up to twice this error (for n corners and lengths a, b: (2^-42 + n 2^-49)(a + b) + 2^-51 |c|), and the centre of their bounding box is the sampled point up to 2^-49 times the total length and the coordinate. The components of the edges in the direction of the dip and along the strike add up to zero, and the positive ones to between 0.8 times and once the sampled length, up to 2^-50 times the length. The assertion of debug builds that the polygon is closed decides with a tolerance of 1e-7 on the sum of the edges up to the same error, and holds for every polygon with at most 1000 corners and lengths with a sum of at most 1e5.", "quantifier": "for all values that the distributions return (interval values in [0, 1]), all points and all numbers of corners up to 2^20", "why_tests_cant": "The corners are computed by two rotations, a sum over all previous edges and a translation, each of which rounds; the error depends on all drawn values and grows with the number of corners, so that no set of samples bounds it.", "anchors": ["frackit/sampling/polygonsampler.hh: PolygonSampler::sampleCorners", "frackit/sampling/quadrilateralsampler.hh: QuadrilateralSampler::operator()", "frackit/common/math.hh: rotate", "frackit/geometry/point.hh: isEqual, operator+="]}
{"id": "C157", "title": "Cylinders in double precision", "statement": "In double precision, with the default tolerance, a cylinder contains the points that the point sampler made for it returns. A cylinder whose bottom centre is at most 1e6 times as far from the origin as the cylinder is wide and high, and which is neither more than 1000 times wider than high nor the other way round, contains all points of the exact cylinder around its axis up to 1 - 1e-8 of its radius, and points that it contains are at most 1e-8 of the radius outside of its lateral surface and at most 1e-7 times radius plus height above its top or below its bottom.", "quantifier": "for all cylinders and points with coordinates of type double, and all numbers drawn by the random number generator", "why_tests_cant": "The test projects the point on a computed axis, tests the rounded projection against a segment and compares squares; whether rounding matters depends on the distance from the origin, the proportions and the position of the point, and sampled points fail the test with a probability too small to be seen.", "anchors": ["frackit/geometry/cylinder.hh: Cylinder::contains, Cylinder::centerSegment, Cylinder::makeTopDisk_", "frackit/sampling/cylinderpointsampler.hh: CylinderPointSampler::operator()", "frackit/sampling/makepointsampler.hh: makePointSampler", "frackit/geometry/segment.hh: Segment::contains"]}
{"id": "C158", "title": "Distance to the boundary of quadrilaterals and polygons in double precision", "statement": "In double precision, computeDistanceToBoundary of a point and a quadrilateral or polygon differs from the distance to the nearest point of the boundary by at most 2e-6 times the length of the longest edge plus 2^-47 times the distance of the farthest corner. pointOnGeometryBoundary with a tolerance accepts all points that are nearer to the boundary than the tolerance by more than this amount, and rejects all points that are farther away than the tolerance by more than this amount.", "quantifier": "all points, all quadrilaterals and polygons (convex or not, with any number of corners) with edges not shorter than 1e-7 times the distance of their ends from the origin, all tolerances", "why_tests_cant": "Quantifies over all roundings of all operations for all inputs; tests can compare a few values.", "anchors": ["frackit/distance/distancetoboundary.hh: computeDistanceToBoundary", "frackit/distance/pointonboundary.hh: pointOnGeometryBoundary", "frackit/distance/distance.hh: computeDistance"]}
{"id": "C159", "title": "Cylinder surfaces in double precision", "statement": "In double precision, CylinderSurface::contains(p) with the default tolerance returns true for all points of the lateral surface around the axis between the centres of the two bounding circles, also after rounding their coordinates, and for all points whose distance from the axis differs from the radius by at most 3e-8 times radius plus height. Points for which it returns true are within 6e-8 times radius plus height of the radius and exceed the height by at most 1e-7 times radius plus height. area() has a relative error of at most 2^-50, and the normal of getTangentPlane(p) differs from the exact one by at most 1e-8 for all points near the surface.", "quantifier": "all points, all cylinder surfaces with proportions up to 1000 whose centre is at most 1e6 times as far from the origin as they are wide and high", "why_tests_cant": "The test projects the point on a computed axis, tests the rounded projection against a segment and compares rounded lengths; a test can only try some of the points and surfaces, and rounding errors depend on all of the bits.", "anchors": ["frackit/geometry/cylindersurface.hh: CylinderSurface::contains, CylinderSurface::area, CylinderSurface::getTangentPlane, CylinderSurface::centerSegment, CylinderSurface::makeTopCircle_", "frackit/geometry/segment.hh: Segment::contains", "frackit/geometry/line.hh: Line::projection"]}
{"id": "C160", "title": "Hollow cylinders in double precision", "statement": "In double precision, points sampled in a hollow cylinder are contained in it with the default tolerance of HollowCylinder::contains. All points of the hollow cylinder whose distance from the lateral faces exceeds 1e-8 times the outer radius are contained, and contained points are at most 1e-8 times the outer radius beyond the lateral faces (beyond the inner face if the inner radius is at least a tenth of the outer one and the height at most ten times the outer radius, otherwise 6e-5 times the outer radius) and at most 1e-7 times outer radius plus height beyond top and bottom. volume() is not negative and has an error of at most 2^-50 of the volume of the full cylinder.", "quantifier": "all points and random numbers, all hollow cylinders with proportions up to 1000 whose centre is at most 1e6 times as far from the origin as they are wide and high", "why_tests_cant": "The test compares rounded squares of distances from a rounded projection with two radii; the points that distinguish a correct from a wrong tolerance are in layers of 1e-8 of the size that random tests do not hit.", "anchors": ["frackit/geometry/hollowcylinder.hh: HollowCylinder::contains, HollowCylinder::volume, HollowCylinder::centerSegment", "frackit/sampling/makepointsampler.hh: makePointSampler", "frackit/sampling/cylinderpointsampler.hh: CylinderPointSampler::operator()"]}
{"id": "C161", "title": "Angles with cylinder surfaces in double precision", "statement": "In double precision, the angle that IntersectionAngle returns for a planar geometry and a cylinder surface that intersect in a point or a segment differs from the angle between the plane and the tangent plane of the surface by at most 1.1e-7; only for angles below 1.1e-7 it may be NaN. Hence the constraint on the minimum intersection angle is decided correctly for all angles of at least 1.1e-7 that differ from the minimum by more than 1.1e-7. For intersections in arcs and ellipses the result is the smallest of the angles at the sample points up to 1.1e-7, where sample points with an angle below 1.1e-7 may be ignored.", "quantifier": "all planar geometries with normals computed from vectors, all points near the surface (within a thousandth of radius and height), all lists of sample points, all cylinder surfaces with proportions up to 1000 whose centre is at most 1e6 times as far from the origin as they are wide and high", "why_tests_cant": "The normal of the surface is computed from a rounded projection and the arccosine is ill-conditioned for small angles; tests compare a few angles with a tolerance.", "anchors": ["frackit/intersection/intersectionangle.hh: IntersectionAngle::operator()", "frackit/geometry/cylindersurface.hh: CylinderSurface::getTangentPlane", "frackit/entitynetwork/constraints.hh: EntityNetworkConstraints::evaluate_"]}
{"id": "C162", "title": "Volumes and centres hold up in double precision", "statement": "With the roundings of double arithmetic (no overflow or underflow): the volumes of a sphere and of a cylinder have a relative error of at most 2^-50. Each coordinate of the centre of a triangle is within 2^-50 M of the mean of the coordinates of its corners, where M bounds the coordinates in modulus. The area of a polygon with n corners is within (n + 11) 2^-52 P of the sum of the areas of the triangles between its first corner and the opposite edges, where P is the sum of the products of their sides at the first corner. If their total area Q is at least (n + 11) 2^-51 P, the centre of the polygon is defined and each coordinate is within (n + 11) 2^-51 M P/Q of the centroid of these triangles. The same holds with 15 in place of n + 11 for quadrilaterals, with the triangles on both sides of the diagonal from the first to the last corner.", "quantifier": "all radii and heights that are not negative, all triangles and quadrilaterals, and all polygons with any number of corners", "why_tests_cant": "The rounding errors accumulate over any number of triangles and depend on every corner; tests compare a few sums with tolerances.", "anchors": ["frackit/geometry/sphere.hh: volume", "frackit/geometry/cylinder.hh: volume", "frackit/geometry/triangle.hh: Triangle(p1, p2, p3)", "frackit/geometry/quadrilateral.hh: Quadrilateral(p0, p1, p2, p3)", "frackit/geometry/polygon.hh: Polygon(corners)", "frackit/geometry/triangulation.hh: triangulate"]}
{"id": "C163", "title": "Polygons contain their corners in double precision", "statement": "With the roundings of double arithmetic (no overflow or underflow), a convex polygon contains its corners with the default tolerance. For any tolerance, a polygon with n corners that is found to be convex contains the points on its plane for which the areas of the triangles between the point and the edges add up to the area of the polygon up to eps^2 (1 - 2^-52) - E, and the areas add up to eps^2 (1 + 2^-52) + E for all points it contains, where E is (n + 8) 2^-52 times the sum of the products of two sides of all triangles; the same holds for triangles with n = 3. (The claim on the default tolerance fails: 1e-7 times the distance between the first corner and the centre is so small for a flat triangle with the first corner close to the middle of the opposite edge that its square is below the rounding errors of the areas.)", "quantifier": "all corners, numbers of corners, points and tolerances", "why_tests_cant": "Containment hinges on whether sums of rounded areas differ by less than a squared tolerance of about 1e-14; tests with simple coordinates have no rounding errors at all.", "anchors": ["frackit/geometry/polygon.hh: contains, convexContains", "frackit/geometry/triangle.hh: contains", "frackit/precision/precision.hh: confusion"]}
{"id": "C164", "title": "Convexity is decided correctly in double precision", "statement": "With the roundings of double arithmetic (no overflow or underflow), a polygon with any number of corners whose consecutive corners differ is found to be convex if all turns between consecutive edges have the direction of the turn at the first corner with a product of sines of at least 2^-47, and it is found not to be convex if one of the turns that are checked has the opposite direction with a product of sines below -2^-47. The same holds for quadrilaterals, where the products of the cross products of the edges are compared with 2^-48 times the lengths of the edges. Within the margin, that is for corners that are almost straight, both answers are possible.", "quantifier": "all polygons and quadrilaterals without edges of zero length, planar or not", "why_tests_cant": "The decision depends on the sign of rounded triple products at every corner; tests use a few polygons with angles far from straight.", "anchors": ["frackit/geometry/polygon.hh: isConvex, determineConvexity_", "frackit/geometry/quadrilateral.hh: isConvex, determineConvexity_", "frackit/geometry/segment.hh: direction", "frackit/common/math.hh: crossProduct"]}
{"id": "C165", "title": "Angles on ellipses and points on arcs are accurate in double precision", "statement": "With the roundings of double arithmetic (no overflow or underflow), the angle that an ellipse computes for a point lies between 0 and the computed number 2\u03c0, and if the ellipse contains the point with its default tolerance, the point of the ellipse with that angle has the coordinates of the given point along both axes, up to 1.1e-7 times the axis length and 2^-50 times the distance of the point from the centre. The angles of a constructed ellipse arc lie between 0 and 2\u03c0 as well, and they are the ones of its source and its target (for full ellipses the second one is the first one or 2\u03c0). For points that the ellipse does not contain, the angle, the parameter and the construction of an arc raise an exception and arcs do not contain the point; the parameter of other points lies in [0, 1] and is the angle divided by 2\u03c0 up to 2^-48. An arc contains all points on the ellipse whose computed angle lies between the two angles, from the source in the direction of the minor axis, and only points whose angle exceeds them by at most the tolerance and 2^-50. The arc contains its source, and its target unless it is a full ellipse, with every tolerance for which the ellipse contains the point, whatever the rounding errors are, and always if the check of the ellipse is switched off. The point of the arc for a parameter t in [0, 1] is, up to 2^-47 times the sum of the axis lengths and the distance of the centre from the origin, the point of the ellipse whose angle divides the angle from the source to the target in the ratio t; in particular the parameters 0 and 1 give the points with the angles of the source and the target, and, unless the arc is a full ellipse, their coordinates along the axes are those of the source and the target up to 1.1e-7 times the axis length and rounding errors (the statement on the parameter 0 holds for full ellipses as well).", "quantifier": "all ellipses with nonnegative axis lengths and directions of unit length up to 2^-49, all pairs of points for which an arc can be constructed, all tolerances and all parameters in [0, 1]", "why_tests_cant": "The angles are computed by quadrants with several roundings in each, and an angle beyond 2\u03c0 or a comparison that fails in the last bit at an end would occur for particular points only; a test samples finitely many of them.", "anchors": ["frackit/geometry/ellipsearc.hh: EllipseArc::EllipseArc, contains, getPoint", "frackit/geometry/ellipse.hh: Ellipse::getAngle, getPointFromAngle"]}
