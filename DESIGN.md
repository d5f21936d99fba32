# Formal model of frackit

A Lean 4 model of the C++ library, its Python layer and its example programs in `/repo`, with proofs of the
properties listed in `properties.jsonl`.  This file records what is trusted, what is modelled, how
each property is stated and proved, and where the code disagrees with what a user relies on.

## Trusted base

* The Lean 4.33.0 kernel, and Mathlib for real analysis and measure theory.  `#print axioms` of every theorem
  listed in `MANIFEST.json` shows at most the three standard axioms `propext`, `Classical.choice`, `Quot.sound`.
  There are no own axioms, no `sorry`, no `native_decide`, no `bv_decide`.
* The model is a hand translation of the source text.  Every definition cites the file and lines it
  models and says where it simplifies.  The translation itself is trusted; the code was never built or run.
* **Floating point**: except in the modules under `Verif/Model/Float`, the template parameter `CT`/`ctype` is the field
  of real numbers.  `std::signbit(x)` is modelled as `x < 0` (there is no negative zero).  Statements about
  tolerances are therefore statements about exact arithmetic.  `Verif/Model/Float` models vectors, directions, angles,
  boxes, planes, lines, segments, quadrilaterals, circles, ellipses, disks, cylinders, cylinder surfaces, hollow
  cylinders, rotations, several samplers and the distance to boundaries once more with the arithmetic of `double`: round to nearest, ties to even, with a significand of 53 bits.  There, exponents are unbounded
  (neither overflow nor underflow; C155 shows for the basic vector operations that there is none for coordinates of
  moderate magnitude), operations are rounded one by one (no fused multiply-add), and `std::acos`,
  `std::sin` and `std::cos` are correctly rounded.
* **Integers**: `std::size_t` is a natural number without upper bound.  The exceptions are places where the
  bound matters for a claim: the `int` accumulator of `SamplingStatus::getCount()` (C32) and the unsigned padding
  widths of `SamplingStatus::print()` (C67).
* **OpenCASCADE is not modelled**: boolean operations, distance queries, bounding boxes and shape
  identity are parameters (oracles) of the model.  Where a theorem needs something of them, it is an
  explicit hypothesis (see "Assumptions on the geometry kernel").  `Verif/Model/Occ` is an exception: for C92-C94 a
  shape is a tree of sub-shapes as documented for OpenCASCADE.  There, `TopExp_Explorer` lists occurrences in depth-first
  order, a location is a translation, and `BRep_Builder::Add` refuses shapes that are not free and changes the one
  shared list of sub-shapes.
* **Random numbers** are arbitrary values/streams of draws: a theorem quantifies over every draw the
  distribution may return (for interval distributions: every value in the interval).  C91 makes a statement about
  chances; it takes the draws as independent and uniformly distributed.
* `unordered_map` iteration order is an arbitrary permutation of the keys.
* Assertions (`assert`) are taken as compiled out (release build).
* Undefined behaviour and exceptions are distinct results in the model (`Outcome`): `val`, `thrown`,
  `nan` (a coordinate became NaN by 0/0) and `ub`.  Template instantiations that do not compile are shown as `ub`
  with a comment.
* Functions returning `bool` are propositions (geometry) or `Outcome Bool` (constraints).  Calls that change an
  object return the outcome together with the new state, so that the state after an exception is visible.

## Assumptions on the geometry kernel

Each is a structure or definition in a property file, is a hypothesis of the theorems that need it, and is shown to be
satisfiable by an `example` with a concrete kernel.

* `Faithful K` (Props/Shapes): shapes built from a geometry occupy its points; the distance of two shapes is the
  infimum of the distances of their points; an ellipse trimmed at two different parameters is the curve between them,
  and trimming at equal parameters is an error.  Used for C72-C78 and C95-C97.
* pybind11 (Model/Python/Classes): of several functions registered under one name the first is called that accepts the
  arguments, and an object is accepted as an instance of its class and of the registered base classes.  Used for C85,
  C96, C97.  The functions are tried a second time with conversions of numbers allowed (Model/Python/Contains):
  integers are then accepted as `double` and as `bool`.  Used for C98.
* `NeverFails K` (Props/Shapes): the distance computation of the kernel terminates successfully.
* `BoundsContain K` (Props/Intersect): the bounding box of a bounded shape contains the shape.  Used for C77.
* `ExactFaces`, `ExactEdges` (Props/Contained): the common part of two shapes is returned in pieces that overlap in,
  and leave out, only sets of measure zero; the measure of a single piece is exact.  Used for C78.
* `ExactLine`, `ExactPair` (Props/PlanarPlanar): the intersection of two planes is their common line; the common part of
  a segment and a planar face is exact.  Used for C50.
* `ExactPlaneLine` (Props/CylinderPlane): intersection of a plane and a line.  Used for C52.
* `ExactFragments` (Props/SegmentSegment): two crossing segments are split at the common point.  Used for C59.
* `ExactSurface` (Props/Angle): the parametrisation of a surface and its derivatives are consistent.  Used for C58.
* `ExactBoolean` (Props/Boolean): each single boolean operation returns a shape whose points are the result of the set
  operation up to a set of volume zero.  Used for C95.
* Gmsh (Spec/GeoFile): strings end at the next quotation mark, relative paths of Merge commands are resolved against the
  directory of the file, tags of physical groups are strictly positive.  `operator<<` writes a `double` with six
  significant digits, rounded to nearest (Model/IO/GeoText).  Files are written completely or not at all.  Used for
  C99-C103.
* `SortsBy` (Model/Sampling/PolygonSampler): `std::sort` returns a permutation sorted by the key (order of equal keys
  arbitrary).  Used for C27.

## Layout

`lean/Verif/Core` outcome monad and vectors; `lean/Verif/Model` the model, following the directory
structure of `/repo`; `lean/Verif/Spec` specifications written without the model's helpers;
`lean/Verif/Lemmas` auxiliary lemmas; `lean/Verif/Props` the property theorems with `example`s.
`seeded/LOG.jsonl` records the wrong programs against which the theorems were tested.

Where the code violates a property, the file contains the full claim (`def Cxx_full : Prop`), its negation for the
modelled code (`theorem Cxx_disproof : ¬ Cxx_full`) with a concrete witness, and theorems with the suffix `_partial`
stating what does hold.

## Properties: plan and result

* **C01 Rotation is a rigid motion about the axis.** Model: `rotate` line by line (Rodrigues matrix), list overload as `List.map` of the shared matrix. Proof: polynomial identities with `cos²+sin²=1` and the unit axis; composition with the angle-sum formulas. **Proved.** Rodrigues rotation over the reals; list overload included.
* **C02 Directions are unit vectors.** Model: constructor returns an `Outcome`; division by a zero length is the `nan` outcome. Proof: `sqrt` algebra. **Proved.** Constructor of 3d directions; zero vector is the nan outcome.
* **C03 Planes carry a right-handed orthonormal basis.** Model: plane constructors with `makeOrthogonalVector` branch by branch. Proof: case split on the branch, polynomial identities. **Proved.** Both constructors, collinear points give the nan outcome.
* **C04 Parallelism does not depend on the sense of the vectors.** Code disagrees (line 134 of vector.hh compares the tolerance with pi instead of the angle). Disproof with a witness, plus `_partial` theorem for what the code does decide. **Partial.** Violated by the code: anti-parallel vectors are never detected (C04_disproof). Partial theorems state what the test decides.
* **C05 Bounding-box pre-check never discards touching geometries.** Model: `intervalsOverlap`, `doIntersect`. Proof: linear arithmetic; spec is a common point of two boxes. **Proved.** Exact arithmetic; needs a positive tolerance, the zero-tolerance case is shown to fail.
* **C06 Bounding-box pre-check is symmetric.** Code disagrees for boxes degenerate in one direction. Disproof with a witness, `_partial` for boxes thicker than the tolerance. **Partial.** Violated by the code for boxes of zero extent (C06_disproof); proved for boxes of positive extent.
* **C07 Projections return the nearest point.** Model: `Plane::projection`, `Line::projection`. Proof: Pythagoras for all points of the set. **Proved.** Planes, lines, and projection of lines onto planes.
* **C08 Segment containment is exact up to the tolerance.** Model: `Segment::contains` with sign bits. Spec: the set of convex combinations of the end points. **Proved.** Exact characterisation for every non-degenerate segment; degenerate segments contain nothing.
* **C09 Ellipse and circle parametrisation stays on the curve.** Model: `Circle`, `Ellipse` parametrisation. Spec: the locus in local coordinates. **Proved.** Every ellipse/circle with orthonormal axes and positive lengths.
* **C10 Ellipse angle query inverts the parametrisation.** Model: `Ellipse::getAngle` including tolerance windows and quadrant cases. Proof: `arctan` identities per quadrant. **Proved.** Exact outside the tolerance windows around the axes; inside them the returned point differs by at most the tolerance.
* **C11 Points produced from an ellipse arc are on the arc.** Code disagrees for full-ellipse arcs that do not start on the major axis. Disproof and `_partial`. **Partial.** Violated by the code for full ellipses not starting at angle zero (C11_disproof) and for distinct end points in the same tolerance window of an axis (C11_short_arc_disproof); proved whenever source and target angle differ.
* **C12 Points produced from a disk are on the disk.** Code disagrees (the scaled radius vector is added to the boundary point instead of the centre). Disproof and `_partial`. **Partial.** Violated by the code: for every r > 0 the point is outside of the disk (C12_outside, C12_disproof). The exact point is given, and containment on disks is characterised.
* **C13 Box topology and containment are consistent.** Model: `Box`. Index functions on `Nat` with a thrown outcome. Proof: case analysis, linear arithmetic. **Proved.** Corners, edges, faces, containment.
* **C14 Points sampled within a cylinder are in the cylinder.** Model: `Cylinder::contains`, `makePointSampler`, `CylinderPointSampler` with draws as universally quantified values. **Proved.** Any cylinder of positive radius and height; also the sampler covers the cylinder; box sampler included.
* **C15 Hollow cylinder is the shell between two cylinders.** Model: `HollowCylinder`. As C14. **Proved.** Any hollow cylinder with 0 <= inner <= outer, positive outer radius and height.
* **C16 Python point samplers stay in the domain.** Code disagrees (radius interval not squared). Disproofs for both geometries and `_partial`. **Partial.** Violated by the Python code, which requests [0, r] instead of [0, r*r] for the squared radius (C16_cylinder_disproof, C16_hollow_disproof); the radii for which the points stay inside are characterised.
* **C17 Triangle containment with the default tolerance is defined.** Code has undefined behaviour: `corner(3)` of a three-element array. `ub` outcome, proved to be the result for every input. **Partial.** Violated by the code: the default-tolerance overload reads corner(3) of a three-element array, undefined behaviour for every input (C17_default_contains_is_ub, C17_disproof). Corner/edge access is proved.
* **C18 Area-based containment accepts exactly the figure.** Model: area criteria. Spec: barycentric combinations. Proof: areas as norms of cross products. **Proved.** Triangles and convex quadrilaterals with a proper first corner; also shows that a concave quadrilateral stores a wrong area.
* **C19 Quadrilateral convexity flag is correct.** Model: `determineConvexity_`. Spec: in-plane 2d turning signs. **Proved.** Any plane, either orientation; requires a proper first corner (C19_flag_iff_convex) or four proper corners.
* **C20 Polygon convexity flag is correct.** Code disagrees (corner 1 is not inspected). Disproof with a polygon; `_partial` for the inspected corners. **Partial.** Violated by the code: corner 1 is never checked (C20_disproof with a dart; C20_wrong_area). Partial theorems state exactly what the flag decides; convex polygons are always flagged convex.
* **C21 Polygon triangulation, area and centre.** Model: constructor and `triangulate` over lists; induction over the corner list. **Proved.** Any number of corners.
* **C22 Polygon containment accepts all points of the polygon.** Model: `contains`/`convexContains_`; induction over the corner list. **Partial.** Violated by the code if the first three corners are collinear (C22_disproof); proved for any number of corners otherwise.
* **C23 Magnitudes agree with geometry.** Model: magnitude functions. Spec: Lebesgue measure in local coordinates, curve integrals. Proof: disks by the measure of the ball and a linear map; convex polygons by the fan of triangles covering the hull without overlap. **Proved.** Lebesgue measure of the (planar) regions in local coordinates (for quadrilaterals and polygons: of the convex hull of the corners), integrals for curves and the cylinder surface.
* **C24 Point-line and point-segment distances are exact.** Model: `computeDistance` overloads. Spec: infimum over the set. **Proved.** All points, lines, segments and lists.
* **C25 Distance to the boundary of polygons and quadrilaterals.** Model: boundary distance folds; spec: membership in edge list and lower bound. **Proved.** All quadrilaterals and polygons, any number of corners.
* **C26 Sampled disks are valid.** Model: `DiskSampler::operator()` over streams of draws. **Proved.** All draws; termination as soon as the streams contain admissible values.
* **C27 Sampled polygons are closed, planar and have the sampled position and corner count.** Model: `sampleCorners` with draws and pairing as oracle values; list permutations for the pairing and the sort. **Partial.** Structure, plane, position and size proved for all draws (C++) and for the Python implementation. Convexity violated for edge components below 1e-6, which the angular sort takes for zero (C27_disproof); proved if there are none.
* **C28 Polygon sampler rejects negative dimensions.** Code disagrees (dip loop checks the wrong counter). Disproof and `_partial`. **Partial.** Violated by the code: the dip length is not checked (C28_disproof) and the 100th number of corners is refused (C28_hundredth_try); the Python loops never end or never redraw (C28_python_*). C28_error_partial gives the exact condition for errors.
* **C29 Deprecated quadrilateral sampler terminates.** Code disagrees (C++ loop re-tests a value that is never redrawn). Model loops with streams and fuel-free relational semantics; disproof and positive theorem for Python. **Partial.** Violated by the C++ code (C29_disproof): rejected draws are never replaced. Proved for the Python implementation.
* **C30 Sampling status counters reflect the history.** Model: `SamplingStatus` as a state machine; invariant by induction over call histories. **Proved.** Every history; finished() for every iteration order of the map. Single-counter resets and queries of unknown ids are treated in C31.
* **C31 Querying the sampling status has no side effects and does not fail.** Code disagrees (`operator[]` inserts). Disproof and `_partial`. **Partial.** Violated by the code: getCount(id) and resetCounter(id) insert unknown ids without target, after which finished() throws (C31_disproof). Proved for known ids.
* **C32 Overall sample count is the sum of the counts.** Code disagrees at 2^31 (accumulation in `int`). Overflow is `ub`/wrap outcome; `_partial` below the bound. **Partial.** Violated by the code from 2^31 samples on (C32_disproof): the accumulator is an int. Exact value given by C32_value; right below 2^31.
* **C33 Sequential strategy is a fair round robin.** Model: index state machine; induction over calls. **Proved.** Every history of registrations and calls.
* **C34 Multi-geometry sampler reports the id of the sampler it used.** Model: registration maps as association lists; invariant. **Proved.** Every strategy and every history of registrations and calls; C34_exchange_loses_ids shows what setSamplingStrategy does to earlier registrations.
* **C35 Constraint evaluation decides exactly the configured constraints.** Model: `evaluate` with the geometric computations as an oracle record; spec as a stand-alone proposition. **Partial.** Violated by the code (C35_disproof, C35_nan_accepted): a computed angle that is NaN is accepted for every minimum angle (angles of tangent planes in double precision can be NaN, see C86). Proved: the exact decision for any intersection, angle, distance and magnitude functions (engine parameter) and every history of setters, where NaN angles count as large enough (C35_accepts_exact), hence the claim if no value is NaN (C35_accepts_iff_partial); NaN distances and magnitudes are rejected (C35_nan_rejected). With no constraint configured everything is accepted (C35_inactive). C35_equidimensional_throws records the one combination that throws.
* **C36 Equi-dimensional intersections are prohibited by default.** Code disagrees for the default object (early exit). Disproof and `_partial`. **Partial.** Violated by the code if no constraint is configured (C36_disproof); proved whenever at least one is.
* **C37 Constraint evaluation on sets is the conjunction over pairs.** Model: `all_of` as short-circuit fold over outcomes; induction. **Proved.** All sets; the pairs are evaluated with the element of the set as first argument.
* **C38 Constraints matrix applies all constraints of a set.** Model: `EntityNetworkConstraintsMatrix` state machine; induction over histories. **Proved.** Every history of registrations (including failing ones) and every content of the entity sets.
* **C39 Constraints matrix is symmetric in the id pair.** Code disagrees (index map keyed by the first id). Disproof and characterisation. **Partial.** Violated by the code (C39_disproof, C39_second_id_throws): constraints are stored under the first id only. Proved for pairs registered in both orders.
* **C40 Python constraints matrix applies all constraints of a set.** Code disagrees (iterates row keys). Disproof and `_partial`. **Partial.** Violated by the code (C40_disproof): only ids that occur as first id are visited. C40_accepts_iff gives the exact behaviour; rejections are always justified.
* **C41 Python constraint evaluation accepts lists on either side.** Code disagrees (inner helper refers to the outer argument). Disproof and `_partial`. **Partial.** Violated by the code (C41_disproof, C41_throws): evalList refers to the wrong variable. Proved for a geometry as second argument.
* **C42 Entity sets keep what was added.** Model: `MultiGeometryEntitySet` state machine; induction over histories. **Proved.** Every history over any number of geometry types and ids, every traversal order of the map.
* **C43 Network builder accepts only consistent sub-domains.** Model: registration part of the builder; invariant by induction. **Partial.** Every history: registrations stay consistent and offending calls change nothing (C43_consistent, C43_refuses). Violated in one respect (C43_disproof): a geometry without shape (Triangle, HollowCylinder) throws but leaves the dimension set, so that later consistent calls are refused; acceptance proved for supported geometries.
* **C44 Fragments map to the entity they stem from.** Model: `confineNetworks_`/`fragment_` with the boolean operations as oracle; induction over entity lists. **Partial.** Every history, traversal order and behaviour of the CAD kernel, for shape objects not shared between sub-domains. Violated by the code for shared shape objects (C44_disproof). The internal index errors never occur (C44_build_succeeds).
* **C45 Entities of different sub-domains stay distinguishable in a merged network.** Code disagrees (offset by the number of fragments). Disproof and `_partial`. **Partial.** Violated by the code if entities are lost by confinement (C45_collision for both traversal orders, C45_disproof); proved if every entity keeps a fragment of its own.
* **C46 Building is a function of the registered data.** Model: builder life cycle; code disagrees for the tolerance after `clear()`. Disproof and `_partial`. **Partial.** Violated by the code (C46_disproof): clear() keeps the default tolerance of an earlier build. C46_tolerance_kept: the first build fixes the tolerance of all later ones, whatever is registered and cleared in between. Proved with explicitly set tolerance or without earlier builds; access to the network proved for every history.
* **C47 Exported BRep compound contains each sub-shape once.** Model: `BRepWriter` maps as ordered duplicate-free lists; induction. **Proved.** Every network, topology of shapes (as explored by OpenCASCADE) and order of sub-domains.
* **C48 Each intersection edge is exported once.** Model: `findEntityIntersectionShapes_` double loop; induction. **Partial.** Violated by the code (C48_disproof): an edge that is added to the compound through the domain boundary in the other orientation is not exported. Proved: listed edges are shared, none is listed twice, complete up to orientation; full claim for uncontained networks of forward fragments (C48_forward).
* **C49 Gmsh export lists every fragment in one physical group.** Model: `GmshWriter::write` as generated list of groups. **Proved.** Every network and every traversal order of the maps.
* **C50 Intersections lie on both geometries.** Model: case distinction with exact oracles for the line intersections; code disagrees for point/point. Disproof, `_partial`. **Partial.** Violated by the code (C50_disproof, C50_disks_lost): if both entities meet the line of intersection of their planes in the same single point, the result is empty. Otherwise proved for all pairs of disks, quadrilaterals and convex polygons with exact boolean operations (ExactCut, ExactLine); for a polygon and a disk the disk must not be too large (see C54). Parallel planes: C50_parallel_planes.
* **C51 Collinear segments intersect in their overlap.** Model: parallel branch of `intersect_segment_segment`; code returns a degenerate segment when touching. Disproof and `_partial`. **Partial.** Violated by the code (C51_disproof): segments touching in an end point give a segment of zero length instead of a point. Overlapping segments are proved for any kernel (up to the tolerance, and exactly if no end points are closer than it), disjoint ones for a kernel that leaves disjoint edges unsplit.
* **C52 A plane cuts a cylinder in the computed ellipse.** Model: ellipse construction; proof: orthonormal-frame algebra for both branches. **Proved.** Exact kernel intersection of plane and axis as hypothesis (ExactPlaneLine). Exact for inclined and for orthogonal planes, error bounds for planes orthogonal up to 1e-10 only; C52_results covers the whole algorithm for any boolean operations; C52_disk, C52_quadrilateral and C52_polygon apply it to the geometries of the interface.
* **C53 Intersection angles are well-defined.** Model: `IntersectionAngle`; `arccos` monotonicity. **Proved.** All planes, cylinder surfaces and intersection geometries. On segments, arcs and edges of curved geometries the code examines five or nine points: the theorems state the minimum over these.
* **C54 The probing segment covers the face.** Model: `charLength` of each overload; code disagrees for polygon/disk. Disproof and positive theorems. **Partial.** Violated by the code for a polygon and a disk (C54_disproof, C54_disk_missed): the size of the disk is not used. Proved for all other pairs.
* **C55 Empty intersections are recognised.** Model: `IsEmptyIntersection`; induction over result lists. **Proved.** All results.
* **C56 Length of an ellipse.** Model: `computeLength` of ellipses. Spec: integral of the speed of the parametrisation. Code disagrees (pi*(a+b)). Disproof and `_partial`. **Partial.** Violated by the code (C56_disproof): pi*(a+b) is used, which is right for circles only; C56_length_partial gives the exact discrepancy.
* **C57 Points on the boundary of polygons and quadrilaterals.** Model: `pointOnGeometryBoundary` for quadrilaterals and polygons. Spec: a point of an edge closer than the tolerance. **Proved.** All points, tolerances, quadrilaterals and polygons.
* **C58 Tangent planes of faces are taken at the intersection point.** Model: `IntersectionAngle` for faces with the surface evaluation as oracle. Code disagrees (parameters of the projected point). Disproof and `_partial`. **Partial.** Violated by the code (C58_disproof): the surface parameter of the derivative is taken from the projected point. Proved for flat faces, for two faces, and the parameter actually used is characterised.
* **C59 Non-parallel segments intersect in their common point.** Model: `intersect_segment_segment` with the boolean fragments as oracle; spec: common point of two sets of convex combinations. **Proved.** First claim for any behaviour of the kernel; the others under ExactFragments (OpenCASCADE splits at the common point).
* **C60 Intersection lists contain no duplicates and lose nothing.** Model: `intersect_faceFace_3d` list construction; induction over the lists of edges, vertices and faces. **Proved.** All results of the boolean operations.
* **C61 Networks of two sets generated by the examples satisfy their constraints.** Model: main loops of examples 1 and 2 (C++ and Python) as transition systems; candidates, geometry computations and strategy are arbitrary. Invariant by induction over the execution. **Proved.** Candidates and geometric computations arbitrary (also failing); counts for any targets (C61_two_sets). Angles that are NaN count as compatible, see C35 (C61_compatible_iff).
* **C62 Networks of several geometry types generated by the example satisfy their constraints.** Model: example 3 (C++) as transition system; invariant by induction. **Proved.** Candidates and geometric computations arbitrary (also failing); counts for any targets (C62_network). Angles that are NaN count as compatible, see C35 (C61_compatible_iff). C62_terminates: with candidates that are large enough and compatible with the ones before the loop ends, after the stated number of passes.
* **C63 Python networks of several geometry types satisfy their constraints.** Model: example 3 (Python) as transition system; invariant by induction. **Proved.** Candidates and geometric computations arbitrary (also failing); counts for any targets. Angles that are NaN count as compatible, see C35 (C61_compatible_iff). C63_terminates: with candidates that are large enough and compatible with the ones before the loop ends.
* **C64 The network around a tunnel satisfies its constraints.** Model: example 4 as transition system with three stages; invariant by induction. **Proved.** Candidates and geometric computations arbitrary (also failing); any number of desired entities and tries (C64_network), in particular example 4 (C64_example4). Angles that are NaN count as compatible, see C35 (C61_compatible_iff).
* **C65 The search for an intersecting entity is limited.** Model: candidate counter of example 4. Code disagrees (501 candidates, wrong message). Disproofs and `_partial`. **Partial.** Violated by the code: 501 candidates are tried (C65_limit_disproof), and a search that succeeds with the last two candidates is reported as unsuccessful (C65_message_disproof). Proved: at most 501 rejections per entity, unsuccessful searches are always reported.
* **C66 The sets of example 4 keep the distances intended for them.** Model: constraint set-up of example 4. Code disagrees (C++ assigns the distance to the wrong object). Disproof and `_partial`. **Partial.** Violated by the C++ version (C66_disproof: the distance 0.15 is assigned to the constraints of the second set); proved for the Python version, and with 0.15 for both sets in the C++ version.
* **C67 The printed status is a well-formed row of the table.** Model: `SamplingStatus::print` down to characters, with `ub` for the conversion of NaN and `thrown` for the overlong padding. Disproofs and `_partial`. **Partial.** Violated by the code (C67_disproof, C67_undefined, C67_overflow, C67_aligned_disproof): printing is undefined before the first sample (NaN converted to int), throws from 100000 % progress on (unsigned padding wraps around), and columns are shifted if a ratio is rounded up to 10 or 100 %. Proved for all other histories with fewer than 10^13 samples.
* **C68 Messages of the sampling status.** Model: messages printed by `SamplingStatus`; induction over histories. **Proved.**
* **C69 Spheres and cylinder surfaces contain exactly their points.** Model: `Sphere::contains`, `CylinderSurface::contains`. Spec: distance to the centre / to the set of points of the surface. **Proved.**
* **C70 Faces and circles of cylinders and hollow cylinders.** Model: face and circle accessors of cylinders and hollow cylinders. Spec: loci in the local frame. **Proved.**
* **C71 Containment does not depend on the unit of length and the origin.** Model: containment of all geometries with default tolerances. Spec: similarity maps (scaling and translation). Code disagrees for disks and ellipses. Disproofs and `_partial`. **Partial.** Violated by the code for disks and ellipses (C71_disk_disproof, C71_ellipse_disproof): their default tolerance is used as absolute distance to the plane and as relative tolerance within the plane. Proved for all other geometries; for disks and ellipses for points in the plane (C71_disk_partial). The default tolerance of triangles is undefined behaviour, see C17.
* **C72 The shape of a geometry occupies the points of the geometry.** Model: `getShape` overloads over a kernel (`ShapeKernel`). Code disagrees (no overload for triangles and hollow cylinders). Disproofs and `_partial`. **Partial.** Violated by the code (C72_disproof, C72_hollow_disproof, C72_closed_arc_disproof): there is no overload for triangles and hollow cylinders, the general function throws; an arc that is a full ellipse and does not start on the major axis has equal parameters at both ends, which the kernel rejects. Proved for all other geometries, including arcs (C72_shape_partial, C72_supported).
* **C73 Distances between geometries are distances between their sets of points.** Model: `computeDistance` via shapes. Spec: infimum of distances of points; kernel assumption `Faithful`. **Proved.** Relative to the stated assumptions on the geometry kernel (Faithful), which are shown to be satisfiable.
* **C74 Distance to the boundary of any geometry.** Model: `computeDistanceToBoundary` via wires; as C73. **Proved.** Relative to the stated assumptions on the geometry kernel (Faithful).
* **C75 Distance to the boundary in Python.** Model: Python binding of the same function. Code disagrees (calls `computeDistance`). Disproof and `_partial`. **Partial.** Violated by the code (C75_disproof): the Python binding calls the function for the distance to the geometry itself. Proved: what is returned, and that it is a lower bound.
* **C76 Points on the boundary of disks, cylinder surfaces and faces.** Model: `pointOnGeometryBoundary` for curved geometries. Code disagrees for faces (tolerance ignored). Disproof and `_partial`. **Partial.** Violated by the code for faces (C76_disproof, C76_face_ignores_tolerance): the given tolerance is ignored. Proved for disks and cylinder surfaces; for faces with the default tolerance.
* **C77 The intersection function works in both orders and never discards common points beforehand.** Model: overload set of `intersect` with bounding box pre-check; spec: no common point is lost; kernel assumptions `Faithful`, `NeverFails`, `BoundsContain`. **Proved.** Relative to the stated assumptions on the geometry kernel (Faithful, NeverFails, BoundsContain), which are shown to be satisfiable. algorithmFor in the property file names the algorithm of each pair.
* **C78 Magnitude of the part of a geometry in a domain.** Model: `computeContainedMagnitude` over `CommonKernel`. Spec: measure of the intersection of two sets; kernel assumptions `ExactFaces`, `ExactEdges`. **Proved.** Relative to the stated assumptions on the geometry kernel (Faithful, ExactFaces, ExactEdges), which are shown to be satisfiable: the boolean operation returns pieces that overlap in, and leave out, only sets of measure zero, and measures of single pieces are exact.
* **C79 Pointers to the geometry interface.** Model: `applyOnGeometry`, `assign`, pointer overloads. Code disagrees for polygons. Disproof and `_partial`. **Partial.** Violated by the code for polygons (C79_disproof): only disks and quadrilaterals are supported behind pointers. Proved for those two types; all others raise an error (C79_rejected).
* **C80 Error of the length of ellipses.** Model: as C56. Proof: bounds of the integrand, integrals of |sin| and |cos|. **Proved.** C80_sharp shows that the factor cannot be improved. See C56 for the claim that the length is exact.
* **C81 Conversions between degrees and radians are inverse.** Model: `toDegrees`, `toRadians`. Proof: field arithmetic, periodicity. **Proved.** Over the real numbers.
* **C82 Corners and edges of triangles, quadrilaterals and polygons.** Model: corner and edge accessors. Spec: closed boundary of a list of corners. **Proved.**
* **C83 Arithmetic of points, vectors and directions in every dimension.** Model: `Coords n := Fin n → ℝ` with the operators of point.hh, vector.hh, direction.hh. Spec: `EuclideanSpace ℝ (Fin n)` of Mathlib. **Proved.** Over the real numbers. C83_list: constructing from an initializer list that is too short leaves coordinates without a value.
* **C84 Construction of points, vectors, directions and circles in Python.** Model: Python objects, the assignment of arguments to parameters, overloads, and the four functions. Spec: what a call passes for named parameters (`Passes`), independent of the order of the overloads. Code disagrees. Disproof and `_partial`. **Partial.** Violated by the code (C84_disproof): lists with more than three coordinates are truncated (C84_dropped_coordinate), empty lists yield three-dimensional zeros (C84_empty_list), single arguments passed by keyword raise an error (C84_single_keyword), so do two three-dimensional points passed by keyword (C84_points_by_keyword) and `Vector(x)` (C84_single_number). Proved for all other arguments.
* **C85 Lengths, areas and volumes in Python.** Model: `myDimension`, the registered overloads, and the three functions. Spec: table of the kind of magnitude of every class. **Partial.** Violated by the code (C85_disproof): in Python the overload for ellipses is called for arcs, the length of the whole ellipse is returned. Proved for all other objects (C85_accepts_partial), and which objects are rejected.
* **C86 Accurate intersection angles in double precision.** Model: rounding to nearest even (`Fp.rnd`), scalar product, direction and `acos` with NaN. Spec: `IsPlaneAngle` over ℝ. Proof: relative error calculus (powers of 1/(1-u)) and Hölder continuity of the arc cosine. Code disagrees. Disproof by evaluating the roundings for (1, 1, 1), and `_partial`. **Partial.** Violated by the code (C86_disproof): the angle between two planes with the normal (1, 1, 1) is NaN, because the scalar product of the rounded normals exceeds one; the constraint on the minimum angle accepts such geometries (C86_parallel_accepted). Proved: the angle is accurate to 1e-7, or NaN and the exact angle is less than 1e-7.
* **C87 Unit length of directions in double precision.** Model as in C86. Spec: unit vector over ℝ. Proof: relative error calculus. **Proved.**
* **C88 Parallel vectors in double precision.** Model as in C86. Spec: `vecAngle` over ℝ. Code disagrees. Disproof and `_partial`; soundness holds. **Partial.** Violated by the code (C88_disproof): the vector (1, 1, 1) is not parallel to itself. Proved: whatever is found to be parallel encloses less than 1e-7 (C88_sound), and vectors are parallel to themselves if the computation of their length is exact (C88_self_partial). See C04 for vectors of opposite direction.
* **C89 Containment in boxes in double precision.** Model: `Box` with rounded operations. Spec: `InBox` over ℝ. Code disagrees for coordinates that are large compared to the box. Disproof and `_partial`. **Partial.** Violated by the code (C89_disproof): a unit box at the coordinate 2^40 does not contain its corner. Proved for boxes whose coordinates are at most 1e8 times as large as their diagonal.
* **C90 Touching bounding boxes in double precision.** Model: `intervalsOverlap` and `doIntersect` with rounded operations. Spec: common point. Code disagrees for coordinates that are large compared to the boxes. Disproof and `_partial`. **Partial.** Violated by the code (C90_disproof): unit boxes that touch at the coordinate 2^40 are not found to intersect. Proved for boxes whose coordinates are at most 1e8 times as large as the mean of the diagonals.
* **C91 Sampled points are uniformly distributed.** Model: the point samplers and their factories. Spec: probability as a ratio of volumes (Lebesgue measure), for the draws and for the points. Change of variables from angle, height and squared radius to Cartesian coordinates. The Python factories disagree. Disproof and `_partial`. **Partial.** Violated by the code in Python (C91_python_disproof): the Python sampler passes radii where squared radii are expected, so the points of a cylinder are uniformly distributed in a cylinder with the square root of the radius (C91_python_partial). Proved for the C++ samplers of boxes, cylinders and hollow cylinders.
* **C92 Sub-shapes of a shape.** Model: shapes as trees of references to shared objects with location and orientation, `TopExp_Explorer`, the getters, the registered overloads and the faces of quadrilaterals and polygons. Spec: parts of a shape. Induction over shapes. Shared sub-shapes are listed repeatedly. Disproof. **Partial.** Violated by the code in one respect (C92_once_disproof): sub-shapes that are shared are listed several times, e.g. every corner of a quadrilateral or polygon twice (C92_quadrilateral, C92_polygon). Proved: exactly the parts of the requested class are listed.
* **C93 Translation of shapes.** Model: `translate`, `parseShape`, `getSingleEntity` on the shapes of C92. Spec: moved shapes and parts. Induction over shapes. **Proved.** For shapes placed by translations.
* **C94 Compounds of shapes.** Model: state of the compound objects (constituents, free flag) and `add`; search with bounded depth. Invariant over histories: constituents are frozen before the compounds that contain them. Code disagrees for shared objects. Disproofs and `_partial`. **Partial.** Violated by the code: wrappers share the compound, later additions change shapes made from it (C94_snapshot_disproof), and the attempt to add a compound to itself makes it unusable (C94_no_effect_disproof). Proved: contents, end of the search, exact condition for refused calls, and that compounds which are part of another one never change.
* **C95 Boolean operators in Python.** Model: the Python functions and their C++ counterparts with the boolean operations of the kernel as parameters; nested calls as expressions. Spec: set operations up to volume zero. Induction over expressions. **Proved.** With exact boolean operations of the kernel (up to sets without volume).
* **C96 The Python functions use the class of the object.** Model: classes with their registered base classes, overload lists in order of registration, first match. Spec: table of accepted geometries. Code disagrees for arcs. Disproof, `_partial`, and what happens for arcs. **Partial.** Violated by the code (C96_disproof): ellipse arcs are registered as a subclass of ellipses, and the overloads for ellipses are registered first; all four functions treat an arc as the whole ellipse (C96_arc). Proved for all other geometries (C96_partial).
* **C97 Distances in Python.** Model: registered overloads of computeDistance, fallback on shapes, minimum over a list. Spec: distance of sets of points. Code disagrees for arcs and lines. Disproof and `_partial`; lower bound for all arguments. **Partial.** Violated by the code (C97_disproof): arcs are treated as the whole ellipse, so that distances can be too small; the distance between a point and a line raises a TypeError although the C++ function computes it (C97_lines). Proved for all other arguments, lower bound for all, lists.
* **C98 Tolerances of any numeric type in Python.** Model: numbers of Python, the conversions of pybind11 to bool and double, and the registered overloads of `contains` of every class. Spec: table of what the C++ functions return for a tolerance. Code disagrees. Disproof and `_partial`. **Partial.** Violated by the code (C98_disproof): for segments, ellipses, arcs, triangles, quadrilaterals, polygons and disks an integer is taken as the flag that switches the test of the plane, not as the tolerance (C98_int): contains(p, 0) skips the test of the plane. Proved for all other geometries (C98_partial), for floating point tolerances (C98_float) and if the flag is given too (C98_flag).
* **C99 The .geo file can be read.** Model: the text of the .geo file as a list of characters, including the decimal numbers (`GmshWriter.text`). Spec: lexer and parser of the fragment of the Gmsh language that is used (`Spec.Geo.read`). **Proved.** For names without quotation marks: C99_read (every command), C99_groups, C99_order.
* **C100 Mesh sizes are written as given.** Model: `GeneralFormat.print`, the output of a floating point number with six significant digits. Spec: value of a decimal number. Code disagrees. Disproof and `_partial` theorem. **Partial.** Violated by the code (C100_disproof): numbers are written with the default precision of streams, so that only six significant digits are kept; 1/3 is read as 0.333333. Proved: numbers with at most six digits are read exactly, all others with a relative error of at most 5e-6 (C100_partial).
* **C101 The merged file is the one that was written.** Spec: resolution of relative paths against the directory of the file (`Spec.Geo.resolve`). Code disagrees. Disproof and `_partial` theorem. **Partial.** Violated by the code (C101_disproof): the path given to write is repeated in the Merge command, which Gmsh resolves relative to the directory of the .geo file; for out/network it looks for out/out/network.brep. Proved: the path is right exactly for names without directories and absolute names (C101_partial).
* **C102 A write that fails is reported.** Model: file system with paths that can or cannot be written (`GmshWriter.Files`). Code disagrees. Disproof and `_partial` theorem. **Partial.** Violated by the code (C102_disproof): neither the return value of BRepTools::Write nor the state of the stream is tested. Proved if both paths can be written (C102_partial).
* **C103 Tags of physical groups are strictly positive.** Invariant (all values of the index maps are positive) through all steps of the build, then through the writer to the commands read from the text. Code disagrees for the id 0. Disproof and `_partial` theorem. **Partial.** Violated by the code (C103_disproof): the id of a sub-domain is used as the tag, and the builder accepts the id 0, so that Physical Volume(0) is written. Proved: all other tags and all items are positive (C103_partial), and all are for networks without domains (C103_network).
* **C104 Lines and segments in every dimension.** Model: `LineN n`, `SegmentN n` over `Coords n`. Spec: `segment`, `dist` of Mathlib's Euclidean space. **Proved.** C104_projection, C104_line_contains, C104_points, C104_segment_contains, C104_segment_default, C104_skip_line_check.
* **C105 Network builders in Python behave as those in C++.** Model: overload resolution for the builder classes and the Python loops (`PyBuilder`). Refinement: every Python call is a sequence of C++ calls (`Builder.step`); induction over lists and call sequences. **Proved.** C105_single, C105_list, C105_refinement.
* **C106 Default tolerance of network builders.** Model: `Builder.setDefaultEpsilon` with arbitrary orders of traversal. Spec: smallest value (`SmallestOf`). **Proved.** C106_default_tolerance.
* **C107 When planes and lines are treated as parallel.** Model: `intersectPlanePlane`, `intersectPlaneLine` with the kernel as a parameter. Spec: angle between planes, distance to the points of the plane. **Proved.** C107_planes, C107_plane_line.
* **C108 Sampled points in double precision.** Model: `Fp.uniform`, `Fp.boxSample`, `Fp.cylinderSample`, `Fp.hollowCylinderSample` with rounding after every operation. Spec: closed boxes, cylinders and shells over the reals. Proof: the product with a number below one is rounded to at most the exact difference of the bounds; square root of a rounded square is exact; error accumulation. **Proved.** C108_interval, C108_box, C108_cylinder, C108_hollow_cylinder. Numbers of type double with unbounded exponent; sine and cosine assumed to be correctly rounded.
* **C109 Local coordinates of points on ellipse arcs.** Model: `EllipseArc.getParam` (inherited). Code disagrees. Disproof with a quarter circle, what is returned instead, and the case in which both agree. **Partial.** Violated by the code (C109_disproof): arcs inherit getParam from the class for ellipses, which returns the local coordinate on the supporting ellipse; for the point in the middle of a quarter circle 1/8 is returned. Proved: what is returned (C109_supporting_ellipse), and that both agree if the arc is the whole ellipse and begins at the major axis.
* **C110 Any identifier can be used for a sub-domain.** Model: BuilderIds (`fragment_` with the conversions to int and back). Simulation: with small identifiers all functions agree with those on unbounded identifiers, so that C44 applies. Code disagrees for large ones: disproof with the identifier 2^31. **Partial.** Violated by the code (C110_disproof): fragment_ stores the identifiers as int, so that identifiers from 2^31 on are changed; building a network for such an identifier throws std::out_of_range, or the fragments are reported for a different sub-domain (C110_wrong_domain). Proved for identifiers below 2^31 (C110_small_ids_partial, C110_refines).
* **C111 Built networks can be exported completely.** Model: builder and BRep writer combined. Which entries exist after a build follows from invariants of the loops; completeness from C47 and C44. Code disagrees for networks without sub-domain. **Partial.** Violated by the code (C111_disproof): entities that have been added for an identifier without a sub-domain are part of the network (the build prints a warning), but not exported. Proved: the writer can always be constructed (C111_constructs), and everything is exported if there is a sub-domain for each network (C111_exports_partial).
* **C112 Distances of points, lines and segments in one and two dimensions.** Model/Distance/NDim.lean models the templates of the distance functions for one and two dimensions, OCCUtilities::point and getShape for points and segments, and their Python overloads. The functions of lower dimension are shown to be equal to those of C73 for the objects in space, which gives the claim; different dimensions go through the shapes. **Proved.** For kernels whose builders make the shapes they are asked for (as in C72, C73). Objects of lower dimension are compared with their images in space.
* **C113 Supporting ellipse of an arc in Python.** Model/Python/Objects.lean models the interpreter as C++ objects and Python objects that own or refer to them, following the rules by which pybind11 returns references. Calls are steps of this machine; the theorems hold in every state. **Partial.** Violated by the code (C113_disproof): pybind11 returns the Python object of the arc itself, since the reference returned by C++ refers to an object of the class for arcs for which there is a Python object (C113_returns_arc); its getPoint gives the points of the arc. Proved: centre, axes and points for given angles agree with those of the ellipse (C113_agreement_partial).
* **C114 Objects returned in Python are independent.** The same machine. The specification is a list of independent values; the machine is shown to refine it, by an invariant over all sequences of calls, as long as no shared object is modified. The frame property uses the origin of each object, computed from the calls alone. The negation is proved with a program of four calls. **Partial.** Violated by the code (C114_disproof, C114_write_through, C114_left_handed): the objects returned by center(), majorAxis(), minorAxis() and normal() refer to the members, so that c = disk.center(); c += v moves the disk, and disk.normal().invert() makes its frame left-handed. Proved: the claim for programs that do not modify such objects (C114_values_partial), no other object is affected (C114_frame), axes stay orthonormal (C114_normalised), and the effect of each modification (C114_effect).
* **C115 Spheres contain their surface in double precision.** Model `Sphere::contains` with the arithmetic of `double` (Model/Float/Geometry); bounds for the relative errors of squares (Lemmas/FloatGeometry). Points within radius * (1 + 32 u) pass; points that pass are within radius * (1 + 1e-14); a sphere far from the origin as witness against the claim for the surface. **Partial.** Violated by the code (C115_disproof): the tolerance is compared with differences of squares, so that it is about 5e-15 in relation to the radius, and rounded points of the surface of the unit sphere around (2^20,0,0) are not contained. Proved: all points of the ball are contained (C115_inside), contained points exceed the radius by less than 1e-14 times the radius (C115_outside), rounded surface points are contained if the coordinates of the centre are at most 16 radii (C115_surface_partial).
* **C116 Distances of points and lines in double precision.** Relative error calculus (`Close`, `Err`) for vectors between points, lengths and projections; distances to lines are compared with the minimum over the points of the line. **Proved.** No overflow and underflow (exponents are unbounded in the model of double precision).
* **C117 Segments contain their points in double precision.** Model `Segment::contains` and `Segment::getPoint` in double precision; errors of the direction, the point, the projection and of the scalar products near the ends, each in relation to the length of the segment; a segment far from the origin as witness against the unconditional claim. **Partial.** Violated by the code (C117_disproof): the midpoint of the segment from (2^52,0,0) to (2^52+1,1,0) is not contained. Proved for segments whose source is at most 1e7 lengths away from the origin (C117_points_partial, C117_outside). No overflow and underflow.
* **C118 Physical groups tell the registered entities apart.** Model: composition of builder, `BRepWriter`, `GmshWriter::write` and the reader of .geo files (C43-C49, C99). Spec: origin of fragments (`StemsFrom`), membership in physical groups of the commands read. Code disagrees on lost entities. Disproof and `_partial`. **Partial.** Violated by the code (C118_disproof): the offset between the tags of sub-domains is the number of fragments instead of the number of entities, so that faces of different sub-domains share a tag if a face is lost by confinement. Proved for all histories: parts of entities are in exactly one physical surface, members of physical surfaces stem from registered entities, solids are in the physical volume of their sub-domain; surfaces tell the entities apart if each entity keeps a fragment of its own, and the surface k consists of parts of the k-th entity if all entities are registered with the same id (C118_groups_partial, C118_network_partial).
* **C119 Accessors of a hollow cylinder may be called from several threads.** Model: transition system of threads that call the accessors, one step per access of a cached pointer, heap with deletion (Model/Geometry/HollowCylinderCache). Spec: `Sound` (references are alive and have the value of the accessor). Invariant by induction over schedules; ranking function for termination. Code disagrees on overlapping first calls. Disproof and `_partial`. **Partial.** Violated by the code (C119_disproof, C119_use_after_free): the members are created on the first call without synchronisation, so that overlapping first calls delete an object to which a reference has been returned, and outerLateralFace can read a deleted circle. Proved: the claim if calls do not overlap (C119_exclusive_partial, C119_single_partial), for any overlap if the members exist already (C119_warm_partial), and at most nine steps per call in any schedule (C119_terminates). Accesses of pointers are taken as atomic steps.
* **C120 The orientation of the coordinate system does not matter for geometries.** Specification of rotations by linearity, inner products and determinants; cross products then rotate too. Each query is expressed by inner products, cross products and lengths of differences of points, so that both sides become equal after rewriting; constructions with axes selected by the library only use the normal in the queries. **Proved.** Boxes are aligned with the axes and excluded. Triangles with the default tolerance are undefined behaviour (C17) and not included.
* **C121 The orientation of the coordinate system does not matter for intersections.** Relation between the results of the kernel in both coordinate systems as hypothesis (shown to be satisfiable for every kernel and motion); each function of the intersection algorithms is shown to commute with the motion, branch by branch. **Proved.** The algorithms of the geometry kernel are parameters; that they give moved results for moved arguments is assumed. For the circle in which a plane normal to the axis cuts a cylinder surface, the axes are those of the surface. Intersections of faces of the geometry kernel are not included.
* **C122 Random points and shapes are not used twice.** Heap of generator states with references from point sampler variables and geometry samplers; copies and references as in both languages. Python: invariant that the cell of a sampler is that of its point sampler, by induction over the calls. C++: the cell of a new sampler is used by nobody else, frame lemma for every call. **Partial.** Holds in Python (C122_python). Violated by the code in C++ (C122_disproof): a geometry sampler owns a copy of the point sampler including its random number generator, so that two samplers made with the same point sampler place their geometries at the same centers (C122_cpp_same_centers); a copy of a disk or polygon sampler, as made by MultiGeometrySampler, returns the same shapes (C122_cpp_copy), while copies of quadrilateral samplers share one generator (C122_copy_is_original). Each sampler for itself returns successive points independently of all other calls (C122_cpp_partial).
* **C123 The Python quadrilateral sampler uses the algorithm that was asked for.** Model of the constructor with its trial call; results follow from C27 (Python) for four corners and from C29. **Partial.** Violated by the code (C123_disproof): if the first call of the callable raises an exception, the deprecated algorithm is selected and all calls fail (C123_exception). The first value of the callable is lost (C123_first_value_lost). Otherwise, and for numbers, the property holds (C123_callable_partial, C123_number).
* **C124 Constraints accept and reject planar entities according to their geometry.** Model: `libraryEngine` instantiates the calls made by `evaluate` with the modelled functions of the library (intersection, distance, angle, magnitude, boundary). Spec: `Spec.Fulfilled` and `Spec.Violated` in terms of point sets, boundaries and normals. Proof: the results of the pairwise intersections (C50), the exact decision (C35), distances (C73, C74, C25), boundaries (C57, C76) and angles (C53) are composed; a pair of touching disks disproves the unrestricted statement. **Partial.** Violated by the code: two entities that only touch in one point of the common line of their planes have an empty intersection (C50), so that constraints on angles, lengths and distances to boundaries are not checked (C124_disproof). Proved: accepted entities fulfil the constraints in all other cases and if a positive minimum distance is configured; rejected entities violate a constraint (always); sets of entities.
* **C125 Constraints do not depend on the order of the two entities.** evaluate is characterised by its intersection, angle, distance and boundary distances (C35_accepts_exact); each of them is shown to be the same for both orders if the types of the entities differ (C77_order, planeAngle symmetric, distances symmetric by hypothesis on the geometry kernel). Disproof for two disks with exact algorithms, whose parts of the common line differ by less than the tolerance. **Partial.** Entities of different types are accepted in both orders or in none (C125_types_partial, C125_sets_partial). Violated by the code for entities of the same type (C125_disproof): a flat disk of radius 1 and an upright one of radius 1.05 around the same centre have an intersection of length 2.1 or 2 with the tolerance 0.1, depending on the order, because of two segments whose ends are closer than the tolerance the second one is returned. C125_borderline_partial: planar entities for which the two orders differ fulfil the constraints up to the tolerances and violate one of them up to the tolerances.
* **C126 Fractures generated by the example programs keep the constraints as point sets.** The sampler (C27), the loop (C61), the intersection of quadrilaterals (C50) and the decision of the constraints (C124) are composed: entities of the network are made of draws, accepted pairs are compatible, compatible quadrilaterals fulfil the constraints as point sets (parallel planes separately: no intersection is reported, so that the distance has been checked). An exact geometry library is constructed (exactLibrary: slices of closed convex sets) and a run of the loop with it is exhibited. **Proved.** For quadrilaterals without tiny edges (C27) whose corners are different and not on a line (Ordinary), disks, and geometry libraries that are exact for them (ExactQuads, ExactFractures). exact_quads, exact_fractures: there is a library for which the latter holds for all of them; C126_exact_library and C126_example3_exact need no hypothesis on the results. C126_witness, C126_witness3: draws for which the loops end with networks of such fractures. The domain boundary of example 3 (a shape read from a file) is not part of the statement.
* **C127 The example programs draw random numbers from proper distributions.** The distributions and samplers of the examples are transcribed (Model/Appl/Samplers.lean); constructing a distribution outside its precondition is undefined behaviour. The values a distribution can return make the draws admissible for the polygon sampler, whose result is described by C27_structure. **Partial.** Violated by the code: example2.cc:53 constructs std::uniform_real_distribution(0.5, 0.1), whose lower bound is above the upper one: undefined behaviour (C127_example2, C127_disproof). Proved for the other C++ samplers (C127_defined_partial) and, for all possible draws, that polygons and quadrilaterals of the requested size are returned (C127_polygons), and disks in Python (C127_disks_python).
* **C128 The example programs build and write their networks.** Model: the builder calls of the four example programs as lists of calls (Model/Appl/Networks), for arbitrary entities and shapes. Proof: induction over the calls for acceptance and registrations (C43), success of the build (C44), groups in the written file (C118, with the additional conclusion for a single network id), the flags that decide the confinement, and the tolerance kept over clear() (C46_tolerance_kept). **Proved.** C128_example1 to C128_example4, from C43, C44 and C118 (one id for all entities, so that the violation of C118 does not occur). The CAD kernel is an arbitrary one without failures. C128_tolerance: the tolerance kept after clear() in example 3 (see C46). orders_exist: the traversal orders quantified over exist.
* **C129 Planes, lines and projections in double precision.** Verif/Model/Float/Geometry.lean models Plane(p1,p2,p3), Plane::projection, Plane::contains and Line::contains with every operation rounded; error lemmas for the scalar and the cross product give the bounds; concrete double coordinates with exactly evaluated roundings disprove the property for large coordinates. **Partial.** Violated by the code: the default tolerance of Plane::contains and Line::contains is the fixed length 1e-7, the roundings of the projection grow with the coordinates. C129_disproof (plane) and C129_line_disproof (line) show projections that are not contained; C129_plane_partial and C129_line_partial prove the property for lengths up to 1e7 and 3e6. C129_plane_projection, C129_plane_contains (errors of the projection and of the decision, no restriction of the size) and C129_three_points (planes through three points) are proved as stated.
* **C130 Sampling status and ids in Python.** Model of the Python methods with arbitrary positional and keyword arguments (conversion to Id, std::size_t and bool as in pybind11, translation of exceptions); refinement: every history of Python calls has the state of the C++ console model after the operations the documented calls stand for (Spec/PyStatus: relation between calls and operations), so that C30/C32 carry over; case analysis for the TypeErrors. **Partial.** Violated by the code: finished() raises IndexError after getCount(Id(i)) or resetCounter(Id(i)) for an id without target (C130_disproof), and getCount() is wrong for sums of 2^31 or more (C32_disproof). The rest is proved.
* **C131 Constructors of geometries in Python.** Table of the registered constructors (Model/Python/Constructors.lean) with the pybind11 rules for assigning arguments to parameters (bindArguments, shared with C84). Specification: an enumeration of the documented forms with parameter names, values and C++ constructor (Spec/PyConstructors.lean). Proof: bind_iff relates the assignment to 'passes these values'; overloads of different arity are told apart by the number of arguments, those of equal arity by the type of the first parameter (passes_first). **Partial.** Violated by the code: Plane() is registered without arguments and makes a plane with zero normal vector that contains every point (C131_default_plane, C131_disproof). Proved for all other planes (C131_plane_partial); the rest of the property is proved without exception (C131_construct, C131_only, C131_type_error, C131_unique, C131_box, C131_cylinder). Segments and lines in three dimensions; points, vectors and directions are covered by C84.
* **C132 Access to a built network by the ids of its sub-domains.** Accessors as lookups in the maps of the built network (Model/EntityNetwork/Access.lean). Invariants over confinement and fragmentation: no entry of a registered id is lost (built_entries, from C111), and none is made for other ids (EntriesIn: confine_entries, fragmentLoop_entries, fragment_entries); dimensions from the registration invariant of C43. **Partial.** Violated by the code: if the same shape is registered for two sub-domains, the first of them is missing in the network (C132_lost_domain, C132_disproof). Proved for distinct shapes (C132_ids_partial); all other parts without restriction (C132_listed, C132_entities, C132_unknown, C132_dimensions).
* **C133 A built network stays as it was built.** Model of the ownership: the list of all networks a builder has made and the position of the one it owns; reading any other is undefined behaviour, reading a Python copy always possible. Induction over the calls after the build (run_live). **Partial.** Violated by the code in C++: a second successful build destroys the network that the first one returned a reference to (C133_disproof). C133_reference_partial: the reference is usable and unchanged exactly as long as no other build has succeeded. In Python the property holds (C133_python); C133_network for network().
* **C134 Accepted faces fulfil the constraints geometrically.** Faces of limited extent in planes, the operations of the library between them exact (common faces, edges and touching points consist of common points and nothing is missing); `FacesFulfilled` in Spec/AcceptedFaces states the constraints in terms of points, outer wires and normals. Proof: acceptance by `C35_accepts_exact`, the list of parts by `faceFace_list`, the angle is that of the planes in all parts, ends by the distances of C74. Example: a notched face and a floor that meet in two segments. **Proved.**
* **C135 The angle between accepted faces is large enough wherever they meet.** Faces as parts of smooth surfaces (`SmoothFace`); the angle in a common point is that of the tangent planes (`C58`). Full claim for all common points disproved with a face that is twisted between the five sampled points of an edge; proved for touching points and the five points. **Partial.** Violated by the code: the angle is evaluated in five points of each edge only (C135_disproof: a face that is twisted in between is accepted). Proved for touching points and for the five points of each edge (C135_samples_partial); for plane faces see C134.
* **C136 Intersections of accepted faces end on the boundaries or keep their distance to them.** Boundary of a plane face as the points with points of the plane beside the face in every neighbourhood (`Spec.FaceBoundary`), so that holes count. Full claim disproved by a square with a hole: only the outer wire is considered; proved for faces, the outer wire of which is the whole boundary. **Partial.** Violated by the code: only the outer wire of a face is considered, so that an intersection that ends close to a hole is accepted (C136_disproof). Proved for faces without holes (C136_no_holes_partial).
* **C137 The fractures of example 4 are parts of drawn polygons in the domain around the tunnel.** Model/Appl/Tunnel.lean puts the functions of the library into the abstract loop of example 4 (C64); Spec/TunnelDomain.lean states domain, tunnel wall and parts as point sets. Results of boolean operations are parameters that are assumed to be exact for the operands at hand (ExactTunnel, ExactFaceOps). Proof: acceptance in the abstract loop (C64), then each abstract relation translated to points by C134 (constraints of faces), C77 (intersections), C73 (distances). Non-vacuity: a kernel (wallTunnel) with which a square around the tunnel is accepted. **Proved.** For kernels with exact boolean operations (ExactTunnel; the common points of two faces by ExactFaceOps, pair by pair). C137_domain: the domain; C137_network: any numbers; C137_example4: the numbers of the C++ example. The domain and the parts may lack points of their boundaries.
* **C138 Corners, edges and faces by index in Python.** Model/Python/Indices: the casters of pybind11 for `unsigned int`, and the methods corner, edge, face, numCorners, numEdges, numFaces of the four classes. Spec in Props/PyIndices: the list of corners by construction, validity of a number as index. Composition with C13 and C82 for the geometry of edges and faces. **Partial.** Violated by the code (C138_disproof): with assertions compiled out, corner(i) of triangles, quadrilaterals and polygons and edge(i) of polygons read beyond the array for i between the number of items and 2^32 - 1 (C138_others_partial, C138_edges_partial). Proved: valid indices for all geometries, boxes for all numbers, all other argument lists.
* **C139 The tolerance of contains(p, eps) is a distance.** Specification `Spec.Within` / `Spec.TolIsDistance` (Spec/Tolerance.lean) with distances only. For axes: distance bounds in axial and radial coordinates (1-Lipschitz, and reachability of given coordinates); for ellipses: local coordinates and a relative radius; for figures with corners: areas of sub-triangles are Lipschitz with half the edge length. Counterexamples evaluated in the model. **Partial.** Violated by the code. Proved for lines, planes, segments, boxes, circles and cylinder surfaces. Spheres, cylinders and hollow cylinders compare differences of squared distances with eps² (points at 0.05 from a unit sphere are rejected for eps = 0.1); disks and ellipses use a tolerance relative to the axes (a point 41 away from a disk of radius 100 is contained for eps = 1); triangles, quadrilaterals and polygons compare areas with eps² (C139_solids_miss, C139_relative_tolerance, C139_area_tolerance). The partial theorems give, for these geometries, the distance up to which points are contained and, except for figures with corners, the distance within which contained points are.
* **C140 Arithmetic operators in Python.** Model: Python interpreter with objects and variables, the operator methods registered for points, vectors and directions, Python's fallback from in-place to binary methods. Spec: results by coordinates. Proof: case analysis of the methods; invariant over programs that variables are bound to existing objects. **Partial.** Violated by the code: augmented assignment keeps the class of the variable except for `d *= x`, which makes a vector of a direction, and `v *= w`, which makes a number of a vector (C140_disproof, C140_class_partial). Proved: the exact table of expressions with a value, exceptions otherwise (natural expressions such as v * 2.0, 2.0 * v, p - q raise TypeError), aliases, division by zero.
* **C141 Points with rounded coordinates are contained.** Spec: nearest numbers with a significand of 53 bits, independent of the rounding function of the model. Proof: the error of a rounded point is below 2^-51 times the largest coordinate; containment of points at that distance follows from the theorems of C139. Counterexamples: explicit points whose neighbours of type double are 2^-33 apart. **Partial.** Violated by the code: spheres, cylinders, hollow cylinders, disks and quadrilaterals of a size of about one do not contain some of their points after rounding at a distance of 524288 to the origin, since differences of squares and areas are compared with the squared tolerance (C141_lost_points, C141_disproof). Proved for lines, planes, segments, boxes, circles, ellipses and cylinder surfaces up to at least 10^8 times the size; for the other types (C141_*_partial) up to a few times the size, with the factor given. Only the rounding of the point is considered; the criterion itself is evaluated in real arithmetic.
* **C142 Text of points, vectors and directions.** Model: text as lists of characters, the formats %g and %f with the rounding of the C library. Spec: a reader that splits the text at separators and reads decimal numbers. Proof: separators do not occur in numbers; the value of the digits is the rounded coordinate. **Partial.** Violated by the code: the representation in Python has six digits behind the point, so that points at a distance of 4e-7 (four times the tolerance) have the same text (C142_disproof); stream output has six significant digits, so that points at coordinates of one million and a distance of 4 have the same text (C142_far_points). Proved: class, dimension and coordinates are recovered, the coordinates as the nearest multiples of one millionth (ties to even), resp. with a relative error of 5e-6 and exactly for six digits.
* **C143 Shapes in files and the domain of example 3.** Model: files as a map from names to shapes, null shapes for files that cannot be read, the first part of example 3 in C++ and Python. Spec: parts of the shape in a file. Proof: the lists of solids, shells and faces are those of C92; case distinction on their lengths. Not modelled: the BRep format. **Partial.** Violated by the code: readShape returns a shape without parts for files that do not exist or cannot be read, and write does nothing if the file cannot be opened, both without an error (C143_disproof). Proved: the round trip, which errors are raised, the parts found in a file, the domain and the boundary faces of example 3 and the cases in which it stops, in C++ and Python (the script asks for six boundary faces in addition).
* **C144 Samplers in Python return new objects and change none.** Model the bodies of the samplers of the Python package as sequences of calls on the heap of Python objects of C114, with object numbers relative to those that exist. Prove that running such a sequence after any program equals running it alone and appending its objects, and evaluate the sequences: directly for the cylinder, the disk and the quadrilateral, by induction over the edges for the polygon. **Proved.** C144_cylinder, C144_cylinder_value, C144_disk, C144_quadrilateral, C144_polygon, C144_polygon_fails: the bodies of the Python samplers as sequences of calls on objects (make, query, get, change of C114), executed after any program; the number of edges is arbitrary, by induction. A call does the same in every state (relocation), so the returned objects are new, have the drawn values, and share nothing with the existing ones. Numbers are values; the point returned by the user-supplied point sampler is taken as a new object
* **C145 The headers can be used in programs of several source files.** The table of the 98 headers with what each includes and which non-inline, non-template functions it defines; the preprocessor with include guards as a recursive function; the linker as a check for duplicate definitions. The preprocessor is shown to read exactly the reachable headers, each once, by induction over its recursion; linking is characterised for all programs; the claim is refuted by two files that include the same header. **Partial.** Violated by the code: several headers define ordinary functions without inline (geometryName of the OpenCASCADE shapes, the face-face intersection, helpers of breputilities, geomutilities and gputilities), so two source files that both include, say, frackit/intersection/intersect.hh do not link (C145_disproof). Proved: each header is read exactly once per file (C145_once), the exact condition for linking (C145_links_partial), the list of headers that may be used in any number of files (C145_shareable_partial), and that programs of one source file always link (C145_single).
* **C146 Objects behind base class pointers are identified by their names.** The classes with their names as strings (decimal dimension included), types as classes with a coordinate type, `assign` with the cast as a distinct undefined outcome. Names are shown injective through the part in front of the underscore and the decimal digits; the undefined cases of `assign` are characterised exactly; the claim is refuted by two coordinate types. **Partial.** Violated by the code: names do not contain the coordinate type, so assign with an object and a target of the same class but different coordinate types dereferences a null pointer (C146_disproof, C146_sets_undefined). Proved: names are injective over all classes and dimensions (C146_names), assign is right for one coordinate type (C146_assign_partial, C146_attempts_partial), the undefined calls are exactly null pointers and differing coordinate types (C146_undefined_partial, C146_defined_partial), entity sets (C146_sets_partial), and the choice of the sampler in Python (C146_point_sampler).
* **C147 Empty intersections are recognised for every coordinate type and by name.** The type trait with its specialisation for the default coordinate type, and the search for a word in the names of all Python classes. Prove exactness of the search for all classes and dimensions, exactness of the trait for double, and refute it for other coordinate types. **Partial.** Violated by the code: the type trait is specialised for the default coordinate type only, so the empty intersection with coordinates of type float is not recognised (C147_disproof). Proved: exactness for double (C147_double_partial), soundness for all types (C147_sound), exactness of the search in names in Python (C147_python) and agreement of both (C147_agree).
* **C148 Headers can be included in any order.** On top of the preprocessor of C145: the table of names declared and used in each header, and the compiler as a check of each name against those declared before. Prove that a further header adds exactly the headers it would read on its own and that have not been read, in the same order (removing a closed set of headers does not change the order of the others, also if headers include each other); evaluate the 98 headers on their own; conclude for all lists of headers by induction. **Partial.** Violated by the code: frackit/geometryutilities/isplanar.hh uses DimensionalityTraits without including its header, and frackit/intersection/intersectionangle.hh includes it before frackit/geometry/dimension.hh, so that source files which include one of them first cannot be compiled (C148_disproof). Proved: exactly which source files compile (C148_exact_partial, C148_compiles_iff); all other headers can be included in any order (C148_any_order_partial). Names of classes and templates only, functions are left out.
* **C149 The Python modules can be imported in any order and every call returns objects of known classes.** Model/Python/Modules.lean: the registry of classes, the order of the py::class_ statements of each extension module with their bases, the imports of each __init__.py; Model/Python/ModuleFunctions.lean: the table of all functions with the classes of parameters and results and the modules imported at the call. Proof: invariant over all histories of imports and calls (known classes = classes of imported modules; every object is of a known class; a uniform point sampler exists only if the geometry module is imported), with the finite tables checked by kernel evaluation. **Partial.** Violated by the code: the constructors of UniformBoxPointSampler and UniformCylinderPointSampler take std::uniform_real_distribution objects, which no module registers, so no call of them succeeds (C149_distributions, C149_disproof). Proved: imports succeed in every order (C149_imports, C149_order), results are always of known classes (C149_results), other arguments give a TypeError (C149_rejects), and all other functions can be called, except the methods of the empty intersections in one and two dimensions, of which no function returns an object (C149_callable_partial).
* **C150 Distance of a point from a segment in double precision.** computeDistance(point, segment) with the arithmetic of double (Model/Float/Geometry.lean); error bound from the error of the projection, the containment of points close to a segment and Pythagoras for points far from it; a witness for a segment far from the origin (Props/FloatSegmentDistance.lean). **Partial.** Violated by the code: the projection of the point is looked up on the segment with a tolerance relative to its length; if the segment is far from the origin in relation to its length, the rounding of the projection exceeds the tolerance and the distance from an end of the segment is returned instead (C150_disproof: source (2^52, 0, 0), target (2^52 + 1, 1, 0), point (2^52, 1/2, 0), 0.5 instead of 0.354). C150_distance_partial: for segments whose source is at most 1e7 times as far from the origin as they are long, the error is at most 2e-6 times the length plus 2^-47 times the distance of the point from the source, for all points. C150_degenerate: segments of length zero.
* **C151 Areas and corners of quadrilaterals in double precision.** Areas and containment with the arithmetic of double (Model/Float/Geometry.lean); error of the cross product and its length, comparison of the two sums of areas; a witness with integer coordinates (Props/FloatArea.lean). **Partial.** Violated by the code: the tolerance for the difference of the areas is relative to the square of the diagonal between the first and the last corner, the rounding of the areas to the products of the sides; the convex quadrilateral (0, 0), (2^27 + 2, 2^27 + 1), (-2^21, 0), (-2^21, 2^21) with sides 64 times as long as this diagonal does not contain its first corner (C151_disproof). Proved: the areas (C151_triangle, C151_quadrilateral; area given by the lengths of the sides); if no side is longer than twice the diagonal from the first to the last corner, these two corners are contained (C151_corners_partial); if no side is longer than this diagonal, so are the other two corners of a convex quadrilateral in the plane z = 0 (C151_other_corners_partial).
* **C152 Circles and ellipses contain the points they compute in double precision.** Model/Float/Elliptical.lean repeats the constructors, getPointFromAngle and contains of circles and ellipses with rounded operations. Axes: error of the computed cross product and of the normalisation (direction_of_cross). Points: componentwise error bound (pointFromAngle_error), then bounds for the scalar products with axes and normal (point_dot) and for the length (offset_len). A circle at distance 2^60 refutes the full statement. **Partial.** Violated by the code for circles far from the origin: a circle of radius one around a point at distance 2^60 computes its own centre for the angle zero and does not contain it (C152_disproof). Proved for circles whose centre is at most 10^8 radii away from the origin (C152_circle_partial), for ellipses with an aspect ratio and a distance that are bounded (C152_ellipse_partial), together with the quality of the axes (C152_circle_axes, C152_ellipse_axes) and the soundness of Circle::contains (C152_circle_sound). Assumes correctly rounded sin and cos and no overflow or underflow.
* **C153 Rotations and sampled disks in double precision.** Model/Float/Rotation.lean repeats rotate and the construction of sampled disks with rounded operations. The entries of the rotation matrix carry relative error bounds (Err), the rows a bound for the scalar product (row_error); the bound for all three components is the length of a vector of absolute values (rotate_error). The rounding of the axis is a comparison of two Rodrigues formulas (rotAbout_axis). Disks: the errors of up to three rotations, of the normalisation and of the cross product are added. **Proved.** Assumes correctly rounded sin and cos and no overflow or underflow.
* **C154 Containment in disks in double precision.** Model/Float/Elliptical.lean repeats Disk::contains and Disk::area with rounded operations. Error bounds for the two coordinates (axisCoordinate_error), for their squares and for the sum of the quotients (quotient_close) are compared with the rounded value of 1 + eps^2 (radius_tolerance). A disk with the radius 1 + 3/2^34 around (2^20, 0, 0) refutes the statement about the boundary. **Partial.** Violated by the code for points of the boundary: the tolerance for the sum of squares is 1e-14, and the coordinates of the points are rounded relative to the distance of the disk from the origin; the disk with the radius 1 + 3/2^34 around (2^20, 0, 0) does not contain the point that its bounding ellipse computes for the angle zero (C154_disproof). Proved: the centre (C154_centre), points in the interior and the soundness of contains() with the stated margins (C154_contains_partial), the area (C154_area).
* **C155 Overflow and underflow of lengths, directions and distances.** Model/Float/Range.lean repeats the basic vector operations with the values of binary64: finite numbers, infinities and NaN, rounding with a smallest spacing of 2^-1074 and overflow at 2^1024. Multiples of a power of two are closed under the operations and under rounding (Lemmas/DoubleRange.lean: Grid, OnGrid), which bounds all intermediate results away from underflow and from overflow; the results then agree with the arithmetic of unbounded exponent (dblRound_eq). Vectors along the x-axis of length 2^n show the failures at both ends. **Partial.** Violated by the code at both ends of the range of double: lengths are roots of sums of squares that are not scaled, so directions of vectors of length 2^512 or more are null vectors and their distances infinite (C155_overflow, C155_disproof), and below 2^-537 directions are NaN and distances of distinct points zero (C155_underflow). Proved for numbers that are multiples of 2^-200 up to 2^200 (C155_direction_partial, C155_distance_partial, C155_vectors, C155_decisions, C155_measures), which are all numbers of magnitude 2^-147 to 2^200 and zero (C155_moderate). For these functions and this range the assumption of an unbounded exponent made in the other properties on double precision is therefore justified.
* **C156 Sampled polygons in double precision.** Model/Float/Polygon.lean repeats PolygonSampler::sampleCorners with rounded operations. Each edge is rotated with a relative error of 144/2^53 (edge_error, from the rotation bounds of C153 and the rounded strike direction); induction over the edges accumulates the errors of the partial sums (partialSums_error); the translation is common to all corners. Rounding is monotone, so that the extreme corners stay extreme (moved_extent). For the whole sampler, the rounded increments add up to zero up to 4/2^53 (fpDeltas_spec). **Proved.** Every corner is compared with the exact position up to one translation (C156_corners), which gives the planarity (C156_planar); the centre of the bounding box (C156_centre), both directions of the closing assertion (C156_closes), and the whole sampler from the drawn values (C156_sampled, C156_dimensions, C156_assertion). The order of the edges is left open: the statements hold for every order, including the one of the rounded angles. As elsewhere, the exponent range is unbounded and sin and cos are correctly rounded.
* **C157 Cylinders in double precision.** Model/Float/Cylinder.lean repeats Cylinder::contains with rounded operations. The computed projection is the exact foot on the axis up to 6.1/2^53 of the distances involved (projection_near, foot_error), the segment test is bounded for general tolerances in Props/FloatSegment.lean (segment_contains_near_eps, segment_outside_eps), and the squares are compared with relative errors. For sampled points the bounds of C108 are combined with the tilt of the computed axis (tilt). **Partial.** Violated by the code for points near the lateral surface: the square of the tolerance is added to the square of the radius, which is a relative tolerance of 1e-14 for the radius, while the coordinates of a sampled point are rounded relative to its distance from the origin. A cylinder with the radius 1 + 3/2^34 and the height 1 around (2^20, 0, 0) does not contain the point sampled for the angle zero and the largest number below one for the radius (C157_disproof). Proved: points in the interior (C157_inside_partial), the soundness of contains() (C157_outside), and sampled points unless the number drawn for the radius exceeds 1 - 1e-7 (C157_sampled_partial, for exactly orthonormal axes and proportions up to ten).
* **C158 Distance to the boundary of quadrilaterals and polygons in double precision.** Model the loops over the edges with the double precision distance of a point and a segment (Verif/Model/Float/Boundary.lean; copies of corners and minima are not rounded). The error bound follows from that of a single edge (C150); the smallest of the exact distances is compared with the smallest of the computed ones. **Proved.** Condition on the position of the edges as stated (without it the distance from a single edge may be wrong, see C150_disproof). Range of the exponents not limited (see C155 for this).
* **C159 Cylinder surfaces in double precision.** Model/Float/CylinderSurface.lean repeats CylinderSurface::contains, area and the normal of getTangentPlane with rounded operations. The computed foot on the axis is bounded as for C157 (foot_near), the rounded difference of the computed distance and the radius with relative errors (distance_sub_error); the normal is compared with the exact radial unit vector given by a decomposition of the point, not by the projection of the model. **Proved.** Conditions on the proportions as stated (Proportioned). Range of the exponents not limited (see C155 for this).
* **C160 Hollow cylinders in double precision.** Model/Float/HollowCylinder.lean repeats HollowCylinder::contains and volume with rounded operations. The test is reduced to that of the full cylinder (C157) and the comparison of the squared distance with the inner radius (hollow_iff, foot_distance). For sampled points, the rounded radius is bounded away from both radii (drawn_shell), and the position with respect to the computed axis follows as in C157 (sampled_position). **Partial.** Violated by the code: points sampled in a hollow cylinder need not be contained in it with the default tolerance (C160_disproof, with the cylinder of C157_disproof and the inner radius zero). Proved: points inside (C160_inside), the soundness of contains() (C160_outside), the error of the volume (C160_volume), and sampled points unless the number drawn for the radius is below 1e-7 or above 1 - 1e-7 (C160_sampled_partial, for exactly orthonormal axes, proportions up to ten and inner radii up to half of the outer one).
* **C161 Angles with cylinder surfaces in double precision.** Model/Float/SurfaceAngle.lean: the angle between the normal of a planar geometry and the computed normal of the surface, and the loop over sample points (std::min with NaN). Spec: IsPlaneAngle with the exact radial vector. Proof: C86 for the computed vectors, the triangle inequality for angles (Mathlib) and a bound of the angle between the computed and the exact radial vector; induction over the sample points. **Proved.** The points on arcs and ellipses are parameters. That angles below 1e-7 can be NaN is shown in C86_disproof. Range of the exponents not limited (see C155 for this).
* **C162 Volumes and centres hold up in double precision.** The formulas and the loop of the constructors with every operation rounded (Model/Float/Centroid.lean); areas of triangles given by Heron's formula and the fan of triangles by zipping consecutive corners (Spec/Fan.lean). Errors of the rounded sums by induction over the triangles, then the quotient of both sums. **Proved.** double arithmetic without overflow and underflow; the loop over the triangulation of a polygon is followed step by step, the convexity of the polygon plays no role
* **C163 Polygons contain their corners in double precision.** The two containment tests with every operation rounded (Model/Float/PolygonContains.lean); the triangles around a point by zipping the corners with their rotation (Spec/Fan.lean). Error bounds for sums of areas as for C162; the counterexample is evaluated bit by bit, its tolerance bounded by C162. **Partial.** Violated by the code: with the default tolerance, the triangle with the corners (0, 0, 0), (268435328, 0, 0)/2^27 and (-268435451/2^27, 134217729/2^37, 0), as a polygon, does not contain its second corner; the two computed areas differ in the last bit, which exceeds the squared tolerance (C163_disproof). Proved are the exact conditions up to rounding errors for any tolerance; the flag for convexity and the check of the plane are taken as computed
* **C164 Convexity is decided correctly in double precision.** Both functions with every operation rounded (Model/Float/Convexity.lean). Componentwise errors of the directions, errors of the cross products and of the scalar product of both; the signs follow outside of the margin. **Proved.** double arithmetic without overflow and underflow; as in the code, the turn between the first and the second edge of a polygon is not among those that are compared with the one at the first corner
* **C165 Angles on ellipses and points on arcs are accurate in double precision.** Angles of points and arcs with every operation rounded (Model/Float/Arc.lean). The range follows branch by branch since rounding is monotone; the ends are contained since rounding fixes numbers of type double; the error of the angle from the source to the target is at most 49 units of 2^-53, which moves the point by that times the axis lengths. The accuracy of the angles: a relative error of the argument is an absolute error of the arc tangent, and a point whose scaled coordinates have squares summing up to almost one is close to the point of the unit circle with the same polar angle. **Proved.** double arithmetic without overflow and underflow; sin, cos and atan are assumed to be correctly rounded

## Disagreements between the code and the properties

Each line is backed by a theorem (`Cxx_disproof` or the one named).

* C04: Parallelism does not depend on the sense of the vectors. Violated by the code: anti-parallel vectors are never detected (C04_disproof).
* C06: Bounding-box pre-check is symmetric. Violated by the code for boxes of zero extent (C06_disproof); proved for boxes of positive extent.
* C11: Points produced from an ellipse arc are on the arc. Violated by the code for full ellipses not starting at angle zero (C11_disproof) and for distinct end points in the same tolerance window of an axis (C11_short_arc_disproof); proved whenever source and target angle differ.
* C12: Points produced from a disk are on the disk. Violated by the code: for every r > 0 the point is outside of the disk (C12_outside, C12_disproof).
* C16: Python point samplers stay in the domain. Violated by the Python code, which requests [0, r] instead of [0, r*r] for the squared radius (C16_cylinder_disproof, C16_hollow_disproof); the radii for which the points stay inside are characterised.
* C17: Triangle containment with the default tolerance is defined. Violated by the code: the default-tolerance overload reads corner(3) of a three-element array, undefined behaviour for every input (C17_default_contains_is_ub, C17_disproof).
* C20: Polygon convexity flag is correct. Violated by the code: corner 1 is never checked (C20_disproof with a dart; C20_wrong_area).
* C22: Polygon containment accepts all points of the polygon. Violated by the code if the first three corners are collinear (C22_disproof); proved for any number of corners otherwise.
* C27: Sampled polygons are closed, planar and have the sampled position and corner count. Convexity violated for edge components below 1e-6, which the angular sort takes for zero (C27_disproof); proved if there are none.
* C28: Polygon sampler rejects negative dimensions. Violated by the code: the dip length is not checked (C28_disproof) and the 100th number of corners is refused (C28_hundredth_try); the Python loops never end or never redraw (C28_python_*).
* C29: Deprecated quadrilateral sampler terminates. Violated by the C++ code (C29_disproof): rejected draws are never replaced.
* C31: Querying the sampling status has no side effects and does not fail. Violated by the code: getCount(id) and resetCounter(id) insert unknown ids without target, after which finished() throws (C31_disproof).
* C32: Overall sample count is the sum of the counts. Violated by the code from 2^31 samples on (C32_disproof): the accumulator is an int.
* C35: Constraint evaluation decides exactly the configured constraints. Violated by the code (C35_disproof, C35_nan_accepted): a computed angle that is NaN is accepted for every minimum angle (angles of tangent planes in double precision can be NaN, see C86).
* C36: Equi-dimensional intersections are prohibited by default. Violated by the code if no constraint is configured (C36_disproof); proved whenever at least one is.
* C39: Constraints matrix is symmetric in the id pair. Violated by the code (C39_disproof, C39_second_id_throws): constraints are stored under the first id only.
* C40: Python constraints matrix applies all constraints of a set. Violated by the code (C40_disproof): only ids that occur as first id are visited.
* C41: Python constraint evaluation accepts lists on either side. Violated by the code (C41_disproof, C41_throws): evalList refers to the wrong variable.
* C43: Network builder accepts only consistent sub-domains. Violated in one respect (C43_disproof): a geometry without shape (Triangle, HollowCylinder) throws but leaves the dimension set, so that later consistent calls are refused; acceptance proved for supported geometries.
* C44: Fragments map to the entity they stem from. Violated by the code for shared shape objects (C44_disproof).
* C45: Entities of different sub-domains stay distinguishable in a merged network. Violated by the code if entities are lost by confinement (C45_collision for both traversal orders, C45_disproof); proved if every entity keeps a fragment of its own.
* C46: Building is a function of the registered data. Violated by the code (C46_disproof): clear() keeps the default tolerance of an earlier build.
* C48: Each intersection edge is exported once. Violated by the code (C48_disproof): an edge that is added to the compound through the domain boundary in the other orientation is not exported.
* C50: Intersections lie on both geometries. Violated by the code (C50_disproof, C50_disks_lost): if both entities meet the line of intersection of their planes in the same single point, the result is empty.
* C51: Collinear segments intersect in their overlap. Violated by the code (C51_disproof): segments touching in an end point give a segment of zero length instead of a point.
* C54: The probing segment covers the face. Violated by the code for a polygon and a disk (C54_disproof, C54_disk_missed): the size of the disk is not used.
* C56: Length of an ellipse. Violated by the code (C56_disproof): pi*(a+b) is used, which is right for circles only; C56_length_partial gives the exact discrepancy.
* C58: Tangent planes of faces are taken at the intersection point. Violated by the code (C58_disproof): the surface parameter of the derivative is taken from the projected point.
* C65: The search for an intersecting entity is limited. Violated by the code: 501 candidates are tried (C65_limit_disproof), and a search that succeeds with the last two candidates is reported as unsuccessful (C65_message_disproof).
* C66: The sets of example 4 keep the distances intended for them. Violated by the C++ version (C66_disproof: the distance 0.15 is assigned to the constraints of the second set); proved for the Python version, and with 0.15 for both sets in the C++ version.
* C67: The printed status is a well-formed row of the table. Violated by the code (C67_disproof, C67_undefined, C67_overflow, C67_aligned_disproof): printing is undefined before the first sample (NaN converted to int), throws from 100000 % progress on (unsigned padding wraps around), and columns are shifted if a ratio is rounded up to 10 or 100 %.
* C71: Containment does not depend on the unit of length and the origin. Violated by the code for disks and ellipses (C71_disk_disproof, C71_ellipse_disproof): their default tolerance is used as absolute distance to the plane and as relative tolerance within the plane.
* C72: The shape of a geometry occupies the points of the geometry. Violated by the code (C72_disproof, C72_hollow_disproof, C72_closed_arc_disproof): there is no overload for triangles and hollow cylinders, the general function throws; an arc that is a full ellipse and does not start on the major axis has equal parameters at both ends, which the kernel rejects.
* C75: Distance to the boundary in Python. Violated by the code (C75_disproof): the Python binding calls the function for the distance to the geometry itself.
* C76: Points on the boundary of disks, cylinder surfaces and faces. Violated by the code for faces (C76_disproof, C76_face_ignores_tolerance): the given tolerance is ignored.
* C79: Pointers to the geometry interface. Violated by the code for polygons (C79_disproof): only disks and quadrilaterals are supported behind pointers.
* C84: Construction of points, vectors, directions and circles in Python. Violated by the code (C84_disproof): lists with more than three coordinates are truncated (C84_dropped_coordinate), empty lists yield three-dimensional zeros (C84_empty_list), single arguments passed by keyword raise an error (C84_single_keyword), so do two three-dimensional points passed by keyword (C84_points_by_keyword) and `Vector(x)` (C84_single_number).
* C85: Lengths, areas and volumes in Python. Violated by the code (C85_disproof): in Python the overload for ellipses is called for arcs, the length of the whole ellipse is returned.
* C86: Accurate intersection angles in double precision. Violated by the code (C86_disproof): the angle between two planes with the normal (1, 1, 1) is NaN, because the scalar product of the rounded normals exceeds one; the constraint on the minimum angle accepts such geometries (C86_parallel_accepted).
* C88: Parallel vectors in double precision. Violated by the code (C88_disproof): the vector (1, 1, 1) is not parallel to itself.
* C89: Containment in boxes in double precision. Violated by the code (C89_disproof): a unit box at the coordinate 2^40 does not contain its corner.
* C90: Touching bounding boxes in double precision. Violated by the code (C90_disproof): unit boxes that touch at the coordinate 2^40 are not found to intersect.
* C91: Sampled points are uniformly distributed. Violated by the code in Python (C91_python_disproof): the Python sampler passes radii where squared radii are expected, so the points of a cylinder are uniformly distributed in a cylinder with the square root of the radius (C91_python_partial).
* C92: Sub-shapes of a shape. Violated by the code in one respect (C92_once_disproof): sub-shapes that are shared are listed several times, e.g. every corner of a quadrilateral or polygon twice (C92_quadrilateral, C92_polygon).
* C94: Compounds of shapes. Violated by the code: wrappers share the compound, later additions change shapes made from it (C94_snapshot_disproof), and the attempt to add a compound to itself makes it unusable (C94_no_effect_disproof).
* C96: The Python functions use the class of the object. Violated by the code (C96_disproof): ellipse arcs are registered as a subclass of ellipses, and the overloads for ellipses are registered first; all four functions treat an arc as the whole ellipse (C96_arc).
* C97: Distances in Python. Violated by the code (C97_disproof): arcs are treated as the whole ellipse, so that distances can be too small; the distance between a point and a line raises a TypeError although the C++ function computes it (C97_lines).
* C98: Tolerances of any numeric type in Python. Violated by the code (C98_disproof): for segments, ellipses, arcs, triangles, quadrilaterals, polygons and disks an integer is taken as the flag that switches the test of the plane, not as the tolerance (C98_int): contains(p, 0) skips the test of the plane.
* C100: Mesh sizes are written as given. Violated by the code (C100_disproof): numbers are written with the default precision of streams, so that only six significant digits are kept; 1/3 is read as 0.333333.
* C101: The merged file is the one that was written. Violated by the code (C101_disproof): the path given to write is repeated in the Merge command, which Gmsh resolves relative to the directory of the .geo file; for out/network it looks for out/out/network.brep.
* C102: A write that fails is reported. Violated by the code (C102_disproof): neither the return value of BRepTools::Write nor the state of the stream is tested.
* C103: Tags of physical groups are strictly positive. Violated by the code (C103_disproof): the id of a sub-domain is used as the tag, and the builder accepts the id 0, so that Physical Volume(0) is written.
* C109: Local coordinates of points on ellipse arcs. Violated by the code (C109_disproof): arcs inherit getParam from the class for ellipses, which returns the local coordinate on the supporting ellipse; for the point in the middle of a quarter circle 1/8 is returned.
* C110: Any identifier can be used for a sub-domain. Violated by the code (C110_disproof): fragment_ stores the identifiers as int, so that identifiers from 2^31 on are changed; building a network for such an identifier throws std::out_of_range, or the fragments are reported for a different sub-domain (C110_wrong_domain).
* C111: Built networks can be exported completely. Violated by the code (C111_disproof): entities that have been added for an identifier without a sub-domain are part of the network (the build prints a warning), but not exported.
* C113: Supporting ellipse of an arc in Python. Violated by the code (C113_disproof): pybind11 returns the Python object of the arc itself, since the reference returned by C++ refers to an object of the class for arcs for which there is a Python object (C113_returns_arc); its getPoint gives the points of the arc.
* C114: Objects returned in Python are independent. Violated by the code (C114_disproof, C114_write_through, C114_left_handed): the objects returned by center(), majorAxis(), minorAxis() and normal() refer to the members, so that c = disk.center(); c += v moves the disk, and disk.normal().invert() makes its frame left-handed.
* C115: Spheres contain their surface in double precision. Violated by the code (C115_disproof): the tolerance is compared with differences of squares, so that it is about 5e-15 in relation to the radius, and rounded points of the surface of the unit sphere around (2^20,0,0) are not contained.
* C117: Segments contain their points in double precision. Violated by the code (C117_disproof): the midpoint of the segment from (2^52,0,0) to (2^52+1,1,0) is not contained.
* C118: Physical groups tell the registered entities apart. Violated by the code (C118_disproof): the offset between the tags of sub-domains is the number of fragments instead of the number of entities, so that faces of different sub-domains share a tag if a face is lost by confinement.
* C119: Accessors of a hollow cylinder may be called from several threads. Violated by the code (C119_disproof, C119_use_after_free): the members are created on the first call without synchronisation, so that overlapping first calls delete an object to which a reference has been returned, and outerLateralFace can read a deleted circle.
* C122: Random points and shapes are not used twice. Violated by the code in C++ (C122_disproof): a geometry sampler owns a copy of the point sampler including its random number generator, so that two samplers made with the same point sampler place their geometries at the same centers (C122_cpp_same_centers); a copy of a disk or polygon sampler, as made by MultiGeometrySampler, returns the same shapes (C122_cpp_copy), while copies of quadrilateral samplers share one generator (C122_copy_is_original).
* C123: The Python quadrilateral sampler uses the algorithm that was asked for. Violated by the code (C123_disproof): if the first call of the callable raises an exception, the deprecated algorithm is selected and all calls fail (C123_exception).
* C124: Constraints accept and reject planar entities according to their geometry. Violated by the code: two entities that only touch in one point of the common line of their planes have an empty intersection (C50), so that constraints on angles, lengths and distances to boundaries are not checked (C124_disproof).
* C125: Constraints do not depend on the order of the two entities. Violated by the code for entities of the same type (C125_disproof): a flat disk of radius 1 and an upright one of radius 1.05 around the same centre have an intersection of length 2.1 or 2 with the tolerance 0.1, depending on the order, because of two segments whose ends are closer than the tolerance the second one is returned.
* C127: The example programs draw random numbers from proper distributions. Violated by the code: example2.cc:53 constructs std::uniform_real_distribution(0.5, 0.1), whose lower bound is above the upper one: undefined behaviour (C127_example2, C127_disproof).
* C129: Planes, lines and projections in double precision. Violated by the code: the default tolerance of Plane::contains and Line::contains is the fixed length 1e-7, the roundings of the projection grow with the coordinates.
* C130: Sampling status and ids in Python. Violated by the code: finished() raises IndexError after getCount(Id(i)) or resetCounter(Id(i)) for an id without target (C130_disproof), and getCount() is wrong for sums of 2^31 or more (C32_disproof).
* C131: Constructors of geometries in Python. Violated by the code: Plane() is registered without arguments and makes a plane with zero normal vector that contains every point (C131_default_plane, C131_disproof).
* C132: Access to a built network by the ids of its sub-domains. Violated by the code: if the same shape is registered for two sub-domains, the first of them is missing in the network (C132_lost_domain, C132_disproof).
* C133: A built network stays as it was built. Violated by the code in C++: a second successful build destroys the network that the first one returned a reference to (C133_disproof).
* C135: The angle between accepted faces is large enough wherever they meet. Violated by the code: the angle is evaluated in five points of each edge only (C135_disproof: a face that is twisted in between is accepted).
* C136: Intersections of accepted faces end on the boundaries or keep their distance to them. Violated by the code: only the outer wire of a face is considered, so that an intersection that ends close to a hole is accepted (C136_disproof).
* C138: Corners, edges and faces by index in Python. Violated by the code (C138_disproof): with assertions compiled out, corner(i) of triangles, quadrilaterals and polygons and edge(i) of polygons read beyond the array for i between the number of items and 2^32 - 1 (C138_others_partial, C138_edges_partial).
* C139: The tolerance of contains(p, eps) is a distance. Violated by the code.
* C140: Arithmetic operators in Python. Violated by the code: augmented assignment keeps the class of the variable except for `d *= x`, which makes a vector of a direction, and `v *= w`, which makes a number of a vector (C140_disproof, C140_class_partial).
* C141: Points with rounded coordinates are contained. Violated by the code: spheres, cylinders, hollow cylinders, disks and quadrilaterals of a size of about one do not contain some of their points after rounding at a distance of 524288 to the origin, since differences of squares and areas are compared with the squared tolerance (C141_lost_points, C141_disproof).
* C142: Text of points, vectors and directions. Violated by the code: the representation in Python has six digits behind the point, so that points at a distance of 4e-7 (four times the tolerance) have the same text (C142_disproof); stream output has six significant digits, so that points at coordinates of one million and a distance of 4 have the same text (C142_far_points).
* C143: Shapes in files and the domain of example 3. Violated by the code: readShape returns a shape without parts for files that do not exist or cannot be read, and write does nothing if the file cannot be opened, both without an error (C143_disproof).
* C145: The headers can be used in programs of several source files. Violated by the code: several headers define ordinary functions without inline (geometryName of the OpenCASCADE shapes, the face-face intersection, helpers of breputilities, geomutilities and gputilities), so two source files that both include, say, frackit/intersection/intersect.hh do not link (C145_disproof).
* C146: Objects behind base class pointers are identified by their names. Violated by the code: names do not contain the coordinate type, so assign with an object and a target of the same class but different coordinate types dereferences a null pointer (C146_disproof, C146_sets_undefined).
* C147: Empty intersections are recognised for every coordinate type and by name. Violated by the code: the type trait is specialised for the default coordinate type only, so the empty intersection with coordinates of type float is not recognised (C147_disproof).
* C148: Headers can be included in any order. Violated by the code: frackit/geometryutilities/isplanar.hh uses DimensionalityTraits without including its header, and frackit/intersection/intersectionangle.hh includes it before frackit/geometry/dimension.hh, so that source files which include one of them first cannot be compiled (C148_disproof).
* C149: The Python modules can be imported in any order and every call returns objects of known classes. Violated by the code: the constructors of UniformBoxPointSampler and UniformCylinderPointSampler take std::uniform_real_distribution objects, which no module registers, so no call of them succeeds (C149_distributions, C149_disproof).
* C150: Distance of a point from a segment in double precision. Violated by the code: the projection of the point is looked up on the segment with a tolerance relative to its length; if the segment is far from the origin in relation to its length, the rounding of the projection exceeds the tolerance and the distance from an end of the segment is returned instead (C150_disproof: source (2^52, 0, 0), target (2^52 + 1, 1, 0), point (2^52, 1/2, 0), 0.5 instead of 0.354).
* C151: Areas and corners of quadrilaterals in double precision. Violated by the code: the tolerance for the difference of the areas is relative to the square of the diagonal between the first and the last corner, the rounding of the areas to the products of the sides; the convex quadrilateral (0, 0), (2^27 + 2, 2^27 + 1), (-2^21, 0), (-2^21, 2^21) with sides 64 times as long as this diagonal does not contain its first corner (C151_disproof).
* C152: Circles and ellipses contain the points they compute in double precision. Violated by the code for circles far from the origin: a circle of radius one around a point at distance 2^60 computes its own centre for the angle zero and does not contain it (C152_disproof).
* C154: Containment in disks in double precision. Violated by the code for points of the boundary: the tolerance for the sum of squares is 1e-14, and the coordinates of the points are rounded relative to the distance of the disk from the origin; the disk with the radius 1 + 3/2^34 around (2^20, 0, 0) does not contain the point that its bounding ellipse computes for the angle zero (C154_disproof).
* C155: Overflow and underflow of lengths, directions and distances. Violated by the code at both ends of the range of double: lengths are roots of sums of squares that are not scaled, so directions of vectors of length 2^512 or more are null vectors and their distances infinite (C155_overflow, C155_disproof), and below 2^-537 directions are NaN and distances of distinct points zero (C155_underflow).
* C157: Cylinders in double precision. Violated by the code for points near the lateral surface: the square of the tolerance is added to the square of the radius, which is a relative tolerance of 1e-14 for the radius, while the coordinates of a sampled point are rounded relative to its distance from the origin.
* C160: Hollow cylinders in double precision. Violated by the code: points sampled in a hollow cylinder need not be contained in it with the default tolerance (C160_disproof, with the cylinder of C157_disproof and the inner radius zero).
* C163: Polygons contain their corners in double precision. Violated by the code: with the default tolerance, the triangle with the corners (0, 0, 0), (268435328, 0, 0)/2^27 and (-268435451/2^27, 134217729/2^37, 0), as a polygon, does not contain its second corner; the two computed areas differ in the last bit, which exceeds the squared tolerance (C163_disproof).

Further observations made while reading, not stated as properties:

* `example2.cc` constructs `UniformDistro(0.5, 0.1)` (lower bound above the upper one), which is undefined behaviour
  of the standard library.
* `intersect` with a tolerance of another arithmetic type than the geometries selects the general template, which throws.
* `computeDistanceToBoundary(shape, cylinderSurface)` and the one for cylinders do not compile, nor does
  `computeContainedMagnitude` for cylinder surfaces and shells; it is missing for polygons in Python.

## What is modelled

Files of `/repo` (without tests) and the modules under `lean/Verif/Model` that model functions of them.

* `appl/example1/example1.cc`: Appl/Examples, Appl/Networks, Appl/Samplers
* `appl/example1/example1.py`: Appl/Examples, Appl/Networks, Appl/Samplers
* `appl/example2/example2.cc`: Appl/Examples, Appl/Networks, Appl/Samplers
* `appl/example2/example2.py`: Appl/Examples, Appl/Networks, Appl/Samplers
* `appl/example3/example3.cc`: Appl/Examples, Appl/Networks, Appl/Samplers, IO/ShapeFiles
* `appl/example3/example3.py`: Appl/Examples, Appl/Networks, Appl/Samplers, IO/ShapeFiles
* `appl/example4/example4.cc`: Appl/Example4, Appl/Networks, Appl/Samplers, Appl/Tunnel
* `appl/example4/example4.py`: Appl/Example4, Appl/Networks, Appl/Samplers, Appl/Tunnel, Common/Names
* `frackit/common/id.hh`: Common/Headers, EntityNetwork/BuilderIds, Python/Status
* `frackit/common/idpair.hh`: Common/Headers
* `frackit/common/math.hh`: Common/Headers, Common/Math, Float/Box, Float/Geometry, Float/Range, Float/Rotation
* `frackit/common/promotedtype.hh`: Common/Headers
* `frackit/common/typetraits.hh`: Common/Headers
* `frackit/distance/distance.hh`: Appl/Tunnel, Common/Headers, Common/Math, Distance/Distance, Distance/NDim, Distance/Shapes, Float/Boundary, Float/Geometry, Float/Range
* `frackit/distance/distancetoboundary.hh`: Common/Headers, Common/Math, Distance/Distance, Distance/Shapes, Float/Boundary
* `frackit/distance/pointonboundary.hh`: Common/Headers, Distance/Distance, Distance/Shapes, EntityNetwork/LibraryEngine, Float/Boundary
* `frackit/distance/pointongeometry.hh`: Common/Headers, Distance/Distance, Distance/Shapes, Float/Boundary
* `frackit/entitynetwork/constraints.hh`: Common/Headers, EntityNetwork/Constraints, EntityNetwork/LibraryEngine, Float/Vector, Magnitude/Contained
* `frackit/entitynetwork/constraints_impl/admissibledimension.hh`: Common/Headers, EntityNetwork/Constraints
* `frackit/entitynetwork/constraints_impl/admissiblemagnitude.hh`: Common/Headers, EntityNetwork/Constraints, EntityNetwork/LibraryEngine
* `frackit/entitynetwork/constraints_impl/distancetoboundary.hh`: Common/Headers, EntityNetwork/Constraints, EntityNetwork/LibraryEngine
* `frackit/entitynetwork/constraintsmatrix.hh`: Common/Headers, EntityNetwork/Matrix
* `frackit/entitynetwork/containedentitynetwork.hh`: Common/Headers, EntityNetwork/Access, EntityNetwork/Builder
* `frackit/entitynetwork/containedentitynetworkinterface.hh`: Common/Headers, EntityNetwork/Access
* `frackit/entitynetwork/entitynetwork.hh`: Common/Headers, EntityNetwork/Builder
* `frackit/entitynetwork/entitynetworkinterface.hh`: Common/Headers
* `frackit/entitynetwork/multigeometryentityset.hh`: Common/Headers, EntityNetwork/EntitySet
* `frackit/entitynetwork/networkbuilder.hh`: Appl/Networks, Common/Headers, EntityNetwork/Access, EntityNetwork/Builder, EntityNetwork/BuilderIds
* `frackit/geometry/boundingbox.hh`: Common/Headers, Common/Names
* `frackit/geometry/box.hh`: Common/Headers, Distance/Shapes, Float/Box, Float/Range, Geometry/Box, Python/Indices
* `frackit/geometry/circle.hh`: Common/Headers, Float/Elliptical, Geometry/Elliptical, Python/Objects
* `frackit/geometry/ctype.hh`: Common/Headers
* `frackit/geometry/cylinder.hh`: Common/Headers, Float/Centroid, Float/Cylinder, Geometry/Cylinder
* `frackit/geometry/cylindersurface.hh`: Common/Headers, Float/CylinderSurface, Geometry/Cylinder
* `frackit/geometry/dimension.hh`: Common/HeaderOrder, Common/Headers, Intersection/Result, Magnitude/Contained, Magnitude/PyMagnitude
* `frackit/geometry/direction.hh`: Common/Headers, Float/Range, Float/Vector, Geometry/Basic, Geometry/NDim
* `frackit/geometry/disk.hh`: Appl/Examples, Common/Headers, Float/Elliptical, Geometry/Elliptical, Intersection/Planar
* `frackit/geometry/ellipse.hh`: Common/Headers, Float/Arc, Float/Elliptical, Geometry/Elliptical
* `frackit/geometry/ellipsearc.hh`: Common/Headers, Common/Names, Float/Arc, Geometry/Elliptical, Python/Objects
* `frackit/geometry/ellipticalgeometry.hh`: Common/Headers, Float/Elliptical, Float/Rotation, Geometry/Elliptical, Python/Objects
* `frackit/geometry/geometry.hh`: Common/Headers
* `frackit/geometry/hollowcylinder.hh`: Common/Headers, Float/HollowCylinder, Geometry/Cylinder, Geometry/HollowCylinderCache
* `frackit/geometry/line.hh`: Common/Headers, Float/Geometry, Geometry/Basic, Geometry/NDimLine
* `frackit/geometry/plane.hh`: Common/Headers, Float/Elliptical, Float/Geometry, Float/SurfaceAngle, Geometry/Basic
* `frackit/geometry/point.hh`: Common/Headers, Common/Names, Float/Centroid, Float/Geometry, Float/Range, Float/Sampler, Geometry/Basic, Geometry/NDim, IO/GeometryText, Python/Objects
* `frackit/geometry/polygon.hh`: Common/Headers, Distance/Distance, Float/Centroid, Float/Convexity, Float/PolygonContains, Geometry/Planar, Intersection/Planar, Python/Indices
* `frackit/geometry/quadrilateral.hh`: Appl/Examples, Common/Headers, Distance/Distance, Float/Centroid, Float/Convexity, Float/Geometry, Float/Range, Geometry/Planar, Intersection/Planar, Python/Indices
* `frackit/geometry/segment.hh`: Common/Headers, Float/Geometry, Geometry/Basic, Geometry/NDimLine, Intersection/Planar
* `frackit/geometry/sphere.hh`: Common/Headers, Float/Centroid, Float/Geometry, Float/Range, Geometry/Cylinder
* `frackit/geometry/triangle.hh`: Common/Headers, Float/Centroid, Float/Geometry, Float/PolygonContains, Float/Range, Geometry/Planar, Python/Indices
* `frackit/geometry/triangulation.hh`: Common/Headers, Float/Centroid, Geometry/Planar
* `frackit/geometry/vector.hh`: Common/Headers, Float/Elliptical, Float/Geometry, Float/Range, Float/Sampler, Float/Vector, Geometry/Basic, Geometry/NDim, Geometry/PyFactories, Magnitude/PyMagnitude
* `frackit/geometryutilities/applyongeometry.hh`: Common/Headers, Magnitude/Contained
* `frackit/geometryutilities/assign.hh`: Common/Headers, Common/Names, EntityNetwork/EntitySet, Magnitude/Contained
* `frackit/geometryutilities/getboundingbox.hh`: Common/Headers, Distance/Shapes, Intersection/Intersect
* `frackit/geometryutilities/isplanar.hh`: Common/HeaderOrder, Common/Headers, EntityNetwork/LibraryEngine
* `frackit/geometryutilities/name.hh`: Common/Headers, Common/Names
* `frackit/intersection/algorithms/algo_cylsurface_disk.hh`: Common/Headers, Intersection/CylinderPlanar, Intersection/Planar
* `frackit/intersection/algorithms/algo_cylsurface_face.hh`: Common/Headers, Intersection/FaceFace, Intersection/Intersect
* `frackit/intersection/algorithms/algo_cylsurface_planargeom.hh`: Common/Headers, Intersection/CylinderPlanar
* `frackit/intersection/algorithms/algo_cylsurface_polygon.hh`: Common/Headers, Intersection/CylinderPlanar
* `frackit/intersection/algorithms/algo_cylsurface_quadrilateral.hh`: Common/Headers, Intersection/CylinderPlanar
* `frackit/intersection/algorithms/algo_disk_disk.hh`: Common/Headers, Intersection/Planar
* `frackit/intersection/algorithms/algo_disk_line.hh`: Common/Headers, Intersection/Planar
* `frackit/intersection/algorithms/algo_face_face_3d.hh`: Common/Headers, Intersection/FaceFace
* `frackit/intersection/algorithms/algo_planargeom_line.hh`: Common/Headers, Intersection/Planar
* `frackit/intersection/algorithms/algo_planargeom_planargeom.hh`: Common/Headers, Intersection/Planar
* `frackit/intersection/algorithms/algo_plane_line.hh`: Common/Headers, Intersection/Kernel
* `frackit/intersection/algorithms/algo_plane_plane.hh`: Common/Headers, Intersection/Kernel
* `frackit/intersection/algorithms/algo_polygon_disk.hh`: Common/Headers, Intersection/Planar
* `frackit/intersection/algorithms/algo_polygon_polygon.hh`: Common/Headers, Intersection/Planar
* `frackit/intersection/algorithms/algo_quadrilateral_disk.hh`: Common/Headers, Intersection/Planar
* `frackit/intersection/algorithms/algo_quadrilateral_line.hh`: Common/Headers, Intersection/Planar
* `frackit/intersection/algorithms/algo_quadrilateral_quadrilateral.hh`: Common/Headers, Intersection/Planar
* `frackit/intersection/algorithms/algo_segment_segment.hh`: Common/Headers, Intersection/Kernel, Intersection/SegmentSegment
* `frackit/intersection/bboxintersection.hh`: Common/Headers, Float/Box, Geometry/Box
* `frackit/intersection/emptyintersection.hh`: Common/Headers, Common/Names, Intersection/Result
* `frackit/intersection/intersect.hh`: Common/Headers, Intersection/Intersect
* `frackit/intersection/intersectionangle.hh`: Common/HeaderOrder, Common/Headers, Common/Math, EntityNetwork/LibraryEngine, Float/SurfaceAngle, Float/Vector, Intersection/Angle
* `frackit/intersection/intersectiontraits.hh`: Common/Headers, Intersection/Intersect, Intersection/Kernel, Intersection/Result
* `frackit/io/brepwriter.hh`: Common/Headers, IO/BRepWriter, IO/GeoText
* `frackit/io/gmshwriter.hh`: Common/Headers, IO/BRepWriter, IO/GeoText
* `frackit/magnitude/area.hh`: Common/Headers, Magnitude/Contained, Magnitude/Magnitude
* `frackit/magnitude/containedmagnitude.hh`: Common/Headers, Magnitude/Contained
* `frackit/magnitude/length.hh`: Common/Headers, Magnitude/Contained, Magnitude/Magnitude
* `frackit/magnitude/magnitude.hh`: Common/Headers, EntityNetwork/LibraryEngine, Magnitude/Magnitude
* `frackit/magnitude/volume.hh`: Common/Headers, Magnitude/Magnitude
* `frackit/occ/breputilities.hh`: Appl/Tunnel, Common/Headers, Distance/NDim, Distance/Shapes, IO/BRepWriter, IO/ShapeFiles, Magnitude/Contained, Occ/Boolean, Occ/SubShapes, Python/ModuleFunctions
* `frackit/occ/geomutilities.hh`: Common/Headers, Distance/Shapes
* `frackit/occ/gputilities.hh`: Common/Headers, Distance/NDim, Intersection/Kernel
* `frackit/precision/defaultepsilon.hh`: Common/Headers, Distance/Shapes, Float/Box, Geometry/Box, Intersection/Intersect
* `frackit/precision/precision.hh`: Common/Headers, Common/Math, Float/Vector
* `frackit/python/common/id.hh`: EntityNetwork/PyBuilder, Python/ModuleFunctions, Python/Status
* `frackit/python/common/math.hh`: Python/ModuleFunctions, Python/Objects
* `frackit/python/entitynetwork/constraints.hh`: EntityNetwork/Matrix, Python/ModuleFunctions
* `frackit/python/entitynetwork/networkbuilder.hh`: EntityNetwork/Access, EntityNetwork/PyBuilder
* `frackit/python/entitynetwork/networkbuilderwrappers.hh`: EntityNetwork/PyBuilder
* `frackit/python/geometry/box.hh`: Python/Classes, Python/Constructors, Python/Contains, Python/Indices
* `frackit/python/geometry/brepwrapper.hh`: Common/Names, EntityNetwork/PyBuilder, IO/ShapeFiles, Occ/Compounds, Occ/SubShapes
* `frackit/python/geometry/brepwrappers.hh`: Python/Classes, Python/ModuleFunctions, Python/Modules
* `frackit/python/geometry/circle.hh`: Geometry/PyFactories, Python/Classes, Python/Constructors, Python/Contains
* `frackit/python/geometry/cylinder.hh`: Python/Classes, Python/Constructors, Python/Contains, Python/SamplerObjects
* `frackit/python/geometry/cylindersurface.hh`: Python/Classes, Python/Constructors, Python/Contains, Python/ModuleFunctions
* `frackit/python/geometry/direction.hh`: Geometry/PyFactories, Python/Classes, Python/Operators, Python/SamplerObjects
* `frackit/python/geometry/disk.hh`: Python/Classes, Python/Constructors, Python/Contains, Python/SamplerObjects
* `frackit/python/geometry/distance.hh`: Distance/Shapes, Python/ModuleFunctions
* `frackit/python/geometry/distancetoboundary.hh`: Distance/Shapes
* `frackit/python/geometry/ellipse.hh`: Python/Classes, Python/Constructors, Python/Contains, Python/Objects, Python/SamplerObjects
* `frackit/python/geometry/ellipsearc.hh`: Geometry/Elliptical, Python/Classes, Python/Constructors, Python/Contains, Python/Objects
* `frackit/python/geometry/ellipticalgeometry.hh`: Python/Classes, Python/Constructors, Python/ModuleFunctions, Python/Objects
* `frackit/python/geometry/emptyintersection.hh`: Python/Classes
* `frackit/python/geometry/geometry.hh`: Python/Classes
* `frackit/python/geometry/getboundingbox.hh`: Python/Classes, Python/Functions
* `frackit/python/geometry/hollowcylinder.hh`: Python/Classes, Python/Constructors, Python/Contains
* `frackit/python/geometry/intersect.hh`: Intersection/Intersect, Python/ModuleFunctions
* `frackit/python/geometry/line.hh`: Python/Classes, Python/Constructors, Python/Contains
* `frackit/python/geometry/magnitude.hh`: Magnitude/Contained, Magnitude/PyMagnitude, Python/Classes
* `frackit/python/geometry/plane.hh`: Python/Classes, Python/Constructors, Python/Contains, Python/ModuleFunctions
* `frackit/python/geometry/point.hh`: Geometry/PyFactories, IO/GeometryText, Python/Classes, Python/ModuleFunctions, Python/Objects, Python/Operators, Python/SamplerObjects
* `frackit/python/geometry/polygon.hh`: Python/Classes, Python/Constructors, Python/Contains, Python/Indices
* `frackit/python/geometry/quadrilateral.hh`: Python/Classes, Python/Constructors, Python/Contains, Python/Indices
* `frackit/python/geometry/registerdimensionproperties.hh`: Geometry/PyFactories, Magnitude/PyMagnitude
* `frackit/python/geometry/segment.hh`: IO/GeometryText, Python/Classes, Python/Constructors, Python/Contains
* `frackit/python/geometry/sphere.hh`: Python/Classes, Python/Constructors, Python/Contains
* `frackit/python/geometry/triangle.hh`: Python/Classes, Python/Constructors, Python/Contains, Python/Indices
* `frackit/python/geometry/vector.hh`: Geometry/PyFactories, Python/Classes, Python/Operators, Python/SamplerObjects
* `frackit/python/io/gmshwriter.hh`: Python/ModuleFunctions
* `frackit/python/occutilities/breputilities.hh`: Distance/NDim, Distance/Shapes, IO/ShapeFiles, Occ/Boolean, Occ/Compounds, Occ/SubShapes, Python/Classes, Python/ModuleFunctions
* `frackit/python/precision/defaultepsilon.hh`: Python/Classes, Python/Functions, Python/ModuleFunctions
* `frackit/python/precision/precision.hh`: Sampling/QuadSamplerPy
* `frackit/python/sampling/boxpointsampler.hh`: Python/ModuleFunctions
* `frackit/python/sampling/status.hh`: Python/ModuleFunctions, Python/Status
* `frackit/sampling/boxpointsampler.hh`: Common/Headers, Float/Sampler, Sampling/PointSampler, Sampling/Sharing
* `frackit/sampling/cylinderpointsampler.hh`: Common/Headers, Float/Sampler, Sampling/PointSampler, Sampling/Sharing
* `frackit/sampling/disksampler.hh`: Common/Headers, Float/Rotation, Sampling/DiskSampler, Sampling/Sharing
* `frackit/sampling/geometrysampler.hh`: Common/Headers
* `frackit/sampling/makepointsampler.hh`: Common/Headers, Float/Sampler, Sampling/PointSampler
* `frackit/sampling/makeuniformpointsampler.hh`: Common/Headers
* `frackit/sampling/multigeometrysampler.hh`: Common/Headers, Sampling/Sharing, Sampling/Strategy
* `frackit/sampling/pointsampler.hh`: Common/Headers
* `frackit/sampling/polygonsampler.hh`: Common/Headers, Float/Polygon, Sampling/PolygonSampler, Sampling/Sharing
* `frackit/sampling/quadrilateralsampler.hh`: Appl/Samplers, Common/Headers, Sampling/DeprecatedQuadSampler, Sampling/PolygonSampler, Sampling/Sharing
* `frackit/sampling/samplingstrategy.hh`: Common/Headers, Sampling/Strategy
* `frackit/sampling/sequentialsamplingstrategy.hh`: Common/Headers, Sampling/Strategy
* `frackit/sampling/status.hh`: Common/Headers, Sampling/Status, Sampling/StatusOutput
* `frackit/sampling/uniformpointsamplertraits.hh`: Common/Headers, Float/Sampler, Python/Modules
* `python/frackit/entitynetwork/__init__.py`: Appl/Networks, EntityNetwork/Matrix, EntityNetwork/PyBuilder
* `python/frackit/geometry/__init__.py`: Distance/Distance, Distance/NDim, Distance/Shapes, Geometry/PyFactories, Magnitude/PyMagnitude, Python/ModuleFunctions
* `python/frackit/geometry/_geometry.cc`: Python/Modules
* `python/frackit/occutilities/__init__.py`: Occ/Boolean, Python/ModuleFunctions, Python/Modules
* `python/frackit/sampling/__init__.py`: Common/Names, Float/Sampler, Python/ModuleFunctions, Python/Modules, Python/SamplerObjects, Sampling/DeprecatedQuadSampler, Sampling/DiskSampler, Sampling/PointSampler, Sampling/PolygonSampler, Sampling/PolygonSamplerPy, Sampling/QuadSamplerPy, Sampling/Sharing
* `python/frackit/sampling/_sampling.cc`: Python/ModuleFunctions

## What is not modelled

Files of which no function is modelled: forwarding code of the Python bindings, traits and type aliases, and functions that only call OpenCASCADE.

`frackit/python/entitynetwork/entitynetwork.hh`, `frackit/python/geometry/ctype.hh`, `frackit/python/geometryutilities/dimension.hh`, `frackit/python/sampling/cylinderpointsampler.hh`, `frackit/python/sampling/pointsampler.hh`, `python/frackit/common/__init__.py`, `python/frackit/common/_common.cc`, `python/frackit/entitynetwork/_entitynetwork.cc`, `python/frackit/io/__init__.py`, `python/frackit/io/_io.cc`, `python/frackit/occutilities/_occutilities.cc`, `python/frackit/precision/__init__.py`, `python/frackit/precision/_precision.cc`.

Within modelled files, the following is left out: type promotion between different arithmetic types (there is one
scalar type), output operators (`operator<<`) and `name()` functions except those used in properties, the reading
and writing of files by OpenCASCADE.
