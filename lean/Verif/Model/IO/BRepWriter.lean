import Verif.Model.EntityNetwork.Builder

/-!
# Export of networks

frackit/io/brepwriter.hh, frackit/occ/breputilities.hh:568-589 and frackit/io/gmshwriter.hh.

`Sh` is the type of shapes with orientation, whose equality is `IsEqual` of OpenCASCADE; `key` forgets the
orientation (`IsSame`).  The exploration of shapes is an oracle.
-/

namespace Frackit
open Verif Builder

/-- Exploration of shapes by `TopExp_Explorer(shape, type)` and `Oriented(TopAbs_FORWARD)`. -/
structure Topo (Sh : Type) where
  solids : Sh → List Sh
  shells : Sh → List Sh
  faces : Sh → List Sh
  wires : Sh → List Sh
  edges : Sh → List Sh
  vertices : Sh → List Sh
  forward : Sh → Sh

/-- Data of `BRepWriter`, frackit/io/brepwriter.hh:348-363.  An indexed map of shapes is the list of its
shapes, the index of a shape is its position counted from one.  A key that is missing in a map of index lists
is mapped to the empty list (entries are made by `push_back` only, no list is empty). -/
structure BRepWriter (Sh : Type) where
  allEntities : List Sh
  indexMap : DMap Sh
  intersections : List (List Sh)
  vmap : List Sh
  emap : List Sh
  wmap : List Sh
  fmap : List Sh
  shmap : List Sh
  somap : List Sh
  entityToFragments : ℕ → List ℕ
  intersectionsToFragments : ℕ → List ℕ
  domainToFragments : ℕ → List ℕ

namespace BRepWriter
variable {Sh K : Type} [DecidableEq Sh] [DecidableEq K] (key : Sh → K) (T : Topo Sh)

/-- A writer before the constructor has done anything. -/
def empty : BRepWriter Sh where
  allEntities := []
  indexMap := []
  intersections := []
  vmap := []
  emap := []
  wmap := []
  fmap := []
  shmap := []
  somap := []
  entityToFragments _ := []
  intersectionsToFragments _ := []
  domainToFragments _ := []

/-- A writer after the entities have been collected and their intersections determined. -/
def start (entities : List Sh) (indexMap : DMap Sh) (intersections : List (List Sh)) : BRepWriter Sh :=
  { (empty : BRepWriter Sh) with
    allEntities := entities, indexMap := indexMap, intersections := intersections }

/-- `FindIndex(shape) >= 1` of an indexed map (which compares by `IsSame`). -/
def has (m : List Sh) (s : Sh) : Bool := m.any fun t => key t = key s

/-- `getOverlapEdges`, frackit/occ/breputilities.hh:568-589. -/
def overlapEdges (f g : Sh) : List Sh :=
  (T.edges f).filter fun e => (T.edges g).any fun e2 => key e2 = key e

/-- The positions of the edges that are contained in an intersection already, once for each such
intersection, frackit/io/brepwriter.hh:182-186.  `Contains` of a list compares by `IsEqual`. -/
def handled (lists : List (List Sh)) (edges : List Sh) : List ℕ :=
  (List.range edges.length).flatMap fun i =>
    (lists.filter fun l => (edges[i]?).any fun e => e ∈ l).map fun _ => i

/-- One pair of entities, frackit/io/brepwriter.hh:176-193. -/
def addIntersections (lists : List (List Sh)) (f g : Sh) : List (List Sh) :=
  if key f = key g then lists
  else
    let edges := overlapEdges key T f g
    let h := handled lists edges
    if h.length ≠ edges.length then
      lists ++ [((List.range edges.length).filter fun i => i ∉ h).filterMap fun i => edges[i]?]
    else lists

/-- `findEntityIntersectionShapes_`, frackit/io/brepwriter.hh:167-196. -/
def findIntersections (entities : List Sh) : List (List Sh) :=
  entities.foldl (fun lists f => entities.foldl (fun lists g => addIntersections key T lists f g) lists) []

/-- `addVertices_`, frackit/io/brepwriter.hh:338-346. -/
def addVertices (w : BRepWriter Sh) (s : Sh) : BRepWriter Sh :=
  (T.vertices s).foldl (fun w v => if has key w.vmap v then w else { w with vmap := w.vmap ++ [v] }) w

/-- One edge in `addEdges_`, frackit/io/brepwriter.hh:315-328. -/
def addEdge (w : BRepWriter Sh) (e : Sh) : BRepWriter Sh :=
  if has key w.emap e then w
  else
    let idx := w.emap.length + 1
    addVertices key T { w with
      emap := w.emap ++ [e]
      intersectionsToFragments := fun k =>
        if 1 ≤ k ∧ (w.intersections[k - 1]?).any (fun l => e ∈ l) then w.intersectionsToFragments k ++ [idx]
        else w.intersectionsToFragments k } e

/-- `addEdges_`, frackit/io/brepwriter.hh:311-330. -/
def addEdges (w : BRepWriter Sh) (s : Sh) : BRepWriter Sh := (T.edges s).foldl (addEdge key T) w

/-- One wire in `addFaces_`, frackit/io/brepwriter.hh:292-299. -/
def addWire (w : BRepWriter Sh) (wire : Sh) : BRepWriter Sh :=
  if has key w.wmap wire then w
  else addEdges key T { w with wmap := w.wmap ++ [wire] } wire

/-- One face in `addFaces_`, frackit/io/brepwriter.hh:280-300. -/
def addFace (w : BRepWriter Sh) (f : Sh) : BRepWriter Sh :=
  if has key w.fmap f then w
  else
    let idx := w.fmap.length + 1
    (T.wires (T.forward f)).foldl (addWire key T) { w with
      fmap := w.fmap ++ [f]
      entityToFragments := fun k =>
        if DMap.find key w.indexMap f = some k then w.entityToFragments k ++ [idx]
        else w.entityToFragments k }

/-- `addFaces_`, frackit/io/brepwriter.hh:276-302. -/
def addFaces (w : BRepWriter Sh) (s : Sh) : BRepWriter Sh := (T.faces s).foldl (addFace key T) w

/-- One shell in `addSolids_`, frackit/io/brepwriter.hh:256-264. -/
def addShell (w : BRepWriter Sh) (sh : Sh) : BRepWriter Sh :=
  if has key w.shmap sh then w
  else addFaces key T { w with shmap := w.shmap ++ [sh] } sh

/-- One solid in `addSolids_`, frackit/io/brepwriter.hh:250-265. -/
def addSolid (d : ℕ) (w : BRepWriter Sh) (s : Sh) : BRepWriter Sh :=
  if has key w.somap s then w
  else
    let idx := w.somap.length + 1
    (T.shells s).foldl (addShell key T) { w with
      somap := w.somap ++ [s]
      domainToFragments := fun k =>
        if k = d then w.domainToFragments k ++ [idx] else w.domainToFragments k }

/-- `addSolids_`, frackit/io/brepwriter.hh:246-267. -/
def addSolids (d : ℕ) (w : BRepWriter Sh) (s : Sh) : BRepWriter Sh := (T.solids s).foldl (addSolid key T d) w

/-- The compound: all shapes of the maps, frackit/io/brepwriter.hh:226-239. -/
def compound (w : BRepWriter Sh) : List Sh := w.vmap ++ w.emap ++ w.wmap ++ w.fmap ++ w.shmap ++ w.somap

/-- `makeSubShapeMaps_` of an uncontained network, frackit/io/brepwriter.hh:217-221. -/
def addNetwork (w : BRepWriter Sh) (fragments : List Sh) : BRepWriter Sh :=
  fragments.foldl (addFaces key T) w

/-- The first loop of `makeSubShapeMaps_`, frackit/io/brepwriter.hh:204-206. -/
def addDomains (w : BRepWriter Sh) (frags : List (ℕ × List Sh)) : BRepWriter Sh :=
  frags.foldl (fun w p => p.2.foldl (addSolids key T p.1) w) w

/-- Construction from an `EntityNetwork`, frackit/io/brepwriter.hh:63-72 with `makeEntityMap_`,
frackit/io/brepwriter.hh:154-162. -/
def ofNetwork (n : Network Sh) : Outcome (BRepWriter Sh) :=
  if n.entityDim ≠ 2 then .thrown "BRepWriter only implemented for 2d networks so far"
  else
    let entities := n.indexMap.map Prod.fst
    let indexMap := n.indexMap.foldl (fun m p => DMap.bind key m p.1 p.2) []
    .val (addNetwork key T (start entities indexMap
      (findIntersections key T entities)) n.fragments)

/-- Lookup of all given ids by `at`. -/
def lookupAll {α : Type} (m : ℕ → Option α) : List ℕ → Outcome (List (ℕ × α))
  | [] => .val []
  | i :: t =>
    match m i with
    | none => .thrown "out_of_range"
    | some a => do
      let r ← lookupAll m t
      pure ((i, a) :: r)

/-- Construction from a `ContainedEntityNetwork`, frackit/io/brepwriter.hh:77-88 with `makeEntityMap_` (`mergeMaps`),
frackit/io/brepwriter.hh:130-148, and `makeSubShapeMaps_`, frackit/io/brepwriter.hh:202-211; `ids` are the sub-domain ids
in the order of the container of sub-domain fragments. -/
def ofContained (ids : List ℕ) (n : ContainedNetwork Sh) : Outcome (BRepWriter Sh) :=
  if n.entityDim ≠ 2 then .thrown "BRepWriter only implemented for 2d networks so far"
  else if n.domainDim ≠ n.entityDim + 1 then .thrown "BRepWriter expects entityDim = domainDim - 1"
  else do
    let maps ← lookupAll n.indexMaps ids
    let entities := maps.flatMap fun p => p.2.map Prod.fst
    let domains ← lookupAll n.subDomainFragments ids
    let fragments ← lookupAll n.entityFragments ids
    pure (addNetwork key T (addDomains key T (start entities
      (mergeMaps key n.indexMaps ids 0 []) (findIntersections key T entities)) domains) (fragments.flatMap Prod.snd))

end BRepWriter

/-! ## Gmsh file -/

/-- Kind of a geometry in a Gmsh file. -/
inductive GeoKind where
  | volume | surface | line
deriving DecidableEq

/-- Statements of a Gmsh file: definition of a physical group, and mesh size at the points of
geometries. -/
inductive GeoStatement where
  | physical (kind : GeoKind) (id : ℕ) (items : List ℕ)
  | meshSize (kind : GeoKind) (items : List ℕ) (atBoundary : Bool)
deriving DecidableEq

namespace GmshWriter
variable {Sh : Type}

/-- The list written for an entry, e.g. frackit/io/gmshwriter.hh:90-92: the first item is accessed without a
test. -/
def items : List ℕ → Outcome (List ℕ)
  | [] => .ub
  | a :: t => .val (a :: t)

/-- The groups of one map in the order of its traversal, e.g. frackit/io/gmshwriter.hh:82-105; `size` tells
whether (and which) mesh size is written. -/
def groups (kind : GeoKind) (size : Option Bool) (m : ℕ → List ℕ) : List ℕ → Outcome (List GeoStatement)
  | [] => .val []
  | k :: t => do
    let l ← items (m k)
    let r ← groups kind size m t
    pure (GeoStatement.physical kind k l ::
      ((match size with | none => [] | some b => [GeoStatement.meshSize kind l b]) ++ r))

/-- The physical groups and mesh sizes written by `GmshWriter::write` for a writer of a network of
two-dimensional entities, frackit/io/gmshwriter.hh:65-152.  The orders are those of the traversals of the three
maps. -/
def write (domOrder entOrder isOrder : List ℕ) (w : BRepWriter Sh) : Outcome (List GeoStatement) := do
  let a ← groups .volume (some true) w.domainToFragments domOrder
  let b ← groups .surface (some false) w.entityToFragments entOrder
  let c ← groups .line none w.intersectionsToFragments isOrder
  pure (a ++ b ++ c)

end GmshWriter
end Frackit
