import Verif.Core.Outcome
import Mathlib.Data.Real.Basic
import Mathlib.Data.List.Basic
import Mathlib.Logic.Function.Basic

/-!
# Builders of entity networks

frackit/entitynetwork/networkbuilder.hh

The CAD kernel is a parameter (`Occ`): all of its operations may return anything or fail.  Shapes are
elements of a type `Sh`; equality of shapes is `IsEqual`, equality of `key` is `IsSame` (equal up to
orientation), which is what the maps of shapes use.  Unordered maps are partial functions; where a map
is traversed the order is an argument (`Orders`).  Ids are natural numbers; the conversions to `int` in
`fragment_` are modelled in Verif.Model.EntityNetwork.BuilderIds.
-/

namespace Frackit
open Verif

/-- History of a boolean operation: `IsDeleted`, `Generated`, `Modified`. -/
structure Hist (Sh : Type) where
  isDeleted : Sh → Bool
  generated : Sh → List Sh
  modified : Sh → List Sh

/-- The operations of the CAD kernel used by the builders: `BRepAlgoAPI_Common` (arguments, tools,
fuzzy value), `BRepAlgoAPI_BuilderAlgo` (arguments, fuzzy value), `OCCUtilities::fuse` and
`defaultEpsilon` of a shape.  An operation that is not done throws. -/
structure Occ (Sh : Type) where
  common : List Sh → List Sh → ℝ → Outcome (Hist Sh)
  general : List Sh → ℝ → Outcome (Hist Sh)
  fuse : List Sh → ℝ → Outcome Sh
  defaultEps : Sh → ℝ

/-- `TopTools_DataMapOfShapeInteger`. -/
abbrev DMap (Sh : Type) := List (Sh × ℕ)

namespace DMap
variable {Sh K : Type} [DecidableEq K] (key : Sh → K)

/-- `Find`. -/
def find (m : DMap Sh) (s : Sh) : Option ℕ := (m.find? (fun p => key p.1 = key s)).map (·.2)

/-- `Bind`: overwrites the value of a key that is bound already. -/
def bind (m : DMap Sh) (s : Sh) (i : ℕ) : DMap Sh :=
  match find key m s with
  | some _ => m.map (fun p => if key p.1 = key s then (p.1, i) else p)
  | none => m ++ [(s, i)]

end DMap

/-- Data of `EntityNetworkBuilderBase`, frackit/entitynetwork/networkbuilder.hh:491-517.  The
dimensions and the tolerance are `none` as long as the variables are uninitialised; `union` is `none`
for the null shape. -/
structure Builder (Sh : Type) where
  subDomains : ℕ → Option Sh
  bounds : ℕ → Option Bool
  networks : ℕ → Option (List Sh)
  domainDim : Option ℤ
  entityDim : Option ℤ
  union : Option Sh
  eps : Option ℝ
  epsIsSet : Bool
  built : Bool
  confineUnion : Bool
  sdFragments : ℕ → Option (List Sh)
  fragLists : ℕ → Option (List Sh)
  fragMaps : ℕ → Option (DMap Sh)

/-- The orders in which the unordered maps are traversed during a call: the sub-domains, the networks,
and the lists and maps of fragments. -/
structure Orders where
  subDomains : List ℕ
  networks : List ℕ
  lists : List ℕ
  maps : List ℕ

namespace Builder
variable {Sh K : Type} [DecidableEq Sh] [DecidableEq K] (key : Sh → K) (occ : Occ Sh)

/-- A new builder. -/
def init : Builder Sh where
  subDomains _ := none
  bounds _ := none
  networks _ := none
  domainDim := none
  entityDim := none
  union := none
  eps := none
  epsIsSet := false
  built := false
  confineUnion := true
  sdFragments _ := none
  fragLists _ := none
  fragMaps _ := none

/-- The map is empty. -/
def IsEmpty {α : Type} (m : ℕ → Option α) : Prop := ∀ i, m i = none

/-- `setConfineToSubDomainUnion`, frackit/entitynetwork/networkbuilder.hh:74-77. -/
def setConfineToSubDomainUnion (b : Builder Sh) (v : Bool) : Builder Sh := { b with confineUnion := v }

/-- `setEpsilon`, frackit/entitynetwork/networkbuilder.hh:84-88. -/
def setEpsilon (b : Builder Sh) (e : ℝ) : Builder Sh := { b with eps := some e, epsIsSet := true }

open Classical in
/-- The value computed by `setDefaultEpsilon`, frackit/entitynetwork/networkbuilder.hh:94-115, with
`Precision::confusion` = 1e-7; `big` is the largest number of the number type, from which the minimum
starts. -/
noncomputable def defaultEpsilon (big : ℝ) (o : Orders) (b : Builder Sh) : ℝ :=
  if IsEmpty b.subDomains ∧ IsEmpty b.networks then 1e-7
  else if ¬ IsEmpty b.subDomains then
    ((o.subDomains.filterMap b.subDomains).map occ.defaultEps).foldl min big
  else
    ((o.networks.flatMap (fun i => (b.networks i).getD [])).map occ.defaultEps).foldl min big

/-- `setDefaultEpsilon`, frackit/entitynetwork/networkbuilder.hh:94-115. -/
noncomputable def setDefaultEpsilon (big : ℝ) (o : Orders) (b : Builder Sh) : Builder Sh :=
  { b with eps := some (defaultEpsilon occ big o b), epsIsSet := true }

open Classical in
/-- `addSubDomain`, frackit/entitynetwork/networkbuilder.hh:134-147.  `dim` and `shape` are the results
of `getDimension` and `getShape`.  The assignment evaluates its right-hand side first (C++17), so that
an exception from `getShape` leaves the map as it is, while the dimension has been set already. -/
noncomputable def addSubDomain (b : Builder Sh) (dim : Outcome ℤ) (shape : Outcome Sh) (id : ℕ) :
    Outcome Unit × Builder Sh :=
  match dim with
  | .val d =>
      if ¬ IsEmpty b.networks ∧ b.entityDim = none then (.ub, b)
      else if ¬ IsEmpty b.networks ∧ ∃ e, b.entityDim = some e ∧ d ≤ e then
        (.thrown "Sub-domain dimension must be greater than entity dimension", b)
      else if ¬ IsEmpty b.subDomains ∧ b.domainDim = none then (.ub, b)
      else if ¬ IsEmpty b.subDomains ∧ b.domainDim ≠ some d then
        (.thrown "Sub-domain dimension does not match to previously added", b)
      else if b.subDomains id ≠ none then (.thrown "Sub-domain id already taken!", b)
      else
        match shape with
        | .val s =>
            (.val (), { b with domainDim := some d
                               subDomains := Function.update b.subDomains id (some s)
                               bounds := Function.update b.bounds id (some false) })
        | .thrown e => (.thrown e, { b with domainDim := some d })
        | .nan => (.nan, { b with domainDim := some d })
        | .ub => (.ub, b)
  | .thrown e => (.thrown e, b)
  | .nan => (.nan, b)
  | .ub => (.ub, b)

/-- `addConfiningSubDomain`, frackit/entitynetwork/networkbuilder.hh:160-164. -/
noncomputable def addConfiningSubDomain (b : Builder Sh) (dim : Outcome ℤ) (shape : Outcome Sh)
    (id : ℕ) : Outcome Unit × Builder Sh :=
  match b.addSubDomain dim shape id with
  | (.val _, b') => (.val (), { b' with bounds := Function.update b'.bounds id (some true) })
  | r => r

open Classical in
/-- `addSubDomainEntity`, frackit/entitynetwork/networkbuilder.hh:173-183, and `addEntity`
(frackit/entitynetwork/networkbuilder.hh:542-552, id 0).  The access to the map comes before the
evaluation of the argument of `Append` (C++17), so that an exception from `getShape` leaves an empty
entry. -/
noncomputable def addSubDomainEntity (b : Builder Sh) (dim : Outcome ℤ) (shape : Outcome Sh) (id : ℕ) :
    Outcome Unit × Builder Sh :=
  match dim with
  | .val d =>
      if ¬ IsEmpty b.networks ∧ b.entityDim = none then (.ub, b)
      else if ¬ IsEmpty b.networks ∧ b.entityDim ≠ some d then
        (.thrown "Entity dimension does not match to previously added", b)
      else if ¬ IsEmpty b.subDomains ∧ b.domainDim = none then (.ub, b)
      else if ¬ IsEmpty b.subDomains ∧ ∃ e, b.domainDim = some e ∧ e ≤ d then
        (.thrown "Entity dimension must be smaller than domain dimension", b)
      else
        let l := (b.networks id).getD []
        match shape with
        | .val s =>
            (.val (), { b with entityDim := some d
                               networks := Function.update b.networks id (some (l ++ [s])) })
        | .thrown e => (.thrown e, { b with entityDim := some d
                                            networks := Function.update b.networks id (some l) })
        | .nan => (.nan, { b with entityDim := some d
                                  networks := Function.update b.networks id (some l) })
        | .ub => (.ub, b)
  | .thrown e => (.thrown e, b)
  | .nan => (.nan, b)
  | .ub => (.ub, b)

/-- `clearBuild_`, frackit/entitynetwork/networkbuilder.hh:482-489. -/
def clearBuild (b : Builder Sh) : Builder Sh :=
  { b with built := false
           sdFragments := fun _ => none
           fragLists := fun _ => none
           fragMaps := fun _ => none
           union := none }

/-- `clear`, frackit/entitynetwork/networkbuilder.hh:201-207. -/
def clear (b : Builder Sh) : Builder Sh :=
  { b.clearBuild with subDomains := fun _ => none
                      bounds := fun _ => none
                      networks := fun _ => none }

/-- The index map of a network before any operation,
frackit/entitynetwork/networkbuilder.hh:459-466. -/
def initialMap (l : List Sh) : DMap Sh :=
  (l.foldl (fun (a : DMap Sh × ℕ) s => (DMap.bind key a.1 s a.2, a.2 + 1)) ([], 1)).1

/-- `initializeBuild_`, frackit/entitynetwork/networkbuilder.hh:442-468.  The containers of fragments
are empty when it is called (`clearBuild_`), the entries for the networks are therefore appended to
empty lists.  The order of traversal does not matter, since each id has its own entries. -/
def initializeBuild (b : Builder Sh) : Builder Sh :=
  { b with
    fragLists := fun i =>
      match b.networks i with
      | some l => some (((if (b.subDomains i).isSome then some [] else b.fragLists i).getD []) ++ l)
      | none => if (b.subDomains i).isSome then some [] else b.fragLists i
    fragMaps := fun i =>
      match b.networks i with
      | some l =>
          some (l.foldl (fun (a : DMap Sh × ℕ) s => (DMap.bind key a.1 s a.2, a.2 + 1))
            ((if (b.subDomains i).isSome then some [] else b.fragMaps i).getD [], 1)).1
      | none => if (b.subDomains i).isSome then some [] else b.fragMaps i }

/-- Registration of a generated or modified shape,
frackit/entitynetwork/networkbuilder.hh:266-269, 360-363. -/
def addFragment (idx : ℕ) (acc : List Sh × DMap Sh) (f : Sh) : List Sh × DMap Sh :=
  (if f ∈ acc.1 then acc.1 else acc.1 ++ [f],
    if (DMap.find key acc.2 f).isSome then acc.2 else DMap.bind key acc.2 f idx)

/-- Registration of all shapes that stem from `s`, frackit/entitynetwork/networkbuilder.hh:255-275,
346-369. -/
def collect (h : Hist Sh) (s : Sh) (idx : ℕ) (acc : List Sh × DMap Sh) : List Sh × DMap Sh :=
  let acc := if !h.isDeleted s && (h.generated s).isEmpty && (h.modified s).isEmpty then
      (acc.1 ++ [s], DMap.bind key acc.2 s idx) else acc
  let acc := (h.generated s).foldl (addFragment key idx) acc
  (h.modified s).foldl (addFragment key idx) acc

/-- The loop over the entities of a network in `confineNetworks_`,
frackit/entitynetwork/networkbuilder.hh:248-276. -/
def confineLoop (h : Hist Sh) (m : DMap Sh) : List Sh → List Sh × DMap Sh → Outcome (List Sh × DMap Sh)
  | [], acc => .val acc
  | s :: t, acc =>
      match DMap.find key m s with
      | none => .thrown "Could not find entity index"
      | some idx => confineLoop h m t (collect key h s idx acc)

/-- The tolerance in use: `getEpsilon_`, frackit/entitynetwork/networkbuilder.hh:406-411. -/
noncomputable def getEpsilon (big : ℝ) (o : Orders) (b : Builder Sh) : Builder Sh :=
  if b.epsIsSet then b else b.setDefaultEpsilon occ big o

/-- `getSubDomainUnion_`, frackit/entitynetwork/networkbuilder.hh:416-437, with the tolerance set
before.  If it is set by this function in the code instead, it gets the same value. -/
noncomputable def getSubDomainUnion (o : Orders) (b : Builder Sh) (eps : ℝ) : Outcome Sh :=
  match b.union with
  | some u => .val u
  | none =>
      match o.subDomains.filterMap b.subDomains with
      | [] => .thrown "No sub-domains defined yet"
      | [s] => .val s
      | l => occ.fuse l eps

/-- One pass of the loop of `confineNetworks_`, frackit/entitynetwork/networkbuilder.hh:217-280. -/
noncomputable def confineOne (o : Orders) (eps : ℝ) (b : Builder Sh) (i : ℕ) :
    Outcome Unit × Builder Sh :=
  let network := (b.networks i).getD []
  match b.subDomains i with
  | none => (.val (), b)
  | some sd =>
      match b.bounds i with
      | none => (.thrown "out_of_range", b)
      | some bounding =>
          if bounding = false ∧ b.confineUnion = false then (.val (), b)
          else
            match (if bounding then Outcome.val sd else b.getSubDomainUnion occ o eps) with
            | .thrown e => (.thrown e, b)
            | .nan => (.nan, b)
            | .ub => (.ub, b)
            | .val tool =>
                let b := if bounding then b else { b with union := some tool }
                match occ.common network [tool] eps with
                | .thrown e => (.thrown e, b)
                | .nan => (.nan, b)
                | .ub => (.ub, b)
                | .val h =>
                    match confineLoop key h ((b.fragMaps i).getD []) network ([], []) with
                    | .val acc =>
                        (.val (), { b with fragLists := Function.update b.fragLists i (some acc.1)
                                           fragMaps := Function.update b.fragMaps i (some acc.2) })
                    | .thrown e => (.thrown e, b)
                    | .nan => (.nan, b)
                    | .ub => (.ub, b)

/-- `confineNetworks_`, frackit/entitynetwork/networkbuilder.hh:215-281: `ids` are the ids of the
networks. -/
noncomputable def confine (o : Orders) (eps : ℝ) (b : Builder Sh) : List ℕ → Outcome Unit × Builder Sh
  | [] => (.val (), b)
  | i :: t =>
      match confineOne key occ o eps b i with
      | (.val _, b') => confine o eps b' t
      | r => r

/-- All entity fragments with the sub-domain they are registered for,
frackit/entitynetwork/networkbuilder.hh:293-302. -/
def allEntities (o : Orders) (b : Builder Sh) : List (Sh × ℕ) :=
  o.lists.flatMap (fun i => ((b.fragLists i).getD []).map (fun s => (s, i)))

/-- Binding of a list of shapes, frackit/entitynetwork/networkbuilder.hh:300, 312-313. -/
def bindAll (l : List (Sh × ℕ)) : DMap Sh := l.foldl (fun m p => DMap.bind key m p.1 p.2) []

/-- The new lists and maps of fragments, frackit/entitynetwork/networkbuilder.hh:331-370. -/
def fragmentLoop (h : Hist Sh) (sdOf : DMap Sh) (maps : ℕ → Option (DMap Sh)) :
    List Sh → (ℕ → Option (List Sh × DMap Sh)) → Outcome (ℕ → Option (List Sh × DMap Sh))
  | [], acc => .val acc
  | s :: t, acc =>
      match DMap.find key sdOf s with
      | none => .thrown "Could not find sub-domain index"
      | some i =>
          match maps i with
          | none => .thrown "out_of_range"
          | some m =>
              match DMap.find key m s with
              | none => .thrown "Could not find original entity index"
              | some idx =>
                  fragmentLoop h sdOf maps t
                    (Function.update acc i (some (collect key h s idx ((acc i).getD ([], [])))))

/-- The fragments of the sub-domains, frackit/entitynetwork/networkbuilder.hh:379-400. -/
def domainLoop (h : Hist Sh) (sdOf : DMap Sh) :
    List Sh → (ℕ → Option (List Sh)) → Outcome (ℕ → Option (List Sh))
  | [], acc => .val acc
  | s :: t, acc =>
      match DMap.find key sdOf s with
      | none => .thrown "Could not find sub-domain index"
      | some i =>
          let l := (acc i).getD []
          let l := if !h.isDeleted s && (h.generated s).isEmpty && (h.modified s).isEmpty then l ++ [s] else l
          let l := (h.generated s).foldl (fun l f => if f ∈ l then l else l ++ [f]) l
          let l := (h.modified s).foldl (fun l f => if f ∈ l then l else l ++ [f]) l
          domainLoop h sdOf t (Function.update acc i (some l))

/-- `fragment_`, frackit/entitynetwork/networkbuilder.hh:290-401. -/
noncomputable def fragment (o : Orders) (eps : ℝ) (networkOnly : Bool) (b : Builder Sh) :
    Outcome Unit × Builder Sh :=
  let ents := b.allEntities o
  let doms := if networkOnly then [] else
    o.subDomains.filterMap (fun i => (b.subDomains i).map (fun s => (s, i)))
  match occ.general (ents.map (·.1) ++ doms.map (·.1)) eps with
  | .thrown e => (.thrown e, b)
  | .nan => (.nan, b)
  | .ub => (.ub, b)
  | .val h =>
      match fragmentLoop key h (bindAll key ents) b.fragMaps (ents.map (·.1)) (fun _ => none) with
      | .thrown e => (.thrown e, b)
      | .nan => (.nan, b)
      | .ub => (.ub, b)
      | .val acc =>
          let b := { b with
            fragLists := fun i => match acc i with | some a => some a.1 | none => b.fragLists i
            fragMaps := fun i => match acc i with | some a => some a.2 | none => b.fragMaps i }
          match domainLoop key h (bindAll key doms) (doms.map (·.1)) b.sdFragments with
          | .val sd => (.val (), { b with sdFragments := sd })
          | .thrown e => (.thrown e, b)
          | .nan => (.nan, b)
          | .ub => (.ub, b)

/-- The common part of `build()`, frackit/entitynetwork/networkbuilder.hh:569-577, 646-654. -/
noncomputable def prepare (big : ℝ) (o : Orders) (networkOnly : Bool) (b : Builder Sh) :
    Outcome Unit × Builder Sh :=
  let b := initializeBuild key b.clearBuild
  let b := b.getEpsilon occ big o
  let eps := b.eps.getD 0
  match confine key occ o eps b o.networks with
  | (.val _, b') => fragment key occ o eps networkOnly b'
  | r => r

/-- Data of `ContainedEntityNetwork`, frackit/entitynetwork/containedentitynetwork.hh. -/
structure ContainedNetwork (Sh : Type) where
  entityDim : ℤ
  domainDim : ℤ
  subDomainFragments : ℕ → Option (List Sh)
  entityFragments : ℕ → Option (List Sh)
  indexMaps : ℕ → Option (DMap Sh)

/-- Data of `EntityNetwork`, frackit/entitynetwork/entitynetwork.hh. -/
structure Network (Sh : Type) where
  entityDim : ℤ
  fragments : List Sh
  indexMap : DMap Sh

/-- `ContainedEntityNetworkBuilder::build`, frackit/entitynetwork/networkbuilder.hh:637-667; reading
an uninitialised dimension is undefined behaviour.  The containers are moved from. -/
noncomputable def buildContained (big : ℝ) (o : Orders) (b : Builder Sh) :
    Outcome (ContainedNetwork Sh) × Builder Sh :=
  match prepare key occ big o false b with
  | (.val _, b') =>
      match b'.entityDim, b'.domainDim with
      | some e, some d =>
          (.val ⟨e, d, b'.sdFragments, b'.fragLists, b'.fragMaps⟩,
            { b' with sdFragments := fun _ => none, fragLists := fun _ => none,
                      fragMaps := fun _ => none, built := true })
      | _, _ => (.ub, b')
  | (.thrown e, b') => (.thrown e, b')
  | (.nan, b') => (.nan, b')
  | (.ub, b') => (.ub, b')

/-- Merging of the index maps, frackit/entitynetwork/networkbuilder.hh:584-593. -/
def mergeMaps (maps : ℕ → Option (DMap Sh)) : List ℕ → ℕ → DMap Sh → DMap Sh
  | [], _, acc => acc
  | i :: t, offset, acc =>
      let m := (maps i).getD []
      mergeMaps maps t (offset + m.length)
        (m.foldl (fun a p => DMap.bind key a p.1 (p.2 + offset)) acc)

/-- `EntityNetworkBuilder::build`, frackit/entitynetwork/networkbuilder.hh:567-604. -/
noncomputable def buildNetwork (big : ℝ) (o : Orders) (b : Builder Sh) :
    Outcome (Network Sh) × Builder Sh :=
  match prepare key occ big o true b with
  | (.val _, b') =>
      match b'.entityDim with
      | some e =>
          (.val ⟨e, o.lists.flatMap (fun i => (b'.fragLists i).getD []),
              mergeMaps key b'.fragMaps o.maps 0 []⟩,
            { b' with fragLists := fun i => (b'.fragLists i).map (fun _ => []), built := true })
      | none => (.ub, b')
  | (.thrown e, b') => (.thrown e, b')
  | (.nan, b') => (.nan, b')
  | (.ub, b') => (.ub, b')

/-- Calls on a builder.  `dim` and `shape` are the results of `getDimension` and `getShape` for the
geometry passed, `o` the orders in which maps are traversed during the call. -/
inductive Op (Sh : Type) where
  | addSubDomain (dim : Outcome ℤ) (shape : Outcome Sh) (id : ℕ)
  | addConfiningSubDomain (dim : Outcome ℤ) (shape : Outcome Sh) (id : ℕ)
  | addEntity (dim : Outcome ℤ) (shape : Outcome Sh) (id : ℕ)
  | clear
  | setEpsilon (e : ℝ)
  | setDefaultEpsilon (o : Orders)
  | setConfineToSubDomainUnion (v : Bool)
  | buildContained (o : Orders)
  | buildNetwork (o : Orders)

/-- Effect of a call. -/
noncomputable def step (big : ℝ) (b : Builder Sh) : Op Sh → Outcome Unit × Builder Sh
  | .addSubDomain d s i => b.addSubDomain d s i
  | .addConfiningSubDomain d s i => b.addConfiningSubDomain d s i
  | .addEntity d s i => b.addSubDomainEntity d s i
  | .clear => (.val (), b.clear)
  | .setEpsilon e => (.val (), b.setEpsilon e)
  | .setDefaultEpsilon o => (.val (), b.setDefaultEpsilon occ big o)
  | .setConfineToSubDomainUnion v => (.val (), b.setConfineToSubDomainUnion v)
  | .buildContained o => ((fun _ => ()) <$> (buildContained key occ big o b).1,
      (buildContained key occ big o b).2)
  | .buildNetwork o => ((fun _ => ()) <$> (buildNetwork key occ big o b).1,
      (buildNetwork key occ big o b).2)

/-- A contained network builder with the network built last, `network_`,
frackit/entitynetwork/networkbuilder.hh:684. -/
structure Session (Sh : Type) where
  b : Builder Sh
  stored : Option (ContainedNetwork Sh)

/-- Effect of a call on a contained network builder: a successful build stores the network,
frackit/entitynetwork/networkbuilder.hh:657-664 (also used with `buildNetwork` as a call without effect
on the stored network, which this class does not have). -/
noncomputable def Session.step (big : ℝ) (s : Session Sh) (op : Op Sh) : Session Sh :=
  match op with
  | .buildContained o =>
      ⟨(Builder.buildContained key occ big o s.b).2,
        match (Builder.buildContained key occ big o s.b).1 with
        | .val n => some n
        | _ => s.stored⟩
  | op => ⟨(Builder.step key occ big s.b op).2, s.stored⟩

/-- `network`, frackit/entitynetwork/networkbuilder.hh:672-677; a null pointer would be
dereferenced if nothing was stored. -/
def Session.network (s : Session Sh) : Outcome (ContainedNetwork Sh) :=
  if s.b.built = false then .thrown "Network has not been built yet!"
  else
    match s.stored with
    | some n => .val n
    | none => .ub

end Builder
end Frackit
