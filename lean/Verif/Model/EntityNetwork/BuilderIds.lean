import Verif.Model.EntityNetwork.Builder

/-!
# Sub-domain identifiers in builders of entity networks

frackit/common/id.hh, frackit/entitynetwork/networkbuilder.hh

Identifiers are of type `std::size_t` (64 bits).  `fragment_` stores them in maps from shapes to `int`
(32 bits) and uses the values found there as keys again.  The conversion to `int` is that of gcc (modulo
`2 ^ 32`), the way back extends the sign.  The functions are those of `Verif.Model.EntityNetwork.Builder`
with these conversions.
-/

namespace Frackit
open Verif

namespace Builder
variable {Sh K : Type} [DecidableEq Sh] [DecidableEq K] (key : Sh → K) (occ : Occ Sh)

/-- An identifier converted to `int` (`Bind(fragment, fragmentListPair.first)`,
frackit/entitynetwork/networkbuilder.hh:300, 312-313). -/
def idToInt (i : ℕ) : ℤ := if i % 2 ^ 32 < 2 ^ 31 then (i % 2 ^ 32 : ℕ) else (i % 2 ^ 32 : ℕ) - 2 ^ 32

/-- An `int` used as key of an unordered map of identifiers (`networkFragmentMaps_.at(subDomainIdx)`,
frackit/entitynetwork/networkbuilder.hh:345, 353-354, 391). -/
def intToId (k : ℤ) : ℕ := (k % 2 ^ 64).toNat

/-- The identifier under which the fragments of identifier `i` are looked up and stored. -/
def storedId (i : ℕ) : ℕ := intToId (idToInt i)

/-- `fragment_`, frackit/entitynetwork/networkbuilder.hh:290-401, with the conversions of identifiers. -/
noncomputable def fragmentIds (o : Orders) (eps : ℝ) (networkOnly : Bool) (b : Builder Sh) :
    Outcome Unit × Builder Sh :=
  let ents := b.allEntities o
  let doms := if networkOnly then [] else
    o.subDomains.filterMap (fun i => (b.subDomains i).map (fun s => (s, i)))
  match occ.general (ents.map (·.1) ++ doms.map (·.1)) eps with
  | .thrown e => (.thrown e, b)
  | .nan => (.nan, b)
  | .ub => (.ub, b)
  | .val h =>
      match fragmentLoop key h (bindAll key (ents.map (fun p => (p.1, storedId p.2)))) b.fragMaps
          (ents.map (·.1)) (fun _ => none) with
      | .thrown e => (.thrown e, b)
      | .nan => (.nan, b)
      | .ub => (.ub, b)
      | .val acc =>
          let b := { b with
            fragLists := fun i => match acc i with | some a => some a.1 | none => b.fragLists i
            fragMaps := fun i => match acc i with | some a => some a.2 | none => b.fragMaps i }
          match domainLoop key h (bindAll key (doms.map (fun p => (p.1, storedId p.2))))
              (doms.map (·.1)) b.sdFragments with
          | .val sd => (.val (), { b with sdFragments := sd })
          | .thrown e => (.thrown e, b)
          | .nan => (.nan, b)
          | .ub => (.ub, b)

/-- The common part of `build()`, frackit/entitynetwork/networkbuilder.hh:569-577, 646-654. -/
noncomputable def prepareIds (big : ℝ) (o : Orders) (networkOnly : Bool) (b : Builder Sh) :
    Outcome Unit × Builder Sh :=
  let b := initializeBuild key b.clearBuild
  let b := b.getEpsilon occ big o
  let eps := b.eps.getD 0
  match confine key occ o eps b o.networks with
  | (.val _, b') => fragmentIds key occ o eps networkOnly b'
  | r => r

/-- `ContainedEntityNetworkBuilder::build`, frackit/entitynetwork/networkbuilder.hh:637-667. -/
noncomputable def buildContainedIds (big : ℝ) (o : Orders) (b : Builder Sh) :
    Outcome (ContainedNetwork Sh) × Builder Sh :=
  match prepareIds key occ big o false b with
  | (.val _, b') =>
      match b'.entityDim, b'.domainDim with
      | some e, some d =>
          (.val ⟨e, d, b'.sdFragments, b'.fragLists, b'.fragMaps⟩,
            { b' with sdFragments := fun _ => none, fragLists := fun _ => none,
                      fragMaps := fun _ => none, built := true })
      | _, _ => (.ub, b')
  | (.thrown e, b') => (.thrown e, b')
  | (.nan, b') => (.nan, b')
  | (.ub, b') => (.ub, b')

/-- `EntityNetworkBuilder::build`, frackit/entitynetwork/networkbuilder.hh:567-604. -/
noncomputable def buildNetworkIds (big : ℝ) (o : Orders) (b : Builder Sh) :
    Outcome (Network Sh) × Builder Sh :=
  match prepareIds key occ big o true b with
  | (.val _, b') =>
      match b'.entityDim with
      | some e =>
          (.val ⟨e, o.lists.flatMap (fun i => (b'.fragLists i).getD []),
              mergeMaps key b'.fragMaps o.maps 0 []⟩,
            { b' with fragLists := fun i => (b'.fragLists i).map (fun _ => []), built := true })
      | none => (.ub, b')
  | (.thrown e, b') => (.thrown e, b')
  | (.nan, b') => (.nan, b')
  | (.ub, b') => (.ub, b')

/-- Effect of a call. -/
noncomputable def stepIds (big : ℝ) (b : Builder Sh) : Op Sh → Outcome Unit × Builder Sh
  | .buildContained o => ((fun _ => ()) <$> (buildContainedIds key occ big o b).1,
      (buildContainedIds key occ big o b).2)
  | .buildNetwork o => ((fun _ => ()) <$> (buildNetworkIds key occ big o b).1,
      (buildNetworkIds key occ big o b).2)
  | op => step key occ big b op

end Builder
end Frackit
