import Verif.Model.EntityNetwork.Builder
import Verif.Model.Python.Classes

/-!
# Network builders in Python

frackit/python/entitynetwork/{networkbuilder,networkbuilderwrappers}.hh, python/frackit/entitynetwork/__init__.py
-/

namespace Frackit
open Verif

/-- An object passed to a builder: its class, and the results of `getDimension` and `getShape` for the C++ object, which
for wrappers is the wrapped shape (`getUnwrappedShape`, frackit/python/geometry/brepwrapper.hh:138-144). -/
structure PyEntity (Sh : Type) where
  cls : PyClass
  dim : Outcome ℤ
  shape : Outcome Sh

/-- An argument for the id of a sub-domain: an `Id`, or an object of another class (numbers are not converted,
frackit/python/common/id.hh:33-36). -/
inductive PyId where
  | id (i : ℕ)
  | other

namespace PyBuilder
variable {Sh K : Type} [DecidableEq Sh] [DecidableEq K] (key : Sh → K) (occ : Occ Sh) (big : ℝ)

/-- The overloads of `addSubDomain` and `addConfiningSubDomain`, frackit/python/entitynetwork/networkbuilder.hh:67-73. -/
def domainOverloads : List PyClass := [.box, .cylinder, .wrapper .solid]

/-- The overloads of `addEntity` and `addSubDomainEntity`, frackit/python/entitynetwork/networkbuilder.hh:75-91. -/
def entityOverloads : List PyClass := [.disk, .quadrilateral, .polygon, .wrapper .face]

/-- `addSubDomainEntity(entity, subDomainId)`, frackit/python/entitynetwork/networkbuilderwrappers.hh:40-41, 64-65. -/
noncomputable def addSubDomainEntity (b : Builder Sh) (e : PyEntity Sh) (i : PyId) : Outcome Unit × Builder Sh :=
  match resolve entityOverloads e.cls, i with
  | some _, .id i => b.addSubDomainEntity e.dim e.shape i
  | _, _ => (.thrown "TypeError", b)

/-- `addEntity(entity)`, frackit/python/entitynetwork/networkbuilderwrappers.hh:44-45. -/
noncomputable def addEntity (b : Builder Sh) (e : PyEntity Sh) : Outcome Unit × Builder Sh :=
  match resolve entityOverloads e.cls with
  | some _ => b.addSubDomainEntity e.dim e.shape 0
  | none => (.thrown "TypeError", b)

/-- `addSubDomain(domain, subDomainId)`, frackit/python/entitynetwork/networkbuilderwrappers.hh:52-53, 72-73. -/
noncomputable def addSubDomain (b : Builder Sh) (e : PyEntity Sh) (i : PyId) : Outcome Unit × Builder Sh :=
  match resolve domainOverloads e.cls, i with
  | some _, .id i => b.addSubDomain e.dim e.shape i
  | _, _ => (.thrown "TypeError", b)

/-- `addConfiningSubDomain(domain, subDomainId)`, frackit/python/entitynetwork/networkbuilderwrappers.hh:48-49, 68-69. -/
noncomputable def addConfiningSubDomain (b : Builder Sh) (e : PyEntity Sh) (i : PyId) : Outcome Unit × Builder Sh :=
  match resolve domainOverloads e.cls, i with
  | some _, .id i => b.addConfiningSubDomain e.dim e.shape i
  | _, _ => (.thrown "TypeError", b)

/-- `addEntities(entities)`, python/frackit/entitynetwork/__init__.py:97-101. -/
noncomputable def addEntities : Builder Sh → List (PyEntity Sh) → Outcome Unit × Builder Sh
  | b, [] => (.val (), b)
  | b, e :: t =>
      match addEntity b e with
      | (.val _, b') => addEntities b' t
      | r => r

/-- `addSubDomainEntities(entities, subDomainId)`, python/frackit/entitynetwork/__init__.py:103-107, 112-116. -/
noncomputable def addSubDomainEntities (i : PyId) : Builder Sh → List (PyEntity Sh) → Outcome Unit × Builder Sh
  | b, [] => (.val (), b)
  | b, e :: t =>
      match addSubDomainEntity b e i with
      | (.val _, b') => addSubDomainEntities i b' t
      | r => r

/-- Calls on a builder in Python. -/
inductive Call (Sh : Type) where
  | addSubDomain (e : PyEntity Sh) (i : PyId)
  | addConfiningSubDomain (e : PyEntity Sh) (i : PyId)
  | addEntity (e : PyEntity Sh)
  | addSubDomainEntity (e : PyEntity Sh) (i : PyId)
  | addEntities (l : List (PyEntity Sh))
  | addSubDomainEntities (l : List (PyEntity Sh)) (i : PyId)
  | clear
  | setEpsilon (e : ℝ)
  | setDefaultEpsilon (o : Orders)
  | setConfineToSubDomainUnion (v : Bool)
  | buildContained (o : Orders)
  | buildNetwork (o : Orders)

/-- Effect of a call; the functions of the base classes are those of C++,
frackit/python/entitynetwork/networkbuilder.hh:99-115. -/
noncomputable def call (b : Builder Sh) : Call Sh → Outcome Unit × Builder Sh
  | .addSubDomain e i => addSubDomain b e i
  | .addConfiningSubDomain e i => addConfiningSubDomain b e i
  | .addEntity e => addEntity b e
  | .addSubDomainEntity e i => addSubDomainEntity b e i
  | .addEntities l => addEntities b l
  | .addSubDomainEntities l i => addSubDomainEntities i b l
  | .clear => Builder.step key occ big b .clear
  | .setEpsilon e => Builder.step key occ big b (.setEpsilon e)
  | .setDefaultEpsilon o => Builder.step key occ big b (.setDefaultEpsilon o)
  | .setConfineToSubDomainUnion v => Builder.step key occ big b (.setConfineToSubDomainUnion v)
  | .buildContained o => Builder.step key occ big b (.buildContained o)
  | .buildNetwork o => Builder.step key occ big b (.buildNetwork o)

end PyBuilder
end Frackit
