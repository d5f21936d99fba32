import Verif.Model.EntityNetwork.Builder

/-!
# The last part of the example applications: building of networks

appl/example1, appl/example2, appl/example3, appl/example4: the calls on the network builders after the entities have
been generated.  Messages and the file names and mesh sizes passed to the writer are not modelled.

`geo` gives the results of `getDimension` and `getShape` for a geometry.
-/

namespace Frackit.Appl
open Verif

variable {E Sh : Type} (geo : E → Outcome ℤ × Outcome Sh)

/-- `addSubDomainEntities(entities, id)`, and `addEntities(entities)` for the id 0,
frackit/entitynetwork/networkbuilder.hh:191-196, 557-562: one call per entity.  In Python the loop is the same,
python/frackit/entitynetwork/__init__.py:97-116. -/
def entityCalls (l : List E) (id : ℕ) : List (Builder.Op Sh) :=
  l.map fun e => .addEntity (geo e).1 (geo e).2 id

/-- `addSubDomain(domain, id)`. -/
def domainCall (d : E) (id : ℕ) : Builder.Op Sh := .addSubDomain (geo d).1 (geo d).2 id

/-- `addConfiningSubDomain(domain, id)`. -/
def confiningCall (d : E) (id : ℕ) : Builder.Op Sh := .addConfiningSubDomain (geo d).1 (geo d).2 id

/-- Example 1, appl/example1/example1.cc:126-128, appl/example1/example1.py:107-109; then
`build()` of an `EntityNetworkBuilder`. -/
def network1 (set1 set2 : List E) : List (Builder.Op Sh) := entityCalls geo set1 0 ++ entityCalls geo set2 0

/-- Example 2, appl/example2/example2.cc:120-127, appl/example2/example2.py:135-142; then `build()` of a
`ContainedEntityNetworkBuilder`. -/
def network2 (domain : E) (set1 set2 : List E) : List (Builder.Op Sh) :=
  [confiningCall geo domain 1] ++ entityCalls geo set1 1 ++ entityCalls geo set2 1

/-- Example 3, contained and confined, appl/example3/example3.cc:215-225, appl/example3/example3.py:190-198.
`entities` are the entities in the order in which they are exported. -/
def network3a (s0 s1 s2 : E) (entities : List E) : List (Builder.Op Sh) :=
  [confiningCall geo s0 1, confiningCall geo s1 2, confiningCall geo s2 3] ++ entityCalls geo entities 2

/-- Example 3, contained and unconfined with the same builder, appl/example3/example3.cc:232-244,
appl/example3/example3.py:202-214.  `o` are the orders of traversal in the first call of `build()`. -/
def network3b (s0 s1 s2 : E) (entities : List E) (o : Orders) : List (Builder.Op Sh) :=
  network3a geo s0 s1 s2 entities ++
    [.buildContained o, .clear, domainCall geo s0 1, domainCall geo s1 2, domainCall geo s2 3] ++
    entityCalls geo entities 2

/-- Example 3, uncontained and confined, appl/example3/example3.cc:252-254, appl/example3/example3.py:222-224. -/
def network3c (s1 : E) (entities : List E) : List (Builder.Op Sh) :=
  [confiningCall geo s1 2] ++ entityCalls geo entities 2

/-- Example 3, uncontained and unconfined with the same builder, appl/example3/example3.cc:255-261 (`id` is 0),
appl/example3/example3.py:226-232 (`id` is 2). -/
def network3d (s1 : E) (entities : List E) (o : Orders) (id : ℕ) : List (Builder.Op Sh) :=
  network3c geo s1 entities ++ [.buildNetwork o, .clear] ++ entityCalls geo entities id

/-- Example 4, appl/example4/example4.cc:429-435, appl/example4/example4.py:357-361; then `build()` of a
`ContainedEntityNetworkBuilder`. -/
def network4Calls (domain : E) (set1 set2 set3 : List E) : List (Builder.Op Sh) :=
  [confiningCall geo domain 1] ++ entityCalls geo set1 1 ++ entityCalls geo set2 1 ++ entityCalls geo set3 1

end Frackit.Appl
