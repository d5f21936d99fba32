import Verif.Model.EntityNetwork.Builder

/-!
# Access to built networks

frackit/entitynetwork/containedentitynetwork.hh, containedentitynetworkinterface.hh, entitynetwork.hh and
entitynetworkinterface.hh, and the lifetime of the networks that a builder owns
(frackit/entitynetwork/networkbuilder.hh:567-619, 637-684).
-/

namespace Frackit
open Verif
namespace Builder
variable {Sh K : Type}

/-- `std::unordered_map::at`. -/
def at' {α : Type} (m : ℕ → Option α) (i : ℕ) : Outcome α :=
  match m i with
  | some a => .val a
  | none => .thrown "out_of_range"

/-- `subDomainIds`, frackit/entitynetwork/containedentitynetwork.hh:71-74, 80-81: the keys of the map of fragments
of sub-domains; `order` is the order in which the constructor traverses it. -/
def ContainedNetwork.subDomainIds (order : List ℕ) (n : ContainedNetwork Sh) : List ℕ :=
  order.filter fun i => (n.subDomainFragments i).isSome

/-- `subDomainFragments(id)`, frackit/entitynetwork/containedentitynetwork.hh:87-88. -/
def ContainedNetwork.fragmentsOf (n : ContainedNetwork Sh) (i : ℕ) : Outcome (List Sh) := at' n.subDomainFragments i

/-- `subDomainEntityFragments(id)`, frackit/entitynetwork/containedentitynetwork.hh:94-95. -/
def ContainedNetwork.entityFragmentsOf (n : ContainedNetwork Sh) (i : ℕ) : Outcome (List Sh) := at' n.entityFragments i

/-- `subDomainEntityFragmentsIndexMap(id)`, frackit/entitynetwork/containedentitynetwork.hh:101-102. -/
def ContainedNetwork.indexMapOf (n : ContainedNetwork Sh) (i : ℕ) : Outcome (DMap Sh) := at' n.indexMaps i

/-- `entityDimension`, frackit/entitynetwork/containedentitynetworkinterface.hh:66-67. -/
def ContainedNetwork.entityDimension (n : ContainedNetwork Sh) : ℤ := n.entityDim

/-- `domainDimension`, frackit/entitynetwork/containedentitynetworkinterface.hh:72-73. -/
def ContainedNetwork.domainDimension (n : ContainedNetwork Sh) : ℤ := n.domainDim

/-! ## References to networks -/

/-- A call on a builder: `build` or any other. -/
inductive OwnerCall (Sh : Type) where
  | build (o : Orders)
  | other (op : Op Sh)

/-- A builder with all networks of type `N` it has made so far, in the order of their construction; `live` is the
position of the one owned by `network_`, frackit/entitynetwork/networkbuilder.hh:619, 684.  The others have been
destroyed. -/
structure Owner (Sh N : Type) where
  b : Builder Sh
  made : List N
  live : Option ℕ

namespace Owner
variable {N : Type} [DecidableEq Sh] [DecidableEq K] (key : Sh → K) (occ : Occ Sh) (big : ℝ)
  (build : Orders → Builder Sh → Outcome N × Builder Sh)

/-- A new builder. -/
def init : Owner Sh N := ⟨Builder.init, [], none⟩

/-- Effect of a call: a build that succeeds replaces the network by a new one and destroys the old one
(frackit/entitynetwork/networkbuilder.hh:596-598, 657-661); a build that fails does not reach this assignment.
`clear` does not touch `network_` (frackit/entitynetwork/networkbuilder.hh:201-207). -/
noncomputable def step (w : Owner Sh N) : OwnerCall Sh → Owner Sh N
  | .build o =>
      match build o w.b with
      | (.val n, b') => ⟨b', w.made ++ [n], some w.made.length⟩
      | (_, b') => { w with b := b' }
  | .other op => { w with b := (Builder.step key occ big w.b op).2 }

/-- Several calls. -/
noncomputable def run (w : Owner Sh N) (calls : List (OwnerCall Sh)) : Owner Sh N :=
  calls.foldl (step key occ big build) w

/-- Use of a reference to the network at position `k` in C++; undefined behaviour after its destruction. -/
def read (w : Owner Sh N) (k : ℕ) : Outcome N :=
  if w.live = some k then
    match w.made[k]? with
    | some n => .val n
    | none => .ub
  else .ub

/-- The reference returned by `network()`, frackit/entitynetwork/networkbuilder.hh:609-614, 672-677. -/
def network (w : Owner Sh N) : Outcome ℕ :=
  if w.b.built = false then .thrown "Network has not been built yet!"
  else
    match w.live with
    | some k => .val k
    | none => .ub

/-- Use of the object returned by `build()` in Python: the result of a function that returns a reference is copied
(frackit/python/entitynetwork/networkbuilder.hh:111, 115, pybind11 policy `automatic`). -/
def readCopy (w : Owner Sh N) (k : ℕ) : Outcome N :=
  match w.made[k]? with
  | some n => .val n
  | none => .ub

end Owner
end Builder
end Frackit
