import Verif.Model.EntityNetwork.Builder

/-!
# Specification: registered data and the origin of fragments
-/

namespace Spec.Builder
open Verif Frackit

variable {Sh K : Type}

/-! ## Registration -/

/-- Successful registrations: id, dimension and shape. -/
structure Reg (Sh : Type) where
  domains : List (ℕ × ℤ × Sh)
  entities : List (ℕ × ℤ × Sh)

/-- Sub-domains have distinct ids and one dimension, entities have one dimension, which is smaller than
that of the sub-domains. -/
structure Consistent (r : Reg Sh) : Prop where
  ids : (r.domains.map (fun x => x.1)).Nodup
  domainDim : ∀ x ∈ r.domains, ∀ y ∈ r.domains, x.2.1 = y.2.1
  entityDim : ∀ x ∈ r.entities, ∀ y ∈ r.entities, x.2.1 = y.2.1
  smaller : ∀ x ∈ r.entities, ∀ y ∈ r.domains, x.2.1 < y.2.1

/-- The sub-domain can be added consistently. -/
def DomainOk (r : Reg Sh) (id : ℕ) (d : ℤ) : Prop :=
  (∀ x ∈ r.domains, x.1 ≠ id ∧ x.2.1 = d) ∧ ∀ x ∈ r.entities, x.2.1 < d

/-- The entity can be added consistently. -/
def EntityOk (r : Reg Sh) (d : ℤ) : Prop :=
  (∀ x ∈ r.entities, x.2.1 = d) ∧ ∀ x ∈ r.domains, d < x.2.1

/-- What a call with the given result adds to the registrations; `clear` removes everything. -/
def record (r : Reg Sh) : Builder.Op Sh → Outcome Unit → Reg Sh
  | .addSubDomain (.val d) (.val s) i, .val _ => { r with domains := r.domains ++ [(i, d, s)] }
  | .addConfiningSubDomain (.val d) (.val s) i, .val _ => { r with domains := r.domains ++ [(i, d, s)] }
  | .addEntity (.val d) (.val s) i, .val _ => { r with entities := r.entities ++ [(i, d, s)] }
  | .clear, _ => ⟨[], []⟩
  | _, _ => r

/-- The geometry of the call is supported: its dimension is defined and a shape can be made of it. -/
def Supported : Builder.Op Sh → Prop
  | .addSubDomain d s _ => d.isVal ∧ s.isVal
  | .addConfiningSubDomain d s _ => d.isVal ∧ s.isVal
  | .addEntity d s _ => d.isVal ∧ s.isVal
  | _ => True

/-! ## Origin of fragments -/

/-- `f` is a part of `s` according to the history of an operation: `s` itself if it has not been changed
or deleted, otherwise what has been generated from it or what it has been modified to. -/
def Piece (h : Hist Sh) (s f : Sh) : Prop :=
  (h.isDeleted s = false ∧ h.generated s = [] ∧ h.modified s = [] ∧ f = s) ∨
    f ∈ h.generated s ∨ f ∈ h.modified s

/-- Union of the sub-domains. -/
def unionShape (occ : Occ Sh) (l : List Sh) (eps : ℝ) : Outcome Sh :=
  match l with
  | [] => .thrown "No sub-domains defined yet"
  | [s] => .val s
  | l => occ.fuse l eps

/-- The shape a network is confined to: a confining sub-domain; for other sub-domains the union of all
sub-domains (`doms`), unless this has been switched off; nothing for networks without sub-domain. -/
def confinesTo (occ : Occ Sh) (b : Builder Sh) (doms : List Sh) (eps : ℝ) (i : ℕ) :
    Option (Outcome Sh) :=
  match b.subDomains i, b.bounds i with
  | some sd, some true => some (.val sd)
  | some _, some false => if b.confineUnion then some (unionShape occ doms eps) else none
  | _, _ => none

/-- `g` is a part of the entity `s` of network `i` after confinement. -/
def Confined (occ : Occ Sh) (b : Builder Sh) (doms : List Sh) (eps : ℝ) (i : ℕ) (s g : Sh) : Prop :=
  match confinesTo occ b doms eps i with
  | none => g = s
  | some t => ∃ tool h, t = .val tool ∧ occ.common ((b.networks i).getD []) [tool] eps = .val h ∧
      Piece h s g

/-- The fragment `f` stems from the entity at position `p` (from 0) of the network `i`: up to orientation
of the shapes it is a part of the entity after confinement and fragmentation (with history `h`). -/
def StemsFrom (key : Sh → K) (occ : Occ Sh) (b : Builder Sh) (doms : List Sh) (eps : ℝ) (h : Hist Sh)
    (i p : ℕ) (f : Sh) : Prop :=
  ∃ s s' g g' f', ((b.networks i).getD [])[p]? = some s ∧ s' ∈ (b.networks i).getD [] ∧ key s' = key s ∧
    Confined occ b doms eps i s' g ∧ key g' = key g ∧
    (∃ t ∈ (b.networks i).getD [], Confined occ b doms eps i t g') ∧
    Piece h g' f' ∧ key f' = key f

/-- `l` lists the keys of a map. -/
def Enumerates {α : Type} (l : List ℕ) (m : ℕ → Option α) : Prop :=
  l.Nodup ∧ ∀ i, i ∈ l ↔ m i ≠ none

/-- Admissible orders of traversal for a builder. -/
structure ValidOrders (o : Orders) (b : Builder Sh) : Prop where
  subDomains : Enumerates o.subDomains b.subDomains
  networks : Enumerates o.networks b.networks
  lists : o.lists.Nodup ∧ ∀ i, i ∈ o.lists ↔ b.subDomains i ≠ none ∨ b.networks i ≠ none
  maps : o.maps.Nodup ∧ ∀ i, i ∈ o.maps ↔ b.subDomains i ≠ none ∨ b.networks i ≠ none

/-- No shape belongs to the networks of two sub-domains after confinement. -/
def NoSharedShapes (key : Sh → K) (occ : Occ Sh) (b : Builder Sh) (doms : List Sh) (eps : ℝ) : Prop :=
  ∀ i j, i ≠ j → ∀ s ∈ (b.networks i).getD [], ∀ t ∈ (b.networks j).getD [], ∀ g g',
    Confined occ b doms eps i s g → Confined occ b doms eps j t g' → key g ≠ key g'

/-- The tolerance in use. -/
noncomputable def tolerance (occ : Occ Sh) (big : ℝ) (o : Orders) (b : Builder Sh) : ℝ :=
  if b.epsIsSet then b.eps.getD 0 else b.defaultEpsilon occ big o

/-- No operation of the CAD kernel fails with this tolerance. -/
def KernelOk (occ : Occ Sh) (eps : ℝ) : Prop :=
  (∀ l t, (occ.common l t eps).isVal) ∧ (∀ l, (occ.general l eps).isVal) ∧ ∀ l, (occ.fuse l eps).isVal

/-- The sub-domains are different shapes. -/
def DistinctDomains (key : Sh → K) (b : Builder Sh) : Prop :=
  ∀ i j s t, b.subDomains i = some s → b.subDomains j = some t → key s = key t → i = j

end Spec.Builder
