import Verif.Model.IO.BRepWriter

/-!
# What is expected of an exported network

The sub-shapes of a network, identified up to orientation by their key.
-/

namespace Spec.BRep
open Verif Frackit

variable {Sh K : Type} (key : Sh → K) (T : Topo Sh)

/-- Sub-shapes of a shape do not depend on its orientation (up to the orientation of the sub-shapes). -/
structure Laws : Prop where
  forward : ∀ s, key (T.forward s) = key s
  congr : ∀ explore ∈ [T.solids, T.shells, T.faces, T.wires, T.edges, T.vertices], ∀ s t,
    key s = key t → ∀ x ∈ explore s, ∃ y ∈ explore t, key y = key x

/-- Fragments of a network: those of the sub-domains (with the id of the sub-domain) and those of the
entities. -/
structure Content (Sh : Type) where
  domain : ℕ → Sh → Prop
  entity : Sh → Prop

variable (c : Content Sh)

/-- The shape is a solid of sub-domain `d`. -/
def SolidOf (d : ℕ) (x : Sh) : Prop := ∃ f, c.domain d f ∧ x ∈ T.solids f

/-- Solids of the network. -/
def Solid (x : Sh) : Prop := ∃ d, SolidOf T c d x

/-- Shells of the network. -/
def Shell (x : Sh) : Prop := ∃ s, Solid T c s ∧ x ∈ T.shells s

/-- Faces of the network: boundaries of the solids and entity fragments. -/
def Face (x : Sh) : Prop := (∃ s, Shell T c s ∧ x ∈ T.faces s) ∨ ∃ f, c.entity f ∧ x ∈ T.faces f

/-- Wires of the network. -/
def Wire (x : Sh) : Prop := ∃ s, Face T c s ∧ x ∈ T.wires s

/-- Edges of the network. -/
def Edge (x : Sh) : Prop := ∃ s, Wire T c s ∧ x ∈ T.edges s

/-- Vertices of the network. -/
def Vertex (x : Sh) : Prop := ∃ s, Edge T c s ∧ x ∈ T.vertices s

/-- The list contains each shape with the property exactly once (up to orientation), and nothing else. -/
def ListsOnce (P : Sh → Prop) (m : List Sh) : Prop :=
  (m.map key).Nodup ∧ ∀ k, k ∈ m.map key ↔ ∃ x, P x ∧ key x = k

/-- The list consists of all sub-shapes of the network, each of them once, sorted by type. -/
def Complete (vs es ws fs shs sos : List Sh) : Prop :=
  ListsOnce key (Vertex T c) vs ∧ ListsOnce key (Edge T c) es ∧ ListsOnce key (Wire T c) ws ∧
  ListsOnce key (Face T c) fs ∧ ListsOnce key (Shell T c) shs ∧ ListsOnce key (Solid T c) sos

/-- Content of an `EntityNetwork`. -/
def ofNetwork (n : Builder.Network Sh) : Content Sh := ⟨fun _ _ => False, fun f => f ∈ n.fragments⟩

/-- Content of a `ContainedEntityNetwork` with the given sub-domain ids. -/
def ofContained (ids : List ℕ) (n : Builder.ContainedNetwork Sh) : Content Sh where
  domain d f := d ∈ ids ∧ ∃ l, n.subDomainFragments d = some l ∧ f ∈ l
  entity f := ∃ d ∈ ids, ∃ l, n.entityFragments d = some l ∧ f ∈ l

/-- The shape with index `i` (counted from one) in a map. -/
def At (m : List Sh) (i : ℕ) (x : Sh) : Prop := 1 ≤ i ∧ m[i - 1]? = some x

/-- The index lists `m` sort shapes of the map `l` into groups: each list has no duplicates, and lists only
indices of shapes that belong to the group. -/
def SortedInto (m : ℕ → List ℕ) (l : List Sh) (belongs : Sh → ℕ → Prop) : Prop :=
  ∀ g, (m g).Nodup ∧ ∀ i ∈ m g, ∃ x, At l i x ∧ belongs x g

/-- The value bound to a shape in a data map. -/
def Bound (m : DMap Sh) (x : Sh) (e : ℕ) : Prop := ∃ p ∈ m, key p.1 = key x ∧ p.2 = e

/-- A data map binds each shape at most once. -/
def IsDataMap (m : DMap Sh) : Prop := (m.map fun p => key p.1).Nodup

/-- The entity index of a shape in a contained network: the index within a sub-domain, plus the number of
entries of the maps of the sub-domains before. -/
def MergedIndex (maps : ℕ → Option (DMap Sh)) (ids : List ℕ) (x : Sh) (e : ℕ) : Prop :=
  ∃ pre d post, ids = pre ++ d :: post ∧ ∃ v, Bound key ((maps d).getD []) x v ∧
    e = v + (pre.map fun i => ((maps i).getD []).length).sum

/-- An edge (up to orientation) shared by two of the entities. -/
def SharedEdge (entity : Sh → Prop) (k : K) : Prop :=
  ∃ f g, entity f ∧ entity g ∧ key f ≠ key g ∧ (∃ e ∈ T.edges f, key e = k) ∧ ∃ e ∈ T.edges g, key e = k

/-- Fragments of entities of a network, as they are known to its index map. -/
def EntityOf (n : Builder.Network Sh) (f : Sh) : Prop := f ∈ n.indexMap.map Prod.fst

/-- Fragments of entities of a contained network, as they are known to its index maps. -/
def EntityOfContained (ids : List ℕ) (n : Builder.ContainedNetwork Sh) (f : Sh) : Prop :=
  ∃ d ∈ ids, ∃ m, n.indexMaps d = some m ∧ f ∈ m.map Prod.fst

/-- The edges of a face are those of its wires. -/
def EdgesOfWires : Prop := ∀ f, f ∈ T.faces f → ∀ e, e ∈ T.edges f ↔ ∃ w ∈ T.wires f, e ∈ T.edges w

end Spec.BRep
