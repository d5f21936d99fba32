import Verif.Model.EntityNetwork.Constraints

/-!
# Matrix of constraints

frackit/entitynetwork/constraintsmatrix.hh and the Python implementation in
python/frackit/entitynetwork/__init__.py
-/

namespace Frackit
open Verif

/-- Data of `EntityNetworkConstraintsMatrix`, frackit/entitynetwork/constraintsmatrix.hh:149-154.  The
maps are only searched, never traversed, so they are partial functions here. -/
structure Matrix (C : Type) where
  constraints : List C
  indexMap : ℕ → Option (List (ℕ × ℕ))
  relations : ℕ → Option (List ℕ)

namespace Matrix
variable {C E : Type}

/-- A newly constructed matrix. -/
def init : Matrix C := ⟨[], fun _ => none, fun _ => none⟩

/-- `addConstraint_`, frackit/entitynetwork/constraintsmatrix.hh:124-127. -/
def addConstraint (m : Matrix C) (c : C) : Matrix C := { m with constraints := m.constraints ++ [c] }

/-- `map[key].push_back(x)`: `operator[]` creates an empty entry for an unknown key. -/
def pushAt {α : Type} (f : ℕ → Option (List α)) (key : ℕ) (x : α) : ℕ → Option (List α) :=
  Function.update f key (some ((f key).getD [] ++ [x]))

/-- `updateIndexMaps_`, frackit/entitynetwork/constraintsmatrix.hh:132-147.  An id without entry in the
map of relations has no relations. -/
def updateIndexMaps (m : Matrix C) (p : ℕ × ℕ) : Outcome Unit × Matrix C :=
  if ((m.relations p.1).getD []).count p.2 ≠ 0 then
    (.thrown "ConstraintsMatrix: Relation was already defined!", m)
  else
    (.val (), { m with indexMap := pushAt m.indexMap p.1 (p.2, m.constraints.length - 1)
                       relations := pushAt m.relations p.1 p.2 })

/-- The loop of `addConstraints`, frackit/entitynetwork/constraintsmatrix.hh:80-81: an exception leaves
the entries made before in place. -/
def updateAll (m : Matrix C) : List (ℕ × ℕ) → Outcome Unit × Matrix C
  | [] => (.val (), m)
  | p :: t =>
      match m.updateIndexMaps p with
      | (.val _, m') => updateAll m' t
      | (o, m') => (o, m')

/-- `addConstraints`, frackit/entitynetwork/constraintsmatrix.hh:65-82.  The overload for a single pair
is the case of a list with one element. -/
def addConstraints (m : Matrix C) (c : C) (pairs : List (ℕ × ℕ)) : Outcome Unit × Matrix C :=
  (m.addConstraint c).updateAll pairs

/-- State after a sequence of calls (exceptions are caught by the caller). -/
def run (calls : List (C × List (ℕ × ℕ))) : Matrix C :=
  calls.foldl (fun m x => (m.addConstraints x.1 x.2).2) init

/-- The loop of `evaluate`, frackit/entitynetwork/constraintsmatrix.hh:99-115.  `ev` evaluates a
constraints object on a set and an entity, `sets` gives the entity set on which `applyOnSet` applies
its argument, `none` if it returns false. -/
def evaluateLoop (ev : C → List E → E → Outcome Bool) (cs : List C) (sets : ℕ → Option (List E))
    (x : E) : List (ℕ × ℕ) → Outcome Bool
  | [] => .val true
  | (other, idx) :: t =>
      match cs[idx]? with
      | none => .ub
      | some c =>
          match sets other with
          | none => evaluateLoop ev cs sets x t
          | some set =>
              match ev c set x with
              | .val true => evaluateLoop ev cs sets x t
              | .val false => .val false
              | .thrown e => .thrown e
              | .nan => .nan
              | .ub => .ub

/-- `evaluate`, frackit/entitynetwork/constraintsmatrix.hh:91-118. -/
def evaluate (ev : C → List E → E → Outcome Bool) (m : Matrix C) (sets : ℕ → Option (List E))
    (x : E) (id : ℕ) : Outcome Bool :=
  match m.indexMap id with
  | none => .thrown "evaluate: no constraints set for given id"
  | some l => evaluateLoop ev m.constraints sets x l

end Matrix

/-! ## Python -/

/-- An element of the list given to the Python `addConstraints`: an id or a list of ids. -/
inductive PyItem where
  | id (n : ℕ)
  | list (l : List ℕ)
  deriving DecidableEq

/-- The dictionary of dictionaries, python/frackit/entitynetwork/__init__.py:35.  Dictionaries keep the
order of insertion, so they are association lists here. -/
abbrev PyMatrix (C : Type) := List (ℕ × List (ℕ × C))

namespace PyMatrix
variable {C E : Type}

/-- `dict.get`. -/
def get {α : Type} (d : List (ℕ × α)) (k : ℕ) : Option α := (d.find? (fun p => p.1 = k)).map (·.2)

/-- Assignment `d[k] = v` for a dictionary: overwrites the value of an existing key, otherwise appends
the key. -/
def set {α : Type} (d : List (ℕ × α)) (k : ℕ) (v : α) : List (ℕ × α) :=
  match get d k with
  | some _ => d.map (fun p => if p.1 = k then (k, v) else p)
  | none => d ++ [(k, v)]

/-- The part of `addIdPair` after the check of the length,
python/frackit/entitynetwork/__init__.py:43-50. -/
def addPair (m : PyMatrix C) (c : C) (id1 id2 : ℕ) : Outcome Unit × PyMatrix C :=
  match get m id1 with
  | none => (.val (), set m id1 [(id2, c)])
  | some row =>
      match get row id2 with
      | none => (.val (), set m id1 (set row id2 c))
      | some _ => (.thrown "Id pair already taken!", m)

/-- `addIdPair` on a list of ids, python/frackit/entitynetwork/__init__.py:39-50. -/
def addIdPair (m : PyMatrix C) (c : C) : List ℕ → Outcome Unit × PyMatrix C
  | [id1, id2] => addPair m c id1 id2
  | _ => (.thrown "Id pairs are expected to be lists of length 2", m)

/-- The loop over pairs, python/frackit/entitynetwork/__init__.py:57-58.  `len` of an id raises a
`TypeError`. -/
def addLoop (m : PyMatrix C) (c : C) : List PyItem → Outcome Unit × PyMatrix C
  | [] => (.val (), m)
  | .id _ :: _ => (.thrown "TypeError", m)
  | .list l :: t =>
      match addIdPair m c l with
      | (.val _, m') => addLoop m' c t
      | (o, m') => (o, m')

/-- `addConstraints`, python/frackit/entitynetwork/__init__.py:37-58, for a list argument.  An empty
list raises an `IndexError`; a pair containing a list raises a `TypeError` (unhashable key) before
anything is changed. -/
def addConstraints (m : PyMatrix C) (c : C) : List PyItem → Outcome Unit × PyMatrix C
  | [] => (.thrown "IndexError", m)
  | [.id id1, .id id2] => addPair m c id1 id2
  | [.id _, .list _] => (.thrown "TypeError", m)
  | .id _ :: _ => (.thrown "Id pairs are expected to be lists of length 2", m)
  | .list l :: t => addLoop m c (.list l :: t)

/-- State after a sequence of calls. -/
def run (calls : List (C × List PyItem)) : PyMatrix C :=
  calls.foldl (fun m x => (addConstraints m x.1 x.2).2) []

/-- The loop of `evaluate`, python/frackit/entitynetwork/__init__.py:74-86: over the keys of the outer
dictionary. -/
def evaluateLoop (ev : C → List E → E → Outcome Bool) (m : PyMatrix C) (sets : ℕ → Option (List E))
    (x : E) (row : List (ℕ × C)) : List ℕ → Outcome Bool
  | [] => .val true
  | other :: t =>
      match sets other with
      | none => evaluateLoop ev m sets x row t
      | some set =>
          match get row other with
          | none => evaluateLoop ev m sets x row t
          | some c =>
              match ev c set x with
              | .val true => evaluateLoop ev m sets x row t
              | .val false => .val false
              | .thrown e => .thrown e
              | .nan => .nan
              | .ub => .ub

/-- `evaluate`, python/frackit/entitynetwork/__init__.py:60-89; `sets` is the dictionary of entity
sets. -/
def evaluate (ev : C → List E → E → Outcome Bool) (m : PyMatrix C) (sets : ℕ → Option (List E))
    (x : E) (id : ℕ) : Outcome Bool :=
  match get m id with
  | none => .val true
  | some row => evaluateLoop ev m sets x row (m.map (·.1))

end PyMatrix

/-- Arguments of the Python `EntityNetworkConstraints.evaluate`. -/
inductive PyArg (E : Type) where
  | geo (e : E)
  | list (l : List E)

namespace PyConstraints
variable {E : Type}

/-- The evaluation exposed by the C++ bindings, frackit/python/entitynetwork/constraints.hh:80-118:
defined for pairs of geometries only, anything else raises a `TypeError`. -/
def native (ev : E → E → Outcome Bool) : PyArg E → PyArg E → Outcome Bool
  | .geo a, .geo b => ev a b
  | _, _ => .thrown "TypeError"

/-- `evalList`, python/frackit/entitynetwork/__init__.py:18-19.  The argument `geo` is not used: the
body refers to the second argument `b` of the enclosing function. -/
def evalList (ev : E → E → Outcome Bool) (b : PyArg E) (theList : List E) (_geo : PyArg E) :
    Outcome Bool :=
  allOf (fun item => native ev (.geo item) b) theList

/-- `EntityNetworkConstraints.evaluate`, python/frackit/entitynetwork/__init__.py:6-29. -/
def evaluate (ev : E → E → Outcome Bool) (a b : PyArg E) : Outcome Bool :=
  match a, b with
  | .list la, .geo _ => evalList ev b la b
  | .geo _, .list lb => evalList ev b lb a
  | .list la, .list lb => allOf (fun item => evalList ev b lb (.geo item)) la
  | .geo _, .geo _ => native ev a b

end PyConstraints
end Frackit
