import Verif.Spec.Topology
import Verif.Model.IO.ShapeFiles

/-!
# Specification: shapes in files
-/

namespace Spec
open Verif Frackit

/-- The parts of a given class of the shape in a file, if there is one. -/
def InFile (fs : ShapeFiles) (file : List Char) (k : TopAbs) (t : TopoShape) : Prop :=
  ∃ s, fs.content file = some s ∧ IsPart s t ∧ t.kind = k

/-- All shapes in files consist of simpler shapes only. -/
def WellFormedFiles (fs : ShapeFiles) : Prop :=
  ∀ file s, fs.content file = some s → WellFormed s

/-- The faces of `s` are those of its shells. -/
def ClosedByShells (s : TopoShape) : Prop :=
  ∀ f, IsPart s f → f.kind = .face → ∃ t, IsPart s t ∧ t.kind = .shell ∧ IsPart t f

end Spec
