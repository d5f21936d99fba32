import Verif.Model.Occ.SubShapes

/-!
# Parts of shapes
-/

namespace Spec
open Verif Frackit

/-- `c`, a constituent of `s`, at the place and with the orientation it has in `s`. -/
def seen (s c : TopoShape) : TopoShape :=
  .mk c.object c.kind (c.point - c.loc) c.subs (s.loc + c.loc) (!(xor s.forward c.forward))

/-- `t` is `s` itself or one of the shapes it consists of, directly or indirectly. -/
inductive IsPart : TopoShape → TopoShape → Prop
  | refl (s : TopoShape) : IsPart s s
  | sub (s c t : TopoShape) : c ∈ s.subs → IsPart (seen s c) t → IsPart s t

/-- Shapes consist of simpler shapes only, apart from compounds, which may contain compounds. -/
def WellFormed (s : TopoShape) : Prop :=
  ∀ t, IsPart s t → ∀ c ∈ t.subs, t.kind.rank < c.kind.rank ∨ (t.kind = .compound ∧ c.kind = .compound)

/-- No two of the shapes are the same up to orientation. -/
def Once (l : List TopoShape) : Prop :=
  l.Pairwise fun a b => ¬ (a.object = b.object ∧ a.loc = b.loc)

/-- `t` is `s` moved by `v`: the same object at another place. -/
def IsMoved (v : V3) (s t : TopoShape) : Prop :=
  t.object = s.object ∧ t.kind = s.kind ∧ t.subs = s.subs ∧ t.forward = s.forward ∧
    t.loc = v + s.loc ∧ t.point = v + s.point

end Spec
