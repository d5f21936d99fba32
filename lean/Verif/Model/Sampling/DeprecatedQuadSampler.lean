import Verif.Model.Sampling.DiskSampler
import Verif.Model.Geometry.Planar

/-!
# Deprecated quadrilateral sampler

frackit/sampling/quadrilateralsampler.hh (`Detail::DeprecatedQuadrilateralSamplerImpl`) and the deprecated
branch of the Python class `QuadrilateralSampler`.
-/

namespace Frackit
open Verif

/-- Values returned by the distributions and the point sampler of the deprecated quadrilateral
sampler, frackit/sampling/quadrilateralsampler.hh:276-282. -/
structure QuadDraws where
  center : Draws V3
  strike : Draws ℝ
  dip : Draws ℝ
  edge : Draws ℝ

open Classical in
/-- The loop `while (dx < minEdgeLength_) p_edge_(generator_);`,
frackit/sampling/quadrilateralsampler.hh:255: values are drawn but not assigned. -/
noncomputable def discardWhile (minLength dx : ℝ) : ℕ → Draws ℝ → Option (Draws ℝ)
  | 0, _ => none
  | fuel + 1, s => if dx < minLength then discardWhile minLength dx fuel (s.drop 1) else some s

/-- `auto dx = p_edge_(generator_); while (dx < minEdgeLength_) p_edge_(generator_);`,
frackit/sampling/quadrilateralsampler.hh:255 (and 256-258). -/
noncomputable def drawEdgeCpp (minLength : ℝ) (fuel : ℕ) (s : Draws ℝ) : Option (ℝ × Draws ℝ) :=
  match discardWhile minLength (s 0) fuel (s.drop 1) with
  | none => none
  | some s' => some (s 0, s')

open Classical in
/-- The loop `while (dx < minEdgeLength): dx = edgeLengthSampler()`,
python/frackit/sampling/__init__.py:436-439. -/
noncomputable def redrawPy (minLength : ℝ) : ℕ → ℝ → Draws ℝ → Option (ℝ × Draws ℝ)
  | 0, _, _ => none
  | fuel + 1, dx, s => if dx < minLength then redrawPy minLength fuel (s 0) (s.drop 1) else some (dx, s)

/-- The plane basis, frackit/sampling/quadrilateralsampler.hh:245-252 and
python/frackit/sampling/__init__.py:421-428. -/
noncomputable def quadAxes (strike dip : ℝ) : Outcome (V3 × V3) := do
  let e3 : V3 := ⟨0, 0, 1⟩
  let a0 := rotate ⟨1, 0, 0⟩ e3 strike
  let a1 := rotate ⟨0, 1, 0⟩ e3 strike
  let d ← mkDirection a1
  pure (rotate a0 d dip, a1)

/-- The corner points and the quadrilateral, frackit/sampling/quadrilateralsampler.hh:260-272 and
python/frackit/sampling/__init__.py:441-457. -/
noncomputable def quadFrom (axes : V3 × V3) (c : V3) (dx1 dx2 dy1 dy2 : ℝ) : Quadrilateral :=
  let dxVec1 := (dx1 / 2) • axes.1
  let dxVec2 := (dx2 / 2) • axes.1
  let dyVec1 := (dy1 / 2) • axes.2
  let dyVec2 := (dy2 / 2) • axes.2
  let c1 := c - dxVec1 - dyVec1
  let c2 := c + dxVec2 - dyVec2
  let c3 := c - dxVec1 + dyVec1
  let c4 := c + dxVec2 + dyVec2
  Quadrilateral.make c1 c2 c3 c4

/-- `DeprecatedQuadrilateralSamplerImpl::operator()`,
frackit/sampling/quadrilateralsampler.hh:240-273. -/
noncomputable def quadSampleCpp (minLength : ℝ) (fuel : ℕ) (d : QuadDraws) :
    Option (Outcome Quadrilateral) :=
  match drawEdgeCpp minLength fuel d.edge with
  | none => none
  | some (dx1, s1) =>
    match drawEdgeCpp minLength fuel s1 with
    | none => none
    | some (dx2, s2) =>
      match drawEdgeCpp minLength fuel s2 with
      | none => none
      | some (dy1, s3) =>
        match drawEdgeCpp minLength fuel s3 with
        | none => none
        | some (dy2, _) => some (do
            let axes ← quadAxes (d.strike 0) (d.dip 0)
            pure (quadFrom axes (d.center 0) dx1 dx2 dy1 dy2))

/-- `QuadrilateralSampler.__call__` if made in the deprecated way,
python/frackit/sampling/__init__.py:416-458. -/
noncomputable def quadSamplePy (minLength : ℝ) (fuel : ℕ) (d : QuadDraws) :
    Option (Outcome Quadrilateral) :=
  match redrawPy minLength fuel (d.edge 0) (d.edge.drop 4) with
  | none => none
  | some (dx1, s1) =>
    match redrawPy minLength fuel (d.edge 1) s1 with
    | none => none
    | some (dx2, s2) =>
      match redrawPy minLength fuel (d.edge 2) s2 with
      | none => none
      | some (dy1, s3) =>
        match redrawPy minLength fuel (d.edge 3) s3 with
        | none => none
        | some (dy2, _) => some (do
            let axes ← quadAxes (d.strike 0) (d.dip 0)
            pure (quadFrom axes (d.center 0) dx1 dx2 dy1 dy2))

end Frackit
