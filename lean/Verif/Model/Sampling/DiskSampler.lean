import Verif.Model.Geometry.Elliptical
import Verif.Model.Common.Math

/-!
# Disk sampler

frackit/sampling/disksampler.hh and python/frackit/sampling/__init__.py

The values returned by a distribution are an arbitrary infinite stream; a call consumes a prefix
of it.  (In the C++ code all distributions use the same engine; which values result from that is not
modelled.)  Loops that may run forever are given a number of rounds (`fuel`): `none` means that the
loop is still running after that many rounds.
-/

namespace Frackit
open Verif

/-- The values that a distribution will return, in order. -/
abbrev Draws (α : Type) := ℕ → α

/-- What is left of a stream after `k` draws. -/
def Draws.drop {α : Type} (s : Draws α) (k : ℕ) : Draws α := fun n => s (n + k)

open Classical in
/-- The loop `a = p(); while (rejected(a)) a = p();`.  Result: the accepted value and the remaining
stream. -/
noncomputable def redraw (rejected : ℝ → Prop) : ℕ → Draws ℝ → Option (ℝ × Draws ℝ)
  | 0, _ => none
  | fuel + 1, s => if rejected (s 0) then redraw rejected fuel (s.drop 1) else some (s 0, s.drop 1)

/-- Values returned by the distributions and the point sampler of a `DiskSampler`,
frackit/sampling/disksampler.hh:176-183. -/
structure DiskDraws where
  center : Draws V3
  major : Draws ℝ
  minor : Draws ℝ
  angleX : Draws ℝ
  angleY : Draws ℝ
  angleZ : Draws ℝ

/-- Rotated axes, frackit/sampling/disksampler.hh:159-169 (the three standard directions are unit
vectors already, so `Direction` does not change them); python/frackit/sampling/__init__.py:174-191
does the same with one call per vector. -/
noncomputable def diskAxes (alpha beta gamma : ℝ) : V3 × V3 :=
  let axis0 : V3 := ⟨1, 0, 0⟩
  let axis1 : V3 := ⟨0, 1, 0⟩
  let e1 : V3 := ⟨1, 0, 0⟩
  let e2 : V3 := ⟨0, 1, 0⟩
  let e3 : V3 := ⟨0, 0, 1⟩
  let axis1 := rotate axis1 e1 alpha
  let axis0 := rotate axis0 e2 beta
  let axis1 := rotate axis1 e2 beta
  let axis0 := rotate axis0 e3 gamma
  let axis1 := rotate axis1 e3 gamma
  (axis0, axis1)

open Classical in
/-- `DiskSampler::operator()`, frackit/sampling/disksampler.hh:145-173, and
`DiskSampler.__call__`, python/frackit/sampling/__init__.py:159-200 (there the disk is made from an
ellipse, which copies its members).  Result: the disk and the remaining streams. -/
noncomputable def diskSample (fuel : ℕ) (d : DiskDraws) : Option (Outcome Elliptical × DiskDraws) :=
  match redraw (fun a => a ≤ 0) fuel d.major with
  | none => none
  | some (a, major') =>
    match redraw (fun b => b ≤ 0) fuel d.minor with
    | none => none
    | some (b, minor') =>
      let b := if b > a then a else b
      let axes := diskAxes (d.angleX 0) (d.angleY 0) (d.angleZ 0)
      let disk : Outcome Elliptical := do
        let maj ← mkDirection axes.1
        let min ← mkDirection axes.2
        Elliptical.make (d.center 0) maj min a b
      some (disk, ⟨d.center.drop 1, major', minor', d.angleX.drop 1, d.angleY.drop 1,
        d.angleZ.drop 1⟩)

end Frackit
