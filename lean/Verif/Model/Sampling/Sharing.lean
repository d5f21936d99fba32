import Verif.Core.Outcome
import Mathlib.Data.List.Basic

/-!
# Which samplers share a random number generator

frackit/sampling/{boxpointsampler,cylinderpointsampler,disksampler,polygonsampler,quadrilateralsampler,
multigeometrysampler}.hh and python/frackit/sampling/__init__.py

A random number engine and the distributions that use it are a deterministic function of a state.  Here
the values drawn during one call of a sampler are taken together: `nextPoint` is one call of a point
sampler (the point and the state afterwards), `nextShape` is everything that a call of a geometry sampler
draws with its own engine (lengths, angles, corners).  The states are stored in cells, so that it can be
expressed whether two objects use the same one.
-/

namespace Frackit.Sharing
open Verif

/-- The language in which the samplers are used. -/
inductive Language where
  | cpp
  | python

/-- A geometry sampler: the cell with its engine and distributions, and the cell of the point sampler that
it refers to (`pointSampler_`), frackit/sampling/disksampler.hh:176-183,
frackit/sampling/polygonsampler.hh:323-332; python/frackit/sampling/__init__.py:152-157.  A quadrilateral
sampler holds both behind a shared pointer, frackit/sampling/quadrilateralsampler.hh:180-181. -/
structure SamplerRef where
  quadrilateral : Bool
  own : ℕ
  points : ℕ

/-- All samplers of a program: states of the point samplers (those of the user and those owned by geometry
samplers), states of the geometry samplers, the point sampler variables of the user and the geometry
samplers in the order of their creation. -/
structure Heap (σ τ : Type) where
  pointCells : List σ
  shapeCells : List τ
  vars : List ℕ
  samplers : List SamplerRef

/-- No sampler has been created. -/
def empty {σ τ : Type} : Heap σ τ := ⟨[], [], [], []⟩

/-- Calls of a program. -/
inductive Op (σ τ : Type) where
  | newPoints (seed : σ)
  | newSampler (quadrilateral : Bool) (var : ℕ) (seed : τ)
  | copySampler (i : ℕ)
  | drawPoint (var : ℕ)
  | sample (i : ℕ)

/-- What a call returns. -/
inductive Result (P β : Type) where
  | made
  | point (x : P)
  | geometry (shape : β) (center : P)
  | noSuchObject

variable {σ τ P β : Type}

/-- `auto p = makeUniformPointSampler(domain)` (or `makePointSampler`): a new object with a new engine,
frackit/sampling/boxpointsampler.hh:66-73, frackit/sampling/cylinderpointsampler.hh:71-80. -/
def newPoints (h : Heap σ τ) (seed : σ) : Heap σ τ :=
  { h with pointCells := h.pointCells ++ [seed], vars := h.vars ++ [h.pointCells.length] }

/-- Construction of a geometry sampler.  C++: `std::make_shared<PointSamplerImpl>(pointSampler)` creates a
copy of the point sampler, frackit/sampling/disksampler.hh:130 and
frackit/sampling/polygonsampler.hh:139 (used for quadrilaterals, too); the engine of the geometry sampler
is a new one.  Python: the object stores a reference to the point sampler,
python/frackit/sampling/__init__.py:152 and 218. -/
def newSampler (L : Language) (h : Heap σ τ) (quadrilateral : Bool) (var : ℕ) (seed : τ) :
    Result P β × Heap σ τ :=
  match h.vars[var]? with
  | none => (.noSuchObject, h)
  | some c =>
    match h.pointCells[c]? with
    | none => (.noSuchObject, h)
    | some s =>
      match L with
      | .cpp => (.made, { h with
          pointCells := h.pointCells ++ [s]
          shapeCells := h.shapeCells ++ [seed]
          samplers := h.samplers ++ [⟨quadrilateral, h.shapeCells.length, h.pointCells.length⟩] })
      | .python => (.made, { h with
          shapeCells := h.shapeCells ++ [seed]
          samplers := h.samplers ++ [⟨quadrilateral, h.shapeCells.length, c⟩] })

/-- Handing over a geometry sampler.  C++: `std::make_shared<Sampler>(sampler)` in `addGeometrySampler`,
frackit/sampling/multigeometrysampler.hh:114-121, or `auto s2 = s1`: the engine and the distributions are
copied, the pointer to the point sampler is copied.  Of a quadrilateral sampler only the pointer to the
polygon sampler inside is copied (the same holds for the deprecated implementation).  Python: a reference to
the same object. -/
def copySampler (L : Language) (h : Heap σ τ) (i : ℕ) : Result P β × Heap σ τ :=
  match h.samplers[i]? with
  | none => (.noSuchObject, h)
  | some r =>
    match L with
    | .cpp =>
      if r.quadrilateral then (.made, { h with samplers := h.samplers ++ [r] })
      else match h.shapeCells[r.own]? with
      | none => (.noSuchObject, h)
      | some t => (.made, { h with
          shapeCells := h.shapeCells ++ [t]
          samplers := h.samplers ++ [⟨false, h.shapeCells.length, r.points⟩] })
    | .python => (.made, { h with samplers := h.samplers ++ [r] })

/-- A call of a point sampler of the user, frackit/sampling/boxpointsampler.hh:79-84,
frackit/sampling/cylinderpointsampler.hh:89-115. -/
def drawPoint (nextPoint : σ → P × σ) (h : Heap σ τ) (var : ℕ) : Result P β × Heap σ τ :=
  match h.vars[var]? with
  | none => (.noSuchObject, h)
  | some c =>
    match h.pointCells[c]? with
    | none => (.noSuchObject, h)
    | some s => (.point (nextPoint s).1, { h with pointCells := h.pointCells.set c (nextPoint s).2 })

/-- A call of a geometry sampler: its own engine is used for the shape, the point sampler for the center,
frackit/sampling/disksampler.hh:145-173, frackit/sampling/polygonsampler.hh:160-321,
python/frackit/sampling/__init__.py:159-200.  (Simplified: exceptions are not considered.) -/
def sample (nextPoint : σ → P × σ) (nextShape : τ → β × τ) (h : Heap σ τ) (i : ℕ) :
    Result P β × Heap σ τ :=
  match h.samplers[i]? with
  | none => (.noSuchObject, h)
  | some r =>
    match h.shapeCells[r.own]?, h.pointCells[r.points]? with
    | some t, some s => (.geometry (nextShape t).1 (nextPoint s).1,
        { h with shapeCells := h.shapeCells.set r.own (nextShape t).2
                 pointCells := h.pointCells.set r.points (nextPoint s).2 })
    | _, _ => (.noSuchObject, h)

/-- Effect of a call. -/
def step (L : Language) (nextPoint : σ → P × σ) (nextShape : τ → β × τ) (h : Heap σ τ) :
    Op σ τ → Result P β × Heap σ τ
  | .newPoints seed => (.made, newPoints h seed)
  | .newSampler q v seed => newSampler L h q v seed
  | .copySampler i => copySampler L h i
  | .drawPoint v => drawPoint nextPoint h v
  | .sample i => sample nextPoint nextShape h i

/-- Results of a sequence of calls. -/
def results (L : Language) (nextPoint : σ → P × σ) (nextShape : τ → β × τ) (h : Heap σ τ) :
    List (Op σ τ) → List (Result P β)
  | [] => []
  | o :: os => (step L nextPoint nextShape h o).1 :: results L nextPoint nextShape
      (step L nextPoint nextShape h o).2 os

/-- State after a sequence of calls. -/
def after (L : Language) (nextPoint : σ → P × σ) (nextShape : τ → β × τ) (h : Heap σ τ) :
    List (Op σ τ) → Heap σ τ
  | [] => h
  | o :: os => after L nextPoint nextShape (step L nextPoint nextShape h o).2 os

end Frackit.Sharing
