import Verif.Model.Sampling.Sharing

/-!
# Specification: successive values of a generator

The values that a generator returns when it is called repeatedly, and which of the points in the results of a
program were drawn from which point sampler.  Only calls and results are used.
-/

namespace Spec.Draws
open Frackit.Sharing

variable {σ τ P β α : Type}

/-- The `n`-th value of a generator that starts in state `s`. -/
def value (next : σ → α × σ) : σ → ℕ → α
  | s, 0 => (next s).1
  | s, n + 1 => value next (next s).2 n

/-- `xs` are the first values of the generator, each once and in order. -/
def Successive (next : σ → α × σ) (s : σ) (xs : List α) : Prop :=
  xs = (List.range xs.length).map (value next s)

/-- Initial states of the point samplers that a program creates. -/
def seeds : List (Op σ τ) → List σ
  | [] => []
  | .newPoints s :: os => s :: seeds os
  | _ :: os => seeds os

/-- The points that a program draws from point sampler number `v`, by calling it or by calling a geometry
sampler that has been made with it (or a copy of one).  `made` lists the point samplers of the geometry
samplers that have been created so far. -/
def drawnFrom (v : ℕ) : List ℕ → List (Op σ τ) → List (Result P β) → List P
  | made, .newSampler _ u _ :: os, .made :: rs => drawnFrom v (made ++ [u]) os rs
  | made, .copySampler i :: os, .made :: rs => drawnFrom v (made ++ (made[i]?).toList) os rs
  | made, .drawPoint u :: os, .point x :: rs =>
      if u = v then x :: drawnFrom v made os rs else drawnFrom v made os rs
  | made, .sample i :: os, .geometry _ x :: rs =>
      if made[i]? = some v then x :: drawnFrom v made os rs else drawnFrom v made os rs
  | made, _ :: os, _ :: rs => drawnFrom v made os rs
  | _, _, _ => []

/-- Shapes and centers returned by geometry sampler number `i`. -/
def sampled (i : ℕ) : List (Op σ τ) → List (Result P β) → List (β × P)
  | .sample j :: os, .geometry b x :: rs => if j = i then (b, x) :: sampled i os rs else sampled i os rs
  | _ :: os, _ :: rs => sampled i os rs
  | _, _ => []

/-- Points returned by direct calls of point samplers. -/
def points : List (Result P β) → List P
  | [] => []
  | .point x :: rs => x :: points rs
  | _ :: rs => points rs

end Spec.Draws
