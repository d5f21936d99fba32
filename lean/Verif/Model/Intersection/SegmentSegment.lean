import Verif.Model.Intersection.Kernel

/-!
# Intersection of two segments

frackit/intersection/algorithms/algo_segment_segment.hh
-/

namespace Frackit
open Verif

open Classical in
/-- The overlap of two parallel segments, frackit/intersection/algorithms/algo_segment_segment.hh:74-91:
`some` is a result that is returned, `none` falls through to the fragmentation. -/
noncomputable def parallelOverlap (segment1 segment2 : Segment) (line1 : Line) (eps : ℝ) :
    Option IsGeom :=
  let s1 := segment1.source
  let t1 := segment1.target
  let s2 := segment2.source
  let t2 := segment2.target
  if ¬ line1.contains s2 eps then some .empty
  else
    let s2On1 := segment1.contains s2 eps false
    let t2On1 := segment1.contains t2 eps false
    if s2On1 ∧ t2On1 then some (.segment segment2)
    else
      let s1On2 := segment2.contains s1 eps false
      let t1On2 := segment2.contains t1 eps false
      if s1On2 ∧ t1On2 then some (.segment segment1)
      else if s2On1 ∧ s1On2 then some (.segment ⟨s2, s1⟩)
      else if s2On1 ∧ t1On2 then some (.segment ⟨s2, t1⟩)
      else if t2On1 ∧ s1On2 then some (.segment ⟨t2, s1⟩)
      else if t2On1 ∧ t1On2 then some (.segment ⟨t2, t1⟩)
      else none

open Classical in
/-- The part using the fragmentation of the two edges,
frackit/intersection/algorithms/algo_segment_segment.hh:94-127. -/
noncomputable def fragmentIntersection (K : Kernel) (segment1 segment2 : Segment) (eps : ℝ) :
    Outcome IsGeom :=
  let s1 := segment1.source
  let t1 := segment1.target
  let s2 := segment2.source
  let t2 := segment2.target
  let edges := K.fragmentEdges segment1 segment2 (0.1 * eps)
  let numEdges := edges.length
  if numEdges = 3 ∨ numEdges = 4 then
    match edges.flatten.find? fun p => decide (segment1.contains p eps ∧ segment2.contains p eps) with
    | some p => .val (.point p)
    | none => .thrown "Could not find intersection point"
  else if pointIsEqual s1 s2 eps then .val (.point s1)
  else if pointIsEqual s1 t2 eps then .val (.point s1)
  else if pointIsEqual t1 s2 eps then .val (.point t1)
  else if pointIsEqual t1 t2 eps then .val (.point t1)
  else .val .empty

open Classical in
/-- `intersect_segment_segment`, frackit/intersection/algorithms/algo_segment_segment.hh:51-128. -/
noncomputable def intersectSegmentSegment (K : Kernel) (segment1 segment2 : Segment) (eps : ℝ) :
    Outcome IsGeom := do
  let dir1 ← mkDirection (segment1.target - segment1.source)
  let dir2 ← mkDirection (segment2.target - segment2.source)
  if gpIsParallel dir1 dir2 angular then
    let line1 ← segment1.supportingLine
    match parallelOverlap segment1 segment2 line1 eps with
    | some r => pure r
    | none => fragmentIntersection K segment1 segment2 eps
  else fragmentIntersection K segment1 segment2 eps

end Frackit
