import Verif.Props.AcceptedPlanar
import Mathlib.Topology.Order.Compact
import Mathlib.Topology.MetricSpace.Bounded
import Mathlib.Topology.Algebra.Ring.Real

/-!
# An exact geometry library

The hypotheses of C50, C124 and C126 on the functions of OpenCASCADE can be met for all geometries at once: for closed
convex sets there are boolean operations that are exact (`ExactCut`), and the line of intersection of two planes exists
(`ExactLine`).
-/

namespace Props
open Verif Frackit Lemmas

/-! ### Closed convex sets and segments -/

/-- A convex set that is closed. -/
structure ClosedConvex (R : V3 → Prop) : Prop where
  convex : ∀ p q, R p → R q → ∀ t : ℝ, 0 ≤ t → t ≤ 1 → R (p + t • (q - p))
  closed : IsClosed {v : ℝ × ℝ × ℝ | R ⟨v.1, v.2.1, v.2.2⟩}

/-- The parameters of the common points of a segment and a set. -/
def slice (R : V3 → Prop) (s : Segment) : Set ℝ := {t | 0 ≤ t ∧ t ≤ 1 ∧ R (s.source + t • (s.target - s.source))}

theorem slice_cases {R : V3 → Prop} (h : ClosedConvex R) (s : Segment) :
    slice R s = ∅ ∨ ∃ a b, a ≤ b ∧ slice R s = Set.Icc a b := by
  by_cases hne : (slice R s).Nonempty
  swap
  · exact .inl (Set.not_nonempty_iff_eq_empty.1 hne)
  right
  have hcl : IsClosed {t : ℝ | R (s.source + t • (s.target - s.source))} := by
    have hc : Continuous fun t : ℝ => ((s.source.x + t * (s.target.x - s.source.x),
        s.source.y + t * (s.target.y - s.source.y), s.source.z + t * (s.target.z - s.source.z)) : ℝ × ℝ × ℝ) := by
      fun_prop
    exact h.closed.preimage hc
  have hcomp : IsCompact (slice R s) := by
    have : slice R s = Set.Icc 0 1 ∩ {t : ℝ | R (s.source + t • (s.target - s.source))} := by
      ext t; simp only [slice, Set.mem_ofPred_eq, Set.mem_inter_iff, Set.mem_Icc, and_assoc]
    rw [this]
    exact isCompact_Icc.inter_right hcl
  have hord : ∀ a ∈ slice R s, ∀ b ∈ slice R s, ∀ t, a ≤ t → t ≤ b → t ∈ slice R s := by
    intro a ha b hb t h1 h2
    refine ⟨ha.1.trans h1, h2.trans hb.2.1, ?_⟩
    rcases eq_or_lt_of_le (h1.trans h2) with e | hlt
    · have : t = a := le_antisymm (by linarith) h1
      rw [this]; exact ha.2.2
    · have hk := h.convex _ _ ha.2.2 hb.2.2 ((t - a) / (b - a)) (div_nonneg (by linarith) (by linarith))
        ((div_le_one (by linarith)).2 (by linarith))
      have e : s.source + t • (s.target - s.source) = s.source + a • (s.target - s.source) + ((t - a) / (b - a)) •
          (s.source + b • (s.target - s.source) - (s.source + a • (s.target - s.source))) := by
        have hne : b - a ≠ 0 := by linarith
        have e1 : s.source + b • (s.target - s.source) - (s.source + a • (s.target - s.source))
            = (b - a) • (s.target - s.source) := by module
        rw [e1, smul_smul, div_mul_cancel₀ _ hne]
        module
      rw [e]; exact hk
  refine ⟨sInf (slice R s), sSup (slice R s), ?_, ?_⟩
  · exact Real.sInf_le_sSup _ hcomp.bddBelow hcomp.bddAbove
  · ext t
    constructor
    · exact fun ht => ⟨csInf_le hcomp.bddBelow ht, le_csSup hcomp.bddAbove ht⟩
    · exact fun ht => hord _ (hcomp.sInf_mem hne) _ (hcomp.sSup_mem hne) t ht.1 ht.2

/-- The common points are those with a parameter in the slice. -/
theorem slice_iff {R : V3 → Prop} {s : Segment} (p : V3) : (Spec.OnSegment s.source s.target p ∧ R p) ↔
    ∃ t ∈ slice R s, p = s.source + t • (s.target - s.source) := by
  rw [Spec.onSegment_iff]
  constructor
  · rintro ⟨⟨t, h0, h1, rfl⟩, h⟩
    exact ⟨t, ⟨h0, h1, h⟩, rfl⟩
  · rintro ⟨t, ⟨h0, h1, h⟩, rfl⟩
    exact ⟨⟨t, h0, h1, rfl⟩, h⟩

open Classical in
/-- Exact boolean operations with the set `R`. -/
noncomputable def exactOps (R : V3 → Prop) : ShapeOps where
  commonEdges s _ := if h : ∃ e : V3 × V3, e.1 ≠ e.2 ∧
      ∀ p, (Spec.OnSegment s.source s.target p ∧ R p) ↔ Spec.OnSegment e.1 e.2 p
    then [[h.choose.1, h.choose.2]] else []
  cutVertices s _ := if h : ∃ c, ∀ p, (Spec.OnSegment s.source s.target p ∧ R p) ↔ p = c
    then [s.source, h.choose, h.choose, s.target] else [s.source, s.target]

theorem exactOps_cut {R : V3 → Prop} (h : ClosedConvex R) {f : FaceGeom} {s : Segment} {tol : ℝ}
    (he : f.commonEdges = (exactOps R).commonEdges) (hc : f.cutVertices = (exactOps R).cutVertices)
    (hs : s.source ≠ s.target) : ExactCut f R s tol := by
  have hd : s.target - s.source ≠ 0 := fun e => hs (sub_eq_zero.1 e).symm
  have self : ∀ a b : V3, Spec.OnSegment a b a ∧ Spec.OnSegment a b b := by
    intro a b
    constructor
    · rw [Spec.onSegment_iff]; exact ⟨0, le_refl _, zero_le_one, by module⟩
    · rw [Spec.onSegment_iff]; exact ⟨1, zero_le_one, le_refl _, by module⟩
  by_cases hx : ∃ e : V3 × V3, e.1 ≠ e.2 ∧ ∀ p, (Spec.OnSegment s.source s.target p ∧ R p) ↔ Spec.OnSegment e.1 e.2 p
  · refine .crossing hx.choose.1 hx.choose.2 hx.choose_spec.1 hx.choose_spec.2 ?_
    rw [he]
    exact dif_pos hx
  have hcommon : f.commonEdges s tol = [] := by rw [he]; exact dif_neg hx
  by_cases hy : ∃ c, ∀ p, (Spec.OnSegment s.source s.target p ∧ R p) ↔ p = c
  · have hv : f.cutVertices s tol = [s.source, hy.choose, hy.choose, s.target] := by rw [hc]; exact dif_pos hy
    refine .touching hy.choose hy.choose_spec hcommon (by rw [hv]; rfl) (by rw [hv]; simp) ?_
    intro v hm
    rw [hv] at hm
    simp only [List.mem_cons, List.not_mem_nil, or_false] at hm
    tauto
  · refine .disjoint ?_ hcommon (by rw [hc]; simp only [exactOps, dif_neg hy]; rfl)
    rcases slice_cases h s with hz | ⟨a, b, hab, hz⟩
    · intro p hp hR
      obtain ⟨t, ht, _⟩ := (slice_iff p).1 ⟨hp, hR⟩
      rw [hz] at ht
      exact ht
    · exfalso
      rcases eq_or_lt_of_le hab with rfl | hlt
      · apply hy
        refine ⟨s.source + a • (s.target - s.source), fun p => ?_⟩
        rw [slice_iff, hz]
        constructor
        · rintro ⟨t, ht, rfl⟩
          rw [le_antisymm ht.2 ht.1]
        · rintro rfl
          exact ⟨a, ⟨le_refl _, le_refl _⟩, rfl⟩
      · apply hx
        refine ⟨(s.source + a • (s.target - s.source), s.source + b • (s.target - s.source)), ?_, fun p => ?_⟩
        · intro e
          have e : s.source + a • (s.target - s.source) = s.source + b • (s.target - s.source) := e
          have : (b - a) • (s.target - s.source) = 0 := by
            rw [show (b - a) • (s.target - s.source) = (s.source + b • (s.target - s.source)) -
              (s.source + a • (s.target - s.source)) by module, e, sub_self]
          rcases smul_eq_zero.1 this with h | h
          · linarith
          · exact hd h
        · rw [slice_iff, hz, Spec.onSegment_iff]
          constructor
          · rintro ⟨t, ht, rfl⟩
            refine ⟨(t - a) / (b - a), div_nonneg (by linarith [ht.1]) (by linarith),
              (div_le_one (by linarith)).2 (by linarith [ht.2]), ?_⟩
            have e1 : s.source + b • (s.target - s.source) - (s.source + a • (s.target - s.source))
                = (b - a) • (s.target - s.source) := by module
            rw [e1, smul_smul, div_mul_cancel₀ _ (by linarith)]
            module
          · rintro ⟨t, h0, h1, rfl⟩
            refine ⟨a + t * (b - a), ⟨by nlinarith, by nlinarith⟩, by module⟩

/-! ### Quadrilaterals, polygons and disks are closed convex sets -/

theorem zip_combine (f : V3 → ℝ) (a b : ℝ) : ∀ (w v : List ℝ) (cs : List V3), w.length = cs.length → v.length = cs.length →
    (List.zipWith (fun r c => r * f c) (List.zipWith (fun x y => a * x + b * y) w v) cs).sum =
      a * (List.zipWith (fun r c => r * f c) w cs).sum + b * (List.zipWith (fun r c => r * f c) v cs).sum
  | [], [], [], _, _ => by simp
  | [], _, _ :: _, h, _ => by simp at h
  | _, [], _ :: _, _, h => by simp at h
  | _ :: _, _, [], h, _ => by simp at h
  | _, _ :: _, [], _, h => by simp at h
  | x :: w, y :: v, c :: cs, h1, h2 => by
    simp only [List.zipWith_cons_cons, List.sum_cons]
    rw [zip_combine f a b w v cs (by simpa using h1) (by simpa using h2)]
    ring

theorem zip_sum (a b : ℝ) : ∀ (w v : List ℝ), w.length = v.length →
    (List.zipWith (fun x y => a * x + b * y) w v).sum = a * w.sum + b * v.sum
  | [], [], _ => by simp
  | [], y :: v, h => by simp at h
  | x :: w, [], h => by simp at h
  | x :: w, y :: v, h => by
    simp only [List.zipWith_cons_cons, List.sum_cons]
    rw [zip_sum a b w v (by simpa using h)]
    ring

theorem hull_convex (cs : List V3) (p q : V3) (hp : Spec.InHull cs p) (hq : Spec.InHull cs q) (t : ℝ) (h0 : 0 ≤ t)
    (h1 : t ≤ 1) : Spec.InHull cs (p + t • (q - p)) := by
  obtain ⟨w, l1, n1, s1, x1, y1, z1⟩ := hp
  obtain ⟨v, l2, n2, s2, x2, y2, z2⟩ := hq
  refine ⟨List.zipWith (fun x y => (1 - t) * x + t * y) w v, by simp [l1, l2], ?_, ?_, ?_, ?_, ?_⟩
  · intro r hr
    obtain ⟨i, hi, rfl⟩ := List.getElem_of_mem hr
    rw [List.getElem_zipWith]
    have a := n1 _ (List.getElem_mem (l := w) (n := i) (by simp at hi; omega))
    have b := n2 _ (List.getElem_mem (l := v) (n := i) (by simp at hi; omega))
    have : 0 ≤ 1 - t := by linarith
    positivity
  · rw [zip_sum _ _ _ _ (l1.trans l2.symm), s1, s2]; ring
  · rw [zip_combine V3.x _ _ _ _ _ l1 l2, ← x1, ← x2]; simp; ring
  · rw [zip_combine V3.y _ _ _ _ _ l1 l2, ← y1, ← y2]; simp; ring
  · rw [zip_combine V3.z _ _ _ _ _ l1 l2, ← z1, ← z2]; simp; ring

theorem hull_cons (c : V3) (cs : List V3) (p : V3) : Spec.InHull (c :: cs) p ↔
    p = c ∨ ∃ q, Spec.InHull cs q ∧ ∃ t : ℝ, 0 ≤ t ∧ t ≤ 1 ∧ p = c + t • (q - c) := by
  constructor
  · rintro ⟨w, hl, hn, hs, hx, hy, hz⟩
    obtain ⟨r, w, rfl⟩ : ∃ r v, w = r :: v := by
      cases w with
      | nil => simp at hl
      | cons r v => exact ⟨r, v, rfl⟩
    simp only [List.zipWith_cons_cons, List.sum_cons] at hs hx hy hz
    have hl : w.length = cs.length := by simpa using hl
    have hr : 0 ≤ r := hn r (by simp)
    have hw : ∀ x ∈ w, 0 ≤ x := fun x hx => hn x (by simp [hx])
    have hw0 : 0 ≤ w.sum := List.sum_nonneg hw
    by_cases h0 : w.sum = 0
    · left
      have hz' : ∀ f : V3 → ℝ, (List.zipWith (fun r c => r * f c) w cs).sum = 0 := by
        intro f
        have hall : ∀ x ∈ w, x = 0 := by
          have aux : ∀ l : List ℝ, (∀ x ∈ l, 0 ≤ x) → l.sum = 0 → ∀ x ∈ l, x = 0 := by
            intro l
            induction l with
            | nil => simp
            | cons y l ih =>
              intro h1 h2 x hx
              rw [List.sum_cons] at h2
              have a := h1 y (by simp)
              have b : 0 ≤ l.sum := List.sum_nonneg fun x hx => h1 x (by simp [hx])
              rcases List.mem_cons.1 hx with rfl | hx
              · linarith
              · exact ih (fun x hx => h1 x (by simp [hx])) (by linarith) x hx
          exact aux w hw h0
        apply List.sum_eq_zero
        intro y hy
        obtain ⟨i, hi, rfl⟩ := List.getElem_of_mem hy
        rw [List.getElem_zipWith, hall _ (List.getElem_mem _), zero_mul]
      have hr1 : r = 1 := by linarith
      ext
      · rw [hx, hz' V3.x, hr1]; ring
      · rw [hy, hz' V3.y, hr1]; ring
      · rw [hz, hz' V3.z, hr1]; ring
    · right
      have scale : ∀ f : V3 → ℝ, (List.zipWith (fun r c => r * f c) (w.map (· / w.sum)) cs).sum =
          (List.zipWith (fun r c => r * f c) w cs).sum / w.sum := by
        intro f
        generalize w.sum = k
        clear hs hx hy hz hn hw hw0 h0
        induction w generalizing cs with
        | nil => simp
        | cons y w ih =>
          cases cs with
          | nil => simp
          | cons d cs =>
            simp only [List.map_cons, List.zipWith_cons_cons, List.sum_cons]
            rw [ih cs (by simpa using hl) (by simpa using hl)]
            ring
      refine ⟨⟨(List.zipWith (fun r c => r * c.x) w cs).sum / w.sum, (List.zipWith (fun r c => r * c.y) w cs).sum / w.sum,
        (List.zipWith (fun r c => r * c.z) w cs).sum / w.sum⟩, ⟨w.map (· / w.sum), by simpa using hl, ?_, ?_,
          (scale V3.x).symm, (scale V3.y).symm, (scale V3.z).symm⟩, w.sum, hw0, by linarith, ?_⟩
      · intro x hx
        obtain ⟨y, hy, rfl⟩ := List.mem_map.1 hx
        exact div_nonneg (hw y hy) hw0
      · have : ∀ (l : List ℝ) (k : ℝ), (l.map (· / k)).sum = l.sum / k := by
          intro l k
          induction l with
          | nil => simp
          | cons y l ih => simp only [List.map_cons, List.sum_cons, ih]; ring
        rw [this, div_self h0]
      · have hr1 : r = 1 - w.sum := by linarith
        ext
        · simp only [V3.add_x, V3.smul_x, V3.sub_x]
          rw [hx, hr1]; field_simp; ring
        · simp only [V3.add_y, V3.smul_y, V3.sub_y]
          rw [hy, hr1]; field_simp; ring
        · simp only [V3.add_z, V3.smul_z, V3.sub_z]
          rw [hz, hr1]; field_simp; ring
  · have scale : ∀ (f : V3 → ℝ) (t : ℝ) (w : List ℝ) (cs : List V3),
        (List.zipWith (fun r c => r * f c) (w.map (t * ·)) cs).sum =
          t * (List.zipWith (fun r c => r * f c) w cs).sum := by
      intro f t w
      induction w with
      | nil => intro cs; simp
      | cons y w ih =>
        intro cs
        cases cs with
        | nil => simp
        | cons d cs =>
          simp only [List.map_cons, List.zipWith_cons_cons, List.sum_cons]
          rw [ih cs]
          ring
    have total : ∀ (l : List ℝ) (k : ℝ), (l.map (k * ·)).sum = k * l.sum := by
      intro l k
      induction l with
      | nil => simp
      | cons y l ih => simp only [List.map_cons, List.sum_cons, ih]; ring
    rintro (rfl | ⟨q, ⟨w, hl, hn, hs, hx, hy, hz⟩, t, h0, h1, rfl⟩)
    · refine ⟨1 :: (List.replicate cs.length 0), by simp, ?_, ?_, ?_, ?_, ?_⟩
      · intro r hr
        rcases List.mem_cons.1 hr with rfl | hr
        · exact zero_le_one
        · rw [List.eq_of_mem_replicate hr]
      · simp
      all_goals
        simp only [List.zipWith_cons_cons, List.sum_cons, one_mul]
        rw [List.sum_eq_zero]
        · simp
        · intro y hy
          obtain ⟨i, hi, rfl⟩ := List.getElem_of_mem hy
          simp
    · refine ⟨(1 - t) :: w.map (t * ·), by simpa using hl, ?_, ?_, ?_, ?_, ?_⟩
      · intro r hr
        rcases List.mem_cons.1 hr with rfl | hr
        · linarith
        · obtain ⟨y, hy, rfl⟩ := List.mem_map.1 hr
          exact mul_nonneg h0 (hn y hy)
      · rw [List.sum_cons, total, hs]; ring
      · rw [List.zipWith_cons_cons, List.sum_cons, scale V3.x, ← hx]; simp; ring
      · rw [List.zipWith_cons_cons, List.sum_cons, scale V3.y, ← hy]; simp; ring
      · rw [List.zipWith_cons_cons, List.sum_cons, scale V3.z, ← hz]; simp; ring

theorem hull_compact : ∀ cs : List V3, IsCompact {v : ℝ × ℝ × ℝ | Spec.InHull cs ⟨v.1, v.2.1, v.2.2⟩}
  | [] => by
    have : {v : ℝ × ℝ × ℝ | Spec.InHull [] ⟨v.1, v.2.1, v.2.2⟩} = ∅ := by
      ext v
      simp only [Set.mem_ofPred_eq, Set.mem_empty_iff_false, iff_false]
      rintro ⟨w, hl, _, hs, _⟩
      rw [List.length_eq_zero_iff.1 hl] at hs
      simp at hs
    rw [this]; exact isCompact_empty
  | c :: cs => by
    have ih := hull_compact cs
    have hc : Continuous fun u : ℝ × (ℝ × ℝ × ℝ) => ((c.x + u.1 * (u.2.1 - c.x), c.y + u.1 * (u.2.2.1 - c.y),
        c.z + u.1 * (u.2.2.2 - c.z)) : ℝ × ℝ × ℝ) := by fun_prop
    have h2 := ((isCompact_Icc (a := (0 : ℝ)) (b := 1)).prod ih).image hc
    have : {v : ℝ × ℝ × ℝ | Spec.InHull (c :: cs) ⟨v.1, v.2.1, v.2.2⟩} = {(c.x, c.y, c.z)} ∪
        (fun u : ℝ × (ℝ × ℝ × ℝ) => ((c.x + u.1 * (u.2.1 - c.x), c.y + u.1 * (u.2.2.1 - c.y),
          c.z + u.1 * (u.2.2.2 - c.z)) : ℝ × ℝ × ℝ)) ''
        (Set.Icc 0 1 ×ˢ {v : ℝ × ℝ × ℝ | Spec.InHull cs ⟨v.1, v.2.1, v.2.2⟩}) := by
      ext ⟨x, y, z⟩
      simp only [Set.mem_ofPred_eq, hull_cons, Set.mem_union, Set.mem_singleton_iff, Prod.mk.injEq, Set.mem_image,
        Set.mem_prod, Set.mem_Icc, Prod.exists]
      constructor
      · rintro (h | ⟨q, hq, t, h0, h1, h⟩)
        · left; rw [← h]; simp
        · right
          refine ⟨t, q.x, q.y, q.z, ⟨⟨h0, h1⟩, hq⟩, ?_⟩
          have hx := congrArg V3.x h
          have hy := congrArg V3.y h
          have hz := congrArg V3.z h
          simp at hx hy hz
          exact ⟨hx.symm, hy.symm, hz.symm⟩
      · rintro (⟨rfl, rfl, rfl⟩ | ⟨t, a, b, d, ⟨⟨h0, h1⟩, hq⟩, rfl, rfl, rfl⟩)
        · left; rfl
        · right
          exact ⟨⟨a, b, d⟩, hq, t, h0, h1, by ext <;> simp⟩
    rw [this]
    exact isCompact_singleton.union h2

theorem hull_closedConvex (cs : List V3) : ClosedConvex (Spec.InHull cs) :=
  ⟨hull_convex cs, (hull_compact cs).isClosed⟩

theorem disk_closedConvex {d : Elliptical} (h : ValidElliptical d) : ClosedConvex (Elliptical.region d) := by
  have ha := h.maj_pos
  have hb := h.min_pos
  obtain ⟨f1, f2, f3, f4⟩ := h.frame
  constructor
  · rintro p q ⟨x, y, hxy, rfl⟩ ⟨x', y', hxy', rfl⟩ t h0 h1
    refine ⟨x + t * (x' - x), y + t * (y' - y), ?_, ?_⟩
    · have e1 : (x + t * (x' - x)) / d.majLen = (1 - t) * (x / d.majLen) + t * (x' / d.majLen) := by field_simp; ring
      have e2 : (y + t * (y' - y)) / d.minLen = (1 - t) * (y / d.minLen) + t * (y' / d.minLen) := by field_simp; ring
      rw [e1, e2]
      generalize x / d.majLen = u at *
      generalize x' / d.majLen = u' at *
      generalize y / d.minLen = v at *
      generalize y' / d.minLen = v' at *
      nlinarith [mul_nonneg h0 (sub_nonneg.2 h1), sq_nonneg (u - u'), sq_nonneg (v - v'),
        mul_nonneg (mul_nonneg h0 (sub_nonneg.2 h1)) (sq_nonneg (u - u')),
        mul_nonneg (mul_nonneg h0 (sub_nonneg.2 h1)) (sq_nonneg (v - v')), mul_nonneg h0 (sub_nonneg.2 hxy'),
        mul_nonneg (sub_nonneg.2 h1) (sub_nonneg.2 hxy)]
    · simp only [Spec.localPoint]
      ext <;> simp <;> ring
  · have hk : IsCompact {u : ℝ × ℝ | (u.1 / d.majLen) ^ 2 + (u.2 / d.minLen) ^ 2 ≤ 1} := by
      have hcl : IsClosed {u : ℝ × ℝ | (u.1 / d.majLen) ^ 2 + (u.2 / d.minLen) ^ 2 ≤ 1} := by
        apply isClosed_le
        · fun_prop
        · fun_prop
      refine (((isCompact_Icc (a := -d.majLen) (b := d.majLen)).prod (isCompact_Icc (a := -d.minLen)
        (b := d.minLen)))).of_isClosed_subset hcl ?_
      rintro ⟨x, y⟩ hu
      have hu : (x / d.majLen) ^ 2 + (y / d.minLen) ^ 2 ≤ 1 := hu
      have aux : ∀ {x a : ℝ}, 0 < a → (x / a) ^ 2 ≤ 1 → -a ≤ x ∧ x ≤ a := by
        intro x a ha hx
        have h1 := abs_le_of_sq_le_sq' (a := x / a) (b := 1) (by simpa using hx) zero_le_one
        exact ⟨by have := (le_div_iff₀ ha).1 h1.1; linarith, by have := (div_le_iff₀ ha).1 h1.2; linarith⟩
      exact ⟨aux ha (by nlinarith [sq_nonneg (y / d.minLen)]), aux hb (by nlinarith [sq_nonneg (x / d.majLen)])⟩
    have hc : Continuous fun u : ℝ × ℝ => ((d.center.x + u.1 * d.major.x + u.2 * d.minor.x,
        d.center.y + u.1 * d.major.y + u.2 * d.minor.y, d.center.z + u.1 * d.major.z + u.2 * d.minor.z) : ℝ × ℝ × ℝ) := by
      fun_prop
    have himg := (hk.image hc).isClosed
    convert himg using 1
    ext ⟨x, y, z⟩
    simp only [Set.mem_ofPred_eq, Set.mem_image, Prod.exists, Prod.mk.injEq]
    constructor
    · rintro ⟨u, v, huv, e⟩
      refine ⟨u, v, huv, ?_⟩
      simp only [Spec.localPoint, V3.mk.injEq] at e
      exact ⟨e.1.symm, e.2.1.symm, e.2.2.symm⟩
    · rintro ⟨u, v, huv, rfl, rfl, rfl⟩
      exact ⟨u, v, huv, rfl⟩

/-! ### The line of intersection of two planes -/

theorem line_of_planes {p1 p2 : Plane} (h1 : Spec.IsUnit p1.normal) (h2 : Spec.IsUnit p2.normal)
    (h : ¬ gpIsParallel p1.normal p2.normal angular) : ∃ l : Line, Spec.IsUnit l.dir ∧
      ∀ p, Spec.OnLine l.supp l.dir p ↔ Spec.OnPlane p1.supp p1.normal p ∧ Spec.OnPlane p2.supp p2.normal p := by
  set c := p1.normal.cross p2.normal with hc
  have hne : c.sqLen ≠ 0 := by
    intro h0
    apply h
    have e : (p1.normal.dot p2.normal) ^ 2 = 1 := by
      have a := (Spec.isUnit_iff _).1 h1
      have b := (Spec.isUnit_iff _).1 h2
      simp only [hc, V3.sqLen, V3.cross, V3.dot] at h0 a b ⊢
      linear_combination (p2.normal.x * p2.normal.x + p2.normal.y * p2.normal.y + p2.normal.z * p2.normal.z) * a + b - h0
    have angle_pos : (0 : ℝ) ≤ angular := by norm_num [angular]
    unfold gpIsParallel
    rw [gpAngle_unit h1 h2]
    have e : (p1.normal.dot p2.normal - 1) * (p1.normal.dot p2.normal + 1) = 0 := by linear_combination e
    rcases mul_eq_zero.1 e with e | e
    · left
      rw [show p1.normal.dot p2.normal = 1 by linarith, Real.arccos_one]
      exact angle_pos
    · right
      rw [show p1.normal.dot p2.normal = -1 by linarith, Real.arccos_neg_one, sub_self]
      exact angle_pos
  have hpos : 0 < c.sqLen := lt_of_le_of_ne (V3.sqLen_nonneg _) (Ne.symm hne)
  set k := p2.normal.dot (p2.supp - p1.supp) / c.sqLen with hk
  have hkc : k * c.sqLen = p2.normal.dot (p2.supp - p1.supp) := div_mul_cancel₀ _ hne
  set r := Real.sqrt c.sqLen with hr
  have hr2 : r * r = c.sqLen := Real.mul_self_sqrt hpos.le
  have hr0 : 0 < r := Real.sqrt_pos.2 hpos
  refine ⟨⟨p1.supp + k • (c.cross p1.normal), r⁻¹ • c⟩, ?_, ?_⟩
  · rw [Spec.isUnit_iff]
    have : (r⁻¹ • c).sqLen = r⁻¹ * r⁻¹ * c.sqLen := by
      simp only [V3.sqLen, V3.smul_x, V3.smul_y, V3.smul_z]; ring
    show (r⁻¹ • c).sqLen = 1
    rw [this, ← hr2]
    field_simp
  · intro p
    have s1 : p1.normal.dot (k • (c.cross p1.normal)) = 0 := by
      simp only [V3.dot, V3.cross, V3.smul_x, V3.smul_y, V3.smul_z]; ring
    have s2 : p2.normal.dot (k • (c.cross p1.normal)) = p2.normal.dot (p2.supp - p1.supp) := by
      rw [← hkc]
      simp only [hc, V3.dot, V3.cross, V3.smul_x, V3.smul_y, V3.smul_z, V3.sqLen]; ring
    have d1 : p1.normal.dot c = 0 := by simp only [hc, V3.dot, V3.cross]; ring
    have d2 : p2.normal.dot c = 0 := by simp only [hc, V3.dot, V3.cross]; ring
    have o1 : Spec.OnPlane p1.supp p1.normal p ↔ p1.normal.dot (p - (p1.supp + k • (c.cross p1.normal))) = 0 := by
      rw [Spec.onPlane_iff, show p - (p1.supp + k • (c.cross p1.normal)) = (p - p1.supp) - k • (c.cross p1.normal) by
        module, V3.dot_sub p1.normal (p - p1.supp) (k • (c.cross p1.normal)), s1, sub_zero]
    have o2 : Spec.OnPlane p2.supp p2.normal p ↔ p2.normal.dot (p - (p1.supp + k • (c.cross p1.normal))) = 0 := by
      rw [Spec.onPlane_iff, show p - (p1.supp + k • (c.cross p1.normal)) =
        (p - p2.supp) + ((p2.supp - p1.supp) - k • (c.cross p1.normal)) by module, V3.dot_add,
        V3.dot_sub p2.normal (p2.supp - p1.supp) (k • (c.cross p1.normal)), s2, sub_self, add_zero]
    rw [o1, o2, Spec.onLine_iff]
    constructor
    · rintro ⟨t, rfl⟩
      have e : ∀ w : V3, w + t • r⁻¹ • c - w = (t * r⁻¹) • c := by intro w; module
      simp only [e, V3.dot_smul, d1, d2, mul_zero, and_self]
    · rintro ⟨g1, g2⟩
      set w := p - (p1.supp + k • (c.cross p1.normal)) with hw
      refine ⟨c.dot w / c.sqLen * r, ?_⟩
      have e : w = (c.dot w / c.sqLen) • c := by
        have hz : c.cross w = 0 := by
          have : c.cross w = (p1.normal.dot w) • p2.normal - (p2.normal.dot w) • p1.normal := by
            ext <;> simp only [hc, V3.cross, V3.dot, V3.sub_x, V3.sub_y, V3.sub_z, V3.smul_x, V3.smul_y, V3.smul_z] <;>
              ring
          rw [this, g1, g2]; module
        have hx := congrArg V3.x hz
        have hy := congrArg V3.y hz
        have hzz := congrArg V3.z hz
        have key : c.sqLen • w = (c.dot w) • c := by
          simp only [V3.cross, V3.zero_x, V3.zero_y, V3.zero_z] at hx hy hzz
          ext <;> simp only [V3.sqLen, V3.dot, V3.smul_x, V3.smul_y, V3.smul_z]
          · linear_combination c.z * hy - c.y * hzz
          · linear_combination c.x * hzz - c.z * hx
          · linear_combination c.y * hx - c.x * hy
        rw [show w = c.sqLen⁻¹ • (c.sqLen • w) by rw [smul_smul, inv_mul_cancel₀ hne, one_smul]]
        conv_lhs => rw [key]
        rw [smul_smul, smul_smul, inv_mul_cancel₀ hne, one_smul]
        congr 1
        ring
      have : p = (p1.supp + k • (c.cross p1.normal)) + w := by rw [hw]; module
      rw [this]
      conv_lhs => rw [e]
      rw [smul_smul, mul_assoc, mul_inv_cancel₀ (ne_of_gt hr0), mul_one]

open Classical in
/-- The exact line of intersection. -/
noncomputable def exactAlgo : Kernel where
  planePlane p1 p2 _ := if h : ∃ l : Line, Spec.IsUnit l.dir ∧
      ∀ p, Spec.OnLine l.supp l.dir p ↔ Spec.OnPlane p1.supp p1.normal p ∧ Spec.OnPlane p2.supp p2.normal p
    then some (h.choose.supp, h.choose.dir) else none
  planeLine _ _ := none
  fragmentEdges _ _ _ := []

theorem exactAlgo_line {p1 p2 : Plane} (h1 : Spec.IsUnit p1.normal) (h2 : Spec.IsUnit p2.normal) (eps : ℝ)
    (h : ¬ gpIsParallel p1.normal p2.normal angular) : ∃ l, ExactLine exactAlgo p1 p2 eps l := by
  have hx := line_of_planes h1 h2 h
  exact ⟨hx.choose, h, by simp only [exactAlgo, dif_pos hx], hx.choose_spec.1, hx.choose_spec.2⟩

/-- A library with exact operations. -/
noncomputable def exactIsKernel : IsKernel where
  algo := exactAlgo
  shapes := boundedKernel
  ops g := exactOps fun p => p ∈ pointsOf g
  cylOps _ _ _ := ⟨false, [], [], []⟩
  faceOps _ _ _ := ⟨[], [], fun _ _ => false, fun _ => [], fun _ => [], [], [], fun _ => false, fun _ => false⟩
  ends _ := (0, 0)

noncomputable def exactLibrary : LibraryKernel := { touchLibrary with isk := exactIsKernel }

theorem exactLibrary_sound : SoundShapes exactLibrary.isk.shapes :=
  ⟨boundedKernel_faithful, boundedKernel_neverFails, boundedKernel_contains⟩

theorem probing_ends {c : V3} {l : Line} {L : ℝ} (hl : Spec.IsUnit l.dir) (hL : 0 < L) :
    (probingSegment c l L).source ≠ (probingSegment c l L).target := by
  intro h
  have h : l.projection c + (L * 20.0) • l.dir = l.projection c - (L * 20.0) • l.dir := h
  have h0 : (L * 40) • l.dir = 0 := by
    have : (L * 40) • l.dir = (l.projection c + (L * 20.0) • l.dir) - (l.projection c - (L * 20.0) • l.dir) := by
      rw [show L * 40 = L * 20.0 + L * 20.0 by norm_num; ring]
      generalize L * 20.0 = x
      module
    rw [this, h, sub_self]
  rcases smul_eq_zero.1 h0 with h | h
  · linarith
  · rw [Spec.isUnit_iff, h] at hl
    simp [V3.sqLen] at hl

/-- The operations of the exact library with a disk. -/
theorem exact_disk_cut {d : Elliptical} (h : ValidElliptical d) {l : Line} {L tol : ℝ} (hl : Spec.IsUnit l.dir) (hL : 0 < L) :
    ExactCut (diskFace d (exactIsKernel.ops (.disk d))) (Elliptical.region d) (probingSegment d.center l L) tol :=
  exactOps_cut (disk_closedConvex h) rfl rfl (probing_ends hl hL)

/-- The operations of the exact library with a quadrilateral. -/
theorem exact_quad_cut {p0 p1 p2 p3 : V3} {f : FaceGeom}
    (hf : quadFace (Quadrilateral.make p0 p1 p2 p3) (exactIsKernel.ops (.quadrilateral (Quadrilateral.make p0 p1 p2 p3)))
      = .val f) {l : Line} {L tol : ℝ} (hl : Spec.IsUnit l.dir) (hL : 0 < L) :
    ExactCut f (Spec.InHull [p0, p1, p2, p3]) (probingSegment f.center l L) tol := by
  have e : Spec.InHull [p0, p1, p2, p3] = fun p => p ∈ pointsOf (.quadrilateral (Quadrilateral.make p0 p1 p2 p3)) :=
    funext fun p => propext ⟨hull_swap, hull_swap⟩
  rw [e]
  unfold quadFace at hf
  obtain ⟨pl, _, hf⟩ := Outcome.bind_eq_val.1 hf
  obtain ⟨c, _, hf⟩ := Outcome.bind_eq_val.1 hf
  have hf := Outcome.val.inj hf
  refine exactOps_cut ?_ (by rw [← hf]; rfl) (by rw [← hf]; rfl) (probing_ends hl hL)
  exact hull_closedConvex [p0, p1, p3, p2]

/-- Two disks in planes that are not parallel meet the hypotheses of C50 and C124 with the exact library. -/
theorem exact_disks (d1 d2 : Elliptical) (h1 : ValidElliptical d1) (h2 : ValidElliptical d2) (hmin1 : d1.minLen ≤ d1.majLen)
    (hmin2 : d2.minLen ≤ d2.majLen) (eps : ℝ) (hle : eps ≤ 19 * diskDiskCharLength d1 d2)
    (hp : ¬ gpIsParallel d1.normal d2.normal angular) :
    ∃ l, MeetExactly exactLibrary.isk eps l (.geom (.disk d1)) (.geom (.disk d2)) d1.supportingPlane d2.supportingPlane
      (diskTol d1) (diskTol d2) := by
  obtain ⟨l, hl⟩ := exactAlgo_line (p1 := d1.supportingPlane) (p2 := d2.supportingPlane) h1.frame.2.2.1 h2.frame.2.2.1 eps hp
  have hL : 0 < diskDiskCharLength d1 d2 := lt_of_lt_of_le h1.maj_pos (le_max_left _ _)
  exact ⟨l, .disks d1 d2 h1 h2 hmin1 hmin2 hle hl (exact_disk_cut h1 hl.unit hL) (exact_disk_cut h2 hl.unit hL)⟩

end Props
