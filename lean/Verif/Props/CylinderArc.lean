import Verif.Props.IntersectionLists
import Verif.Props.Intersect

/-!
# C52 The arc that is returned for a part of the boundary of a planar geometry
-/

namespace Props
open Verif Frackit

/-- The points of an arc. -/
def arcPoints (a : EllipseArc) : Set V3 := {p | ∃ t, 0 ≤ t ∧ t ≤ 1 ∧ p = a.getPoint t}

/-- The projection on an edge that covers the points `S`, as the geometry kernel computes it without errors: distances
are distances from points of the edge, points of the edge have the distance zero.  There may be no projection of
other points. -/
def ProjectsOn (S : Set V3) (f : V3 → Option ℝ) : Prop :=
  (∀ c d, f c = some d → ∃ p ∈ S, Spec.dist p c = d) ∧ ∀ c ∈ S, f c = some 0

/-- **The part of the ellipse that is returned.**  An open wire on the surface is returned as that one of the two arcs
between its ends that consists of the points of the edges of the wire, provided that the middle of the other arc is not
nearer to these points than the tolerance. -/
theorem C52_arc (w : WireShape) (e : Elliptical) (eps : ℝ) (he : 0 < eps) (arc1 arc2 : EllipseArc)
    (h1 : EllipseArc.make e w.first w.last = .val arc1) (h2 : EllipseArc.make e w.last w.first = .val arc2)
    (edges : List (Set V3)) (hedges : List.Forall₂ ProjectsOn edges w.edgeDistances) :
    ((∀ p, p ∈ arcPoints arc1 ↔ ∃ S ∈ edges, p ∈ S) → (∀ p ∈ arcPoints arc1, eps ≤ Spec.dist p (arc2.getPoint (1 / 2))) →
      wireGeom (some e) w eps = .val (.arc arc1)) ∧
    ((∀ p, p ∈ arcPoints arc2 ↔ ∃ S ∈ edges, p ∈ S) → (∀ p ∈ arcPoints arc2, eps ≤ Spec.dist p (arc1.getPoint (1 / 2))) →
      wireGeom (some e) w eps = .val (.arc arc2)) := by
  have half : (0.5 : ℝ) = 1 / 2 := by norm_num
  have mid : ∀ a : EllipseArc, a.getPoint (1 / 2) ∈ arcPoints a := fun a => ⟨1 / 2, by norm_num, by norm_num, rfl⟩
  have found : ∀ {es : List (Set V3)} {fs : List (V3 → Option ℝ)} {c : V3}, List.Forall₂ ProjectsOn es fs →
      (∃ S ∈ es, c ∈ S) → ∃ f ∈ fs, f c = some 0 := by
    intro es fs c h
    induction h with
    | nil => rintro ⟨S, hS, -⟩; cases hS
    | cons h _ ih =>
      rintro ⟨S, hS, hc⟩
      rcases List.mem_cons.1 hS with rfl | hS
      · exact ⟨_, List.mem_cons_self, h.2 _ hc⟩
      · obtain ⟨f, hf, hz⟩ := ih ⟨S, hS, hc⟩
        exact ⟨f, List.mem_cons_of_mem _ hf, hz⟩
  have origin : ∀ {es : List (Set V3)} {fs : List (V3 → Option ℝ)}, List.Forall₂ ProjectsOn es fs →
      ∀ f ∈ fs, ∀ c d, f c = some d → ∃ S ∈ es, ∃ p ∈ S, Spec.dist p c = d := by
    intro es fs h
    induction h with
    | nil => intro f hf; cases hf
    | cons h _ ih =>
      intro f hf c d hd
      rcases List.mem_cons.1 hf with rfl | hf
      · obtain ⟨p, hp, hpd⟩ := h.1 _ _ hd
        exact ⟨_, List.mem_cons_self, p, hp, hpd⟩
      · obtain ⟨S, hS, p, hp, hpd⟩ := ih f hf c d hd
        exact ⟨S, List.mem_cons_of_mem _ hS, p, hp, hpd⟩
  have unf : wireGeom (some e) w eps = (makeArc w e eps >>= fun a => .val (.arc a)) := rfl
  constructor
  · intro hpts hfar
    have hfar' : ∀ f ∈ w.edgeDistances, ¬ ∃ d, f (arc2.getPoint 0.5) = some d ∧ d < eps := by
      rintro f hf ⟨d, hd, hlt⟩
      obtain ⟨S, hS, p, hp, hpd⟩ := origin hedges f hf _ _ hd
      have := hfar p ((hpts p).2 ⟨S, hS, hp⟩)
      rw [half] at hpd
      linarith
    obtain ⟨f, hf, hz⟩ := found hedges ((hpts _).1 (mid arc1))
    have ha : makeArc w e eps = .val arc1 := by
      unfold makeArc
      rw [h1, Outcome.val_bind, h2, Outcome.val_bind]
      simp only
      split
      · rename_i g hg
        have hmem := List.mem_of_find?_eq_some hg
        have hp := List.find?_some hg
        rw [decide_eq_true_eq] at hp
        rw [if_pos (hp.resolve_right (hfar' g hmem))]
        rfl
      · rename_i hn
        have := List.find?_eq_none.1 hn f hf
        refine absurd ?_ this
        rw [decide_eq_true_eq]
        exact .inl ⟨0, by rw [half]; exact hz, he⟩
    rw [unf, ha]
    rfl
  · intro hpts hfar
    have hfar' : ∀ f ∈ w.edgeDistances, ¬ ∃ d, f (arc1.getPoint 0.5) = some d ∧ d < eps := by
      rintro f hf ⟨d, hd, hlt⟩
      obtain ⟨S, hS, p, hp, hpd⟩ := origin hedges f hf _ _ hd
      have := hfar p ((hpts p).2 ⟨S, hS, hp⟩)
      rw [half] at hpd
      linarith
    have ha : makeArc w e eps = .val arc2 := by
      unfold makeArc
      rw [h1, Outcome.val_bind, h2, Outcome.val_bind]
      simp only
      split
      · rename_i g hg
        have hmem := List.mem_of_find?_eq_some hg
        rw [if_neg (hfar' g hmem)]
        rfl
      · rfl
    rw [unf, ha]
    rfl

/-- The second part is met by a quarter of a circle that is passed through from its end to its start: the arc from the
first to the last vertex of the wire is the rest of the circle. -/
example : ∃ (w : WireShape) (arc1 arc2 : EllipseArc) (e : Elliptical),
    EllipseArc.make e w.first w.last = .val arc1 ∧ EllipseArc.make e w.last w.first = .val arc2 ∧
    List.Forall₂ ProjectsOn [arcPoints arc2] w.edgeDistances ∧
    ∀ p ∈ arcPoints arc2, 1 / 100 ≤ Spec.dist p (arc1.getPoint (1 / 2)) := by
  classical
  set e : Elliptical := ⟨0, ⟨1, 0, 0⟩, ⟨0, 1, 0⟩, ⟨0, 0, 1⟩, 1, 1⟩ with hedef
  have hpi := Real.pi_pos
  have cx : Ellipse.containsDefault e ⟨1, 0, 0⟩ := by
    norm_num [Ellipse.containsDefault, Ellipse.contains, hedef, Elliptical.supportingPlane, Plane.ofBasis, Plane.contains, V3.dot, confusion]
  have cy : Ellipse.containsDefault e ⟨0, 1, 0⟩ := by
    norm_num [Ellipse.containsDefault, Ellipse.contains, hedef, Elliptical.supportingPlane, Plane.ofBasis, Plane.contains, V3.dot, confusion]
  have ax : Ellipse.getAngle e ⟨1, 0, 0⟩ = .val 0 := by
    unfold Ellipse.getAngle
    rw [if_neg (fun h => h.2 cx)]
    norm_num [hedef, V3.dot, confusion]
  have ay : Ellipse.getAngle e ⟨0, 1, 0⟩ = .val (Real.pi / 2) := by
    unfold Ellipse.getAngle
    rw [if_neg (fun h => h.2 cy)]
    norm_num [hedef, V3.dot, confusion]
  have m2 : EllipseArc.make e ⟨1, 0, 0⟩ ⟨0, 1, 0⟩ = .val ⟨e, ⟨1, 0, 0⟩, ⟨0, 1, 0⟩, 0, Real.pi / 2, False⟩ := by
    unfold EllipseArc.make
    rw [if_neg, ax, Outcome.val_bind, ay, Outcome.val_bind]
    · rfl
    · norm_num [pointIsEqual, hedef, confusion, V3.sqLen]
  have m1 : EllipseArc.make e ⟨0, 1, 0⟩ ⟨1, 0, 0⟩ = .val ⟨e, ⟨0, 1, 0⟩, ⟨1, 0, 0⟩, Real.pi / 2, 0, False⟩ := by
    unfold EllipseArc.make
    rw [if_neg, ay, Outcome.val_bind, ax, Outcome.val_bind]
    · rfl
    · norm_num [pointIsEqual, hedef, confusion, V3.sqLen]
  set arc2 : EllipseArc := ⟨e, ⟨1, 0, 0⟩, ⟨0, 1, 0⟩, 0, Real.pi / 2, False⟩ with h2
  refine ⟨⟨false, ⟨0, 1, 0⟩, ⟨1, 0, 0⟩, [fun c => if c ∈ arcPoints arc2 then some 0 else none]⟩, _, _, e, m1, m2, ?_, ?_⟩
  · refine .cons ⟨?_, ?_⟩ .nil
    · intro c d h
      change (if c ∈ arcPoints arc2 then some (0 : ℝ) else none) = some d at h
      by_cases hc : c ∈ arcPoints arc2
      · rw [if_pos hc] at h
        obtain rfl := Option.some.inj h
        exact ⟨c, hc, by simp [Spec.dist, Spec.norm]⟩
      · rw [if_neg hc] at h
        cases h
    · intro c hc
      exact if_pos hc
  · rintro p ⟨t, t0, t1, rfl⟩
    have hx : (arc2.getPoint t).x = Real.cos (Real.pi / 2 * t) := by
      simp [EllipseArc.getPoint, Ellipse.getPointFromAngle, h2, hedef, hpi]
    have h0 : 0 ≤ Real.cos (Real.pi / 2 * t) := by
      apply Real.cos_nonneg_of_neg_pi_div_two_le_of_le
      · nlinarith
      · nlinarith
    set q := EllipseArc.getPoint ⟨e, ⟨0, 1, 0⟩, ⟨1, 0, 0⟩, Real.pi / 2, 0, False⟩ (1 / 2) with hq
    have hqx : q.x = -(Real.sqrt 2 / 2) := by
      rw [hq]
      have : ¬ Real.pi / 2 < 0 := by linarith
      simp [EllipseArc.getPoint, Ellipse.getPointFromAngle, hedef, this]
      rw [show Real.pi / 2 + (2 * Real.pi - Real.pi / 2) * 2⁻¹ = Real.pi / 4 + Real.pi by ring, Real.cos_add_pi,
        Real.cos_pi_div_four]
    have hs : (1 : ℝ) ≤ Real.sqrt 2 := by rw [Real.le_sqrt' (by norm_num)]; norm_num
    have := (coord_dist (arc2.getPoint t) q).1
    rw [hx, hqx] at this
    have := le_abs_self (Real.cos (Real.pi / 2 * t) - -(Real.sqrt 2 / 2))
    linarith

end Props
