import Verif.Model.Occ.Boolean
import Verif.Spec.SetOps
import Verif.Props.PyDispatch
import Verif.Props.Uniform
import Verif.Lemmas.PlaneMeasure

/-!
# C95 Boolean operators in Python
-/

namespace Props
open Verif Frackit MeasureTheory

/-- The boolean operations of the kernel are exact up to sets without volume. -/
structure ExactBoolean (B : BoolKernel) : Prop where
  cut : ∀ s t eps r, B.cut s t eps = some r → Spec.SameUpToVolume r.points (s.points \ t.points)
  common : ∀ s t eps r, B.common s t eps = some r → Spec.SameUpToVolume r.points (s.points ∩ t.points)
  fuse : ∀ a t eps r, B.fuse a t eps = some r →
    Spec.SameUpToVolume r.points {p | ∃ s ∈ a ++ t, p ∈ s.points}
  general : ∀ a eps r, B.general a eps = some r → Spec.SameUpToVolume r.points {p | ∃ s ∈ a, p ∈ s.points}

/-- Boolean operations without failures. -/
noncomputable def idealBoolean : BoolKernel where
  cut s t _ := some ⟨.compound, s.points \ t.points, ∅⟩
  common s t _ := some ⟨.compound, s.points ∩ t.points, ∅⟩
  fuse a t _ := some ⟨.compound, {p | ∃ s ∈ a ++ t, p ∈ s.points}, ∅⟩
  general a _ := some ⟨.compound, {p | ∃ s ∈ a, p ∈ s.points}, ∅⟩

theorem same_iff (A B : Set V3) :
    Spec.SameUpToVolume A B ↔ Spec.coords A =ᵐ[volume] Spec.coords B := by
  rw [← measure_symmDiff_eq_zero_iff]
  rfl

theorem same_refl (A : Set V3) : Spec.SameUpToVolume A A := by
  rw [same_iff]
  exact Filter.EventuallyEq.rfl

theorem same_trans {A B C : Set V3} (h1 : Spec.SameUpToVolume A B) (h2 : Spec.SameUpToVolume B C) :
    Spec.SameUpToVolume A C := by
  rw [same_iff] at *
  exact h1.trans h2

theorem same_diff {A B C D : Set V3} (h1 : Spec.SameUpToVolume A B) (h2 : Spec.SameUpToVolume C D) :
    Spec.SameUpToVolume (A \ C) (B \ D) := by
  rw [same_iff] at *
  exact h1.diff h2

theorem same_inter {A B C D : Set V3} (h1 : Spec.SameUpToVolume A B) (h2 : Spec.SameUpToVolume C D) :
    Spec.SameUpToVolume (A ∩ C) (B ∩ D) := by
  rw [same_iff] at *
  exact h1.inter h2

theorem same_union {A B C D : Set V3} (h1 : Spec.SameUpToVolume A B) (h2 : Spec.SameUpToVolume C D) :
    Spec.SameUpToVolume (A ∪ C) (B ∪ D) := by
  rw [same_iff] at *
  exact h1.union h2

theorem exactBoolean_ideal : ExactBoolean idealBoolean where
  cut s t eps r h := by cases h; exact same_refl _
  common s t eps r h := by cases h; exact same_refl _
  fuse a t eps r h := by cases h; exact same_refl _
  general a eps r h := by cases h; exact same_refl _

/-- The points of an argument. -/
def pyPoints : PyShapeArg → Set V3
  | .arg (.geom g) => pointsOf g
  | .arg (.shape s) => s.points
  | _ => ∅

/-- Geometries as made by the constructors, or any wrapped shapes. -/
def ValidPyArg : PyShapeArg → Prop
  | .arg (.geom g) => ValidGeom g
  | .arg (.shape _) => True
  | _ => False

mutual
/-- The set of points that a nested call describes. -/
def denotes : BoolExpr → Set V3
  | .object a => pyPoints a
  | .cut a b _ => denotes a \ denotes b
  | .intersect a b _ => denotes a ∩ denotes b
  | .fragment l _ => denotesAny l
  | .fuse l _ => denotesAny l

/-- The union for a list. -/
def denotesAny : List BoolExpr → Set V3
  | [] => ∅
  | e :: t => denotes e ∪ denotesAny t
end

mutual
/-- All objects in a nested call are valid. -/
def ValidExpr : BoolExpr → Prop
  | .object a => ValidPyArg a
  | .cut a b _ => ValidExpr a ∧ ValidExpr b
  | .intersect a b _ => ValidExpr a ∧ ValidExpr b
  | .fragment l _ => ValidExprs l
  | .fuse l _ => ValidExprs l

def ValidExprs : List BoolExpr → Prop
  | [] => True
  | e :: t => ValidExpr e ∧ ValidExprs t
end

theorem flat_null {c n : V3} (hn : n.dot n = 1) {A : Set V3} (h : ∀ p ∈ A, (p - c).dot n = 0) :
    MeasureTheory.volume (Spec.coords A) = 0 := by
  refine measure_mono_null ?_ (Lemmas.volume_plane n.x n.y n.z (c.dot n) ?_)
  · intro w hw
    have := h _ hw
    simp only [V3.dot, V3.sub_x, V3.sub_y, V3.sub_z] at this
    simp only [Set.mem_ofPred_eq, V3.dot]
    linarith
  · simp only [V3.dot] at hn
    nlinarith

theorem same_of_null {A B : Set V3} (hA : MeasureTheory.volume (Spec.coords A) = 0)
    (hB : MeasureTheory.volume (Spec.coords B) = 0) : Spec.SameUpToVolume A B := by
  rw [same_iff]
  exact (ae_eq_empty.2 hA).trans (ae_eq_empty.2 hB).symm

theorem ellipse_null (e : Elliptical) (he : ValidElliptical e) :
    MeasureTheory.volume (Spec.coords (pointsOf (.ellipse e))) = 0 := by
  obtain ⟨h1, h2, h3, h4, h5, h6⟩ := he.dots
  refine flat_null (c := e.center) h3 ?_
  rintro p ⟨x, y, _, rfl⟩
  simp only [V3.dot, Spec.localPoint, V3.sub_x, V3.sub_y, V3.sub_z, V3.add_x, V3.add_y, V3.add_z, V3.smul_x,
    V3.smul_y, V3.smul_z] at h5 h6 ⊢
  linear_combination x * h6 + y * h5

/-- Up to volume zero, the shape of an argument occupies its points; for arcs only because curves have no volume. -/
theorem wrapper_points (K : ShapeKernel) (hK : Faithful K) (a : PyShapeArg) (ha : ValidPyArg a) (s : Shape)
    (h : pyGetShapeWrapper K a = .val s) : Spec.SameUpToVolume s.points (pyPoints a) := by
  cases a with
  | other => exact absurd ha (by simp [ValidPyArg])
  | arg d =>
    simp only [pyGetShapeWrapper] at h
    cases hg : pyGetShape K d with
    | val t =>
      rw [hg] at h
      cases h
      cases d with
      | geom g =>
        by_cases hi : IsArc (.geom g)
        · cases g with
          | arc arc occ =>
            have hv : MadeArc arc := ha
            have hs : pyGetShape K (.geom (.arc arc occ)) = getShape K (.geom (.ellipse arc.ellipse)) :=
              (C96_arc K arc occ).2.1
            rw [hs] at hg
            have e := (C72_shape_partial K hK (.ellipse arc.ellipse) hv.1 _ hg).1
            have hn := ellipse_null arc.ellipse hv.1
            refine same_of_null (by rw [e]; exact hn) (measure_mono_null ?_ hn)
            intro w hw
            exact completed_points (.geom (.arc arc occ)) hv hw
          | _ => exact absurd hi id
        · rw [(C72_shape_partial K hK g ha _ ((pyGetShape_eq hi (by simp)).1 hg)).1]
          exact same_refl _
      | line l => exact absurd ha (by simp [ValidPyArg])
      | shape u => cases hg; exact same_refl _
    | thrown m => rw [hg] at h; cases h
    | nan => rw [hg] at h; cases h
    | ub => rw [hg] at h; cases h

/-- Union of the points of the arguments. -/
def anyPoints : List PyShapeArg → Set V3
  | [] => ∅
  | a :: t => pyPoints a ∪ anyPoints t

theorem wrappers_points (K : ShapeKernel) (hK : Faithful K) : ∀ (as : List PyShapeArg) (l : List Shape),
    (∀ a ∈ as, ValidPyArg a) → pyGetShapeWrappers K as = .val l →
    Spec.SameUpToVolume {p | ∃ s ∈ l, p ∈ s.points} (anyPoints as)
  | [], l, _, h => by
    cases h
    simp only [anyPoints, List.not_mem_nil, false_and, exists_false]
    exact same_refl _
  | a :: t, l, hv, h => by
    unfold pyGetShapeWrappers at h
    obtain ⟨s, hs, h⟩ := Outcome.bind_eq_val.1 h
    obtain ⟨l', hl', h⟩ := Outcome.bind_eq_val.1 h
    cases h
    have ih := wrappers_points K hK t l' (fun b hb => hv b (List.mem_cons_of_mem _ hb)) hl'
    have h1 := wrapper_points K hK a (hv a List.mem_cons_self) s hs
    have e : {p | ∃ u ∈ s :: l', p ∈ u.points} = s.points ∪ {p | ∃ u ∈ l', p ∈ u.points} := by
      ext p
      simp
    rw [anyPoints, e]
    exact same_union h1 ih

theorem done_val {α : Type} {msg : String} {o : Option α} {a : α} (h : doneOr msg o = .val a) :
    o = some a := by
  cases o with
  | none => cases h
  | some b => cases h; rfl

mutual
theorem eval_sound (K : ShapeKernel) (hK : Faithful K) (B : BoolKernel) (hB : ExactBoolean B) :
    ∀ (e : BoolExpr) (x : PyShapeArg), ValidExpr e → e.eval K B = .val x →
      ValidPyArg x ∧ Spec.SameUpToVolume (pyPoints x) (denotes e)
  | .object a, x, hv, h => by
    unfold BoolExpr.eval at h
    cases h
    rw [denotes]
    exact ⟨by simpa [ValidExpr] using hv, same_refl _⟩
  | .cut a b eps, x, hv, h => by
    unfold BoolExpr.eval at h
    rw [ValidExpr] at hv
    obtain ⟨u, hu, h⟩ := Outcome.bind_eq_val.1 h
    obtain ⟨w, hw, h⟩ := Outcome.bind_eq_val.1 h
    obtain ⟨r, hr, h⟩ := Outcome.bind_eq_val.1 h
    cases h
    obtain ⟨v1, s1⟩ := eval_sound K hK B hB a u hv.1 hu
    obtain ⟨v2, s2⟩ := eval_sound K hK B hB b w hv.2 hw
    unfold pyShapeCut at hr
    obtain ⟨s, hs, hr⟩ := Outcome.bind_eq_val.1 hr
    obtain ⟨t, ht, hr⟩ := Outcome.bind_eq_val.1 hr
    refine ⟨trivial, same_trans (hB.cut s t eps r (done_val hr)) ?_⟩
    rw [denotes]
    exact same_diff (same_trans (wrapper_points K hK u v1 s hs) s1) (same_trans (wrapper_points K hK w v2 t ht) s2)
  | .intersect a b eps, x, hv, h => by
    unfold BoolExpr.eval at h
    rw [ValidExpr] at hv
    obtain ⟨u, hu, h⟩ := Outcome.bind_eq_val.1 h
    obtain ⟨w, hw, h⟩ := Outcome.bind_eq_val.1 h
    obtain ⟨r, hr, h⟩ := Outcome.bind_eq_val.1 h
    cases h
    obtain ⟨v1, s1⟩ := eval_sound K hK B hB a u hv.1 hu
    obtain ⟨v2, s2⟩ := eval_sound K hK B hB b w hv.2 hw
    unfold pyShapeIntersect at hr
    obtain ⟨s, hs, hr⟩ := Outcome.bind_eq_val.1 hr
    obtain ⟨t, ht, hr⟩ := Outcome.bind_eq_val.1 hr
    refine ⟨trivial, same_trans (hB.common s t eps r (done_val hr)) ?_⟩
    rw [denotes]
    exact same_inter (same_trans (wrapper_points K hK u v1 s hs) s1) (same_trans (wrapper_points K hK w v2 t ht) s2)
  | .fragment l eps, x, hv, h => by
    unfold BoolExpr.eval at h
    rw [ValidExpr] at hv
    obtain ⟨xs, hxs, h⟩ := Outcome.bind_eq_val.1 h
    obtain ⟨r, hr, h⟩ := Outcome.bind_eq_val.1 h
    cases h
    obtain ⟨v1, s1⟩ := evalAll_sound K hK B hB l xs hv hxs
    unfold pyShapeFragment at hr
    obtain ⟨ss, hs, hr⟩ := Outcome.bind_eq_val.1 hr
    refine ⟨trivial, same_trans (hB.general ss eps r (done_val hr)) ?_⟩
    rw [denotes]
    exact same_trans (wrappers_points K hK xs ss v1 hs) s1
  | .fuse l eps, x, hv, h => by
    unfold BoolExpr.eval at h
    rw [ValidExpr] at hv
    obtain ⟨xs, hxs, h⟩ := Outcome.bind_eq_val.1 h
    obtain ⟨r, hr, h⟩ := Outcome.bind_eq_val.1 h
    cases h
    obtain ⟨v1, s1⟩ := evalAll_sound K hK B hB l xs hv hxs
    unfold pyShapeFuse at hr
    obtain ⟨ss, hs, hr⟩ := Outcome.bind_eq_val.1 hr
    refine ⟨trivial, same_trans (hB.fuse ss ss eps r (done_val hr)) ?_⟩
    have : {p | ∃ s ∈ ss ++ ss, p ∈ s.points} = {p | ∃ s ∈ ss, p ∈ s.points} := by
      ext p; simp
    rw [this, denotes]
    exact same_trans (wrappers_points K hK xs ss v1 hs) s1

theorem evalAll_sound (K : ShapeKernel) (hK : Faithful K) (B : BoolKernel) (hB : ExactBoolean B) :
    ∀ (l : List BoolExpr) (xs : List PyShapeArg), ValidExprs l → BoolExpr.evalAll K B l = .val xs →
      (∀ a ∈ xs, ValidPyArg a) ∧ Spec.SameUpToVolume (anyPoints xs) (denotesAny l)
  | [], xs, _, h => by
    unfold BoolExpr.evalAll at h
    cases h
    refine ⟨by simp, ?_⟩
    rw [denotesAny]
    exact same_refl _
  | e :: t, xs, hv, h => by
    unfold BoolExpr.evalAll at h
    rw [ValidExprs] at hv
    obtain ⟨y, hy, h⟩ := Outcome.bind_eq_val.1 h
    obtain ⟨ys, hys, h⟩ := Outcome.bind_eq_val.1 h
    cases h
    obtain ⟨v1, s1⟩ := eval_sound K hK B hB e y hv.1 hy
    obtain ⟨v2, s2⟩ := evalAll_sound K hK B hB t ys hv.2 hys
    refine ⟨?_, ?_⟩
    · intro a ha
      rcases List.mem_cons.1 ha with rfl | ha
      · exact v1
      · exact v2 a ha
    · rw [denotesAny, anyPoints]
      exact same_union s1 s2
end

/-- The result of any nested calls of `cut`, `intersect`, `fragment` and `fuse` consists of the points that
set difference, intersection and union give for the geometries, up to a set without volume. -/
theorem C95_expressions (K : ShapeKernel) (hK : Faithful K) (B : BoolKernel) (hB : ExactBoolean B)
    (e : BoolExpr) (hv : ValidExpr e) (r : PyShapeArg) (h : e.eval K B = .val r) :
    Spec.SameUpToVolume (pyPoints r) (denotes e) := (eval_sound K hK B hB e r hv h).2

theorem same_volume {A B : Set V3} (h : Spec.SameUpToVolume A B) :
    Spec.volume (· ∈ A) = Spec.volume (· ∈ B) := measure_congr ((same_iff A B).1 h)

/-- The volumes of the two parts into which a geometry is divided by another one add up. -/
theorem C95_volume (K : ShapeKernel) (hK : Faithful K) (B : BoolKernel) (hB : ExactBoolean B)
    (a b : PyShapeArg) (ha : ValidPyArg a) (hb : ValidPyArg b) (hm : Spec.Measurable (· ∈ pyPoints b))
    (eps : ℝ) (r1 r2 : Shape) (h1 : pyShapeCut K B a b eps = .val r1) (h2 : pyShapeIntersect K B a b eps = .val r2) :
    Spec.volume (· ∈ r1.points) + Spec.volume (· ∈ r2.points) = Spec.volume (· ∈ pyPoints a) := by
  have e1 := C95_expressions K hK B hB (.cut (.object a) (.object b) eps) (by simp [ValidExpr, ha, hb])
    (.arg (.shape r1)) (by simp [BoolExpr.eval, h1])
  have e2 := C95_expressions K hK B hB (.intersect (.object a) (.object b) eps)
    (by simp [ValidExpr, ha, hb]) (.arg (.shape r2)) (by simp [BoolExpr.eval, h2])
  simp only [denotes] at e1 e2
  have e1' := same_volume e1
  have e2' := same_volume e2
  rw [show pyPoints (.arg (.shape r1)) = r1.points from rfl] at e1'
  rw [show pyPoints (.arg (.shape r2)) = r2.points from rfl] at e2'
  rw [e1', e2', add_comm]
  exact measure_inter_add_diff (Spec.coords (pyPoints a)) hm

/-- Objects that have no shape raise a `TypeError`. -/
theorem C95_unsupported (K : ShapeKernel) (B : BoolKernel) (a b : PyShapeArg) (eps : ℝ) (l : List PyShapeArg)
    (h : a = .other ∨ (∃ t, a = .arg (.geom (.triangle t))) ∨
      (∃ c, a = .arg (.geom (.hollowCylinder c))) ∨ ∃ g, a = .arg (.line g)) :
    pyShapeCut K B a b eps = .thrown "TypeError" ∧ pyShapeIntersect K B a b eps = .thrown "TypeError" ∧
    pyShapeFragment K B (a :: l) eps = .thrown "TypeError" ∧ pyShapeFuse K B (a :: l) eps = .thrown "TypeError" ∧
    (∀ s, pyGetShapeWrapper K b = .val s → pyShapeCut K B b a eps = .thrown "TypeError" ∧
      pyShapeIntersect K B b a eps = .thrown "TypeError") := by
  have hw : pyGetShapeWrapper K a = .thrown "TypeError" := by
    rcases h with rfl | ⟨t, rfl⟩ | ⟨c, rfl⟩ | ⟨g, rfl⟩ <;> rfl
  refine ⟨?_, ?_, ?_, ?_, ?_⟩
  · unfold pyShapeCut; rw [hw]; rfl
  · unfold pyShapeIntersect; rw [hw]; rfl
  · unfold pyShapeFragment pyGetShapeWrappers; rw [hw]; rfl
  · unfold pyShapeFuse pyGetShapeWrappers; rw [hw]; rfl
  · intro s hs
    constructor
    · unfold pyShapeCut; rw [hs, hw]; rfl
    · unfold pyShapeIntersect; rw [hs, hw]; rfl

/-- A box with a spherical hole: the hypotheses of `C95_expressions` hold, the centre of the sphere is not
described by the call, a corner of the box is. -/
example : ∃ (e : BoolExpr) (r : PyShapeArg), ValidExpr e ∧ e.eval idealKernel idealBoolean = .val r ∧
    (⟨2, 2, 2⟩ : V3) ∈ denotes e ∧ (⟨0, 0, 0⟩ : V3) ∉ denotes e := by
  refine ⟨.cut (.object (.arg (.geom (.box ⟨-2, 2, -2, 2, -2, 2⟩))))
    (.fuse [.object (.arg (.geom (.sphere ⟨0, 1⟩)))] 0) 0, _, ?_, rfl, ?_, ?_⟩
  · simp [ValidExpr, ValidExprs, ValidPyArg, ValidGeom]
  · have h1 : ¬ Spec.InBall (0 : V3) 1 ⟨2, 2, 2⟩ := by
      unfold Spec.InBall Spec.dist
      rw [not_le, Real.lt_sqrt (by norm_num)]
      norm_num
    have h2 : Spec.InBox ⟨-2, -2, -2⟩ ⟨2, 2, 2⟩ ⟨2, 2, 2⟩ := by norm_num [Spec.InBox]
    simp only [denotes, denotesAny, pyPoints, pointsOf]
    exact ⟨h2, by simpa using h1⟩
  · simp only [denotes, denotesAny, pyPoints, pointsOf]
    intro h
    refine h.2 (.inl ?_)
    show Spec.InBall (0 : V3) 1 ⟨0, 0, 0⟩
    simp [Spec.InBall, Spec.dist]

end Props
