import Verif.Props.BuildLifecycle
import Verif.Props.PyDispatch
import Verif.Props.CylinderPlane
import Verif.Props.BRepWriter
import Verif.Props.PlanarPlanar

/-!
# Tolerances and refused arguments
-/

namespace Props
open Verif Frackit Spec.Builder

/-! ## C03 Supporting planes of ellipses, circles and disks -/

/-- The supporting plane has a right-handed orthonormal basis, and contains all points of the disk. -/
theorem C03_supporting_plane (d : Elliptical) (h : ValidElliptical d) :
    Spec.RightHandedOrthonormal d.supportingPlane.base1 d.supportingPlane.base2 d.supportingPlane.normal ∧
    d.supportingPlane.normal = d.normal ∧
    ∀ p, Spec.InDisk d.center d.major d.minor d.majLen d.minLen p →
      Spec.OnPlane d.supportingPlane.supp d.supportingPlane.normal p :=
  ⟨h.frame, rfl, fun _ hp => region_inPlane h hp⟩

example : ValidElliptical unitCircle := unitCircle_valid

/-! ## C106 The default tolerance of network builders -/

section
variable {Sh K : Type} [DecidableEq Sh] [DecidableEq K] (key : Sh → K) (occ : Occ Sh) (big : ℝ)

/-- `e` is the smallest one of the default tolerances of the shapes. -/
def SmallestOf (P : Sh → Prop) (e : ℝ) : Prop := (∀ s, P s → e ≤ occ.defaultEps s) ∧ ∃ s, P s ∧ e = occ.defaultEps s

theorem foldl_smallest (l : List Sh) (hl : l ≠ []) (hbig : ∀ s ∈ l, occ.defaultEps s ≤ big) :
    SmallestOf occ (· ∈ l) ((l.map occ.defaultEps).foldl min big) := by
  obtain ⟨⟨h1, h2⟩, h3⟩ := foldl_min (l.map occ.defaultEps) big
  refine ⟨fun s hs => h2 _ (List.mem_map_of_mem hs), ?_⟩
  rcases h3 with h3 | h3
  · obtain ⟨s, hs⟩ := List.exists_mem_of_ne_nil l hl
    exact ⟨s, hs, le_antisymm (h2 _ (List.mem_map_of_mem hs)) (by rw [h3]; exact hbig s hs)⟩
  · obtain ⟨s, hs, e⟩ := List.mem_map.1 h3
    exact ⟨s, hs, e.symm⟩

/-- The default tolerance is the smallest one of the default tolerances of the sub-domains; if there are none, of the
entities; 1e-7 for an empty builder. -/
theorem C106_default_tolerance (b : Builder Sh) (o : Orders) (ho : ValidOrders o b)
    (hbig : ∀ s, occ.defaultEps s ≤ big) :
    ∃ e, (Builder.step key occ big b (.setDefaultEpsilon o)).2.eps = some e ∧
      (Builder.step key occ big b (.setDefaultEpsilon o)).2.epsIsSet = true ∧
      ((∀ i, b.subDomains i = none) → (∀ i, b.networks i = none) → e = 1 / 10 ^ 7) ∧
      ((∃ i s, b.subDomains i = some s) → SmallestOf occ (fun s => ∃ i, b.subDomains i = some s) e) ∧
      ((∀ i, b.subDomains i = none) → (∃ i l, b.networks i = some l ∧ l ≠ []) →
        SmallestOf occ (fun s => ∃ i l, b.networks i = some l ∧ s ∈ l) e) := by
  refine ⟨_, rfl, rfl, ?_, ?_, ?_⟩
  · intro h1 h2
    unfold Builder.defaultEpsilon
    rw [if_pos ⟨h1, h2⟩]
    norm_num
  · rintro ⟨i, s, hi⟩
    have hne : ¬ Builder.IsEmpty b.subDomains := fun h => by have := h i; rw [hi] at this; cases this
    unfold Builder.defaultEpsilon
    rw [if_neg (fun h => hne h.1), if_pos hne]
    have hmem : ∀ s, s ∈ o.subDomains.filterMap b.subDomains ↔ ∃ i, b.subDomains i = some s := by
      intro s
      rw [List.mem_filterMap]
      constructor
      · rintro ⟨i, _, h⟩
        exact ⟨i, h⟩
      · rintro ⟨i, h⟩
        exact ⟨i, (ho.subDomains.2 i).2 (by rw [h]; nofun), h⟩
    have := foldl_smallest occ big (o.subDomains.filterMap b.subDomains)
      (List.ne_nil_of_mem ((hmem s).2 ⟨i, hi⟩)) (fun s _ => hbig s)
    simpa only [SmallestOf, hmem] using this
  · rintro h1 ⟨i, l, hi, hl⟩
    have hne : ¬ Builder.IsEmpty b.networks := fun h => by have := h i; rw [hi] at this; cases this
    unfold Builder.defaultEpsilon
    rw [if_neg (fun h => hne h.2), if_neg (not_not.2 (show Builder.IsEmpty b.subDomains from h1))]
    have hmem : ∀ s, s ∈ o.networks.flatMap (fun i => (b.networks i).getD []) ↔
        ∃ i l, b.networks i = some l ∧ s ∈ l := by
      intro s
      rw [List.mem_flatMap]
      constructor
      · rintro ⟨i, _, h⟩
        cases hn : b.networks i with
        | none => rw [hn] at h; cases h
        | some l => rw [hn] at h; exact ⟨i, l, hn, h⟩
      · rintro ⟨i, l, h, hs⟩
        exact ⟨i, (ho.networks.2 i).2 (by rw [h]; nofun), by rw [h]; exact hs⟩
    obtain ⟨s, hs⟩ := List.exists_mem_of_ne_nil l hl
    have := foldl_smallest occ big (o.networks.flatMap fun i => (b.networks i).getD [])
      (List.ne_nil_of_mem ((hmem s).2 ⟨i, l, hi, hs⟩)) (fun s _ => hbig s)
    simpa only [SmallestOf, hmem] using this

/-- The empty builder. -/
example (hbig : ∀ s, occ.defaultEps s ≤ big) :
    (Builder.step key occ big (Builder.init : Builder Sh) (.setDefaultEpsilon ⟨[], [], [], []⟩)).2.eps
      = some (1 / 10 ^ 7) := by
  obtain ⟨e, h, -, h1, -⟩ := C106_default_tolerance key occ big Builder.init ⟨[], [], [], []⟩
    ⟨⟨List.nodup_nil, by simp [Builder.init]⟩, ⟨List.nodup_nil, by simp [Builder.init]⟩,
      ⟨List.nodup_nil, by simp [Builder.init]⟩, ⟨List.nodup_nil, by simp [Builder.init]⟩⟩ hbig
  rw [h, h1 (fun _ => rfl) fun _ => rfl]

end

/-! ## C47 Networks that cannot be written -/

section
variable {Sh K : Type} [DecidableEq Sh] [DecidableEq K] (key : Sh → K) (T : Topo Sh)

/-- Networks of entities other than surfaces, and contained networks whose domains are not solids, are refused. -/
theorem C47_dimension :
    (∀ n : Builder.Network Sh, n.entityDim ≠ 2 → (BRepWriter.ofNetwork key T n).isThrown) ∧
    ∀ ids (n : Builder.ContainedNetwork Sh), (n.entityDim ≠ 2 ∨ n.domainDim ≠ 3) →
      (BRepWriter.ofContained key T ids n).isThrown := by
  constructor
  · intro n h
    unfold BRepWriter.ofNetwork
    rw [if_pos h]
    trivial
  · intro ids n h
    unfold BRepWriter.ofContained
    by_cases h2 : n.entityDim = 2
    · have h3 : n.domainDim ≠ n.entityDim + 1 := by
        rw [h2]
        exact h.resolve_left (not_not.2 h2)
      rw [if_neg (not_not.2 h2), if_pos h3]
      trivial
    · rw [if_pos h2]
      trivial

end

/-- A network of segments. -/
example (T : Topo ℕ) : (BRepWriter.ofNetwork (id : ℕ → ℕ) T ⟨1, [], []⟩).isThrown := (C47_dimension id T).1 _ (by decide)

/-! ## C107 When planes and lines are treated as parallel -/

theorem gpAngle_eq_vecAngle (a b : V3) : gpAngle a b = Spec.vecAngle a b := by
  unfold gpAngle Spec.vecAngle
  rw [Spec.inner_eq_dot, Spec.norm_eq_len, Spec.norm_eq_len]

theorem angular_eq : angular = 1 / 10 ^ 10 := by unfold angular; norm_num

theorem parallel_iff (a b : V3) (θ : ℝ) (hθ : Spec.IsPlaneAngle a b θ) :
    gpIsParallel a b angular ↔ θ ≤ 1 / 10 ^ 10 := by
  unfold gpIsParallel
  rw [gpAngle_eq_vecAngle, angular_eq, hθ, min_le_iff]

/-- Distance of a point to a plane, as computed by `contains`. -/
theorem plane_dist (pl : Plane) (p : V3) (hn : Spec.IsUnit pl.normal) :
    Spec.dist p (pl.projection p) = |(p - pl.supp).dot pl.normal| ∧
    ∀ q, Spec.OnPlane pl.supp pl.normal q → |(p - pl.supp).dot pl.normal| ≤ Spec.dist p q := by
  have hd : Spec.dist p (pl.projection p) = |(p - pl.supp).dot pl.normal| := by
    rw [Spec.dist_comm, Spec.dist_eq_len]
    have e : pl.projection p - p = (-(pl.normal.dot (p - pl.supp))) • pl.normal := by
      unfold Plane.projection
      ext <;> simp
    rw [e, V3.len_smul, unit_len hn, mul_one, abs_neg, V3.dot_comm]
  obtain ⟨-, -, h, -⟩ := C07_plane_projection_nearest pl p hn
  exact ⟨hd, fun q hq => by rw [← hd]; exact (h q hq).1⟩

/-- Two planes are treated as parallel exactly if the angle between them is at most 1e-10.  Their intersection is then
empty if the support point of the second one is not closer to the first one than the tolerance, and the first plane
otherwise.  For larger angles the intersection is a line. -/
theorem C107_planes (K : Kernel) (p1 p2 : Plane) (eps θ : ℝ) (hθ : Spec.IsPlaneAngle p1.normal p2.normal θ)
    (hn : Spec.IsUnit p1.normal) (r : PlanePlaneIs) (h : intersectPlanePlane K p1 p2 eps = .val r) :
    ((∃ l, r = .line l) ↔ 1 / 10 ^ 10 < θ) ∧
    (r = .empty ↔ θ ≤ 1 / 10 ^ 10 ∧ ∀ q, Spec.OnPlane p1.supp p1.normal q → eps ≤ Spec.dist p2.supp q) ∧
    (∀ p, r = .plane p → p = p1) := by
  obtain ⟨e1, e2⟩ := plane_dist p1 p2.supp hn
  have hproj := (C07_plane_projection_nearest p1 p2.supp hn).1
  unfold intersectPlanePlane at h
  by_cases hp : gpIsParallel p1.normal p2.normal angular
  · rw [if_pos hp] at h
    rw [parallel_iff _ _ θ hθ] at hp
    by_cases hc : p1.contains p2.supp eps
    · rw [if_pos hc] at h
      cases h
      refine ⟨⟨(by rintro ⟨l, hl⟩; cases hl), fun h => absurd hp (not_le.2 h)⟩, ⟨nofun, ?_⟩, by rintro p ⟨⟩; rfl⟩
      rintro ⟨-, h⟩
      have := h _ hproj
      rw [e1] at this
      exact absurd hc (not_lt.2 this)
    · rw [if_neg hc] at h
      cases h
      refine ⟨⟨(by rintro ⟨l, hl⟩; cases hl), fun h => absurd hp (not_le.2 h)⟩, ⟨fun _ => ⟨hp, fun q hq => ?_⟩, fun _ => rfl⟩, nofun⟩
      exact (not_lt.1 hc).trans (e2 q hq)
  · rw [if_neg hp] at h
    rw [parallel_iff _ _ θ hθ, not_le] at hp
    split at h
    · cases h
    · obtain ⟨d, -, h⟩ := Outcome.bind_eq_val.1 h
      cases h
      exact ⟨⟨fun _ => hp, fun _ => ⟨_, rfl⟩⟩, ⟨nofun, fun h => absurd h.1 (not_le.2 hp)⟩, nofun⟩

/-- If the kernel cannot intersect planes that are not parallel, an error is raised; this is the only way in which the
intersection can fail, unless the kernel returns a line without direction. -/
theorem C107_planes_failure (K : Kernel) (p1 p2 : Plane) (eps θ : ℝ) (hθ : Spec.IsPlaneAngle p1.normal p2.normal θ) :
    ((intersectPlanePlane K p1 p2 eps).isThrown ↔ 1 / 10 ^ 10 < θ ∧ K.planePlane p1 p2 eps = none) ∧
    intersectPlanePlane K p1 p2 eps ≠ .ub := by
  unfold intersectPlanePlane
  by_cases hp : gpIsParallel p1.normal p2.normal angular
  · rw [if_pos hp]
    rw [parallel_iff _ _ θ hθ] at hp
    split_ifs <;> exact ⟨⟨False.elim, fun h => absurd hp (not_le.2 h.1)⟩, nofun⟩
  · rw [if_neg hp]
    rw [parallel_iff _ _ θ hθ, not_le] at hp
    rcases K.planePlane p1 p2 eps with _ | ⟨sp, dir⟩
    · exact ⟨⟨fun _ => ⟨hp, rfl⟩, fun _ => trivial⟩, nofun⟩
    · simp only [mkDirection]
      split_ifs <;> exact ⟨⟨False.elim, fun h => by cases h.2⟩, nofun⟩

/-- Two horizontal planes, one above the other. -/
example (K : Kernel) : ∃ r, intersectPlanePlane K ⟨0, ⟨1, 0, 0⟩, ⟨0, 1, 0⟩, ⟨0, 0, 1⟩⟩ ⟨⟨0, 0, 1⟩, ⟨1, 0, 0⟩, ⟨0, 1, 0⟩, ⟨0, 0, 1⟩⟩ (1 / 2)
    = .val r ∧ Spec.IsPlaneAngle (⟨0, 0, 1⟩ : V3) ⟨0, 0, 1⟩ 0 ∧ r = .empty := by
  have hv : Spec.vecAngle (⟨0, 0, 1⟩ : V3) ⟨0, 0, 1⟩ = 0 := by
    simp [Spec.vecAngle, Spec.inner, Spec.norm]
  have hθ : Spec.IsPlaneAngle (⟨0, 0, 1⟩ : V3) ⟨0, 0, 1⟩ 0 := by
    unfold Spec.IsPlaneAngle
    rw [hv, sub_zero, min_eq_left Real.pi_pos.le]
  refine ⟨.empty, ?_, hθ, rfl⟩
  unfold intersectPlanePlane
  rw [if_pos ((parallel_iff _ _ 0 hθ).2 (by positivity)), if_neg]
  norm_num [Plane.contains, V3.dot]

/-- A plane and a line are treated as parallel exactly if the angle between the line and the normal of the plane
differs from a right angle by at most 1e-10.  The line is then returned if its support point is at most the tolerance
away from the plane; otherwise the intersection is empty.  For other angles a point is returned only if it is closer to
the plane than the tolerance. -/
theorem C107_plane_line (K : Kernel) (pl : Plane) (l : Line) (eps : ℝ) (hn : Spec.IsUnit pl.normal) (r : PlaneLineIs)
    (h : intersectPlaneLine K pl l eps = .val r) :
    ((∃ l', r = .line l') ↔ |Real.pi / 2 - Spec.vecAngle l.dir pl.normal| ≤ 1 / 10 ^ 10 ∧
      ∃ q, Spec.OnPlane pl.supp pl.normal q ∧ Spec.dist l.supp q ≤ eps) ∧
    (∀ l', r = .line l' → l' = l) ∧
    (∀ p, r = .point p → 1 / 10 ^ 10 < |Real.pi / 2 - Spec.vecAngle l.dir pl.normal| ∧
      ∃ q, Spec.OnPlane pl.supp pl.normal q ∧ Spec.dist p q < eps) := by
  have hiff : gpIsNormal l.dir pl.normal angular ↔ |Real.pi / 2 - Spec.vecAngle l.dir pl.normal| ≤ 1 / 10 ^ 10 := by
    unfold gpIsNormal
    rw [gpAngle_eq_vecAngle, angular_eq]
  unfold intersectPlaneLine at h
  by_cases hp : ¬ gpIsNormal l.dir pl.normal angular
  · rw [if_pos hp] at h
    rw [hiff] at hp
    split at h
    · cases h
    · rename_i p _
      obtain ⟨e1, -⟩ := plane_dist pl p hn
      by_cases hc : pl.contains p eps
      · rw [if_pos hc] at h
        cases h
        refine ⟨⟨(by rintro ⟨l, hl⟩; cases hl), fun h => absurd h.1 hp⟩, nofun, ?_⟩
        rintro _ ⟨⟩
        exact ⟨not_le.1 hp, pl.projection p, (C07_plane_projection_nearest pl p hn).1, by rw [e1]; exact hc⟩
      · rw [if_neg hc] at h
        cases h
        exact ⟨⟨(by rintro ⟨l, hl⟩; cases hl), fun h => absurd h.1 hp⟩, nofun, nofun⟩
  · rw [if_neg hp] at h
    rw [not_not, hiff] at hp
    obtain ⟨e1, e2⟩ := plane_dist pl l.supp hn
    have e3 : (pl.projection l.supp - l.supp).len = Spec.dist l.supp (pl.projection l.supp) :=
      (Spec.dist_comm _ _ ▸ Spec.dist_eq_len _ _).symm
    simp only [e3] at h
    by_cases hd : Spec.dist l.supp (pl.projection l.supp) > eps
    · rw [if_pos hd] at h
      cases h
      refine ⟨⟨(by rintro ⟨l, hl⟩; cases hl), ?_⟩, nofun, nofun⟩
      rintro ⟨-, q, hq, hq2⟩
      have := e2 q hq
      rw [← e1] at this
      linarith
    · rw [if_neg hd] at h
      cases h
      refine ⟨⟨fun _ => ⟨hp, _, (C07_plane_projection_nearest pl l.supp hn).1, not_lt.1 hd⟩, fun _ => ⟨_, rfl⟩⟩, ?_, nofun⟩
      rintro _ ⟨⟩
      rfl

/-- If the kernel cannot intersect a line with a plane to which it is not parallel, an error is raised; this is the only way in
which the intersection can fail. -/
theorem C107_plane_line_failure (K : Kernel) (pl : Plane) (l : Line) (eps : ℝ) :
    ((intersectPlaneLine K pl l eps).isThrown ↔ 1 / 10 ^ 10 < |Real.pi / 2 - Spec.vecAngle l.dir pl.normal| ∧ K.planeLine pl l = none) ∧
    intersectPlaneLine K pl l eps ≠ .ub ∧ intersectPlaneLine K pl l eps ≠ .nan := by
  have hiff : gpIsNormal l.dir pl.normal angular ↔ |Real.pi / 2 - Spec.vecAngle l.dir pl.normal| ≤ 1 / 10 ^ 10 := by
    unfold gpIsNormal
    rw [gpAngle_eq_vecAngle, angular_eq]
  unfold intersectPlaneLine
  by_cases hp : gpIsNormal l.dir pl.normal angular
  · rw [if_neg (not_not.2 hp)]
    rw [hiff] at hp
    simp only
    split_ifs <;> exact ⟨⟨False.elim, fun h => absurd hp (not_le.2 h.1)⟩, nofun, nofun⟩
  · rw [if_pos hp]
    rw [hiff, not_le] at hp
    rcases K.planeLine pl l with _ | p
    · exact ⟨⟨fun _ => ⟨hp, rfl⟩, fun _ => trivial⟩, nofun, nofun⟩
    · simp only
      split_ifs <;> exact ⟨⟨False.elim, fun h => by cases h.2⟩, nofun, nofun⟩

/-- A line in a plane. -/
example (K : Kernel) : intersectPlaneLine K ⟨0, ⟨1, 0, 0⟩, ⟨0, 1, 0⟩, ⟨0, 0, 1⟩⟩ ⟨0, ⟨1, 0, 0⟩⟩ 1 = .val (.line ⟨0, ⟨1, 0, 0⟩⟩) := by
  unfold intersectPlaneLine
  rw [if_neg (not_not.2 _)]
  · simp [Plane.projection, V3.dot, V3.len, V3.sqLen]
  · unfold gpIsNormal gpAngle
    simp [V3.dot, angular_pos.le]

end Props
