import Verif.Model.EntityNetwork.LibraryEngine
import Verif.Props.Angle
import Verif.Props.BoundaryDistance
import Verif.Props.Constraints
import Verif.Props.Intersect
import Verif.Spec.AcceptedPair

/-!
# C124 Accepted entities fulfil the constraints geometrically
-/

namespace Props
open Verif Frackit
open Spec.Constraints (config Config parts NoIntersection AtLeast PointOk AcceptBy NotLess BoundaryOkBy)
open Frackit.Constraints (Op run evaluate evaluateSet evaluateSets)

/-- The tolerance with which the intersection of the entities is computed. -/
def UsedEps (L : LibraryKernel) (c : Config) (a b : DistArg) (eps : ℝ) : Prop :=
  c.eps = some eps ∨ (c.eps = none ∧ ∃ e1 e2, defaultEpsilon L.isk.shapes a = .val e1 ∧
    defaultEpsilon L.isk.shapes b = .val e2 ∧ eps = min e1 e2)

theorem used_intersect {L : LibraryKernel} {c : Config} {a b : DistArg} {eps : ℝ} (h : UsedEps L c a b eps)
    {r : IsResult} (hr : (libraryEngine L).intersect a b c.eps = .val r) :
    intersect L.isk a.toIs b.toIs eps = .val (.geoms r) := by
  have conv : ∀ {o : Outcome Intersected}, (o >>= fun r => r.toResult) = .val r → o = .val (.geoms r) := by
    intro o ho
    obtain ⟨x, hx, ho⟩ := Outcome.bind_eq_val.1 ho
    cases x with
    | geoms y => cases ho; exact hx
    | planes y => cases ho
    | planeLine y => cases ho
  rcases h with h | ⟨h, e1, e2, h1, h2, rfl⟩
  · rw [h] at hr
    exact conv hr
  · rw [h] at hr
    have := conv hr
    have ha : ∀ (x : DistArg) (e : ℝ), defaultEpsilon L.isk.shapes x = .val e → isArgEpsilon L.isk x.toIs = .val e := by
      intro x e hx; cases x <;> exact hx
    simp only [intersectDefault, ha a e1 h1, ha b e2 h2, Outcome.val_bind] at this
    exact this

/-- The value is below the threshold, or not a number. -/
def Below (o : Outcome ℝ) (t : ℝ) : Prop := o = .nan ∨ ∃ x, o = .val x ∧ x < t

/-- Tolerances of a boundary: points found to be on the boundary are closer than `near`, points found not to be on it
are not closer than `off`. -/
structure BoundaryTol where
  near : ℝ
  off : ℝ

/-- The boundary of an entity is known up to the tolerances. -/
structure BoundaryKnown (L : LibraryKernel) (a : DistArg) (tol : BoundaryTol) : Prop where
  on : ∀ p, (libraryEngine L).onBoundary p a = .val true → ∃ q ∈ boundaryOf a, Spec.dist p q < tol.near
  bad : ∀ p m, m ≤ doubleMax → (libraryEngine L).onBoundary p a = .val false →
    Below ((libraryEngine L).boundaryDist p a) m →
    (∀ q ∈ boundaryOf a, tol.off ≤ Spec.dist p q) ∧ ∃ q ∈ boundaryOf a, Spec.dist p q < m + tol.near
  away : ∀ p r, (libraryEngine L).boundaryDist p a = .val r → ∀ q ∈ boundaryOf a, r ≤ Spec.dist p q

/-- The end points of a segment that covers `e` and `f`, and does not extend much beyond. -/
theorem ends_close {x y e f : V3} {eps : ℝ} (he : Spec.OnSegment x y e) (hf : Spec.OnSegment x y f)
    (hx : ∃ q, Spec.OnSegment e f q ∧ Spec.dist x q < eps) (hy : ∃ q, Spec.OnSegment e f q ∧ Spec.dist y q < eps) :
    (Spec.dist e x < eps ∧ Spec.dist f y < eps) ∨ (Spec.dist e y < eps ∧ Spec.dist f x < eps) := by
  obtain ⟨s, s0, s1, rfl⟩ := (Spec.onSegment_iff _ _ _).1 he
  obtain ⟨t, t0, t1, rfl⟩ := (Spec.onSegment_iff _ _ _).1 hf
  have hl : 0 ≤ (y - x).len := V3.len_nonneg _
  have dx : ∀ k : ℝ, 0 ≤ k → Spec.dist x (x + k • (y - x)) = k * (y - x).len := by
    intro k hk
    rw [Spec.dist_eq_len, show x - (x + k • (y - x)) = (-k) • (y - x) by module, V3.len_smul, abs_neg,
      abs_of_nonneg hk]
  have dy : ∀ k : ℝ, k ≤ 1 → Spec.dist y (x + k • (y - x)) = (1 - k) * (y - x).len := by
    intro k hk
    rw [Spec.dist_eq_len, show y - (x + k • (y - x)) = (1 - k) • (y - x) by module, V3.len_smul,
      abs_of_nonneg (by linarith)]
  obtain ⟨q, hq, hqx⟩ := hx
  obtain ⟨q', hq', hqy⟩ := hy
  obtain ⟨k, k0, k1, rfl⟩ := (Spec.onSegment_iff _ _ _).1 hq
  obtain ⟨k', k0', k1', rfl⟩ := (Spec.onSegment_iff _ _ _).1 hq'
  have comb : ∀ k : ℝ, x + s • (y - x) + k • (x + t • (y - x) - (x + s • (y - x))) = x + (s + k * (t - s)) • (y - x) := by
    intro k; module
  rw [comb] at hqx hqy
  have b0 : 0 ≤ s + k * (t - s) := by nlinarith [mul_nonneg k0 t0, mul_nonneg (sub_nonneg.2 k1) s0]
  have b1 : s + k' * (t - s) ≤ 1 := by
    nlinarith [mul_nonneg k0' (sub_nonneg.2 t1), mul_nonneg (sub_nonneg.2 k1') (sub_nonneg.2 s1)]
  rw [dx _ b0] at hqx
  rw [dy _ b1] at hqy
  rcases le_total s t with hst | hst
  · left
    rw [Spec.dist_comm _ x, Spec.dist_comm _ y, dx s s0, dy t t1]
    exact ⟨lt_of_le_of_lt (mul_le_mul_of_nonneg_right (by nlinarith) hl) hqx,
      lt_of_le_of_lt (mul_le_mul_of_nonneg_right (by nlinarith) hl) hqy⟩
  · right
    rw [Spec.dist_comm _ x, Spec.dist_comm _ y, dx t t0, dy s s1]
    exact ⟨lt_of_le_of_lt (mul_le_mul_of_nonneg_right (by nlinarith) hl) hqy,
      lt_of_le_of_lt (mul_le_mul_of_nonneg_right (by nlinarith) hl) hqx⟩

theorem point_away {L : LibraryKernel} {a : DistArg} {tol : BoundaryTol} {m eps : ℝ} (hb : BoundaryKnown L a tol) {x e : V3}
    (h : PointOk (libraryEngine L) a m x) (hd : Spec.dist e x < eps) :
    Spec.OnOrAway (boundaryOf a) m (tol.near + eps) eps e := by
  rcases h with h | ⟨_, r, hr, hm⟩
  · obtain ⟨q, hq, hqd⟩ := hb.on x h
    left
    exact ⟨q, hq, by linarith [dist_triangle e x q]⟩
  · right
    intro q hq
    have h1 := hb.away x r hr q hq
    have h2 := dist_triangle x e q
    rw [Spec.dist_comm x e] at h2
    linarith

/-- What is needed of the functions of the library for two planar entities. -/
structure PlanarPair (L : LibraryKernel) (a b : DistArg) (eps : ℝ) (tA tB : BoundaryTol) (n m : V3) (l : Line) : Prop where
  eps_pos : 0 < eps
  faithful : Faithful L.isk.shapes
  validA : ValidArg a
  validB : ValidArg b
  surfaces : ¬ PointSegment a b
  number : (libraryEngine L).distance a b ≠ .nan ∧ (libraryEngine L).distance b a ≠ .nan
  planeA : ∃ pl, angleArgument L a = .val (.planar pl) ∧ pl.normal = n ∧ Spec.IsUnit n
  planeB : ∃ pl, angleArgument L b = .val (.planar pl) ∧ pl.normal = m ∧ Spec.IsUnit m
  boundA : BoundaryKnown L a tA
  boundB : BoundaryKnown L b tB
  onLine : ∀ p, p ∈ argPoints a → p ∈ argPoints b → Spec.OnLine l.supp l.dir p
  result : ∀ r, intersect L.isk a.toIs b.toIs eps = .val r → ∃ g, r = .geoms (.single g) ∧
    PairResult (· ∈ argPoints a) (· ∈ argPoints b) l eps g

/-- Both entities meet the line in one and the same single point. -/
def OnlyTouch (l : Line) (A B : Set V3) : Prop :=
  ∃ c, (∀ p, (Spec.OnLine l.supp l.dir p ∧ p ∈ A) ↔ p = c) ∧ (∀ p, (Spec.OnLine l.supp l.dir p ∧ p ∈ B) ↔ p = c)

theorem segment_source (x y : V3) : Spec.OnSegment x y x :=
  (Spec.onSegment_iff _ _ _).2 ⟨0, le_rfl, zero_le_one, by module⟩

theorem segment_target (x y : V3) : Spec.OnSegment x y y :=
  (Spec.onSegment_iff _ _ _).2 ⟨1, zero_le_one, le_rfl, by module⟩

theorem dist_self_zero (p : V3) : Spec.dist p p = 0 := by
  rw [Spec.dist_eq_len, sub_self]; exact V3.len_eq_zero.2 rfl

/-- The distance of two points of a segment. -/
theorem dist_in_segment {x y e f : V3} (he : Spec.OnSegment x y e) (hf : Spec.OnSegment x y f) :
    Spec.dist e f ≤ Spec.dist x y := by
  obtain ⟨s, s0, s1, rfl⟩ := (Spec.onSegment_iff _ _ _).1 he
  obtain ⟨t, t0, t1, rfl⟩ := (Spec.onSegment_iff _ _ _).1 hf
  rw [Spec.dist_eq_len, Spec.dist_eq_len, show x + s • (y - x) - (x + t • (y - x)) = (t - s) • (x - y) by module,
    V3.len_smul]
  exact mul_le_of_le_one_left (V3.len_nonneg _) (abs_le.2 ⟨by linarith, by linarith⟩)

/-- Points of a result are close to both entities. -/
theorem onBoth_close {A B : Set V3} {eps : ℝ} {g : IsGeom} (h : OnBoth (· ∈ A) (· ∈ B) eps g) (hne : g ≠ .empty) :
    ∃ p ∈ A, ∃ q ∈ B, Spec.dist p q < 2 * eps := by
  have close : ∀ p, NearSet (· ∈ A) p eps → NearSet (· ∈ B) p eps →
      ∃ p ∈ A, ∃ q ∈ B, Spec.dist p q < 2 * eps := by
    rintro p ⟨x, hx, dx⟩ ⟨y, hy, dy⟩
    have := dist_triangle x p y
    rw [Spec.dist_comm x p] at this
    exact ⟨x, hx, y, hy, by linarith⟩
  rcases h with rfl | ⟨p, rfl, h1, h2⟩ | ⟨s, rfl, hs⟩
  · exact absurd rfl hne
  · exact close p h1 h2
  · obtain ⟨h1, h2⟩ := hs s.source (segment_source _ _)
    exact close _ h1 h2

/-- A result that is not empty, of entities with the common segment from `e` to `f`. -/
theorem result_ends {A B : Set V3} {l : Line} {eps : ℝ} {g : IsGeom} {e f : V3} (he : 0 < eps)
    (hl : ∀ p, p ∈ A → p ∈ B → Spec.OnLine l.supp l.dir p)
    (h : PairResult (· ∈ A) (· ∈ B) l eps g) (hne : g ≠ .empty)
    (hef : ∀ p, (p ∈ A ∧ p ∈ B) ↔ Spec.OnSegment e f p) :
    ∃ x y, ((g = .point x ∧ x = y ∧ e = f) ∨ g = .segment ⟨x, y⟩) ∧ Spec.dist e f ≤ Spec.dist x y ∧
      ((Spec.dist e x < eps ∧ Spec.dist f y < eps) ∨ (Spec.dist e y < eps ∧ Spec.dist f x < eps)) := by
  obtain ⟨hboth, hcov, hnear, _⟩ := h
  have ce := (hef e).2 (segment_source _ _)
  have cf := (hef f).2 (segment_target _ _)
  have hc : ∃ p, p ∈ A ∧ p ∈ B := ⟨e, ce⟩
  -- the result covers the common points, or they are a single point
  have hcov' : CoversCommon (· ∈ A) (· ∈ B) g ∨ e = f := by
    by_cases ht : OnlyTouch l A B
    · right
      obtain ⟨x, hx, _⟩ := ht
      rw [(hx e).1 ⟨hl e ce.1 ce.2, ce.1⟩, (hx f).1 ⟨hl f cf.1 cf.2, cf.1⟩]
    · exact .inl (hcov ht)
  have near : ∀ p, (g = .point p ∨ ∃ s, g = .segment s ∧ Segment.has s p) →
      ∃ q, Spec.OnSegment e f q ∧ Spec.dist p q < eps := by
    intro p hp
    obtain ⟨q, q1, q2, hq⟩ := hnear hc p hp
    exact ⟨q, (hef q).1 ⟨q1, q2⟩, hq⟩
  rcases hcov' with hcov' | rfl
  · rcases hcov' e ce.1 ce.2 with hp | ⟨s, hs, hse⟩
    · have hfe : e = f := by
        rcases hcov' f cf.1 cf.2 with hp' | ⟨s, hs, _⟩
        · rw [hp] at hp'
          simp only [IsGeom.point.injEq] at hp'
          exact hp'
        · rw [hp] at hs; cases hs
      subst hfe
      exact ⟨e, e, .inl ⟨hp, rfl, rfl⟩, le_rfl, .inl ⟨by rw [dist_self_zero]; exact he, by rw [dist_self_zero]; exact he⟩⟩
    · rcases hcov' f cf.1 cf.2 with hp' | ⟨s', hs', hf⟩
      · rw [hs] at hp'; cases hp'
      · rw [hs] at hs'
        simp only [IsGeom.segment.injEq] at hs'
        subst hs'
        exact ⟨s.source, s.target, .inr hs, dist_in_segment hse hf, ends_close hse hf
          (near _ (.inr ⟨s, hs, segment_source _ _⟩)) (near _ (.inr ⟨s, hs, segment_target _ _⟩))⟩
  · have single : ∀ p, (g = .point p ∨ ∃ s, g = .segment s ∧ Segment.has s p) → Spec.dist e p < eps := by
      intro p hp
      obtain ⟨q, hq, hqd⟩ := near p hp
      rw [onSegment_single] at hq
      rw [Spec.dist_comm, ← hq]; exact hqd
    rcases hboth with rfl | ⟨p, rfl, _⟩ | ⟨s, rfl, _⟩
    · exact absurd rfl hne
    · exact ⟨p, p, .inl ⟨rfl, rfl, rfl⟩, by rw [dist_self_zero, dist_self_zero],
        .inl ⟨single p (.inl rfl), single p (.inl rfl)⟩⟩
    · exact ⟨s.source, s.target, .inr rfl, by rw [dist_self_zero, Spec.dist_eq_len]; exact V3.len_nonneg _,
        .inl ⟨single _ (.inr ⟨s, rfl, segment_source _ _⟩), single _ (.inr ⟨s, rfl, segment_target _ _⟩)⟩⟩

theorem pair_angle {L : LibraryKernel} {a b : DistArg} {eps : ℝ} {tA tB : BoundaryTol} {n m : V3} {l : Line}
    (h : PlanarPair L a b eps tA tB n m l) {g : IsGeom} (hg : (∃ x, g = .point x) ∨ ∃ s, g = .segment s) :
    ∃ v, (libraryEngine L).angle a b (.single g) = .val v ∧ Spec.IsPlaneAngle n m v := by
  obtain ⟨p1, hp1, hn1, hu1⟩ := h.planeA
  obtain ⟨p2, hp2, hn2, hu2⟩ := h.planeB
  refine ⟨planeAngle p1 p2, ?_, ?_⟩
  · simp only [libraryEngine, hp1, hp2, Outcome.val_bind, intersectionAngle]
    rcases hg with ⟨x, hg⟩ | ⟨s, hg⟩ <;> rw [hg] <;> rfl
  · have hpa := (C53_plane_angle p1 p2 (hn1 ▸ hu1) (hn2 ▸ hu2)).1
    rw [hn1, hn2] at hpa
    exact hpa

theorem accepted_fulfil {L : LibraryKernel} {a b : DistArg} {eps : ℝ} {tA tB : BoundaryTol} {n m : V3} {l : Line}
    {c : Config} (h : PlanarPair L a b eps tA tB n m l) (hu : UsedEps L c a b eps)
    (hacc : AcceptBy (libraryEngine L) NotLess c a b)
    (htouch : OnlyTouch l (argPoints a) (argPoints b) → ∃ d, c.minDistance = some d ∧ 0 < d) :
    Spec.Fulfilled c (argPoints a) (argPoints b) (boundaryOf a) (boundaryOf b) n m eps tA.near tB.near := by
  obtain ⟨r, hr, hacc⟩ := hacc
  have hi := used_intersect hu hr
  obtain ⟨g, hg, hres⟩ := h.result _ hi
  simp only [Intersected.geoms.injEq] at hg
  subst hg
  have hno : NoIntersection (.single g) ↔ g = .empty := by simp [NoIntersection, parts]
  -- the distance
  have hdist : ∀ d, AtLeast ((libraryEngine L).distance a b) d →
      ∀ p ∈ argPoints a, ∀ q ∈ argPoints b, d ≤ Spec.dist p q := by
    rintro d ⟨x, hx, hdx⟩ p hp q hq
    exact hdx.trans ((C73_distance L.isk.shapes h.faithful a b h.validA h.validB h.surfaces x hx).1 p hp q hq)
  constructor
  · intro d hd
    rcases hacc with ⟨_, hacc⟩ | ⟨hne, _⟩
    · left; exact hdist d (hacc d hd)
    · right; exact onBoth_close hres.1 fun hg => hne (hno.2 hg)
  · intro hc
    obtain ⟨e, f, hef⟩ := hres.2.2.2 hc
    have ce := (hef e).2 (segment_source _ _)
    have hne : g ≠ .empty := by
      rintro rfl
      have ht : OnlyTouch l (argPoints a) (argPoints b) := by
        by_contra ht
        rcases hres.2.1 ht e ce.1 ce.2 with hp | ⟨s, hs, _⟩
        · cases hp
        · cases hs
      obtain ⟨d, hd, d0⟩ := htouch ht
      rcases hacc with ⟨_, hacc⟩ | ⟨hne, _⟩
      · have := hdist d (hacc d hd) e ce.1 e ce.2
        rw [dist_self_zero] at this
        linarith
      · exact hne (hno.2 rfl)
    obtain ⟨x, y, hxy, _, hclose⟩ := result_ends h.eps_pos h.onLine hres hne hef
    rcases hacc with ⟨hno', _⟩ | ⟨_, _, hmag, hang, hbnd⟩
    · exact absurd (hno.1 hno') hne
    refine ⟨e, f, hef, ?_, ?_, ?_⟩
    · intro t ht θ hθ
      obtain ⟨v, hval, hpa⟩ := pair_angle h (g := g) (hxy.imp (fun hg => ⟨x, hg.1⟩) fun hg => ⟨_, hg⟩)
      have h0 := hang t ht
      rw [hval] at h0
      rcases h0 with h0 | ⟨v', hv, htv⟩
      · cases h0
      · simp only [Outcome.val.injEq] at hv
        subst hv
        unfold Spec.IsPlaneAngle at hpa hθ
        rw [hθ, ← hpa]; exact htv
    · intro k hk hne
      rcases hxy with ⟨_, _, hef'⟩ | hg
      · exact absurd hef' hne
      · obtain ⟨v, hv, hkv⟩ := hmag k hk g (by simp [parts]) (.inl (.inl ⟨_, hg⟩))
        rw [hg] at hv
        have hv : Outcome.val ((⟨x, y⟩ : Segment).length) = .val v := hv
        simp only [Outcome.val.injEq] at hv
        have hlen : v = Spec.dist x y := by
          rw [← hv, Spec.dist_eq_len, V3.len_sub_comm]; rfl
        rw [hlen] at hkv
        have t1 := dist_triangle x e y
        have t2 := dist_triangle e f y
        have t3 := dist_triangle x f y
        have t4 := dist_triangle f e y
        rw [Spec.dist_comm x e] at t1
        rw [Spec.dist_comm x f] at t3
        rw [Spec.dist_comm f e] at t4
        rcases hclose with ⟨c1, c2⟩ | ⟨c1, c2⟩ <;> linarith
    · intro k hk z hzef
      obtain ⟨b1, b2⟩ := hbnd k hk g (by simp [parts])
      have ok : ∀ w : DistArg, BoundaryOkBy (libraryEngine L) NotLess w k g →
          PointOk (libraryEngine L) w k x ∧ PointOk (libraryEngine L) w k y := by
        intro w hw
        rcases hxy with ⟨hg, rfl, _⟩ | hg <;> rw [hg] at hw
        · exact ⟨hw, hw⟩
        · exact hw
      have hw : Spec.dist z x < eps ∨ Spec.dist z y < eps := by
        rcases hzef with rfl | rfl <;> rcases hclose with ⟨c1, c2⟩ | ⟨c1, c2⟩
        · exact .inl c1
        · exact .inr c1
        · exact .inr c2
        · exact .inl c2
      rcases hw with hw | hw
      · exact ⟨point_away h.boundA (ok a b1).1 hw, point_away h.boundB (ok b b2).1 hw⟩
      · exact ⟨point_away h.boundA (ok a b1).2 hw, point_away h.boundB (ok b b2).2 hw⟩

/-! ### Rejected entities -/

theorem ge_false {o : Outcome ℝ} {t : ℝ} (h : greaterEqual o t = .val false) : Below o t := by
  unfold greaterEqual at h
  cases o with
  | val x =>
    simp only [Outcome.val.injEq, decide_eq_false_iff_not, not_le, ge_iff_le] at h
    exact .inr ⟨x, rfl, h⟩
  | nan => exact .inl rfl
  | thrown e => cases h
  | ub => cases h

theorem bind_not_false {o : Outcome Bool} {f : Outcome Bool}
    (h : (o >>= fun b => if (!b) = true then (pure false : Outcome Bool) else f) = .val false) :
    o = .val false ∨ f = .val false := by
  cases o with
  | val b =>
    cases b with
    | true => exact .inr h
    | false => exact .inl rfl
  | thrown e => cases h
  | nan => cases h
  | ub => cases h

/-- A point neither on the boundary nor far enough from it. -/
def PointBad {E : Type} (eng : Engine E) (e : E) (t : ℝ) (p : V3) : Prop :=
  eng.onBoundary p e = .val false ∧ Below (eng.boundaryDist p e) t

theorem point_false {E : Type} {eng : Engine E} {e : E} {t : ℝ} {p : V3}
    (h : Frackit.Constraints.pointAdmissible eng e t p = .val false) : PointBad eng e t p := by
  unfold Frackit.Constraints.pointAdmissible at h
  cases hb : eng.onBoundary p e with
  | val b =>
    rw [hb] at h
    cases b with
    | true => cases h
    | false => exact ⟨hb, ge_false h⟩
  | thrown e => rw [hb] at h; cases h
  | nan => rw [hb] at h; cases h
  | ub => rw [hb] at h; cases h

/-- Why two entities with one part of the intersection are rejected. -/
theorem reject_cases {E : Type} {eng : Engine E} {c : Frackit.Constraints} {k : Config} (H : ConfInv c k) {a b : E}
    (h : evaluate eng c a b = .val false) :
    ∃ r, eng.intersect a b k.eps = .val r ∧ ∀ g, r = .single g →
      (g = .empty ∧ ∃ d, k.minDistance = some d ∧ Below (eng.distance a b) d) ∨
      (g ≠ .empty ∧ (g.dimension > eng.dim - 1 ∨
        (∃ m, k.minMagnitude = some m ∧ g.dimension ≠ 0 ∧ Below (eng.magnitude g) m) ∨
        (∃ t x, k.minAngle = some t ∧ eng.angle a b (.single g) = .val x ∧ x < t) ∨
        ∃ t, k.minBoundaryDistance = some t ∧ ∃ e, (e = a ∨ e = b) ∧
          Frackit.Constraints.boundaryAdmissibleGeom eng e t g = .val false)) := by
  obtain ⟨h1, h2, h3, h4, h5, h6⟩ := H
  unfold evaluate at h
  simp only at h
  by_cases hin : ((!(c.useMinIsMagnitude || c.useMinIsAngle || c.useMinIsDistance)) && !c.useMinDistance) = true
  · rw [if_pos hin] at h; cases h
  rw [if_neg hin] at h
  have hint : (if (!c.useIntersectionEps) = true then eng.intersect a b none
      else eng.intersect a b (some c.intersectionEps)) = eng.intersect a b k.eps := by
    rw [h5]; cases c.useIntersectionEps <;> simp
  rw [hint] at h
  obtain ⟨r, hr, h⟩ := Outcome.bind_eq_val.1 h
  refine ⟨r, hr, ?_⟩
  rintro g rfl
  by_cases he : isEmptyIntersection (.single g) = true
  · left
    have hg : g = .empty := by
      have := (isEmpty_iff _).1 he g (by simp [parts])
      exact this
    refine ⟨hg, ?_⟩
    rw [if_neg (by rw [he]; simp)] at h
    by_cases hd : c.useMinDistance = true
    · rw [if_pos hd] at h
      exact ⟨c.minDistance, by rw [h1, if_pos hd], ge_false h⟩
    · rw [if_neg hd] at h; cases h
  · right
    refine ⟨?_, ?_⟩
    · rintro rfl
      exact he rfl
    rw [if_pos (by simpa using he)] at h
    by_cases hdim : (!c.allowEquiDimIS && !Frackit.Constraints.isAdmissibleDimension (.single g) (eng.dim - 1)) = true
    · left
      simp only [Bool.and_eq_true, Bool.not_eq_true'] at hdim
      have := hdim.2
      simp only [Frackit.Constraints.isAdmissibleDimension, Frackit.Constraints.admissibleDimensionGeom,
        decide_eq_false_iff_not, not_le] at this
      exact this
    rw [if_neg hdim] at h
    right
    rcases bind_not_false h with h | h
    · left
      by_cases hm : c.useMinIsMagnitude = true
      · rw [if_pos hm] at h
        refine ⟨c.minIsMagnitude, by rw [h3, if_pos hm], ?_⟩
        simp only [Frackit.Constraints.isAdmissibleMagnitude, Frackit.Constraints.admissibleMagnitudeGeom] at h
        by_cases hz : g.dimension = 0
        · rw [if_pos hz] at h; cases h
        · rw [if_neg hz] at h
          by_cases hz' : isEmptyGeom g = true
          · rw [if_pos hz'] at h; cases h
          · rw [if_neg hz'] at h
            exact ⟨hz, ge_false h⟩
      · rw [if_neg hm] at h; cases h
    · right
      rcases bind_not_false h with h | h
      · left
        by_cases ha : c.useMinIsAngle = true
        · rw [if_pos ha] at h
          refine ⟨c.minIsAngle, ?_⟩
          cases hx : eng.angle a b (.single g) with
          | val x =>
            rw [hx] at h
            simp only [lessThan, Outcome.val_bind, Outcome.pure_eq, Outcome.val.injEq, Bool.not_eq_false',
              decide_eq_true_eq] at h
            exact ⟨x, by rw [h2, if_pos ha], rfl, h⟩
          | nan => rw [hx] at h; cases h
          | thrown e => rw [hx] at h; cases h
          | ub => rw [hx] at h; cases h
        · rw [if_neg ha] at h; cases h
      · right
        by_cases hb : (!c.useMinIsDistance) = true
        · rw [if_pos hb] at h; cases h
        · rw [if_neg hb] at h
          have hb' : c.useMinIsDistance = true := by simpa using hb
          refine ⟨c.minIsDistance, by rw [h4, if_pos hb'], ?_⟩
          rcases bind_not_false h with h | h
          · exact ⟨a, .inl rfl, h⟩
          · exact ⟨b, .inr rfl, h⟩

theorem point_close {L : LibraryKernel} {a : DistArg} {tol : BoundaryTol} {m eps : ℝ} (hb : BoundaryKnown L a tol)
    {x e : V3} (hm : m ≤ doubleMax) (h : PointBad (libraryEngine L) a m x) (hd : Spec.dist e x < eps) :
    Spec.TooClose (boundaryOf a) m (tol.off - eps) (tol.near + eps) e := by
  obtain ⟨h1, q, hq, h2⟩ := hb.bad x m hm h.1 h.2
  constructor
  · intro q hq
    have h3 := h1 q hq
    have h4 := dist_triangle x e q
    rw [Spec.dist_comm x e] at h4
    linarith
  · exact ⟨q, hq, by linarith [dist_triangle e x q]⟩

theorem rejected_violate {L : LibraryKernel} {a b : DistArg} {eps : ℝ} {tA tB : BoundaryTol} {n m : V3} {l : Line}
    {c : Frackit.Constraints} {k : Config} (H : ConfInv c k) (h : PlanarPair L a b eps tA tB n m l)
    (hu : UsedEps L k a b eps) (hmax : ∀ t, k.minBoundaryDistance = some t → t ≤ doubleMax)
    (hrej : evaluate (libraryEngine L) c a b = .val false) :
    Spec.Violated k (argPoints a) (argPoints b) (boundaryOf a) (boundaryOf b) n m eps
      (tA.off - eps) (tA.near + eps) (tB.off - eps) (tB.near + eps) := by
  obtain ⟨r, hr, hcases⟩ := reject_cases H hrej
  have hi := used_intersect hu hr
  obtain ⟨g, hg, hres⟩ := h.result _ hi
  simp only [Intersected.geoms.injEq] at hg
  subst hg
  rcases hcases g rfl with ⟨rfl, d, hd, hx | ⟨x, hx, hxd⟩⟩ | ⟨hne, hcase⟩
  · exact absurd hx h.number.1
  · left
    have hset := C73_distance L.isk.shapes h.faithful a b h.validA h.validB h.surfaces x hx
    obtain ⟨p, hp, q, hq, hpq⟩ := hset.2 (d - x) (by linarith)
    refine ⟨d, hd, ⟨p, hp, q, hq, by linarith⟩, ?_⟩
    intro p q hp hp' hq hq'
    by_cases ht : OnlyTouch l (argPoints a) (argPoints b)
    · obtain ⟨z, hz, _⟩ := ht
      rw [(hz p).1 ⟨h.onLine p hp hp', hp⟩, (hz q).1 ⟨h.onLine q hq hq', hq⟩]
    · rcases hres.2.1 ht p hp hp' with hh | ⟨s, hs, _⟩
      · cases hh
      · cases hs
  · right
    by_cases hc : ∃ p, p ∈ argPoints a ∧ p ∈ argPoints b
    · right
      obtain ⟨e, f, hef⟩ := hres.2.2.2 hc
      obtain ⟨x, y, hxy, hlen, hclose⟩ := result_ends h.eps_pos h.onLine hres hne hef
      refine ⟨e, f, hef, ?_⟩
      rcases hcase with hd | ⟨t, ht, hdim, hbelow⟩ | ⟨t, v, ht, hv, hvt⟩ | ⟨t, ht, w, hw, hbad⟩
      · exfalso
        have : (libraryEngine L).dim = 2 := rfl
        rw [this] at hd
        rcases hxy with ⟨hg, _⟩ | hg <;> rw [hg] at hd <;> simp [IsGeom.dimension] at hd
      · right; left
        refine ⟨t, ht, ?_⟩
        rcases hxy with ⟨hg, _⟩ | hg
        · rw [hg] at hdim; exact absurd rfl hdim
        · rw [hg] at hbelow
          rcases hbelow with hn | ⟨v, hv, hvt⟩
          · cases hn
          · have hv : Outcome.val ((⟨x, y⟩ : Segment).length) = .val v := hv
            simp only [Outcome.val.injEq] at hv
            have hlen' : v = Spec.dist x y := by
              rw [← hv, Spec.dist_eq_len, V3.len_sub_comm]; rfl
            linarith
      · left
        obtain ⟨v', hv', hpa⟩ := pair_angle h (g := g) (hxy.imp (fun hg => ⟨x, hg.1⟩) fun hg => ⟨_, hg⟩)
        rw [hv] at hv'
        rw [← Outcome.val.inj hv'] at hpa
        exact ⟨t, ht, v, hpa, hvt⟩
      · right; right
        have hpb : PointBad (libraryEngine L) w t x ∨ PointBad (libraryEngine L) w t y := by
          rcases hxy with ⟨hg, _⟩ | hg <;> rw [hg] at hbad
          · exact .inl (point_false hbad)
          · rcases bind_not_false hbad with hb | hb
            · exact .inl (point_false hb)
            · exact .inr (point_false hb)
        have hz : ∃ z u, (z = e ∨ z = f) ∧ Spec.dist z u < eps ∧ PointBad (libraryEngine L) w t u := by
          rcases hpb with hb | hb <;> rcases hclose with ⟨c1, c2⟩ | ⟨c1, c2⟩
          · exact ⟨e, x, .inl rfl, c1, hb⟩
          · exact ⟨f, x, .inr rfl, c2, hb⟩
          · exact ⟨f, y, .inr rfl, c2, hb⟩
          · exact ⟨e, y, .inl rfl, c1, hb⟩
        obtain ⟨z, u, hzef, hzu, hb⟩ := hz
        refine ⟨t, ht, z, hzef, ?_⟩
        rcases hw with rfl | rfl
        · exact .inl (point_close h.boundA (hmax t ht) hb hzu)
        · exact .inr (point_close h.boundB (hmax t ht) hb hzu)
    · left
      exact ⟨fun p hp hp' => hc ⟨p, hp, hp'⟩, onBoth_close hres.1 hne⟩

end Props
