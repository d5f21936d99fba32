import Verif.Model.Appl.Tunnel
import Verif.Spec.TunnelDomain
import Verif.Props.GenerationTunnel
import Verif.Props.AcceptedFaceExamples

/-!
# Domain of example 4 and parts of polygons in it (C137)
-/

namespace Props
open Verif Frackit Frackit.Appl

/-- Every part of the set has some extent in two directions. -/
def Extended (A : Set V3) : Prop :=
  ∀ p ∈ A, ∀ e, 0 < e → ∃ a b c, ¬ Spec.Collinear a b c ∧ ∀ q, q = a ∨ q = b ∨ q = c → q ∈ A ∧ Spec.dist p q < e

/-- The boolean operations between solids, and between a face and a solid, are exact: up to the boundaries, nothing is
missing, and nothing is added.  Edges consist of the points of their curves, polygons have their corners as vertices, the
face of the sphere of the example is the surface of the ball.  The normals of the surfaces of plane faces are those of
the plane. -/
structure ExactTunnel (T : TunnelKernel) : Prop where
  commonSolids : ∀ A B eps r, A.kind = .solid → B.kind = .solid → T.bool.common A B eps = some r →
    (∀ s ∈ T.solids r, s.kind = .solid ∧ ∀ p ∈ s.points, p ∈ A.points ∧ p ∈ B.points) ∧
    ∀ p ∈ A.points, Spec.Inside B.points p → ∃ s ∈ T.solids r, p ∈ s.points
  cutSolids : ∀ A B eps r, A.kind = .solid → B.kind = .solid → T.bool.cut A B eps = some r →
    (∀ s ∈ T.solids r, s.kind = .solid ∧ ∀ p ∈ s.points, p ∈ A.points ∧
      ∀ e, 0 < e → ∃ q ∈ A.points, q ∉ B.points ∧ Spec.dist p q < e) ∧
    ∀ p ∈ A.points, p ∉ B.points → ∃ s ∈ T.solids r, p ∈ s.points
  commonFaces : ∀ A B eps r, A.kind = .face → Extended A.points → B.kind = .solid → T.bool.common A B eps = some r →
    (∀ f ∈ T.faces r, f.kind = .face ∧ (∀ p ∈ f.points, p ∈ A.points ∧ p ∈ B.points) ∧
      ∃ a b c, ¬ Spec.Collinear a b c ∧ ∀ q, q = a ∨ q = b ∨ q = c → q ∈ f.points) ∧
    ∀ p ∈ A.points, Spec.Inside B.points p → ∃ f ∈ T.faces r, p ∈ f.points
  sphereFace : ∀ s f, getShape T.lib.isk.shapes (.geom (.sphere sphere4)) = .val s → f ∈ T.faces s →
    f.kind = .face ∧ f.points = {p | p.x ^ 2 + p.y ^ 2 + p.z ^ 2 = 25 ^ 2}
  corners : ∀ c s, ValidGeom (.polygon c) → getShape T.lib.isk.shapes (.geom (.polygon c)) = .val s →
    ∀ p, Spec.IsCornerOf s.points p → p ∈ T.vertices s
  edges : ∀ k, (T.edgeShape k).points = edgePoints T.lib k
  surfaces : ∀ s n, s.kind = .face → n ≠ 0 → (∀ p ∈ s.points, ∀ q ∈ s.points, Spec.OnPlane p n q) →
    (∃ a b c, ¬ Spec.Collinear a b c ∧ ∀ q, q = a ∨ q = b ∨ q = c → q ∈ s.points) →
    ∀ u v, ∃ k : ℝ, k ≠ 0 ∧ ((T.lib.surface s).d1 u v).1.cross ((T.lib.surface s).d1 u v).2 = k • n

/-! ## Geometries of the domain -/

theorem mkDirection_x : mkDirection ⟨1, 0, 0⟩ = .val ⟨1, 0, 0⟩ :=
  mkDirection_of_unit (by norm_num [Spec.IsUnit])

theorem layer4_val : layer4 = .val ⟨-50, 50, -50, 50, -20, 20⟩ := by
  unfold layer4 Box.make
  norm_num

theorem tunnel4_spec : ∃ c, tunnel4 = .val c ∧ ValidCylinder c ∧ c.bottom.center = ⟨-25, 0, 0⟩ ∧
    c.bottom.normal = ⟨1, 0, 0⟩ ∧ c.bottom.majLen = 5 ∧ c.height = 50 := by
  obtain ⟨u, v, _, hm, hf⟩ := circle_frame ⟨-25, 0, 0⟩ ⟨1, 0, 0⟩ 5 (by norm_num [Spec.IsUnit])
  have hv : ValidElliptical ⟨⟨-25, 0, 0⟩, u, v, ⟨1, 0, 0⟩, 5, 5⟩ := ⟨hf, by norm_num, by norm_num⟩
  obtain ⟨c, hc, hval, h1, h2, h3, h4⟩ := (C14_construction _ 50 hv (by norm_num)).2.2
  refine ⟨c, ?_, hval, h1, h2, h3, h4⟩
  unfold tunnel4
  rw [mkDirection_x, Outcome.val_bind, hm, Outcome.val_bind, hc]

theorem radial_x (c p : V3) : Spec.radial c ⟨1, 0, 0⟩ p = Real.sqrt ((p.y - c.y) ^ 2 + (p.z - c.z) ^ 2) := by
  unfold Spec.radial Spec.dist Spec.axial
  congr 1
  ring

theorem inTunnel_iff (p : V3) : Spec.InCylinder ⟨-25, 0, 0⟩ ⟨1, 0, 0⟩ 5 50 p ↔
    (-25 ≤ p.x ∧ p.x ≤ 25) ∧ p.y ^ 2 + p.z ^ 2 ≤ 5 ^ 2 := by
  unfold Spec.InCylinder
  rw [radial_x, Real.sqrt_le_left (by norm_num)]
  unfold Spec.axial
  simp only [sub_zero]
  constructor
  · rintro ⟨h1, h2, h3⟩
    exact ⟨⟨by linarith, by linarith⟩, h3⟩
  · rintro ⟨⟨h1, h2⟩, h3⟩
    exact ⟨by linarith, by linarith, h3⟩

theorem onTunnel_iff (p : V3) : Spec.OnLateral ⟨-25, 0, 0⟩ ⟨1, 0, 0⟩ 5 50 p ↔ Spec.OnTunnelWall p := by
  unfold Spec.OnLateral Spec.OnTunnelWall
  rw [radial_x, Real.sqrt_eq_iff_mul_self_eq (by positivity) (by norm_num)]
  unfold Spec.axial
  simp only [sub_zero]
  constructor
  · rintro ⟨h1, h2, h3⟩
    exact ⟨⟨by linarith, by linarith⟩, by linarith⟩
  · rintro ⟨⟨h1, h2⟩, h3⟩
    exact ⟨by linarith, by linarith, by linarith⟩

theorem inBall_iff (p : V3) : Spec.InBall ⟨0, 0, 0⟩ 25 p ↔ p.x ^ 2 + p.y ^ 2 + p.z ^ 2 ≤ 25 ^ 2 := by
  unfold Spec.InBall Spec.dist
  rw [Real.sqrt_le_left (by norm_num)]
  simp

/-- The distance from the origin of a point close to another one. -/
theorem norm_near {p q : V3} : Real.sqrt (q.x ^ 2 + q.y ^ 2 + q.z ^ 2) ≤ Real.sqrt (p.x ^ 2 + p.y ^ 2 + p.z ^ 2) + Spec.dist p q := by
  have h := dist_triangle q p ⟨0, 0, 0⟩
  have e : ∀ p : V3, Spec.dist p ⟨0, 0, 0⟩ = Real.sqrt (p.x ^ 2 + p.y ^ 2 + p.z ^ 2) := fun p => by
    unfold Spec.dist; simp
  rw [e, e, Spec.dist_comm q p] at h
  linarith

/-- The distance from the x-axis of a point close to another one. -/
theorem axis_near {p q : V3} : Real.sqrt (q.y ^ 2 + q.z ^ 2) ≤ Real.sqrt (p.y ^ 2 + p.z ^ 2) + Spec.dist p q := by
  have h := norm_near (p := ⟨0, p.y, p.z⟩) (q := ⟨0, q.y, q.z⟩)
  have h' : Spec.dist ⟨0, p.y, p.z⟩ ⟨0, q.y, q.z⟩ ≤ Spec.dist p q := by
    unfold Spec.dist
    apply Real.sqrt_le_sqrt
    nlinarith [sq_nonneg (p.x - q.x)]
  simp only [ne_eq, OfNat.ofNat_ne_zero, not_false_eq_true, zero_pow, zero_add] at h
  linarith

/-- Points inside of the domain are so together with a neighbourhood. -/
theorem inside_near {p : V3} (h : Spec.InsideTunnelDomain p) : Spec.Inside {q | Spec.InsideTunnelDomain q} p := by
  obtain ⟨h1, ⟨h2, h3⟩, h4⟩ := h
  have e1 : Real.sqrt (p.x ^ 2 + p.y ^ 2 + p.z ^ 2) < 25 := (Real.sqrt_lt' (by norm_num)).2 h1
  have e4 : 5 < Real.sqrt (p.y ^ 2 + p.z ^ 2) := (Real.lt_sqrt (by norm_num)).2 h4
  refine ⟨min (min (25 - Real.sqrt (p.x ^ 2 + p.y ^ 2 + p.z ^ 2)) (Real.sqrt (p.y ^ 2 + p.z ^ 2) - 5))
    (min (p.z + 20) (20 - p.z)), by
      refine lt_min (lt_min (by linarith) (by linarith)) (lt_min (by linarith) (by linarith)), fun q hq => ?_⟩
  obtain ⟨hq12, hq34⟩ := lt_min_iff.1 hq
  obtain ⟨hq1, hq2⟩ := lt_min_iff.1 hq12
  obtain ⟨hq3, hq4⟩ := lt_min_iff.1 hq34
  refine ⟨(Real.sqrt_lt' (by norm_num)).1 ?_, ?_, (Real.lt_sqrt (by norm_num)).1 ?_⟩
  · have := norm_near (p := p) (q := q)
    linarith
  · have := abs_le.1 (coord_dist p q).2.2
    constructor <;> linarith
  · have := axis_near (p := q) (q := p)
    rw [Spec.dist_comm] at this
    linarith

theorem doneOr_some {α : Type} {msg : String} {o : Option α} {a : α} (h : doneOr msg o = .val a) : o = some a := by
  cases o with
  | none => cases h
  | some b => cases h; rfl

theorem onlyOne_val {msg : String} {l : List Shape} {s : Shape} (h : onlyOne msg l = .val s) : l = [s] := by
  match l, h with
  | [t], h => cases h; rfl

/-! ## C137 Domain and fractures of example 4 as point sets -/

/-- The domain is the part of the layer inside of the sphere and outside of the tunnel. -/
theorem C137_domain (T : TunnelKernel) (hK : Faithful T.lib.isk.shapes) (hT : ExactTunnel T) (d : Shape)
    (h : domain4 T = .val d) : d.kind = .solid ∧ (∀ p ∈ d.points, Spec.InTunnelDomain p) ∧
    ∀ p, Spec.InsideTunnelDomain p → p ∈ d.points := by
  obtain ⟨c, hc, hcv, c1, c2, c3, c4⟩ := tunnel4_spec
  unfold domain4 at h
  rw [layer4_val, hc, Outcome.val_bind, Outcome.val_bind] at h
  obtain ⟨A, hA, h⟩ := Outcome.bind_eq_val.1 h
  obtain ⟨B, hB, h⟩ := Outcome.bind_eq_val.1 h
  obtain ⟨r, hr, h⟩ := Outcome.bind_eq_val.1 h
  obtain ⟨s, hs, h⟩ := Outcome.bind_eq_val.1 h
  obtain ⟨C, hC, h⟩ := Outcome.bind_eq_val.1 h
  obtain ⟨r', hr', h⟩ := Outcome.bind_eq_val.1 h
  obtain ⟨pA, kA⟩ := C72_shape_partial _ hK _ (show ValidGeom (.box ⟨-50, 50, -50, 50, -20, 20⟩) from
    ⟨by norm_num, by norm_num, by norm_num⟩) A hA
  obtain ⟨pB, kB⟩ := C72_shape_partial _ hK _ (show ValidGeom (.sphere sphere4) by
    show (0 : ℝ) < 25; norm_num) B hB
  obtain ⟨pC, kC⟩ := C72_shape_partial _ hK _ (show ValidGeom (.cylinder c) from hcv) C hC
  have kA : A.kind = .solid := by simpa [KindFits, AnyGeometry.dimension] using kA
  have kB : B.kind = .solid := by simpa [KindFits, AnyGeometry.dimension] using kB
  have kC : C.kind = .solid := by simpa [KindFits, AnyGeometry.dimension] using kC
  have mA : ∀ p, p ∈ A.points ↔ Spec.InBox ⟨-50, -50, -20⟩ ⟨50, 50, 20⟩ p := fun p => by rw [pA]; rfl
  have mB : ∀ p, p ∈ B.points ↔ p.x ^ 2 + p.y ^ 2 + p.z ^ 2 ≤ 25 ^ 2 := fun p => by
    rw [pB]; exact inBall_iff p
  have mC : ∀ p, p ∈ C.points ↔ (-25 ≤ p.x ∧ p.x ≤ 25) ∧ p.y ^ 2 + p.z ^ 2 ≤ 5 ^ 2 := fun p => by
    rw [pC]
    show Spec.InCylinder c.bottom.center c.bottom.normal c.bottom.majLen c.height p ↔ _
    rw [c1, c2, c3, c4]
    exact inTunnel_iff p
  obtain ⟨s1, s2⟩ := hT.commonSolids A B _ r kA kB (doneOr_some hr)
  rw [onlyOne_val hs] at s1 s2
  obtain ⟨ks, s1⟩ := s1 s (by simp)
  obtain ⟨d1, d2⟩ := hT.cutSolids s C _ r' ks kC (doneOr_some hr')
  rw [onlyOne_val h] at d1 d2
  obtain ⟨kd, d1⟩ := d1 d (by simp)
  refine ⟨kd, fun p hp => ?_, fun p hp => ?_⟩
  · obtain ⟨hps, hout⟩ := d1 p hp
    obtain ⟨hpA, hpB⟩ := s1 p hps
    have hpA := (mA p).1 hpA
    unfold Spec.InBox at hpA
    refine ⟨(mB p).1 hpB, ⟨hpA.2.2.2.2.1, hpA.2.2.2.2.2⟩, not_lt.1 fun hlt => ?_⟩
    have hlt : Real.sqrt (p.y ^ 2 + p.z ^ 2) < 5 := (Real.sqrt_lt' (by norm_num)).2 hlt
    obtain ⟨q, hq, hqC, hpq⟩ := hout (5 - Real.sqrt (p.y ^ 2 + p.z ^ 2)) (by linarith)
    have hqB := (mB q).1 (s1 q hq).2
    refine hqC ((mC q).2 ⟨abs_le.1 (abs_le_of_sq_le_sq (a := q.x) (b := 25) ?_ (by norm_num)), ?_⟩)
    · nlinarith [sq_nonneg q.y, sq_nonneg q.z]
    · have := axis_near (p := p) (q := q)
      exact (Real.sqrt_le_left (by norm_num)).1 (by linarith)
  · obtain ⟨t, ht, hpt⟩ := d2 p (by
      obtain ⟨t, ht, hpt⟩ := s2 p ((mA p).2 (by
          obtain ⟨h1, ⟨h2, h3⟩, h4⟩ := hp
          have hx := abs_le.1 (abs_le_of_sq_le_sq (a := p.x) (b := 50) (by nlinarith [sq_nonneg p.y, sq_nonneg p.z]) (by norm_num))
          have hy := abs_le.1 (abs_le_of_sq_le_sq (a := p.y) (b := 50) (by nlinarith [sq_nonneg p.x, sq_nonneg p.z]) (by norm_num))
          exact ⟨hx.1, hx.2, hy.1, hy.2, h2.le, h3.le⟩))
        (by
          obtain ⟨r, hr, hin⟩ := inside_near hp
          exact ⟨r, hr, fun q hq => (mB q).2 (hin q hq).1.le⟩)
      rw [List.mem_singleton.1 ht] at hpt
      exact hpt)
      (fun hpC => absurd ((mC p).1 hpC).2 (not_le.2 hp.2.2))
    rw [List.mem_singleton.1 ht] at hpt
    exact hpt

/-! ## Polygons -/

theorem corner_hull : ∀ {cs : List V3} {c : V3}, c ∈ cs → Spec.InHull cs c
  | a :: t, c, h => by
    have hz : ∀ l : List V3, (∀ g : V3 → ℝ, (List.zipWith (fun r c => r * g c) (List.replicate l.length 0) l).sum = 0) := by
      intro l g
      induction l with
      | nil => rfl
      | cons x l ih => simp [List.replicate_succ, ih]
    rcases List.mem_cons.1 h with rfl | h
    · refine ⟨1 :: List.replicate t.length 0, by simp, ?_, by simp, ?_, ?_, ?_⟩
      · intro r hr
        rcases List.mem_cons.1 hr with rfl | hr
        · norm_num
        · rw [List.eq_of_mem_replicate hr]
      · simp [hz t V3.x]
      · simp [hz t V3.y]
      · simp [hz t V3.z]
    · obtain ⟨w, l1, n1, s1, x1, y1, z1⟩ := corner_hull h
      refine ⟨0 :: w, by simp [l1], ?_, by simp [s1], ?_, ?_, ?_⟩
      · intro r hr
        rcases List.mem_cons.1 hr with rfl | hr
        · exact le_refl _
        · exact n1 r hr
      · simpa using x1
      · simpa using y1
      · simpa using z1

/-- A convex polygon with three corners that are not on a line. -/
def ProperPolygon (c : Polygon) : Prop :=
  ValidGeom (.polygon c) ∧ ∃ a ∈ c.corners, ∃ b ∈ c.corners, ∃ e ∈ c.corners, ¬ Spec.Collinear a b e

theorem polygon_extended {c : Polygon} (h : ProperPolygon c) : Extended (pointsOf (.polygon c)) := by
  obtain ⟨_, x, hx, y, hy, z, hz, hn⟩ := h
  intro p hp e he
  have hm : 0 < Spec.dist p x + Spec.dist p y + Spec.dist p z + e := by
    have h1 : 0 ≤ Spec.dist p x := Real.sqrt_nonneg _
    have h2 : 0 ≤ Spec.dist p y := Real.sqrt_nonneg _
    have h3 : 0 ≤ Spec.dist p z := Real.sqrt_nonneg _
    linarith
  obtain ⟨t, ht0, ht1, hte⟩ : ∃ t : ℝ, 0 < t ∧ t ≤ 1 ∧ t * (Spec.dist p x + Spec.dist p y + Spec.dist p z + e) ≤ e := by
    refine ⟨e / (Spec.dist p x + Spec.dist p y + Spec.dist p z + e), div_pos he hm, ?_, ?_⟩
    · rw [div_le_one hm]
      have h1 : 0 ≤ Spec.dist p x := Real.sqrt_nonneg _
      have h2 : 0 ≤ Spec.dist p y := Real.sqrt_nonneg _
      have h3 : 0 ≤ Spec.dist p z := Real.sqrt_nonneg _
      linarith
    · rw [div_mul_cancel₀ _ hm.ne']
  have near : ∀ q ∈ c.corners, Spec.dist p q ≤ Spec.dist p x + Spec.dist p y + Spec.dist p z →
      p + t • (q - p) ∈ pointsOf (.polygon c) ∧ Spec.dist p (p + t • (q - p)) < e := by
    intro q hq hle
    refine ⟨hull_convex _ _ _ hp (corner_hull hq) t ht0.le ht1, ?_⟩
    have e1 : Spec.dist p (p + t • (q - p)) = t * Spec.dist p q := by
      rw [Spec.dist_eq_len, Spec.dist_eq_len, show p - (p + t • (q - p)) = t • (p - q) by module, V3.len_smul,
        abs_of_pos ht0]
    rw [e1]
    nlinarith
  have h1 : 0 ≤ Spec.dist p x := Real.sqrt_nonneg _
  have h2 : 0 ≤ Spec.dist p y := Real.sqrt_nonneg _
  have h3 : 0 ≤ Spec.dist p z := Real.sqrt_nonneg _
  refine ⟨p + t • (x - p), p + t • (y - p), p + t • (z - p), ?_, ?_⟩
  · rw [collinear_iff_cross] at hn ⊢
    intro h0
    apply hn
    rw [show p + t • (y - p) - (p + t • (x - p)) = t • (y - x) by module,
      show p + t • (z - p) - (p + t • (x - p)) = t • (z - x) by module] at h0
    have e2 : (t • (y - x)).cross (t • (z - x)) = (t * t) • (y - x).cross (z - x) := by
      ext <;> simp [V3.cross] <;> ring
    rw [e2] at h0
    exact (smul_eq_zero.1 h0).resolve_left (mul_pos ht0 ht0).ne'
  · rintro q (rfl | rfl | rfl)
    · exact near x hx (by linarith)
    · exact near y hy (by linarith)
    · exact near z hz (by linarith)

/-- The shape of a polygon is a plane face. -/
theorem polygon_flat {T : TunnelKernel} (hK : Faithful T.lib.isk.shapes) (hT : ExactTunnel T) {c : Polygon} (hc : ProperPolygon c)
    {s : Shape} (hs : getShape T.lib.isk.shapes (.geom (.polygon c)) = .val s) :
    s.points = pointsOf (.polygon c) ∧ ∃ n, FlatFace T.lib s n := by
  obtain ⟨hp, hk⟩ := C72_shape_partial _ hK _ hc.1 s hs
  have hk : s.kind = .face := by simpa [KindFits, AnyGeometry.dimension] using hk
  obtain ⟨hv, x, hx, y, hy, z, hz, hn⟩ := hc
  obtain ⟨_, n, o, hu, _, hpl, _⟩ := hv
  have hn0 : n ≠ 0 := by
    rintro rfl
    simp [Spec.IsUnit] at hu
  have plane : ∀ p ∈ s.points, ∀ q ∈ s.points, Spec.OnPlane p n q := by
    intro p hp' q hq'
    rw [hp] at hp' hq'
    have h1 := (Spec.onPlane_iff _ _ _).1 (hull_inPlane hpl hp')
    have h2 := (Spec.onPlane_iff _ _ _).1 (hull_inPlane hpl hq')
    rw [Spec.onPlane_iff]
    simp only [V3.dot_sub] at h1 h2 ⊢
    linarith
  refine ⟨hp, n, hk, ?_, hn0, plane, hT.surfaces s n hk hn0 plane ⟨x, y, z, hn, ?_⟩⟩
  · rw [hp]; exact inSomeBox_hull _
  · rintro q (rfl | rfl | rfl)
    · rw [hp]; exact corner_hull hx
    · rw [hp]; exact corner_hull hy
    · rw [hp]; exact corner_hull hz

end Props
