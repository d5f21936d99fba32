import Verif.Props.GeneratedTunnel

/-!
# A kernel with exact operations for example 4
-/

namespace Props
open Verif Frackit Frackit.Appl

/-- Shapes; the outer wire of the lateral face of a cylinder consists of the two circles at its ends. -/
noncomputable def wallKernel : ShapeKernel :=
  { boundedKernel with
    cylinder := fun c n _ r h => some (⟨.solid, {p | Spec.InCylinder c n r h p}, ∅⟩, ⟨.face, {p | Spec.OnLateral c n r h p},
      {p | Spec.OnLateral c n r h p ∧ (Spec.axial c n p = 0 ∨ Spec.axial c n p = h)}⟩) }

theorem wallKernel_contains : BoundsContain wallKernel := boundedKernel_contains

theorem wallKernel_faithful : Faithful wallKernel where
  vertex := idealKernel_faithful.vertex
  edge := idealKernel_faithful.edge
  ellipseWire := idealKernel_faithful.ellipseWire
  ellipseEdge := idealKernel_faithful.ellipseEdge
  emptyTrim := idealKernel_faithful.emptyTrim
  ellipseFace := idealKernel_faithful.ellipseFace
  wireFace := idealKernel_faithful.wireFace
  cylinder c n u r h s f _ _ _ _ _ e := by
    cases e
    exact ⟨rfl, rfl, rfl, rfl⟩
  box := idealKernel_faithful.box
  sphere := idealKernel_faithful.sphere
  extrema := idealKernel_faithful.extrema

/-- Three points that are not on a line. -/
def HasThree (A : Set V3) : Prop := ∃ a b c, ¬ Spec.Collinear a b c ∧ ∀ q, q = a ∨ q = b ∨ q = c → q ∈ A

/-- The points are in a plane. -/
def InOnePlane (A : Set V3) : Prop := ∃ n : V3, n ≠ 0 ∧ ∀ p ∈ A, ∀ q ∈ A, Spec.OnPlane p n q

open Classical in
/-- The surface of a plane face; otherwise that of the tunnel. -/
noncomputable def someSurface (s : Shape) : SurfaceGeom :=
  if h : InOnePlane s.points ∧ HasThree s.points then
    ⟨fun _ => (0, 0), fun _ => 0, fun _ _ => (h.2.choose_spec.choose - h.2.choose,
      h.2.choose_spec.choose_spec.choose - h.2.choose)⟩
  else ⟨fun p => (p.y, p.z), fun _ => 0, fun u v => (⟨1, 0, 0⟩, ⟨0, -v, u⟩)⟩

theorem someSurface_normal (s : Shape) (n : V3) (hn : n ≠ 0) (hpl : ∀ p ∈ s.points, ∀ q ∈ s.points, Spec.OnPlane p n q)
    (h3 : HasThree s.points) (u v : ℝ) :
    ∃ k : ℝ, k ≠ 0 ∧ ((someSurface s).d1 u v).1.cross ((someSurface s).d1 u v).2 = k • n := by
  have h : InOnePlane s.points ∧ HasThree s.points := ⟨⟨n, hn, hpl⟩, h3⟩
  unfold someSurface
  rw [dif_pos h]
  obtain ⟨hc, hm⟩ := h.2.choose_spec.choose_spec.choose_spec
  set a := h.2.choose
  set b := h.2.choose_spec.choose
  set c := h.2.choose_spec.choose_spec.choose
  have hb : n.dot (b - a) = 0 := (Spec.onPlane_iff _ _ _).1 (hpl a (hm a (.inl rfl)) b (hm b (.inr (.inl rfl))))
  have hc' : n.dot (c - a) = 0 := (Spec.onPlane_iff _ _ _).1 (hpl a (hm a (.inl rfl)) c (hm c (.inr (.inr rfl))))
  have hs : n.sqLen ≠ 0 := fun h0 => hn (V3.sqLen_eq_zero.1 h0)
  have key : (b - a).cross (c - a) = (n.dot ((b - a).cross (c - a)) / n.sqLen) • n := by
    have e : n.sqLen • (b - a).cross (c - a) = n.dot ((b - a).cross (c - a)) • n := by
      generalize b - a = x at hb ⊢
      generalize c - a = y at hc' ⊢
      simp only [V3.dot] at hb hc'
      ext <;> simp only [V3.cross, V3.dot, V3.sqLen, V3.smul_x, V3.smul_y, V3.smul_z]
      · linear_combination (n.y * y.z - n.z * y.y) * hb + (n.z * x.y - n.y * x.z) * hc'
      · linear_combination (n.z * y.x - n.x * y.z) * hb + (n.x * x.z - n.z * x.x) * hc'
      · linear_combination (n.x * y.y - n.y * y.x) * hb + (n.y * x.x - n.x * x.y) * hc'
    rw [div_eq_inv_mul, mul_smul, ← e, smul_smul, inv_mul_cancel₀ hs, one_smul]
  refine ⟨_, fun h0 => ?_, key⟩
  rw [h0, zero_smul] at key
  exact hc ((collinear_iff_cross _ _ _).2 key)

/-- A corner of a hull is one of the given points. -/
theorem corner_given : ∀ {cs : List V3} {p : V3}, Spec.IsCornerOf {q | Spec.InHull cs q} p → p ∈ cs
  | [], p, h => by
    obtain ⟨⟨w, hl, _, hs, _⟩, _⟩ := h
    rw [List.length_eq_zero_iff.1 hl] at hs
    simp at hs
  | c :: cs, p, h => by
    obtain ⟨hp, hc⟩ := h
    rcases (hull_cons c cs p).1 hp with rfl | ⟨q, hq, t, h0, h1, e⟩
    · simp
    · have hq' : Spec.InHull (c :: cs) q := (hull_cons c cs q).2 (.inr ⟨q, hq, 1, by norm_num, le_refl _, by module⟩)
      rcases hc c (corner_hull (by simp)) q hq' ⟨t, h0, h1, by rw [e]; simp; ring, by rw [e]; simp; ring, by
        rw [e]; simp; ring⟩ with h | h
      · simp [h]
      · subst h
        refine List.mem_cons_of_mem _ (corner_given ⟨hq, fun a ha b hb hab => hc a ?_ b ?_ hab⟩)
        · exact (hull_cons c cs a).2 (.inr ⟨a, ha, 1, by norm_num, le_refl _, by module⟩)
        · exact (hull_cons c cs b).2 (.inr ⟨b, hb, 1, by norm_num, le_refl _, by module⟩)

open Classical in
/-- The corners of a shape, if there are finitely many. -/
noncomputable def cornersOf (s : Shape) : List V3 :=
  if h : ∃ l : List V3, ∀ p, p ∈ l ↔ Spec.IsCornerOf s.points p then h.choose else []

theorem mem_cornersOf {s : Shape} {cs : List V3} (h : s.points = {p | Spec.InHull cs p}) (p : V3) :
    p ∈ cornersOf s ↔ Spec.IsCornerOf s.points p := by
  classical
  have hx : ∃ l : List V3, ∀ p, p ∈ l ↔ Spec.IsCornerOf s.points p := by
    refine ⟨cs.filter (fun p => Spec.IsCornerOf s.points p), fun p => ?_⟩
    rw [List.mem_filter]
    constructor
    · rintro ⟨_, h⟩; simpa using h
    · intro hp
      refine ⟨corner_given (by rw [← h]; exact hp), by simpa using hp⟩
  unfold cornersOf
  rw [dif_pos hx]
  exact hx.choose_spec p

/-- A circle around the tunnel. -/
noncomputable def wallCircle : CurveGeom := ⟨0, 2 * Real.pi, fun t => ⟨0, 5 * Real.cos t, 5 * Real.sin t⟩⟩

open Classical in
/-- Operations of the library: a face meets the surface of the tunnel in the circle in the plane x = 0, if this circle is on it; other
faces have no common points. -/
noncomputable def wallLibrary : LibraryKernel where
  isk := { exactIsKernel with
    shapes := wallKernel
    cylOps := fun _ _ _ => ⟨true, [], [], [⟨true, ⟨0, 5, 0⟩, ⟨0, 5, 0⟩, []⟩]⟩
    faceOps := fun f g _ => if (∀ t, wallCircle.value t ∈ f.points) ∧ ∀ t, wallCircle.value t ∈ g.points then
      edgeOps [0] (fun _ => [⟨0, 5, 0⟩]) else edgeOps [] (fun _ => [])
    ends := fun _ => (⟨0, 5, 0⟩, ⟨0, 5, 0⟩) }
  curves _ := wallCircle
  surface := someSurface
  arcLength _ := 0
  edgeLength _ := 10 * Real.pi
  faceArea _ := 0

open Classical in
/-- Operations of example 4. -/
noncomputable def wallTunnel : TunnelKernel where
  lib := wallLibrary
  bool := { cut := fun A B _ => some ⟨.compound, {p | p ∈ A.points ∧ ∀ e, 0 < e → ∃ q ∈ A.points, q ∉ B.points ∧ Spec.dist p q < e}, A.outer⟩
            common := fun A B _ => some ⟨.compound, A.points ∩ B.points, A.outer⟩
            fuse := fun _ _ _ => none
            general := fun _ _ => none }
  solids r := [⟨.solid, r.points, ∅⟩]
  faces r := if r.kind = .solid then [⟨.face, r.outer, ∅⟩] else if HasThree r.points then [⟨.face, r.points, r.outer⟩] else []
  vertices := cornersOf
  edgeShape k := ⟨.edge, edgePoints wallLibrary k, ∅⟩
  faceShape _ := ⟨.face, ∅, ∅⟩
  area _ := 400 - 25 * Real.pi

theorem wallTunnel_exact : ExactTunnel wallTunnel where
  commonSolids A B eps r _ _ h := by
    cases h
    exact ⟨fun s hs => by
      rw [List.mem_singleton.1 hs]; exact ⟨rfl, fun p hp => hp⟩, fun p hp ⟨e, he, hin⟩ => ⟨_, List.mem_singleton.2 rfl, hp,
        hin p (by rw [dist_self_zero]; exact he)⟩⟩
  cutSolids A B eps r _ _ h := by
    cases h
    exact ⟨fun s hs => by
      rw [List.mem_singleton.1 hs]
      exact ⟨rfl, fun p hp => hp⟩, fun p hp hn =>
        ⟨_, List.mem_singleton.2 rfl, hp, fun e he => ⟨p, hp, hn, by rw [dist_self_zero]; exact he⟩⟩⟩
  commonFaces A B eps r hA hex hB h := by
    obtain rfl : (⟨.compound, A.points ∩ B.points, A.outer⟩ : Shape) = r := Option.some.inj h
    simp only [wallTunnel, reduceCtorEq, if_false]
    refine ⟨fun f hf => ?_, fun p hp ⟨e, he, hin⟩ => ?_⟩
    · by_cases h3 : HasThree (A.points ∩ B.points)
      · rw [if_pos h3, List.mem_singleton] at hf
        rw [hf]
        exact ⟨rfl, fun p hp => hp, h3⟩
      · rw [if_neg h3] at hf; cases hf
    · have h3 : HasThree (A.points ∩ B.points) := by
        obtain ⟨a, b, c, hn, hq⟩ := hex p hp e he
        exact ⟨a, b, c, hn, fun q h => ⟨(hq q h).1, hin q (hq q h).2⟩⟩
      rw [if_pos h3]
      exact ⟨_, List.mem_singleton.2 rfl, hp, hin p (by rw [dist_self_zero]; exact he)⟩
  sphereFace s f hs hf := by
    obtain rfl : (⟨.solid, {p | Spec.InBall ⟨0, 0, 0⟩ 25 p}, {p | Spec.dist ⟨0, 0, 0⟩ p = 25}⟩ : Shape) = s := Outcome.val.inj hs
    simp only [wallTunnel, if_true, List.mem_singleton] at hf
    rw [hf]
    refine ⟨rfl, ?_⟩
    ext p
    show Spec.dist ⟨0, 0, 0⟩ p = 25 ↔ p.x ^ 2 + p.y ^ 2 + p.z ^ 2 = 25 ^ 2
    rw [Spec.dist_comm]
    unfold Spec.dist
    rw [Real.sqrt_eq_iff_mul_self_eq (by positivity) (by norm_num)]
    simp only [sub_zero]
    constructor <;> intro h <;> linarith
  corners c s hc hs p hp := by
    obtain ⟨h, _⟩ := C72_shape_partial _ wallKernel_faithful _ hc s hs
    exact (mem_cornersOf h p).2 hp
  edges _ := rfl
  surfaces s n _ hn hpl h3 u v := someSurface_normal s n hn hpl h3 u v

theorem wallKernel_neverFails : NeverFails wallKernel where
  vertex _ := ⟨_, rfl⟩
  edge _ _ := ⟨_, rfl⟩
  ellipseWire _ _ _ _ _ := ⟨_, rfl⟩
  ellipseFace _ _ _ _ _ := ⟨_, rfl⟩
  ellipseEdge := idealKernel_neverFails.ellipseEdge
  wireFace _ := ⟨_, rfl⟩
  cylinder _ _ _ _ _ := ⟨_, rfl⟩
  box _ _ := ⟨_, rfl⟩
  sphere _ _ := ⟨_, rfl⟩

/-- The domain of the example. -/
theorem wall_domain : ∃ d, domain4 wallTunnel = .val d ∧ ∀ p, Spec.InTunnelDomain p → p.x ^ 2 + p.y ^ 2 + p.z ^ 2 < 25 ^ 2 →
    -20 < p.z ∧ p.z < 20 → p ∈ d.points := by
  obtain ⟨c, hc, hv, c1, c2, c3, c4⟩ := tunnel4_spec
  obtain ⟨B, hB⟩ := (C72_supported wallKernel (.cylinder c)).1 wallKernel_neverFails hv (by intro t h; cases h)
    (by intro t h; cases h) (fun ⟨_, _, h, _⟩ => nomatch h)
  obtain ⟨pB, _⟩ := C72_shape_partial _ wallKernel_faithful _ (show ValidGeom (.cylinder c) from hv) B hB
  have mB : ∀ p, p ∈ B.points ↔ (-25 ≤ p.x ∧ p.x ≤ 25) ∧ p.y ^ 2 + p.z ^ 2 ≤ 5 ^ 2 := fun p => by
    rw [pB]
    show Spec.InCylinder c.bottom.center c.bottom.normal c.bottom.majLen c.height p ↔ _
    rw [c1, c2, c3, c4]
    exact inTunnel_iff p
  let A : Set V3 := {p | Spec.InBox ⟨-50, -50, -20⟩ ⟨50, 50, 20⟩ p} ∩ {p | Spec.InBall ⟨0, 0, 0⟩ 25 p}
  refine ⟨⟨.solid, {p | p ∈ A ∧ ∀ e, 0 < e → ∃ q ∈ A, q ∉ B.points ∧ Spec.dist p q < e}, ∅⟩, ?_, ?_⟩
  · have h1 : getShape wallTunnel.lib.isk.shapes (.geom (.cylinder c)) = .val B := hB
    unfold domain4
    rw [layer4_val, hc, Outcome.val_bind, Outcome.val_bind, h1]
    rfl
  · intro p hd hs hz
    have mem : ∀ q : V3, q.x ^ 2 + q.y ^ 2 + q.z ^ 2 < 25 ^ 2 → -20 < q.z ∧ q.z < 20 → q ∈ A := by
      intro q hq hqz
      refine ⟨?_, (inBall_iff q).2 hq.le⟩
      have hx := abs_le.1 (abs_le_of_sq_le_sq (a := q.x) (b := 25) (by nlinarith [sq_nonneg q.y, sq_nonneg q.z]) (by norm_num))
      have hy := abs_le.1 (abs_le_of_sq_le_sq (a := q.y) (b := 25) (by nlinarith [sq_nonneg q.x, sq_nonneg q.z]) (by norm_num))
      exact ⟨by simp only; linarith [hx.1], by simp only; linarith [hx.2], by simp only; linarith [hy.1], by simp only; linarith [hy.2],
        hqz.1.le, hqz.2.le⟩
    refine ⟨mem p hs hz, fun e he => ?_⟩
    -- a point further away from the axis
    have e1 : Real.sqrt (p.x ^ 2 + p.y ^ 2 + p.z ^ 2) < 25 := (Real.sqrt_lt' (by norm_num)).2 hs
    have hz2 : |p.z| < 20 := abs_lt.2 hz
    obtain ⟨t, ht0, ht1, ht2, ht3⟩ : ∃ t : ℝ, 0 < t ∧ t * 25 < e ∧ t * 25 < 25 - Real.sqrt (p.x ^ 2 + p.y ^ 2 + p.z ^ 2) ∧ t * 25 < 20 - |p.z| := by
      refine ⟨min e (min (25 - Real.sqrt (p.x ^ 2 + p.y ^ 2 + p.z ^ 2)) (20 - |p.z|)) / 50, ?_, ?_, ?_, ?_⟩
      · refine div_pos (lt_min he (lt_min (by linarith) (by linarith))) (by norm_num)
      · have := min_le_left e (min (25 - Real.sqrt (p.x ^ 2 + p.y ^ 2 + p.z ^ 2)) (20 - |p.z|))
        linarith
      · have := (min_le_right e (min (25 - Real.sqrt (p.x ^ 2 + p.y ^ 2 + p.z ^ 2)) (20 - |p.z|))).trans (min_le_left _ _)
        linarith
      · have := (min_le_right e (min (25 - Real.sqrt (p.x ^ 2 + p.y ^ 2 + p.z ^ 2)) (20 - |p.z|))).trans (min_le_right _ _)
        linarith
    have hdist : Spec.dist p ⟨p.x, (1 + t) * p.y, (1 + t) * p.z⟩ < 25 * t := by
      unfold Spec.dist
      rw [Real.sqrt_lt' (by positivity)]
      have : (p.x - p.x) ^ 2 + (p.y - (1 + t) * p.y) ^ 2 + (p.z - (1 + t) * p.z) ^ 2 = t ^ 2 * (p.y ^ 2 + p.z ^ 2) := by ring
      rw [this, mul_pow, mul_comm]
      exact mul_lt_mul_of_pos_right (by nlinarith [sq_nonneg p.x]) (by positivity)
    refine ⟨⟨p.x, (1 + t) * p.y, (1 + t) * p.z⟩, mem _ ?_ ?_, ?_, by linarith⟩
    · have h := norm_near (p := p) (q := ⟨p.x, (1 + t) * p.y, (1 + t) * p.z⟩)
      exact (Real.sqrt_lt' (by norm_num)).1 (by linarith)
    · have h := (coord_dist p ⟨p.x, (1 + t) * p.y, (1 + t) * p.z⟩).2.2
      simp only at h ⊢
      have h1 := abs_le.1 h
      have h2 := abs_le.1 (le_refl |p.z|)
      constructor <;> linarith
    · intro hq
      obtain ⟨_, hq⟩ := (mB _).1 hq
      simp only at hq
      have h5 := hd.2.2
      nlinarith [mul_pos ht0 ht0]

/-- Non-trivial instance: the point (10, 10, 0) belongs to the domain, the points (0, 0, 0) and (0, 0, 21) do not. -/
example : ∃ d, domain4 wallTunnel = .val d ∧ ⟨10, 10, 0⟩ ∈ d.points ∧ ⟨0, 0, 0⟩ ∉ d.points ∧ ⟨0, 0, 21⟩ ∉ d.points := by
  obtain ⟨d, hd, _⟩ := wall_domain
  obtain ⟨_, h1, h2⟩ := C137_domain wallTunnel wallKernel_faithful wallTunnel_exact d hd
  refine ⟨d, hd, h2 _ (by norm_num [Spec.InsideTunnelDomain]), fun h => ?_, fun h => ?_⟩
  · have := h1 _ h
    norm_num [Spec.InTunnelDomain] at this
  · have := h1 _ h
    norm_num [Spec.InTunnelDomain] at this

end Props
