import Verif.Props.TunnelDomain

/-!
# The network of example 4 as point sets (C137)
-/

namespace Props
open Verif Frackit Frackit.Appl
open Spec.Constraints Spec.Network

/-- The default tolerance of a shape. -/
noncomputable def shapeTol (L : LibraryKernel) (s : Shape) : ℝ :=
  ((⟨(L.isk.shapes.bounds s).xMax, (L.isk.shapes.bounds s).yMax, (L.isk.shapes.bounds s).zMax⟩ : V3) -
    ⟨(L.isk.shapes.bounds s).xMin, (L.isk.shapes.bounds s).yMin, (L.isk.shapes.bounds s).zMin⟩).len * confusion

/-- The default tolerance of two shapes. -/
noncomputable def pairTol (L : LibraryKernel) (f g : Shape) : ℝ := min (shapeTol L f) (shapeTol L g)

/-- The fracture `x` is the part of the polygon `c` in the domain: a plane face, with at least a quarter of the area of the
polygon. -/
def FractureOf (T : TunnelKernel) (c : Polygon) (x : DistArg) : Prop :=
  ∃ f n, x = .shape f ∧ FlatFace T.lib f n ∧ (∃ p ∈ f.points, ∃ q ∈ f.points, p ≠ q) ∧
    Spec.PartInDomain (pointsOf (.polygon c)) f.points ∧
    ∃ a, c.area = .val a ∧ 0.25 * a ≤ T.area f

/-- The fractures `x`, `y` fulfil the constraints with minimum distance `d` and minimum angle `an`, if the operations with
them are exact. -/
def PartsKept (L : LibraryKernel) (d an : ℝ) (x y : DistArg) : Prop :=
  ∀ f g n m, x = .shape f → y = .shape g → FlatFace L f n → FlatFace L g m → ExactFaceOps L f g (pairTol L f g) →
    Spec.FacesFulfilled ⟨some d, some an, some 0.1, some 0.1, none, false⟩ f.points g.points f.outer g.outer n m
      (pairTol L f g) (faceTol L f) (faceTol L g)

/-- The fracture `x` meets the boundary `B` of the domain, or keeps a distance of 1 m from it, if the operations with them
are exact. -/
def BoundaryKept (L : LibraryKernel) (b : Shape) (B : Set V3) (x : DistArg) : Prop :=
  ∀ f, x = .shape f → ExactFaceOps L b f (pairTol L b f) → (∃ p ∈ f.points, p ∈ B) ∨ ∀ p ∈ B, ∀ q ∈ f.points, 1 ≤ Spec.dist p q

/-- The polygon `c` meets the fracture `x`, away from the corners of both (unless both are in the same plane), if the operations with
them are exact. -/
def Crosses (T : TunnelKernel) (c : Polygon) (x : DistArg) : Prop :=
  ∀ s g a n m, getShape T.lib.isk.shapes (.geom (.polygon c)) = .val s → x = .shape g → c.area = .val a → 0 < a →
    FlatFace T.lib s n → FlatFace T.lib g m → ExactFaceOps T.lib s g (min (0.5 * Real.sqrt a * confusion) (shapeTol T.lib g)) →
    (∃ p ∈ pointsOf (.polygon c), p ∈ g.points) ∧
    (¬ Spec.Parallel n m → ∀ p ∈ pointsOf (.polygon c), p ∈ g.points → ∀ v, Spec.IsCornerOf (pointsOf (.polygon c)) v ∨ v ∈ T.vertices g →
      1e-3 - 0.5 * Real.sqrt a * confusion ≤ Spec.dist v p)

section
variable {T : TunnelKernel} (hK : Faithful T.lib.isk.shapes) (hB : BoundsContain T.lib.isk.shapes) (hT : ExactTunnel T)
  {domain tun sph : Shape} {lat : CylinderSurface}

include hK hT in
theorem part_fracture (hdom : domain.kind = .solid ∧ (∀ p ∈ domain.points, Spec.InTunnelDomain p) ∧
    ∀ p, Spec.InsideTunnelDomain p → p ∈ domain.points) {c : Polygon} (hc : ProperPolygon c) {x : DistArg} {a : ℝ}
    (h : PartOf (tunnelModel T domain tun sph lat) c x a) : FractureOf T c x ∧ ∃ f, x = .shape f ∧ a = T.area f := by
  obtain ⟨h1, h2, full, h3, h4⟩ := h
  obtain ⟨s, hs, h1⟩ := Outcome.bind_eq_val.1 h1
  obtain ⟨r, hr, h1⟩ := Outcome.bind_eq_val.1 h1
  have h1 : (T.faces r).map DistArg.shape = [x] := by simpa using h1
  obtain ⟨f, hf, hx⟩ : ∃ f, T.faces r = [f] ∧ DistArg.shape f = x := by
    match hl : T.faces r, h1 with
    | [f], h1 => exact ⟨f, rfl, by simpa using h1⟩
  obtain ⟨hp, n, hn⟩ := polygon_flat hK hT hc hs
  obtain ⟨k1, k2⟩ := hT.commonFaces s domain _ r hn.kind (by rw [hp]; exact polygon_extended hc) hdom.1 (doneOr_some hr)
  rw [hf] at k1 k2
  obtain ⟨kf, hsub, hthree⟩ := k1 f (by simp)
  have plane : ∀ p ∈ f.points, ∀ q ∈ f.points, Spec.OnPlane p n q :=
    fun p hp q hq => hn.plane p (hsub p hp).1 q (hsub q hq).1
  have ha : a = T.area f := by
    rw [← hx] at h2
    exact (Outcome.val.inj h2).symm
  refine ⟨⟨f, n, hx.symm, ⟨kf, inSomeBox_mono hn.bounded fun p hp => (hsub p hp).1, hn.normal, plane,
    hT.surfaces f n kf hn.normal plane hthree⟩, ?_, ⟨fun p hp' => ?_, fun p hp' hi => ?_⟩, full, h3, by rw [← ha]; exact h4⟩,
    f, hx.symm, ha⟩
  · obtain ⟨u, v, w, hncol, hm⟩ := hthree
    refine ⟨u, hm u (.inl rfl), v, hm v (.inr (.inl rfl)), ?_⟩
    rintro rfl
    apply hncol
    rw [collinear_iff_cross]
    ext <;> simp [V3.cross]
  · obtain ⟨h5, h6⟩ := hsub p hp'
    exact ⟨by rw [← hp]; exact h5, hdom.2.1 p h6⟩
  · obtain ⟨g, hg, hpg⟩ := k2 p (by rw [hp]; exact hp') (by
      obtain ⟨e, he, hin⟩ := inside_near hi
      exact ⟨e, he, fun q hq => hdom.2.2 q (hin q hq)⟩)
    rw [List.mem_singleton.1 hg] at hpg
    exact hpg

include hB in
theorem shapeTol_pos {f : Shape} (hf : InSomeBox f.points) (h : ∃ p ∈ f.points, ∃ q ∈ f.points, p ≠ q) : 0 < shapeTol T.lib f := by
  obtain ⟨p, hp, q, hq, hne⟩ := h
  exact mul_pos (len_pos_of_box (hB f hf p hp) (hB f hf q hq) hne) confusion_pos

include hK hB in
theorem pair_kept {d an : ℝ} {x y : DistArg} {c e : Polygon} (hx : FractureOf T c x) (hy : FractureOf T e y)
    (h : Compatible (libraryEngine T.lib) d an 0.1 0.1 x y) : PartsKept T.lib d an x y := by
  rintro f g n m rfl rfl hf hg hops
  obtain ⟨f', _, e1, _, hne, _⟩ := hx
  obtain ⟨g', _, e2, _, hne', _⟩ := hy
  cases e1
  cases e2
  exact accepted_faces hK hB hf hg hops (lt_min (shapeTol_pos hB hf.bounded hne) (shapeTol_pos hB hg.bounded hne'))
    (.inr ⟨rfl, _, _, rfl, rfl, rfl⟩) h

include hK hB in
theorem boundary_kept {an : ℝ} {b : Shape} {B : Set V3} (hb : b.kind = .face) (hbp : b.points = B) (hbb : InSomeBox B)
    (hne : ∃ p ∈ B, ∃ q ∈ B, p ≠ q) {x : DistArg} {c : Polygon} (hx : FractureOf T c x)
    (h : Compatible (libraryEngine T.lib) 1 an 0.1 0.1 (.shape b) x) : BoundaryKept T.lib b B x := by
  rintro f rfl hops
  obtain ⟨f', n, e1, hf, hnf, _⟩ := hx
  cases e1
  subst hbp
  have he : 0 < pairTol T.lib b f := lt_min (shapeTol_pos hB hbb hne) (shapeTol_pos hB hf.bounded hnf)
  by_cases hd : ∀ p ∈ b.points, p ∉ f.points
  · right
    obtain ⟨r, hr, hacc⟩ := h
    have hi : intersect T.lib.isk (.shape b) (.shape f) (pairTol T.lib b f) = .val (.geoms r) :=
      used_intersect (L := T.lib) (c := ⟨some 1, some an, some 0.1, some 0.1, none, false⟩) (a := .shape b) (b := .shape f)
        (.inr ⟨rfl, _, _, rfl, rfl, rfl⟩) hr
    have hr0 : r = .list [.empty] := by
      rcases C77_faces T.lib.isk hK hB b f hb hf.kind hbb hf.bounded _ he with h | ⟨_, h⟩
      · rw [hi] at h
        obtain ⟨h1, h2, h3⟩ := (faces_empty hops he).2 hd
        rcases faceFace_list (T.lib.isk.faceOps b f (pairTol T.lib b f)) T.lib.isk.ends (pairTol T.lib b f) with ⟨h0, _⟩ | ⟨hn, hmem⟩
        · rw [h0] at h
          simpa using h
        · exfalso
          obtain ⟨x, hx⟩ := List.exists_mem_of_ne_nil _ hn
          have := (hmem x).1 hx
          rw [h1, h2, h3] at this
          simp at this
      · rw [hi] at h
        simpa using h
    rcases hacc with ⟨_, h⟩ | ⟨h, _⟩
    · obtain ⟨v, hv, hle⟩ := h 1 rfl
      intro p hp q hq
      exact hle.trans ((C73_distance T.lib.isk.shapes hK (.shape b) (.shape f) trivial trivial (fun h => h) v hv).1 p hp q hq)
    · exact absurd (by rw [hr0]; intro x hx; exact List.mem_singleton.1 hx) h
  · left
    push Not at hd
    obtain ⟨p, h1, h2⟩ := hd
    exact ⟨p, h2, h1⟩

include hK in
/-- The parts of an intersection keep the distance computed for it. -/
theorem clear_parts {vs : List V3} {gs : List IsGeom} (h : ClearOf (tunnelModel T domain tun sph lat) vs (.list gs)) {v : V3}
    (hv : v ∈ vs) {x : IsGeom} (hx : x ∈ gs) {a : DistArg} (ha : partArg T x = .val a) (hval : ValidArg a)
    (hps : ¬ PointSegment (.shape ⟨.vertex, {v}, ∅⟩) a) : ∀ q ∈ argPoints a, 1e-3 ≤ Spec.dist v q := by
  obtain ⟨d, hd, hle⟩ := h v hv
  have hd : distLoop (vertexDistance T v) doubleMax gs = .val d := hd
  have hall := distLoop_all hd
  obtain ⟨r, hr, _, hmin, _⟩ := distLoop_spec (vertexDistance T v) gs doubleMax hall
  rw [hd] at hr
  obtain rfl := Outcome.val.inj hr
  have hxv := hall x hx
  unfold vertexDistance at hxv
  rw [ha, Outcome.val_bind] at hxv
  cases hc : computeDistance T.lib.isk.shapes (.shape ⟨.vertex, {v}, ∅⟩) a with
  | val d' =>
    intro q hq
    have h1 := (C73_distance T.lib.isk.shapes hK (.shape ⟨.vertex, {v}, ∅⟩) a trivial hval hps d' hc).1 v rfl q hq
    have h2 := hmin x hx d' (by unfold vertexDistance; rw [ha, Outcome.val_bind, hc])
    linarith
  | thrown e => rw [hc] at hxv; cases hxv
  | nan => rw [hc] at hxv; cases hxv
  | ub => rw [hc] at hxv; cases hxv

include hK hB hT in
theorem crosses {c : Polygon} (hc : ProperPolygon c) {x : DistArg} {e : Polygon} (hx : FractureOf T e x) {is : IsResult}
    (h : (tunnelModel T domain tun sph lat).isEntity c x = .val is) (hn : ¬ NoIntersection is)
    (h1 : ClearOf (tunnelModel T domain tun sph lat) ((tunnelModel T domain tun sph lat).vertices c) is)
    (h2 : ClearOf (tunnelModel T domain tun sph lat) ((tunnelModel T domain tun sph lat).verticesOf x) is) : Crosses T c x := by
  rintro s g a n m hs rfl ha hapos hf hg hops
  obtain ⟨g', m', e1, hg', hng, _⟩ := hx
  cases e1
  have he1 : (0 : ℝ) < 0.5 * Real.sqrt a * confusion :=
    mul_pos (mul_pos (by norm_num) (Real.sqrt_pos.2 hapos)) confusion_pos
  have he : 0 < min (0.5 * Real.sqrt a * confusion) (shapeTol T.lib g) := lt_min he1 (shapeTol_pos hB hg.bounded hng)
  obtain ⟨r, hr, h⟩ := Outcome.bind_eq_val.1 h
  have hr : (isArgEpsilon T.lib.isk (.geom (.polygon c)) >>= fun eps1 => isArgEpsilon T.lib.isk (.shape g) >>= fun eps2 =>
    intersect T.lib.isk (.geom (.polygon c)) (.shape g) (min eps1 eps2)) = .val r := hr
  have e1 : isArgEpsilon T.lib.isk (.geom (.polygon c)) = .val (0.5 * Real.sqrt a * confusion) := by
    show (c.area >>= fun a => pure (0.5 * Real.sqrt a * confusion)) = _
    rw [ha]; rfl
  have e2 : isArgEpsilon T.lib.isk (.shape g) = .val (shapeTol T.lib g) := rfl
  rw [e1, e2, Outcome.val_bind, Outcome.val_bind] at hr
  set eps := min (0.5 * Real.sqrt a * confusion) (shapeTol T.lib g) with heps
  obtain ⟨hi, hp⟩ := C77_geometry_face T.lib.isk hK (.polygon c) g s hg.kind hc.1 (by simp only [typeOf]; decide) hs eps
  rw [hi] at hr
  have hni : ∀ l, r = .geoms (.list l) → is = .list l := by
    rintro l rfl
    exact (Outcome.val.inj h).symm
  rcases C77_faces T.lib.isk hK hB s g hf.kind hg.kind hf.bounded hg.bounded eps he with h0 | ⟨_, h0⟩
  · rw [hr] at h0
    have his := hni _ (Outcome.val.inj h0)
    subst his
    rcases faceFace_list (T.lib.isk.faceOps s g eps) T.lib.isk.ends eps with ⟨h3, _⟩ | ⟨hne, hmem⟩
    · exact absurd (by rw [h3]; intro x hx; exact List.mem_singleton.1 hx) hn
    have hcommon : ¬ ∀ p ∈ s.points, p ∉ g.points := by
      intro h0
      obtain ⟨h1, h2, h3⟩ := (faces_empty hops he).2 h0
      obtain ⟨x, hx⟩ := List.exists_mem_of_ne_nil _ hne
      have := (hmem x).1 hx
      rw [h1, h2, h3] at this
      simp at this
    push Not at hcommon
    obtain ⟨p, hp1, hp2⟩ := hcommon
    refine ⟨⟨p, by rw [← hp]; exact hp1, hp2⟩, fun hnp p hpc hpg v hv => ?_⟩
    have hcf : (T.lib.isk.faceOps s g eps).commonFaces = [] :=
      List.eq_nil_iff_forall_not_mem.2 fun k hk => hnp (faces_parallel hf hg hops hk)
    have away : ∀ x ∈ intersectFaceFace (T.lib.isk.faceOps s g eps) T.lib.isk.ends eps, ∀ b, partArg T x = .val b →
        ValidArg b → ¬ PointSegment (.shape ⟨.vertex, {v}, ∅⟩) b → ∀ q ∈ argPoints b, 1e-3 ≤ Spec.dist v q := by
      intro x hx b hb hval hps
      rcases hv with hv | hv
      · refine clear_parts hK h1 (v := v) ?_ hx hb hval hps
        show v ∈ (match getShape T.lib.isk.shapes (.geom (.polygon c)) with | .val s => T.vertices s | _ => [])
        rw [hs]
        exact hT.corners c s hc.1 hs v (by rw [hp]; exact hv)
      · exact clear_parts hK h2 (v := v) hv hx hb hval hps
    have awayPoint : ∀ q ∈ pointIntersections (T.lib.isk.faceOps s g eps) eps, 1e-3 ≤ Spec.dist v q := by
      intro q hq
      exact away (.point q) ((hmem _).2 (.inl ⟨q, hq, rfl⟩)) (.geom (.point q)) rfl trivial (fun h => h) q rfl
    have awayEdge : ∀ k ∈ edgeIntersections (T.lib.isk.faceOps s g eps), ∀ q ∈ edgePoints T.lib k, 1e-3 ≤ Spec.dist v q := by
      intro k hk q hq
      exact away _ ((hmem _).2 (.inr (.inl ⟨k, hk, rfl⟩))) (.shape (T.edgeShape k)) rfl trivial (fun h => h) q
        (by show q ∈ (T.edgeShape k).points; rw [hT.edges]; exact hq)
    have he2 : eps ≤ 0.5 * Real.sqrt a * confusion := min_le_left _ _
    have near : ∀ q, 1e-3 ≤ Spec.dist v q → Spec.dist p q < eps → 1e-3 - 0.5 * Real.sqrt a * confusion ≤ Spec.dist v p := by
      intro q h1 h2
      have := dist_triangle v p q
      linarith
    rcases hops.covered p (by rw [hp]; exact hpc) hpg with h | ⟨k, hk, hpk⟩ | h
    · exact absurd hcf h
    · have hei : k ∈ edgeIntersections (T.lib.isk.faceOps s g eps) :=
        ((edgeIntersections_spec _).2 k).2 ⟨hk, by rw [hcf]; simp⟩
      have := awayEdge k hei p hpk
      linarith
    · obtain ⟨q, hq, hqe⟩ := pointIntersections_complete _ eps he p (candidate_mem.2 h)
      have hd : Spec.dist p q < eps := by
        unfold pointIsEqual at hqe
        rw [Spec.dist_eq_len]
        rw [← V3.len_mul_self] at hqe
        exact lt_of_mul_self_lt_mul_self₀ he.le hqe
      rcases hq with hq | hq
      · unfold curIsPoints at hq
        rw [hcf] at hq
        obtain ⟨k, hei, hvk⟩ := List.mem_flatMap.1 (by simpa using hq)
        have hk := (((edgeIntersections_spec _).2 k).1 hei).1
        exact near q (awayEdge k hei q ((hops.ends k hk).2.2 q hvk)) hd
      · exact near q (awayPoint q hq) hd
  · rw [hr] at h0
    rw [hni _ (Outcome.val.inj h0)] at hn
    exact absurd (by intro x hx; exact List.mem_singleton.1 hx) hn

end

/-- The surface of the sphere of the example. -/
def sphereSurfacePoints : Set V3 := {p | p.x ^ 2 + p.y ^ 2 + p.z ^ 2 = 25 ^ 2}

/-- The wall of the tunnel. -/
def tunnelWall : Set V3 := {p | Spec.OnTunnelWall p}

/-- `new` contains fractures, each one the part in the domain of a polygon drawn for one of `old`, different ones for
different fractures, and crossing it. -/
def DrawnAt (T : TunnelKernel) (draw : ℕ → DistArg → ℕ → Outcome Polygon) (old new : List DistArg) : Prop :=
  ∃ l : List (DistArg × DistArg), (l.map Prod.fst).Sublist old ∧ l.map Prod.snd = new ∧
    ∀ p ∈ l, ∃ i t c, draw i p.1 t = .val c ∧ FractureOf T c p.2 ∧ Crosses T c p.1

/-- **The network.**  With a geometry kernel the results of which are exact, and proper polygons as draws: the fractures of all sets are
the parts of drawn polygons in the domain, those of the second and third set of polygons that cross the
fracture they have been drawn for, away from its corners; all pairs fulfil the constraints; the fractures meet tunnel and
sphere or keep 1 m from them. -/
theorem C137_network (T : TunnelKernel) (hK : Faithful T.lib.isk.shapes) (hB : BoundsContain T.lib.isk.shapes)
    (hT : ExactTunnel T) (order : SamplingStatus → List (ℕ × ℕ)) (ho : ∀ s, (order s).Perm s.count)
    (ops2 ops3 : List Frackit.Constraints.Op) (d2 d3 : ℝ)
    (h2 : ∀ a b, Frackit.Constraints.evaluate (libraryEngine T.lib) (Frackit.Constraints.run ops2) a b = .val true ↔
      Compatible (libraryEngine T.lib) d2 (5 * Real.pi / 36) 0.1 0.1 a b)
    (h3 : ∀ a b, Frackit.Constraints.evaluate (libraryEngine T.lib) (Frackit.Constraints.run ops3) a b = .val true ↔
      Compatible (libraryEngine T.lib) d3 (5 * Real.pi / 36) 0.1 0.1 a b)
    (draw1 : ℕ → Outcome Polygon) (draw2 draw3 : ℕ → DistArg → ℕ → Outcome Polygon)
    (hd1 : ∀ k c, draw1 k = .val c → ProperPolygon c) (hd2 : ∀ i e t c, draw2 i e t = .val c → ProperPolygon c)
    (hd3 : ∀ i e t c, draw3 i e t = .val c → ProperPolygon c) (n max fuel : ℕ) (N : Network4 DistArg)
    (h : tunnelNetwork T order ops2 ops3 draw1 draw2 draw3 n max fuel = .val (some N)) :
    (N.set1.length = n ∧ N.set2.length ≤ n ∧ N.set3.length ≤ N.set2.length) ∧
    (∀ x ∈ N.set1, ∃ k c, draw1 k = .val c ∧ FractureOf T c x) ∧
    DrawnAt T draw2 N.set1 N.set2 ∧ DrawnAt T draw3 N.set2 N.set3 ∧
    N.set1.Pairwise (PartsKept T.lib 1 (5 * Real.pi / 36)) ∧ N.set2.Pairwise (PartsKept T.lib d2 (5 * Real.pi / 36)) ∧
    N.set3.Pairwise (PartsKept T.lib d3 (5 * Real.pi / 36)) ∧
    (∀ a ∈ N.set1, ∀ b ∈ N.set2 ++ N.set3, PartsKept T.lib 0.25 (Real.pi / 6) a b) ∧
    (∀ a ∈ N.set2, ∀ b ∈ N.set3, PartsKept T.lib 0.25 (Real.pi / 6) a b) ∧
    (∃ tun sph, tun.kind = .face ∧ tun.points = tunnelWall ∧ sph.kind = .face ∧ sph.points = sphereSurfacePoints ∧
      ∀ x ∈ N.set1 ++ N.set2 ++ N.set3, BoundaryKept T.lib tun tunnelWall x ∧ BoundaryKept T.lib sph sphereSurfacePoints x) ∧
    ∃ fs : List Shape, N.set1 ++ N.set2 ++ N.set3 = fs.map .shape ∧ N.area = (fs.map T.area).sum := by
  unfold tunnelNetwork at h
  obtain ⟨dom, hdom, h⟩ := Outcome.bind_eq_val.1 h
  obtain ⟨sph, hsph, h⟩ := Outcome.bind_eq_val.1 h
  obtain ⟨cyl, hcyl, h⟩ := Outcome.bind_eq_val.1 h
  obtain ⟨lat, hlat, h⟩ := Outcome.bind_eq_val.1 h
  obtain ⟨tun, htun, h⟩ := Outcome.bind_eq_val.1 h
  have hdom := C137_domain T hK hT dom hdom
  obtain ⟨⟨l1, l2, l3⟩, m1, m2, m3, c12, c13, c23, bd, at1, at2, at3, har⟩ :=
    C64_network _ order ho ops2 ops3 d2 d3 h2 h3 draw1 draw2 draw3 n max fuel N h
  -- the boundaries
  obtain ⟨k1, hsph⟩ : sph.kind = .face ∧ sph.points = sphereSurfacePoints := by
    obtain ⟨s, hs, hsph⟩ := Outcome.bind_eq_val.1 hsph
    exact hT.sphereFace s sph hs (by rw [onlyOne_val hsph]; simp)
  have htun' : tun.kind = .face ∧ tun.points = tunnelWall := by
    obtain ⟨cyl', hc', hv, v1, v2, v3, v4⟩ := tunnel4_spec
    rw [hc'] at hcyl
    obtain rfl := Outcome.val.inj hcyl
    obtain ⟨k, hk, hlat⟩ := Outcome.bind_eq_val.1 hlat
    rw [v1, v2, v3] at hk
    obtain ⟨⟨k', s, e1, e2, hs⟩, -⟩ := C69_surface_construction ⟨-25, 0, 0⟩ ⟨1, 0, 0⟩ 5 50 (by norm_num [Spec.IsUnit])
    rw [hk] at e1
    obtain rfl := Outcome.val.inj e1
    rw [v4, e2] at hlat
    obtain rfl := Outcome.val.inj hlat
    have hr := hs.radius
    have hh := hs.height
    obtain ⟨p1, p2⟩ := C72_shape_partial _ hK (.cylinderSurface s)
      ⟨⟨-25, 0, 0⟩, ⟨1, 0, 0⟩, by rw [hr, hh]; exact hs, by rw [hr]; norm_num, by rw [hh]; norm_num⟩ tun htun
    refine ⟨by simpa [KindFits, AnyGeometry.dimension] using p2, ?_⟩
    rw [p1]
    ext p
    show Spec.OnLateral s.bottom.center s.bottom.normal s.radius s.height p ↔ _
    rw [hs.bottom_center, hs.bottom_normal, hr, hh]
    exact onTunnel_iff p
  obtain ⟨k2, htun'⟩ := htun'
  have wallBox : InSomeBox tunnelWall := ⟨⟨-25, -5, -5⟩, ⟨25, 5, 5⟩, fun p ⟨hx, hyz⟩ => by
    have hy := abs_le.1 (abs_le_of_sq_le_sq (a := p.y) (b := 5) (by nlinarith [sq_nonneg p.z]) (by norm_num))
    have hz := abs_le.1 (abs_le_of_sq_le_sq (a := p.z) (b := 5) (by nlinarith [sq_nonneg p.y]) (by norm_num))
    exact ⟨hx.1, hx.2, hy.1, hy.2, hz.1, hz.2⟩⟩
  have sphBox : InSomeBox sphereSurfacePoints := ⟨⟨-25, -25, -25⟩, ⟨25, 25, 25⟩, fun p hp => by
    have hp : p.x ^ 2 + p.y ^ 2 + p.z ^ 2 = 25 ^ 2 := hp
    have hx := abs_le.1 (abs_le_of_sq_le_sq (a := p.x) (b := 25) (by nlinarith [sq_nonneg p.y, sq_nonneg p.z]) (by norm_num))
    have hy := abs_le.1 (abs_le_of_sq_le_sq (a := p.y) (b := 25) (by nlinarith [sq_nonneg p.x, sq_nonneg p.z]) (by norm_num))
    have hz := abs_le.1 (abs_le_of_sq_le_sq (a := p.z) (b := 25) (by nlinarith [sq_nonneg p.y, sq_nonneg p.x]) (by norm_num))
    exact ⟨hx.1, hx.2, hy.1, hy.2, hz.1, hz.2⟩⟩
  have wallTwo : ∃ p ∈ tunnelWall, ∃ q ∈ tunnelWall, p ≠ q :=
    ⟨⟨0, 5, 0⟩, ⟨by norm_num, by norm_num⟩, ⟨1, 5, 0⟩, ⟨by norm_num, by norm_num⟩, by simp⟩
  have sphTwo : ∃ p ∈ sphereSurfacePoints, ∃ q ∈ sphereSurfacePoints, p ≠ q :=
    ⟨⟨25, 0, 0⟩, by show (_ : ℝ) = _; norm_num, ⟨0, 25, 0⟩, by show (_ : ℝ) = _; norm_num, by simp⟩
  -- the fractures
  have fr1 : ∀ x ∈ N.set1, ∃ k c, draw1 k = .val c ∧ FractureOf T c x := by
    intro x hx
    obtain ⟨a, c, is, ⟨k, hk⟩, _, _, _, hp⟩ := at1 x hx
    exact ⟨k, c, hk, (part_fracture hK hT hdom (hd1 k c hk) hp).1⟩
  have drawn : ∀ {draw : ℕ → DistArg → ℕ → Outcome Polygon} {old new : List DistArg},
      (∀ i e t c, draw i e t = .val c → ProperPolygon c) → (∀ x ∈ old, ∃ c, FractureOf T c x) →
      Attached (tunnelModel T dom tun sph lat) draw old new → DrawnAt T draw old new ∧ ∀ x ∈ new, ∃ c, FractureOf T c x := by
    rintro draw old new hd hold ⟨l, hsub, hl, hall⟩
    have key : ∀ p ∈ l, ∃ i t c, draw i p.1 t = .val c ∧ FractureOf T c p.2 ∧ Crosses T c p.1 := by
      intro p hp
      obtain ⟨a, c, is, ⟨i, t, hc⟩, h1, h2, h3, h4, h5⟩ := hall p hp
      obtain ⟨e, he⟩ := hold p.1 (hsub.subset (List.mem_map_of_mem hp))
      exact ⟨i, t, c, hc, (part_fracture hK hT hdom (hd _ _ _ _ hc) h5).1,
        crosses hK hB hT (hd _ _ _ _ hc) he h1 h2 h3 h4⟩
    refine ⟨⟨l, hsub, hl, key⟩, fun x hx => ?_⟩
    rw [← hl] at hx
    obtain ⟨p, hp, rfl⟩ := List.mem_map.1 hx
    obtain ⟨_, _, c, _, h, _⟩ := key p hp
    exact ⟨c, h⟩
  have f1 : ∀ x ∈ N.set1, ∃ c, FractureOf T c x := fun x hx => by
    obtain ⟨_, c, _, h⟩ := fr1 x hx
    exact ⟨c, h⟩
  obtain ⟨dr2, f2⟩ := drawn hd2 f1 at2
  obtain ⟨dr3, f3⟩ := drawn hd3 f2 at3
  have fall : ∀ x ∈ N.set1 ++ N.set2 ++ N.set3, ∃ c, FractureOf T c x := by
    intro x hx
    simp only [List.mem_append] at hx
    rcases hx with (hx | hx) | hx
    · exact f1 x hx
    · exact f2 x hx
    · exact f3 x hx
  have pw : ∀ {l : List DistArg} {d : ℝ}, (∀ x ∈ l, ∃ c, FractureOf T c x) →
      MutuallyCompatible (libraryEngine T.lib) d (5 * Real.pi / 36) 0.1 0.1 l → l.Pairwise (PartsKept T.lib d (5 * Real.pi / 36)) := by
    intro l d hf hm
    rw [List.pairwise_iff_getElem]
    intro i j hi hj hij
    obtain ⟨c, hc⟩ := hf _ (List.getElem_mem hi)
    obtain ⟨e, he⟩ := hf _ (List.getElem_mem hj)
    exact pair_kept hK hB hc he (hm i j hi hj hij)
  refine ⟨⟨l1, l2, l3⟩, fr1, dr2, dr3, pw f1 m1, pw f2 m2, pw f3 m3, ?_, ?_, ⟨tun, sph, k2, htun', k1, hsph, ?_⟩, ?_⟩
  · intro a ha b hb
    obtain ⟨c, hc⟩ := f1 a ha
    rcases List.mem_append.1 hb with hb | hb
    · obtain ⟨e, he⟩ := f2 b hb
      exact pair_kept hK hB hc he (c12 a ha b hb)
    · obtain ⟨e, he⟩ := f3 b hb
      exact pair_kept hK hB hc he (c13 a ha b hb)
  · intro a ha b hb
    obtain ⟨c, hc⟩ := f2 a ha
    obtain ⟨e, he⟩ := f3 b hb
    exact pair_kept hK hB hc he (c23 a ha b hb)
  · intro x hx
    obtain ⟨c, hc⟩ := fall x hx
    exact ⟨boundary_kept hK hB k2 htun' wallBox wallTwo hc (bd x hx).1,
      boundary_kept hK hB k1 hsph sphBox sphTwo hc (bd x hx).2⟩
  · obtain ⟨fs, hfs⟩ : ∃ fs : List Shape, N.set1 ++ N.set2 ++ N.set3 = fs.map .shape := by
      have : ∀ l : List DistArg, (∀ x ∈ l, ∃ c, FractureOf T c x) → ∃ fs : List Shape, l = fs.map .shape := by
        intro l
        induction l with
        | nil => exact fun _ => ⟨[], rfl⟩
        | cons x t ih =>
          intro hl
          obtain ⟨fs, rfl⟩ := ih fun y hy => hl y (List.mem_cons_of_mem _ hy)
          obtain ⟨_, f, _, rfl, _⟩ := hl x (by simp)
          exact ⟨f :: fs, rfl⟩
      exact this _ fall
    refine ⟨fs, hfs, ?_⟩
    rw [har, hfs, List.map_map]
    rfl

/-- Example 4 as it is. -/
theorem C137_example4 (T : TunnelKernel) (hK : Faithful T.lib.isk.shapes) (hB : BoundsContain T.lib.isk.shapes)
    (hT : ExactTunnel T) (order : SamplingStatus → List (ℕ × ℕ)) (ho : ∀ s, (order s).Perm s.count)
    (draw1 : ℕ → Outcome Polygon) (draw2 draw3 : ℕ → DistArg → ℕ → Outcome Polygon)
    (hd1 : ∀ k c, draw1 k = .val c → ProperPolygon c) (hd2 : ∀ i e t c, draw2 i e t = .val c → ProperPolygon c)
    (hd3 : ∀ i e t c, draw3 i e t = .val c → ProperPolygon c) (fuel : ℕ) (N : Network4 DistArg)
    (h : tunnelNetwork T order ops42 ops43 draw1 draw2 draw3 75 500 fuel = .val (some N)) :
    (N.set1.length = 75 ∧ N.set2.length ≤ 75 ∧ N.set3.length ≤ N.set2.length) ∧
    (∀ x ∈ N.set1, ∃ k c, draw1 k = .val c ∧ FractureOf T c x) ∧
    DrawnAt T draw2 N.set1 N.set2 ∧ DrawnAt T draw3 N.set2 N.set3 ∧
    N.set1.Pairwise (PartsKept T.lib 1 (5 * Real.pi / 36)) ∧ N.set2.Pairwise (PartsKept T.lib 0.15 (5 * Real.pi / 36)) ∧
    N.set3.Pairwise (PartsKept T.lib 1 (5 * Real.pi / 36)) ∧
    (∀ a ∈ N.set1, ∀ b ∈ N.set2 ++ N.set3, PartsKept T.lib 0.25 (Real.pi / 6) a b) ∧
    (∀ a ∈ N.set2, ∀ b ∈ N.set3, PartsKept T.lib 0.25 (Real.pi / 6) a b) ∧
    (∃ tun sph, tun.kind = .face ∧ tun.points = tunnelWall ∧ sph.kind = .face ∧ sph.points = sphereSurfacePoints ∧
      ∀ x ∈ N.set1 ++ N.set2 ++ N.set3, BoundaryKept T.lib tun tunnelWall x ∧ BoundaryKept T.lib sph sphereSurfacePoints x) ∧
    ∃ fs : List Shape, N.set1 ++ N.set2 ++ N.set3 = fs.map .shape ∧ N.area = (fs.map T.area).sum :=
  C137_network T hK hB hT order ho ops42 ops43 _ _ evaluate_ops42 evaluate_ops43 draw1 draw2 draw3 hd1 hd2 hd3 75 500 fuel N h

/-- The example asks for the distance of a corner to a part of an intersection only if there is one; if it did so for an
empty intersection the program would end with an exception, it never continues with a distance. -/
theorem C137_empty_part (T : TunnelKernel) (v : V3) : (vertexDistance T v .empty).isThrown ∧
    ∀ part, (vertexDistance T v part).isVal → part ≠ .empty := by
  refine ⟨by simp [vertexDistance, partArg], ?_⟩
  rintro part h rfl
  simp [vertexDistance, partArg, Outcome.isVal] at h

end Props
