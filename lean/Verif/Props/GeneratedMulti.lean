import Verif.Props.GeneratedNetwork
import Verif.Props.DiskSampler

/-!
# C126 The networks of disks and quadrilaterals generated by example 3 fulfil the constraints geometrically
-/

namespace Props
open Verif Frackit Lemmas
open Spec.Constraints (config Config parts NoIntersection AtLeast PointOk AcceptBy NotLess BoundaryOkBy)

/-- A fracture no larger than `R` in a plane with unit normal `n`: a disk, or a regular quadrilateral. -/
inductive Fracture (R : ℝ) : DistArg → V3 → Prop
  | disk (d : Elliptical) (h : ValidElliptical d) (hm : d.minLen ≤ d.majLen) (hR : d.majLen ≤ R) :
      Fracture R (.geom (.disk d)) d.normal
  | quad (q : Quadrilateral) (n : V3) (h : RegularQuad n q)
      (hR : ∀ s ∈ Spec.polyEdges [q.p0, q.p1, q.p3, q.p2], Spec.dist s.1 s.2 ≤ R) :
      Fracture R (.geom (.quadrilateral q)) n

/-- The default tolerance of a disk. -/
noncomputable def diskEps (d : Elliptical) : ℝ := confusion * 0.5 * (d.majLen + d.minLen)

/-- The boolean operations and the line of intersection of the planes are exact for two disks, or the planes are
parallel. -/
def ExactDisks (I : IsKernel) (d1 d2 : Elliptical) (eps : ℝ) : Prop :=
  gpIsParallel d1.normal d2.normal angular ∨
    ∃ l, ExactLine I.algo d1.supportingPlane d2.supportingPlane eps l ∧
      ExactCut (diskFace d1 (I.ops (.disk d1))) (Elliptical.region d1)
        (probingSegment d1.center l (diskDiskCharLength d1 d2)) (0.1 * eps) ∧
      ExactCut (diskFace d2 (I.ops (.disk d2))) (Elliptical.region d2)
        (probingSegment d2.center l (diskDiskCharLength d1 d2)) (0.1 * eps)

/-- The same for a quadrilateral and a disk. -/
def ExactQuadDisk (I : IsKernel) (q : Quadrilateral) (d : Elliptical) (eps : ℝ) : Prop :=
  ∀ f, quadFace q (I.ops (.quadrilateral q)) = .val f →
    gpIsParallel f.plane.normal d.normal angular ∨
      ∃ l, ExactLine I.algo f.plane d.supportingPlane eps l ∧
        ExactCut f (Spec.InHull [q.p0, q.p1, q.p2, q.p3]) (probingSegment f.center l (quadDiskCharLength q d))
          (0.1 * eps) ∧
        ExactCut (diskFace d (I.ops (.disk d))) (Elliptical.region d)
          (probingSegment d.center l (quadDiskCharLength q d)) (0.1 * eps)

/-- The library computes the intersection of two fractures exactly. -/
def ExactFractures (I : IsKernel) : DistArg → DistArg → Prop
  | .geom (.disk d), .geom (.disk e) => ExactDisks I d e (min (diskEps d) (diskEps e))
  | .geom (.quadrilateral q), .geom (.disk d) => ExactQuadDisk I q d (min (quadEps q) (diskEps d))
  | .geom (.disk d), .geom (.quadrilateral q) => ExactQuadDisk I q d (min (quadEps q) (diskEps d))
  | .geom (.quadrilateral q), .geom (.quadrilateral r) => ExactQuads I q r (min (quadEps q) (quadEps r))
  | _, _ => False

theorem diskEps_default {K : ShapeKernel} {d : Elliptical} (h : ValidElliptical d) :
    defaultEpsilon K (.geom (.disk d)) = .val (diskEps d) := by
  simp only [defaultEpsilon, boundingEllipse_val h, Outcome.val_bind]; rfl

theorem diskEps_pos {d : Elliptical} (h : ValidElliptical d) : 0 < diskEps d := by
  have := h.maj_pos
  have := h.min_pos
  simp only [diskEps, confusion]
  positivity

theorem diskEps_le {d : Elliptical} (hm : d.minLen ≤ d.majLen) : diskEps d ≤ 1 / 10 ^ 7 * d.majLen := by
  have e : diskEps d = 1 / 10 ^ 7 * (0.5 * (d.majLen + d.minLen)) := by simp only [diskEps, confusion]; ring
  rw [e]
  linarith

theorem quadEps_pos {n : V3} {q : Quadrilateral} (h : RegularQuad n q) : 0 < quadEps q := by
  have := Real.sqrt_pos.2 h.area_pos
  unfold quadEps
  have : 0 < confusion := by norm_num [confusion]
  positivity

theorem quadEps_edges {n : V3} {q : Quadrilateral} (h : RegularQuad n q) {R : ℝ}
    (hR : ∀ s ∈ Spec.polyEdges [q.p0, q.p1, q.p3, q.p2], Spec.dist s.1 s.2 ≤ R) : quadEps q ≤ 1 / 10 ^ 7 * R := by
  have edge : ∀ s ∈ Spec.polyEdges [q.p0, q.p1, q.p3, q.p2], (s.2 - s.1).len ≤ R := by
    intro s hs
    have := hR s hs
    rwa [Spec.dist_comm, Spec.dist_eq_len] at this
  have edge' : ∀ s ∈ Spec.polyEdges [q.p0, q.p1, q.p3, q.p2], (s.1 - s.2).len ≤ R := by
    intro s hs
    have := hR s hs
    rwa [Spec.dist_eq_len] at this
  have h0 : 0 ≤ R := (V3.len_nonneg _).trans (edge (q.p0, q.p1) (by simp [Spec.polyEdges]))
  have := quadEps_le q.p0 q.p1 q.p2 q.p3 R h0 (by
    rw [← h.made]
    intro e he
    simp only [Frackit.quadEdges, List.mem_cons, List.not_mem_nil, or_false] at he
    rcases he with rfl | rfl | rfl | rfl
    · exact edge (q.p0, q.p1) (by simp [Spec.polyEdges])
    · exact edge (q.p1, q.p3) (by simp [Spec.polyEdges])
    · exact edge' (q.p2, q.p0) (by simp [Spec.polyEdges])
    · exact edge' (q.p3, q.p2) (by simp [Spec.polyEdges]))
  rw [← h.made] at this
  refine this.trans (le_of_eq ?_)
  simp only [confusion]
  ring

theorem quad_planarEntity {L : LibraryKernel} (hS : SoundShapes L.isk.shapes) {n : V3} {q : Quadrilateral} (h : RegularQuad n q)
    {R : ℝ} (hR : ∀ s ∈ Spec.polyEdges [q.p0, q.p1, q.p3, q.p2], Spec.dist s.1 s.2 ≤ R) {pl : Plane}
    (hp : q.plane = .val pl) (hc : ∀ c ∈ [q.p0, q.p1, q.p2, q.p3], Spec.OnPlane pl.supp pl.normal c) :
    PlanarEntity L (.geom (.quadrilateral q)) pl (quadTol R q) := by
  have := quad_entity (L := L) hS.total (pl := pl) (tol := quadTol R q) (p0 := q.p0) (p1 := q.p1)
    (p2 := q.p2) (p3 := q.p3) (by rw [← h.made]; exact hp) h.figure hc
    (by rw [← h.made]; exact quadTol_edge hR)
  rw [← h.made] at this
  exact this

theorem meeting_swap {L : LibraryKernel} {eps : ℝ} {a b : DistArg} {p q : Plane} {tA tB : BoundaryTol}
    (hab : typeOf a.toIs ≠ typeOf b.toIs) (h : PlanarMeeting L eps a b p q tA tB) : PlanarMeeting L eps b a q p tB tA := by
  rcases h with ⟨l, h⟩ | h
  · exact .inl ⟨l, .swap a b p q tA tB hab h⟩
  · exact .inr ⟨h.second, h.first, fun r hr => h.result r (by rw [C77_order _ _ _ _ hab]; exact hr)⟩

theorem disks_meet {L : LibraryKernel} (hS : SoundShapes L.isk.shapes) {d e : Elliptical} (hd : ValidElliptical d)
    (he : ValidElliptical e) (md : d.minLen ≤ d.majLen) (me : e.minLen ≤ e.majLen)
    (hx : ExactDisks L.isk d e (min (diskEps d) (diskEps e))) :
    PlanarMeeting L (min (diskEps d) (diskEps e)) (.geom (.disk d)) (.geom (.disk e)) d.supportingPlane e.supportingPlane
      (diskTol d) (diskTol e) := by
  rcases hx with hpar | ⟨l, hl, h1, h2⟩
  · refine .inr ⟨disk_entity hS.faithful hS.total hd, disk_entity hS.faithful hS.total he, fun r hr => ?_⟩
    rcases preChecked_cases (show preChecked _ _ _ _ _ _ = _ from hr) with h | h
    · exact h
    · obtain ⟨g, hg, h⟩ := Outcome.bind_eq_val.1 h
      cases h
      congr 2
      unfold intersectDiskDisk at hg
      exact parallel_empty (f1 := diskFace d (L.isk.ops (.disk d))) (f2 := diskFace e (L.isk.ops (.disk e))) hpar hg
  · refine .inl ⟨l, .disks d e hd he md me ?_ hl h1 h2⟩
    have := (min_le_left _ _ : min (diskEps d) (diskEps e) ≤ _).trans (diskEps_le md)
    have h3 : d.majLen ≤ diskDiskCharLength d e := le_max_left _ _
    have := hd.maj_pos
    linarith

theorem quadDiskChar_ge (q : Quadrilateral) (d : Elliptical) : d.majLen ≤ quadDiskCharLength q d := by
  unfold quadDiskCharLength
  apply Real.le_sqrt_of_sq_le
  rw [sq]
  exact (foldl_max_ge Segment.squaredLength (Frackit.quadEdges q) _).1

theorem quadDisk_meet {L : LibraryKernel} (hS : SoundShapes L.isk.shapes) {n : V3} {q : Quadrilateral} (hq : RegularQuad n q)
    {R : ℝ} (hR : ∀ s ∈ Spec.polyEdges [q.p0, q.p1, q.p3, q.p2], Spec.dist s.1 s.2 ≤ R)
    {d : Elliptical} (hd : ValidElliptical d) (md : d.minLen ≤ d.majLen)
    (hx : ExactQuadDisk L.isk q d (min (quadEps q) (diskEps d))) :
    ∃ p, (p.normal = n ∨ p.normal = -n) ∧
      PlanarMeeting L (min (quadEps q) (diskEps d)) (.geom (.quadrilateral q)) (.geom (.disk d)) p d.supportingPlane
        (quadTol R q) (diskTol d) := by
  obtain ⟨f, hf⟩ := hq.face (L.isk.ops (.quadrilateral q))
  obtain ⟨pl, hp, hc, hn⟩ := hq.exists_plane
  have e : pl = f.plane := Outcome.val.inj (hp.symm.trans (quadFace_parts hf).1)
  subst e
  refine ⟨f.plane, hn, ?_⟩
  rcases hx f hf with hpar | ⟨l, hl, h1, h2⟩
  · refine .inr ⟨quad_planarEntity hS hq hR hp hc, disk_entity hS.faithful hS.total hd, fun r hr => ?_⟩
    rcases preChecked_cases (show preChecked _ _ _ _ _ _ = _ from hr) with h | h
    · exact h
    · obtain ⟨g, hg, h⟩ := Outcome.bind_eq_val.1 h
      cases h
      congr 2
      unfold intersectQuadDisk at hg
      rw [hf, Outcome.val_bind] at hg
      exact parallel_empty (f1 := f) (f2 := diskFace d (L.isk.ops (.disk d))) hpar hg
  · refine .inl ⟨l, ?_⟩
    have hle : min (quadEps q) (diskEps d) ≤ 18 * quadDiskCharLength q d := by
      have := (min_le_right _ _ : min (quadEps q) (diskEps d) ≤ _).trans (diskEps_le md)
      have := quadDiskChar_ge q d
      have := hd.maj_pos
      linarith
    have := MeetExactly.quadrilateralDisk (I := L.isk) (eps := min (quadEps q) (diskEps d)) (l := l)
      q.p0 q.p1 q.p2 q.p3 d f (quadTol R q)
      (by rw [← hq.made]; exact hf) hq.figure hc (by rw [← hq.made]; exact quadTol_edge hR) hd md
      (by rw [← hq.made]; exact hle) hl (by rw [← hq.made]; exact h1) (by rw [← hq.made]; exact h2)
    rw [← hq.made] at this
    exact this

/-- The default tolerance of a fracture. -/
noncomputable def fractureEps : DistArg → ℝ
  | .geom (.disk d) => diskEps d
  | .geom (.quadrilateral q) => quadEps q
  | _ => 0

theorem Fracture.eps {R : ℝ} {x : DistArg} {n : V3} (h : Fracture R x n) (K : ShapeKernel) :
    defaultEpsilon K x = .val (fractureEps x) ∧ 0 < fractureEps x ∧ fractureEps x ≤ 1 / 10 ^ 7 * R := by
  cases h with
  | disk d h hm hR => exact ⟨diskEps_default h, diskEps_pos h, (diskEps_le hm).trans (by linarith)⟩
  | quad q n h hR => exact ⟨rfl, quadEps_pos h, quadEps_edges h hR⟩

theorem fractures_meet {L : LibraryKernel} (hS : SoundShapes L.isk.shapes) {R : ℝ} {x y : DistArg} {n m : V3}
    (hx : Fracture R x n) (hy : Fracture R y m) (he : ExactFractures L.isk x y) :
    ∃ p q tA tB, (p.normal = n ∨ p.normal = -n) ∧ (q.normal = m ∨ q.normal = -m) ∧
      tA.near ≤ 2 / 10 ^ 7 * R ∧ tB.near ≤ 2 / 10 ^ 7 * R ∧
      PlanarMeeting L (min (fractureEps x) (fractureEps y)) x y p q tA tB := by
  have dt : ∀ {d : Elliptical}, ValidElliptical d → d.minLen ≤ d.majLen → d.majLen ≤ R → (diskTol d).near ≤ 2 / 10 ^ 7 * R := by
    intro d h hm hR
    have h1 : (diskTol d).near = diskEps d := rfl
    have := diskEps_le hm
    have := h.maj_pos
    rw [h1]
    linarith
  have qt : ∀ {q : Quadrilateral} {n : V3}, RegularQuad n q →
      (∀ s ∈ Spec.polyEdges [q.p0, q.p1, q.p3, q.p2], Spec.dist s.1 s.2 ≤ R) → (quadTol R q).near ≤ 2 / 10 ^ 7 * R := by
    intro q n h hR
    have h1 : (quadTol R q).near = quadEps q + 1 / 10 ^ 7 * R := rfl
    have := quadEps_edges h hR
    rw [h1]
    linarith
  cases hx with
  | disk d hd md Rd =>
    cases hy with
    | disk e h2 me Re =>
      exact ⟨_, _, _, _, .inl rfl, .inl rfl, dt hd md Rd, dt h2 me Re, disks_meet hS hd h2 md me he⟩
    | quad q m hq Rq =>
      obtain ⟨p, hp, hm⟩ := quadDisk_meet hS hq Rq hd md he
      refine ⟨d.supportingPlane, p, _, _, .inl rfl, hp, dt hd md Rd, qt hq Rq, ?_⟩
      rw [min_comm]
      exact meeting_swap (by simp [typeOf, DistArg.toIs]) hm
  | quad q n hq Rq =>
    cases hy with
    | disk d hd md Rd =>
      obtain ⟨p, hp, hm⟩ := quadDisk_meet hS hq Rq hd md he
      exact ⟨p, _, _, _, hp, .inl rfl, qt hq Rq, dt hd md Rd, hm⟩
    | quad r m hr Rr =>
      obtain ⟨p, p', hp, hp', hm⟩ := quadrilaterals_meet hS hq hr Rq Rr he
      exact ⟨p, p', _, _, hp, hp', qt hq Rq, qt hr Rr, hm⟩

/-- Two fractures keep the distance `d` or meet in a point or a segment: at an angle of at least `an`, in a segment no
shorter than `mg`, and `bd` away from or on the boundaries, up to a tolerance of 2·10⁻⁷ of their size. -/
def FracturesKeep (R d an mg bd : ℝ) (x y : DistArg) (n m : V3) : Prop :=
  Spec.Fulfilled ⟨some d, some an, some mg, some bd, none, false⟩ (argPoints x) (argPoints y) (boundaryOf x) (boundaryOf y)
    n m (2 / 10 ^ 7 * R) (2 / 10 ^ 7 * R) (2 / 10 ^ 7 * R)

/-- Compatible fractures fulfil the constraints. -/
theorem fractures_fulfil {L : LibraryKernel} (hS : SoundShapes L.isk.shapes) {R : ℝ} {x y : DistArg} {n m : V3}
    (hx : Fracture R x n) (hy : Fracture R y m) (he : ExactFractures L.isk x y) {d an mg bd : ℝ} (hd : 0 < d)
    (hacc : Spec.Network.Compatible (libraryEngine L) d an mg bd x y) : FracturesKeep R d an mg bd x y n m := by
  obtain ⟨p, q, tA, tB, hp, hq, h1, h2, hm⟩ := fractures_meet hS hx hy he
  obtain ⟨e1, p1, l1⟩ := hx.eps L.isk.shapes
  obtain ⟨e2, p2, _⟩ := hy.eps L.isk.shapes
  refine fulfilled_mono (fulfilled_normals (compatible_fulfil hS hm (lt_min p1 p2) hd ⟨_, _, e1, e2, rfl⟩ hacc) hp hq)
    ?_ h1 h2
  have := min_le_left (fractureEps x) (fractureEps y)
  linarith

/-! ### The network of example 3 -/

/-- The entities drawn in example 3 are made by the disk sampler, with major semi-axes of at most `R`, and by the
quadrilateral sampler, with lengths of at most 60. -/
structure FractureDraws {ω : Type} (sort : List V3 → List V3) (R : ℝ) (draw : Appl.Kind → ω → Outcome DistArg × ω) : Prop where
  disk : ∀ w x, (draw .disk w).1 = .val x → ∃ (fuel : ℕ) (d : DiskDraws) (e : Elliptical) (d' : DiskDraws),
    diskSample fuel d = some (.val e, d') ∧ (∀ k, d.major k ≤ R) ∧ x = .geom (.disk e)
  quad : ∀ w x, (draw .quad w).1 = .val x → ∃ d : PolygonDraws, QuadDrawOf 60 d ∧ quadDraw sort d = .val x

/-- The fractures `x`, `y` fulfil the constraints, provided that the library computes their intersection exactly. -/
def FracturesKept (L : LibraryKernel) (R d an mg bd : ℝ) (x y : DistArg) : Prop :=
  ∀ n m, Fracture R x n → Fracture R y m → ExactFractures L.isk x y → ExactFractures L.isk y x →
    FracturesKeep R d an mg bd x y n m

/-- The entity is a disk of the network. -/
def DrawnDisk (R : ℝ) (x : DistArg) : Prop := ∃ e, x = .geom (.disk e) ∧ Fracture R x e.normal

/-- The entity is a quadrilateral made of draws; it is a fracture in the drawn plane if it is ordinary. -/
def DrawnQuadrilateral (sort : List V3 → List V3) (R : ℝ) (x : DistArg) : Prop :=
  ∃ (d : PolygonDraws) (q : Quadrilateral), QuadDrawOf 60 d ∧ MadeOf sort d x q ∧
    (Ordinary d.strikeAngle d.dipAngle q → Fracture R x (Spec.dipNormal d.strikeAngle d.dipAngle))

theorem drawn_disk {ω : Type} {sort : List V3 → List V3} {R : ℝ} {draw : Appl.Kind → ω → Outcome DistArg × ω}
    (h : FractureDraws sort R draw) {w : ω} {x : DistArg} (hx : (draw .disk w).1 = .val x) : DrawnDisk R x := by
  obtain ⟨fuel, d, e, d', hs, hR, rfl⟩ := h.disk w x hx
  obtain ⟨i, j, e', hi, _, he, _, h1, _, h2, h3, _, _, _, h4, _⟩ := C26_valid fuel d _ d' hs
  obtain rfl : e = e' := Outcome.val.inj he
  exact ⟨e, rfl, .disk e ⟨h4, by rw [h1]; exact hi.1, h2⟩ h3 (by rw [h1]; exact hR i)⟩

theorem quad_fracture {sort : List V3 → List V3} (hs : SortsBy edgeAngle sort) {R : ℝ} (hR : 90 ≤ R) {d : PolygonDraws}
    (hd : QuadDrawOf 60 d) {q : Quadrilateral} (hq : sampleQuadrilateral sort d = .val q)
    (ho : Ordinary d.strikeAngle d.dipAngle q) :
    Fracture R (.geom (.quadrilateral q)) (Spec.dipNormal d.strikeAngle d.dipAngle) := by
  obtain ⟨r, e, ⟨_, _, hsz⟩, hr⟩ := sampled_quad_of hs hd
  obtain rfl : r = q := Outcome.val.inj (e.symm.trans hq)
  refine .quad r _ (hr ho) fun s hs => ?_
  obtain ⟨a, b⟩ := s
  have e : a ∈ [r.p0, r.p1, r.p3, r.p2] ∧ b ∈ [r.p0, r.p1, r.p3, r.p2] := by
    simp only [Spec.polyEdges] at hs
    exact ⟨(List.of_mem_zip hs).1, by have := (List.of_mem_zip hs).2; simp at this ⊢; tauto⟩
  have := hsz a e.1 b e.2
  show Spec.dist a b ≤ R
  linarith

theorem drawn_quadrilateral {ω : Type} {sort : List V3 → List V3} (hs : SortsBy edgeAngle sort) {R : ℝ} (hR : 90 ≤ R)
    {draw : Appl.Kind → ω → Outcome DistArg × ω}
    (h : FractureDraws sort R draw) {w : ω} {x : DistArg} (hx : (draw .quad w).1 = .val x) :
    DrawnQuadrilateral sort R x := by
  obtain ⟨d, hd, hx⟩ := h.quad w x hx
  obtain ⟨q, hq⟩ := madeOf hx
  refine ⟨d, q, hd, hq, fun ho => ?_⟩
  rw [hq.2]
  exact quad_fracture hs hR hd hq.1 ho

theorem fracturesKept {L : LibraryKernel} (hS : SoundShapes L.isk.shapes) {R d an mg bd : ℝ} (hd : 0 < d) {x y : DistArg}
    (h : Spec.Network.Compatible (libraryEngine L) d an mg bd x y ∨ Spec.Network.Compatible (libraryEngine L) d an mg bd y x) :
    FracturesKept L R d an mg bd x y := by
  intro n m hx hy e1 e2
  rcases h with h | h
  · exact fractures_fulfil hS hx hy e1 hd h
  · exact fulfilled_swap (fractures_fulfil hS hy hx e2 hd h)

/-- **C126** The network of example 3: twelve disks and sixteen quadrilaterals made of the draws; any two of them fulfil
the constraints as point sets: the disks are 2.5 apart, the quadrilaterals 5 and disks and quadrilaterals 2.5, or they
meet at an angle of at least 25 degrees (40 degrees for a disk and a quadrilateral), in a segment no shorter than 5 that
is 2.5 away from the boundaries or on them. -/
theorem C126_example3 {ω : Type} (L : LibraryKernel) (hS : SoundShapes L.isk.shapes) (dom : Appl.ShapeDomain DistArg)
    (order : SamplingStatus → List (ℕ × ℕ)) (ho : ∀ s, (order s).Perm s.count)
    (sort : List V3 → List V3) (hs : SortsBy edgeAngle sort) (R : ℝ) (hR : 90 ≤ R)
    (draw : Appl.Kind → ω → Outcome DistArg × ω) (hd : FractureDraws sort R draw) (w : ω) (fuel k : ℕ)
    (s : Appl.MultiState DistArg ω) (h : Appl.example3 (libraryEngine L) dom order draw w fuel = .val (some (k, s))) :
    ∃ D Q : List DistArg, D.length = 12 ∧ Q.length = 16 ∧ s.sets.exportAll Appl.kinds = D ++ Q ∧
      (∀ x ∈ D, DrawnDisk R x) ∧ (∀ x ∈ Q, DrawnQuadrilateral sort R x) ∧
      D.Pairwise (FracturesKept L R 2.5 (5 * Real.pi / 36) 5 2.5) ∧
      Q.Pairwise (FracturesKept L R 5 (5 * Real.pi / 36) 5 2.5) ∧
      ∀ x ∈ D, ∀ y ∈ Q, FracturesKept L R 2.5 (2 * Real.pi / 9) 5 2.5 x y := by
  obtain ⟨D, Q, n1, n2, _, he, _, c1, c2, c3, _, m1, m2, _⟩ := C62_network dom order ho draw w 12 16 fuel k s h
  refine ⟨D, Q, n1, n2, he, fun x hx => ?_, fun x hx => ?_, ?_, ?_, ?_⟩
  · obtain ⟨⟨w, hw⟩, _⟩ := m1 x hx
    exact drawn_disk hd hw
  · obtain ⟨⟨w, hw⟩, _⟩ := m2 x hx
    exact drawn_quadrilateral hs hR hd hw
  · exact List.pairwise_iff_getElem.2 fun i j hi hj hij => fracturesKept hS (by norm_num) (.inl (c1 i j hi hj hij))
  · exact List.pairwise_iff_getElem.2 fun i j hi hj hij => fracturesKept hS (by norm_num) (.inl (c2 i j hi hj hij))
  · exact fun x hx y hy => fracturesKept hS (by norm_num) (c3 x hx y hy)

/-- **C126** The network of example 3 in Python, for whatever candidates: any two of its fractures fulfil the constraints
as point sets. -/
theorem C126_example3_python (L : LibraryKernel) (hS : SoundShapes L.isk.shapes) (dom : Appl.ShapeDomain DistArg)
    (order : SamplingStatus → List (ℕ × ℕ)) (ho : ∀ s, (order s).Perm s.count) (R : ℝ)
    (draw : Appl.Kind → ℕ → Outcome DistArg) (fuel k : ℕ)
    (s : Appl.PyState DistArg) (h : Appl.example3Py (libraryEngine L) dom order draw fuel = .val (some (k, s))) :
    s.disks.length = 12 ∧ s.quads.length = 16 ∧
      (∀ x ∈ s.disks, ∃ i, draw .disk i = .val x) ∧ (∀ x ∈ s.quads, ∃ i, draw .quad i = .val x) ∧
      s.disks.Pairwise (FracturesKept L R 2.5 (5 * Real.pi / 36) 5 2.5) ∧
      s.quads.Pairwise (FracturesKept L R 5 (5 * Real.pi / 36) 5 2.5) ∧
      ∀ x ∈ s.disks, ∀ y ∈ s.quads, FracturesKept L R 2.5 (2 * Real.pi / 9) 5 2.5 x y := by
  obtain ⟨n1, n2, _, c1, c2, c3, _, m1, m2, _⟩ := C63_network dom order ho draw 12 16 fuel k s h
  refine ⟨n1, n2, fun x hx => (m1 x hx).1, fun x hx => (m2 x hx).1, ?_, ?_, ?_⟩
  · exact List.pairwise_iff_getElem.2 fun i j hi hj hij => fracturesKept hS (by norm_num) (.inl (c1 i j hi hj hij))
  · exact List.pairwise_iff_getElem.2 fun i j hi hj hij => fracturesKept hS (by norm_num) (.inl (c2 i j hi hj hij))
  · exact fun x hx y hy => fracturesKept hS (by norm_num) (c3 x hx y hy)

/-- The exact library computes the intersections of fractures exactly. -/
theorem exact_fractures {R : ℝ} {x y : DistArg} {n m : V3} (hx : Fracture R x n) (hy : Fracture R y m) :
    ExactFractures exactLibrary.isk x y := by
  have qd : ∀ {q : Quadrilateral} {n : V3} {d : Elliptical} (eps : ℝ), RegularQuad n q → ValidElliptical d →
      ExactQuadDisk exactLibrary.isk q d eps := by
    intro q n d eps hq hd f hf
    by_cases hp : gpIsParallel f.plane.normal d.normal angular
    · exact .inl hp
    right
    have u1 : Spec.IsUnit f.plane.normal := by
      have := (quadFace_parts hf).1
      rw [hq.made] at this
      exact ofPoints_unit this
    obtain ⟨l, hl⟩ := exactAlgo_line (p1 := f.plane) (p2 := d.supportingPlane) u1 hd.frame.2.2.1 eps hp
    have hL : 0 < quadDiskCharLength q d := lt_of_lt_of_le hd.maj_pos (quadDiskChar_ge q d)
    exact ⟨l, hl, exact_quad_cut (by rw [← hq.made]; exact hf) hl.unit hL, exact_disk_cut hd hl.unit hL⟩
  cases hx with
  | disk d hd md Rd =>
    cases hy with
    | disk e he me Re =>
      by_cases hp : gpIsParallel d.normal e.normal angular
      · exact .inl hp
      right
      obtain ⟨l, hl⟩ := exactAlgo_line (p1 := d.supportingPlane) (p2 := e.supportingPlane) hd.frame.2.2.1 he.frame.2.2.1
        (min (diskEps d) (diskEps e)) hp
      have hL : 0 < diskDiskCharLength d e := lt_of_lt_of_le hd.maj_pos (le_max_left _ _)
      exact ⟨l, hl, exact_disk_cut hd hl.unit hL, exact_disk_cut he hl.unit hL⟩
    | quad q m hq Rq => exact qd _ hq hd
  | quad q n hq Rq =>
    cases hy with
    | disk d hd md Rd => exact qd _ hq hd
    | quad r m hr Rr => exact exact_quads hq hr _

/-- **C126** With an exact library nothing has to be assumed about its results: all fractures of the network of example 3
fulfil the constraints. -/
theorem C126_example3_exact {ω : Type} (dom : Appl.ShapeDomain DistArg)
    (order : SamplingStatus → List (ℕ × ℕ)) (ho : ∀ s, (order s).Perm s.count)
    (sort : List V3 → List V3) (hs : SortsBy edgeAngle sort) (R : ℝ) (hR : 90 ≤ R)
    (draw : Appl.Kind → ω → Outcome DistArg × ω) (hd : FractureDraws sort R draw) (w : ω) (fuel k : ℕ)
    (s : Appl.MultiState DistArg ω)
    (h : Appl.example3 (libraryEngine exactLibrary) dom order draw w fuel = .val (some (k, s))) :
    ∃ D Q : List DistArg, D.length = 12 ∧ Q.length = 16 ∧ s.sets.exportAll Appl.kinds = D ++ Q ∧
      (∀ x ∈ D, DrawnDisk R x) ∧ (∀ x ∈ Q, DrawnQuadrilateral sort R x) ∧
      D.Pairwise (fun x y => ∀ n m, Fracture R x n → Fracture R y m →
        FracturesKeep R 2.5 (5 * Real.pi / 36) 5 2.5 x y n m) ∧
      Q.Pairwise (fun x y => ∀ n m, Fracture R x n → Fracture R y m →
        FracturesKeep R 5 (5 * Real.pi / 36) 5 2.5 x y n m) ∧
      ∀ x ∈ D, ∀ y ∈ Q, ∀ n m, Fracture R x n → Fracture R y m →
        FracturesKeep R 2.5 (2 * Real.pi / 9) 5 2.5 x y n m := by
  obtain ⟨D, Q, h1, h2, h3, h4, h5, h6, h7, h8⟩ :=
    C126_example3 exactLibrary exactLibrary_sound dom order ho sort hs R hR draw hd w fuel k s h
  exact ⟨D, Q, h1, h2, h3, h4, h5,
    h6.imp fun hk n m hx hy => hk n m hx hy (exact_fractures hx hy) (exact_fractures hy hx),
    h7.imp fun hk n m hx hy => hk n m hx hy (exact_fractures hx hy) (exact_fractures hy hx),
    fun x hx y hy n m fx fy => h8 x hx y hy n m fx fy (exact_fractures fx fy) (exact_fractures fy fx)⟩

end Props
