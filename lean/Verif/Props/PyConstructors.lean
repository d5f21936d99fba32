import Verif.Spec.PyConstructors
import Verif.Props.Box
import Verif.Props.HollowCylinder
import Verif.Props.Solids
import Verif.Props.CylinderShapes

/-!
# Constructors of geometries in Python (C131)
-/

namespace Props
open Verif Frackit Frackit.PyThing
open Spec (Form Passes)

/-- Two ways to assign the same arguments give the same value to the first parameters if the name of one of them is
not among the other names. -/
theorem passes_first {α : Type} {n n' : String} {ns ns' : List String} {v v' : α} {vs vs' args : List α} {kw : KwOf α}
    (h : Passes (n :: ns) (v :: vs) args kw) (h' : Passes (n' :: ns') (v' :: vs') args kw) (hn : n ∉ n' :: ns') :
    v = v' := by
  obtain ⟨hl, k, hk, ha, hp⟩ := h
  obtain ⟨hl', k', hk', ha', hp'⟩ := h'
  cases k with
  | zero =>
    cases k' with
    | zero =>
      exfalso
      simp only [List.drop_zero] at hp hp'
      have h1 : (n, v) ∈ (n :: ns).zip (v :: vs) := by simp
      have h2 := hp'.mem_iff.1 (hp.mem_iff.2 h1)
      exact hn (List.of_mem_zip h2).1
    | succ k' => rw [ha] at ha'; simp at ha'
  | succ k =>
    cases k' with
    | zero => rw [ha] at ha'; simp at ha'
    | succ k' =>
      rw [ha] at ha'
      simp only [List.take_succ_cons, List.cons.injEq] at ha'
      exact ha'.1

theorem firstOf_some {args : List PyThing} {kw : KwOf PyThing} {l : List Ctor} {o : Outcome PyThing}
    (h : firstOf args kw l = some o) :
    ∃ c ∈ l, ∃ vals, bindArguments c.names args kw = some vals ∧ c.build vals = some o := by
  induction l with
  | nil => cases h
  | cons c r ih =>
    unfold firstOf at h
    split at h
    · next o' e =>
      obtain rfl := Option.some.inj h
      rw [Option.bind_eq_some_iff] at e
      exact ⟨c, List.mem_cons_self, e⟩
    · obtain ⟨c', hc, h'⟩ := ih h
      exact ⟨c', List.mem_cons_of_mem _ hc, h'⟩

/-- A constructor that does not accept the arguments is skipped. -/
theorem firstOf_skip {args : List PyThing} {kw : KwOf PyThing} {c : Ctor} {r : List Ctor}
    (h : ∀ vals, bindArguments c.names args kw = some vals → c.build vals = none) :
    firstOf args kw (c :: r) = firstOf args kw r := by
  rw [firstOf]
  have : (bindArguments c.names args kw).bind c.build = none := by
    cases e : bindArguments c.names args kw with
    | none => rfl
    | some v => exact h v e
  rw [this]

theorem firstOf_take {args : List PyThing} {kw : KwOf PyThing} {c : Ctor} {r : List Ctor} {vals : List PyThing}
    {o : Outcome PyThing} (h : bindArguments c.names args kw = some vals) (hb : c.build vals = some o) :
    firstOf args kw (c :: r) = some o := by
  rw [firstOf, h, Option.bind_some, hb]

/-- A constructor with another number of parameters is skipped. -/
theorem firstOf_count {args : List PyThing} {kw : KwOf PyThing} (hk : (kw.map (·.1)).Nodup) {c : Ctor} {r : List Ctor}
    (hn : c.names.Nodup) (h : args.length + kw.length ≠ c.names.length) :
    firstOf args kw (c :: r) = firstOf args kw r :=
  firstOf_skip fun vals e => by rw [bind_none hn hk h] at e; cases e

theorem passed_count {f : Form} {args : List PyThing} {kw : KwOf PyThing} (h : f.Passed args kw) :
    args.length + kw.length = f.params.length := by
  have := passes_count h
  simpa using this

theorem passed_bind {f : Form} {args : List PyThing} {kw : KwOf PyThing} (hk : (kw.map (·.1)).Nodup)
    (h : f.Passed args kw) : bindArguments (f.params.map (·.1)) args kw = some (f.params.map (·.2)) := by
  refine (bind_iff _ ?_ args kw hk _).2 h
  cases f <;> simp [Form.params]

theorem mapM_points (l : List V3) : (l.map some).mapM id = some l := by
  induction l with
  | nil => rfl
  | cons a l ih => rw [List.map_cons, List.mapM_cons, ih]; rfl

theorem mapM_points_inv {l : List (Option V3)} {r : List V3} (h : l.mapM id = some r) : l = r.map some := by
  induction l generalizing r with
  | nil => obtain rfl := Option.some.inj h; rfl
  | cons a l ih =>
    rw [List.mapM_cons] at h
    cases a with
    | none => cases h
    | some a =>
      cases e : l.mapM id with
      | none => rw [e] at h; cases h
      | some t =>
        rw [e] at h
        obtain rfl := Option.some.inj h
        rw [ih e]
        rfl

theorem passes_positional {α : Type} {ns : List String} {vs args : List α} (h : Passes ns vs args []) : vs = args := by
  have hc := passes_count h
  obtain ⟨hl, k, hk, ha, -⟩ := h
  have : args.length = k := by rw [ha, List.length_take]; omega
  simp only [List.length_nil, add_zero] at hc
  rw [ha, List.take_of_length_le (by omega)]

/-! ## C131 Geometries constructed in Python -/

/-- The result of a call is that of the C++ constructor for the values of the parameters, whether they are passed by
position or by keyword, and in whatever order. -/
theorem C131_construct (f : Form) (args : List PyThing) (kw : KwOf PyThing) (hk : (kw.map (·.1)).Nodup)
    (h : f.Passed args kw) : construct f.cls args kw = some f.result := by
  have hb := passed_bind hk h
  have hc := passed_count h
  unfold construct
  cases f with
  | segment p q => exact firstOf_take hb rfl
  | line p d => exact firstOf_take hb rfl
  | ellipticalDefault => exact firstOf_take hb rfl
  | elliptical c u v a b =>
    show firstOf args kw (_ :: _) = _
    rw [firstOf_count hk (by simp) (by rw [hc]; simp [Form.params])]
    exact firstOf_take hb rfl
  | ellipse c u v a b => exact firstOf_take hb rfl
  | arc e p q => exact firstOf_take hb rfl
  | arcOfArc a p q => exact firstOf_take hb rfl
  | circle c n r => exact firstOf_take hb rfl
  | planeDefault => exact firstOf_take hb rfl
  | planeNormal p n =>
    show firstOf args kw (_ :: _) = _
    rw [firstOf_count hk (by simp) (by rw [hc]; simp [Form.params])]
    exact firstOf_take hb rfl
  | planePoints p q r =>
    show firstOf args kw (_ :: _) = _
    rw [firstOf_count hk (by simp) (by rw [hc]; simp [Form.params]),
      firstOf_count hk (by simp) (by rw [hc]; simp [Form.params])]
    exact firstOf_take hb rfl
  | planeBasis p a b n =>
    show firstOf args kw (_ :: _) = _
    rw [firstOf_count hk (by simp) (by rw [hc]; simp [Form.params]),
      firstOf_count hk (by simp) (by rw [hc]; simp [Form.params]),
      firstOf_count hk (by simp) (by rw [hc]; simp [Form.params])]
    exact firstOf_take hb rfl
  | triangle p q r => exact firstOf_take hb rfl
  | quadrilateral p q r s => exact firstOf_take hb rfl
  | polygon l =>
    refine firstOf_take hb ?_
    show ((l.map some).mapM id).bind _ = _
    rw [mapM_points]
    rfl
  | diskOfEllipse e => exact firstOf_take hb rfl
  | diskOfArc a => exact firstOf_take hb rfl
  | surface r h => exact firstOf_take hb rfl
  | surfaceOfCircle k z =>
    show firstOf args kw (_ :: _) = _
    rw [firstOf_skip]
    · exact firstOf_take hb rfl
    · intro vals e
      have hp := (bind_iff _ (by simp) args kw hk vals).1 e
      match vals with
      | [] => rfl
      | v :: vs =>
        have := passes_first hp h (by simp)
        subst this
        rfl
  | cylinder r h z => exact firstOf_take hb rfl
  | cylinderAtOrigin r h =>
    show firstOf args kw (_ :: _) = _
    rw [firstOf_count hk (by simp) (by rw [hc]; simp [Form.params])]
    exact firstOf_take hb rfl
  | cylinderOfCircle k z =>
    show firstOf args kw (_ :: _) = _
    rw [firstOf_count hk (by simp) (by rw [hc]; simp [Form.params]), firstOf_skip]
    · exact firstOf_take hb rfl
    · intro vals e
      have hp := (bind_iff _ (by simp) args kw hk vals).1 e
      match vals with
      | [] => rfl
      | v :: vs =>
        have := passes_first hp h (by simp)
        subst this
        rfl
  | cylinderOfDisk d z =>
    show firstOf args kw (_ :: _) = _
    rw [firstOf_count hk (by simp) (by rw [hc]; simp [Form.params]), firstOf_skip, firstOf_skip]
    · exact firstOf_take hb rfl
    all_goals
      intro vals e
      have hp := (bind_iff _ (by simp) args kw hk vals).1 e
      match vals with
      | [] => rfl
      | v :: vs =>
        have := passes_first hp h (by simp)
        subst this
        rfl
  | hollow r s h => exact firstOf_take hb rfl
  | hollowWithAxis c a r s h =>
    show firstOf args kw (_ :: _) = _
    rw [firstOf_count hk (by simp) (by rw [hc]; simp [Form.params])]
    exact firstOf_take hb rfl
  | boxLimits a b c d e f => exact firstOf_take hb rfl
  | boxCorners p q =>
    show firstOf args kw (_ :: _) = _
    rw [firstOf_count hk (by simp) (by rw [hc]; simp [Form.params])]
    exact firstOf_take hb rfl
  | sphere c r => exact firstOf_take hb rfl

theorem toEllipse_some {e : PyThing} {x : Elliptical} (h : e.toEllipse = some x) :
    e = .ellipse x ∨ ∃ a : EllipseArc, e = .arc a ∧ x = a.ellipse := by
  cases e <;> simp [toEllipse] at h
  · exact Or.inl (by rw [h])
  · exact Or.inr ⟨_, rfl, h.symm⟩

/-- Only the documented calls construct anything; all others raise a `TypeError`. -/
theorem C131_only (cls : PyClass) (args : List PyThing) (kw : KwOf PyThing) (hk : (kw.map (·.1)).Nodup)
    (o : Outcome PyThing) (h : construct cls args kw = some o) :
    ∃ f : Form, f.cls = cls ∧ f.Passed args kw ∧ o = f.result := by
  obtain ⟨c, hc, vals, hb, ho⟩ := firstOf_some h
  have key : ∀ f : Form, f.cls = cls → f.params.map (·.1) = c.names → f.params.map (·.2) = vals → o = f.result →
      ∃ f : Form, f.cls = cls ∧ f.Passed args kw ∧ o = f.result := by
    intro f h1 h2 h3 h4
    refine ⟨f, h1, ?_, h4⟩
    refine (bind_iff _ ?_ args kw hk _).1 (by rw [h2, h3]; exact hb)
    cases f <;> simp [Form.params]
  cases cls with
  | segment n =>
    by_cases hn : n = 3
    · subst hn
      obtain rfl := List.mem_singleton.1 hc
      dsimp only at ho
      split at ho
      · exact key (.segment _ _) rfl rfl rfl (Option.some.inj ho).symm
      · cases ho
    · have : ctors (.segment n) = [] := by
        unfold ctors
        split <;> first | rfl | simp_all
      rw [this] at hc
      cases hc
  | line n =>
    by_cases hn : n = 3
    · subst hn
      obtain rfl := List.mem_singleton.1 hc
      dsimp only at ho
      split at ho
      · exact key (.line _ _) rfl rfl rfl (Option.some.inj ho).symm
      · cases ho
    · have : ctors (.line n) = [] := by
        unfold ctors
        split <;> first | rfl | simp_all
      rw [this] at hc
      cases hc
  | elliptical =>
    simp only [ctors, List.mem_cons, List.not_mem_nil, or_false] at hc
    rcases hc with rfl | rfl
    · dsimp only at ho
      split at ho
      · exact key (.ellipticalDefault) rfl rfl rfl (Option.some.inj ho).symm
      · cases ho
    · dsimp only at ho
      split at ho
      · exact key (.elliptical _ _ _ _ _) rfl rfl rfl (Option.some.inj ho).symm
      · cases ho
  | ellipse =>
    obtain rfl := List.mem_singleton.1 hc
    dsimp only at ho
    split at ho
    · exact key (.ellipse _ _ _ _ _) rfl rfl rfl (Option.some.inj ho).symm
    · cases ho
  | circle =>
    obtain rfl := List.mem_singleton.1 hc
    dsimp only at ho
    split at ho
    · exact key (.circle _ _ _) rfl rfl rfl (Option.some.inj ho).symm
    · cases ho
  | plane =>
    simp only [ctors, List.mem_cons, List.not_mem_nil, or_false] at hc
    rcases hc with rfl | rfl | rfl | rfl
    · dsimp only at ho
      split at ho
      · exact key (.planeDefault) rfl rfl rfl (Option.some.inj ho).symm
      · cases ho
    · dsimp only at ho
      split at ho
      · exact key (.planeNormal _ _) rfl rfl rfl (Option.some.inj ho).symm
      · cases ho
    · dsimp only at ho
      split at ho
      · exact key (.planePoints _ _ _) rfl rfl rfl (Option.some.inj ho).symm
      · cases ho
    · dsimp only at ho
      split at ho
      · exact key (.planeBasis _ _ _ _) rfl rfl rfl (Option.some.inj ho).symm
      · cases ho
  | triangle =>
    obtain rfl := List.mem_singleton.1 hc
    dsimp only at ho
    split at ho
    · exact key (.triangle _ _ _) rfl rfl rfl (Option.some.inj ho).symm
    · cases ho
  | quadrilateral =>
    obtain rfl := List.mem_singleton.1 hc
    dsimp only at ho
    split at ho
    · exact key (.quadrilateral _ _ _ _) rfl rfl rfl (Option.some.inj ho).symm
    · cases ho
  | cylinderSurface =>
    simp only [ctors, List.mem_cons, List.not_mem_nil, or_false] at hc
    rcases hc with rfl | rfl
    · dsimp only at ho
      split at ho
      · exact key (.surface _ _) rfl rfl rfl (Option.some.inj ho).symm
      · cases ho
    · dsimp only at ho
      split at ho
      · exact key (.surfaceOfCircle _ _) rfl rfl rfl (Option.some.inj ho).symm
      · cases ho
  | cylinder =>
    simp only [ctors, List.mem_cons, List.not_mem_nil, or_false] at hc
    rcases hc with rfl | rfl | rfl | rfl
    · dsimp only at ho
      split at ho
      · exact key (.cylinder _ _ _) rfl rfl rfl (Option.some.inj ho).symm
      · cases ho
    · dsimp only at ho
      split at ho
      · exact key (.cylinderAtOrigin _ _) rfl rfl rfl (Option.some.inj ho).symm
      · cases ho
    · dsimp only at ho
      split at ho
      · exact key (.cylinderOfCircle _ _) rfl rfl rfl (Option.some.inj ho).symm
      · cases ho
    · dsimp only at ho
      split at ho
      · exact key (.cylinderOfDisk _ _) rfl rfl rfl (Option.some.inj ho).symm
      · cases ho
  | hollowCylinder =>
    simp only [ctors, List.mem_cons, List.not_mem_nil, or_false] at hc
    rcases hc with rfl | rfl
    · dsimp only at ho
      split at ho
      · exact key (.hollow _ _ _) rfl rfl rfl (Option.some.inj ho).symm
      · cases ho
    · dsimp only at ho
      split at ho
      · exact key (.hollowWithAxis _ _ _ _ _) rfl rfl rfl (Option.some.inj ho).symm
      · cases ho
  | box =>
    simp only [ctors, List.mem_cons, List.not_mem_nil, or_false] at hc
    rcases hc with rfl | rfl
    · dsimp only at ho
      split at ho
      · exact key (.boxLimits _ _ _ _ _ _) rfl rfl rfl (Option.some.inj ho).symm
      · cases ho
    · dsimp only at ho
      split at ho
      · exact key (.boxCorners _ _) rfl rfl rfl (Option.some.inj ho).symm
      · cases ho
  | sphere =>
    obtain rfl := List.mem_singleton.1 hc
    dsimp only at ho
    split at ho
    · exact key (.sphere _ _) rfl rfl rfl (Option.some.inj ho).symm
    · cases ho
  | ellipseArc =>
    obtain rfl := List.mem_singleton.1 hc
    dsimp only at ho
    split at ho
    · next e p q _ =>
      obtain ⟨x, hx, ho⟩ := Option.bind_eq_some_iff.1 ho
      rcases toEllipse_some hx with rfl | ⟨a, rfl, rfl⟩
      · exact key (.arc _ _ _) rfl rfl rfl (Option.some.inj ho).symm
      · exact key (.arcOfArc _ _ _) rfl rfl rfl (Option.some.inj ho).symm
    · cases ho
  | disk =>
    obtain rfl := List.mem_singleton.1 hc
    dsimp only at ho
    split at ho
    · next e _ =>
      obtain ⟨x, hx, ho⟩ := Option.bind_eq_some_iff.1 ho
      rcases toEllipse_some hx with rfl | ⟨a, rfl, rfl⟩
      · exact key (.diskOfEllipse _) rfl rfl rfl (Option.some.inj ho).symm
      · exact key (.diskOfArc _) rfl rfl rfl (Option.some.inj ho).symm
    · cases ho
  | polygon =>
    obtain rfl := List.mem_singleton.1 hc
    dsimp only at ho
    split at ho
    · next l _ =>
      obtain ⟨x, hx, ho'⟩ := Option.bind_eq_some_iff.1 ho
      have e := mapM_points_inv hx
      subst e
      exact key (.polygon x) rfl rfl rfl (Option.some.inj ho').symm
    · cases ho
  | _ => cases hc

/-- `Cylinder(height=2, radius=1)`: a documented call. -/
example : (Form.cylinderAtOrigin 1 2).Passed [] [("height", .num 2), ("radius", .num 1)] :=
  ⟨by simp [Form.params], 0, by simp [Form.params], rfl, List.Perm.swap _ _ _⟩

/-- A `TypeError` is raised exactly if the call is none of the documented ones. -/
theorem C131_type_error (cls : PyClass) (args : List PyThing) (kw : KwOf PyThing) (hk : (kw.map (·.1)).Nodup) :
    construct cls args kw = none ↔ ¬ ∃ f : Form, f.cls = cls ∧ f.Passed args kw := by
  constructor
  · rintro h ⟨f, rfl, hf⟩
    rw [C131_construct f args kw hk hf] at h
    cases h
  · intro h
    cases e : construct cls args kw with
    | none => rfl
    | some o =>
      obtain ⟨f, hf, hp, _⟩ := C131_only cls args kw hk o e
      exact absurd ⟨f, hf, hp⟩ h

/-- A circle is not accepted as an ellipse. -/
example (k : Elliptical) : construct .disk [.circle k] [] = none := by
  refine (C131_type_error _ _ _ (by simp)).2 ?_
  rintro ⟨f, hf, hp⟩
  cases f <;> simp only [Form.cls, reduceCtorEq] at hf
  all_goals
    have := passes_positional hp
    simp [Form.params] at this

/-- At most one of the documented calls is meant: two that match the same arguments have the same result, so the order
of the registrations does not matter. -/
theorem C131_unique (f g : Form) (args : List PyThing) (kw : KwOf PyThing) (hk : (kw.map (·.1)).Nodup)
    (hc : f.cls = g.cls) (hf : f.Passed args kw) (hg : g.Passed args kw) : f.result = g.result := by
  have h1 := C131_construct f args kw hk hf
  have h2 := C131_construct g args kw hk hg
  rw [hc, h2] at h1
  exact (Option.some.inj h1).symm

example (p q : V3) : (Form.boxCorners p q).Passed [.point p, .point q] [] :=
  ⟨by simp [Form.params], 2, by simp [Form.params], rfl, by simp [Form.params]⟩

/-- All values by keyword, in any order. -/
theorem passed_keywords {f : Form} {kw : KwOf PyThing} (h : kw.Perm f.params) : f.Passed [] kw := by
  refine ⟨by simp, 0, by simp, rfl, ?_⟩
  have e : ∀ l : List (String × PyThing), (l.map (·.1)).zip (l.map (·.2)) = l := by
    intro l
    induction l with
    | nil => rfl
    | cons a l ih => simp [ih]
  simpa [e] using h

theorem keywords_nodup {f : Form} {kw : KwOf PyThing} (h : kw.Perm f.params) : (kw.map (·.1)).Nodup := by
  refine (h.map (·.1)).nodup_iff.2 ?_
  cases f <;> simp [Form.params]

/-- A box made of its six limits, given by keyword in any order, consists of the points between them; a `ValueError` is
raised if one of the lower limits exceeds the upper one. -/
theorem C131_box (xmin ymin zmin xmax ymax zmax : ℝ) (kw : KwOf PyThing)
    (hk : kw.Perm [("xmin", .num xmin), ("ymin", .num ymin), ("zmin", .num zmin), ("xmax", .num xmax),
      ("ymax", .num ymax), ("zmax", .num zmax)]) :
    (xmin ≤ xmax ∧ ymin ≤ ymax ∧ zmin ≤ zmax →
      ∃ b, construct .box [] kw = some (.val (.box b)) ∧
        ∀ p : V3, (∀ eps, 0 < eps → b.contains p eps) ↔
          xmin ≤ p.x ∧ p.x ≤ xmax ∧ ymin ≤ p.y ∧ p.y ≤ ymax ∧ zmin ≤ p.z ∧ p.z ≤ zmax) ∧
    (¬ (xmin ≤ xmax ∧ ymin ≤ ymax ∧ zmin ≤ zmax) → ∃ o, construct .box [] kw = some o ∧ o.isThrown) := by
  have hk : kw.Perm (Form.boxLimits xmin ymin zmin xmax ymax zmax).params := hk
  have hc := C131_construct _ [] kw (keywords_nodup hk) (passed_keywords hk)
  have hb := C13_construction ⟨xmin, ymin, zmin⟩ ⟨xmax, ymax, zmax⟩
  constructor
  · intro h
    obtain ⟨b, h1, h2, h3⟩ := hb.1 h
    refine ⟨b, ?_, fun p => ?_⟩
    · refine hc.trans ?_
      show some (Box.ofCorners ⟨xmin, ymin, zmin⟩ ⟨xmax, ymax, zmax⟩ >>= _) = _
      rw [h1]
      rfl
    · obtain ⟨c1, -, c3⟩ := C13_contains b p 1
      have e : Spec.InBox (Box.lo b) (Box.hi b) p ↔
          xmin ≤ p.x ∧ p.x ≤ xmax ∧ ymin ≤ p.y ∧ p.y ≤ ymax ∧ zmin ≤ p.z ∧ p.z ≤ zmax := by
        rw [h2, h3]
        simp only [Spec.InBox]
      rw [← e]
      exact ⟨c3, fun h eps he => (C13_contains b p eps).1 he h⟩
  · intro h
    refine ⟨_, hc, ?_⟩
    have := hb.2 h
    show (Box.ofCorners ⟨xmin, ymin, zmin⟩ ⟨xmax, ymax, zmax⟩ >>= _).isThrown
    cases e : Box.ofCorners ⟨xmin, ymin, zmin⟩ ⟨xmax, ymax, zmax⟩ with
    | thrown m => exact trivial
    | val b => rw [e] at this; cases this
    | nan => rw [e] at this; cases this
    | ub => rw [e] at this; cases this

example : ∃ b, construct .box [] [("ymin", .num 0), ("xmin", .num 0), ("zmin", .num 0), ("xmax", .num 1),
    ("ymax", .num 1), ("zmax", .num 1)] = some (.val (.box b)) :=
  ((C131_box 0 0 0 1 1 1 _ (List.Perm.swap _ _ _)).1 (by norm_num)).imp fun b h => h.1

/-- A cylinder made of its radius and its height, given by position or by keyword, stands on the origin and is parallel
to the third axis. -/
theorem C131_cylinder (r h : ℝ) (hr : 0 < r) (hh : 0 < h) (args : List PyThing) (kw : KwOf PyThing)
    (hk : args = [.num r, .num h] ∧ kw = [] ∨ args = [.num r] ∧ kw = [("height", .num h)] ∨
      args = [] ∧ kw = [("radius", .num r), ("height", .num h)] ∨
      args = [] ∧ kw = [("height", .num h), ("radius", .num r)]) :
    ∃ c, construct .cylinder args kw = some (.val (.cylinder c)) ∧
      ∀ p : V3, (∀ eps, 0 < eps → c.contains p eps) ↔ 0 ≤ p.z ∧ p.z ≤ h ∧ p.x ^ 2 + p.y ^ 2 ≤ r ^ 2 := by
  have hp : (Form.cylinderAtOrigin r h).Passed args kw ∧ (kw.map (·.1)).Nodup := by
    rcases hk with ⟨rfl, rfl⟩ | ⟨rfl, rfl⟩ | ⟨rfl, rfl⟩ | ⟨rfl, rfl⟩
    · exact ⟨⟨by simp [Form.params], 2, by simp [Form.params], rfl, by simp [Form.params]⟩, by simp⟩
    · exact ⟨⟨by simp [Form.params], 1, by simp [Form.params], rfl, by simp [Form.params]⟩, by simp⟩
    · exact ⟨passed_keywords (List.Perm.refl _), by simp⟩
    · exact ⟨passed_keywords (List.Perm.swap _ _ _), by simp⟩
  obtain ⟨c, hc, hv, h1, h2, h3, h4⟩ := C14_axis_aligned r h 0 hr hh
  refine ⟨c, ?_, fun p => ?_⟩
  · refine (C131_construct _ args kw hp.2 hp.1).trans ?_
    show some (Cylinder.axisAligned r h 0 >>= _) = _
    rw [hc]
    rfl
  · have e : (∀ eps, 0 < eps → c.contains p eps) ↔
        Spec.InCylinder c.bottom.center c.bottom.normal c.radius c.height p :=
      ⟨C14_contained_in c p hv, fun hp => (C14_points_contained c p hv hp).1⟩
    rw [e, h1, h2, h3, h4]
    unfold Spec.InCylinder Spec.radial Spec.axial Spec.dist
    simp only [zero_mul, zero_add, one_mul, sub_zero, mul_zero, add_zero, mul_one, sub_self]
    rw [Real.sqrt_le_left hr.le]
    norm_num

/-- The plane of every constructed object has a unit normal vector if all the directions passed are unit vectors. -/
def C131_full : Prop :=
  ∀ (args : List PyThing) (kw : KwOf PyThing) (pl : Plane), (kw.map (·.1)).Nodup →
    (∀ d, .direction d ∈ args ++ kw.map (·.2) → Spec.IsUnit d) →
    construct .plane args kw = some (.val (.plane pl)) → Spec.IsUnit pl.normal

/-- `Plane()` makes a plane with a zero vector as normal, of which every point is a member. -/
theorem C131_default_plane :
    ∃ pl, construct .plane [] [] = some (.val (.plane pl)) ∧ pl.normal = 0 ∧
      ∀ p eps, 0 < eps → pl.contains p eps := by
  refine ⟨⟨0, 0, 0, 0⟩, C131_construct .planeDefault [] [] (by simp) (passed_keywords (List.Perm.refl _)), rfl, ?_⟩
  intro p eps he
  show |(p - 0).dot 0| < eps
  have : (p - 0).dot 0 = 0 := by simp [V3.dot]
  rw [this, abs_zero]
  exact he

theorem C131_disproof : ¬ C131_full := by
  intro h
  obtain ⟨pl, hc, hn, -⟩ := C131_default_plane
  have := h [] [] pl (by simp) (by simp) hc
  rw [hn] at this
  norm_num [Spec.IsUnit] at this

/-- Missing: planes constructed without arguments. -/
theorem C131_plane_partial (args : List PyThing) (kw : KwOf PyThing) (pl : Plane) (hk : (kw.map (·.1)).Nodup)
    (ha : args ≠ [] ∨ kw ≠ []) (hd : ∀ d, .direction d ∈ args ++ kw.map (·.2) → Spec.IsUnit d)
    (h : construct .plane args kw = some (.val (.plane pl))) : Spec.IsUnit pl.normal := by
  obtain ⟨f, hf, hp, ho⟩ := C131_only _ args kw hk _ h
  have hmem : ∀ d, .direction d ∈ f.params.map (·.2) → Spec.IsUnit d := by
    intro d hm
    refine hd d ?_
    obtain ⟨hl, k, hk', ha', hp'⟩ := hp
    rw [← List.take_append_drop k (f.params.map (·.2)), List.mem_append] at hm
    rw [List.mem_append]
    rcases hm with hm | hm
    · exact Or.inl (by rw [ha']; exact hm)
    · right
      have := (hp'.map (·.2)).mem_iff (a := PyThing.direction d)
      rw [this, List.map_snd_zip (by simp)]
      exact hm
  cases f <;> simp only [Form.cls, reduceCtorEq] at hf
  case planeDefault =>
    have := passed_count hp
    simp only [Form.params, List.length_nil] at this
    have h1 : args = [] := List.length_eq_zero_iff.1 (by omega)
    have h2 : kw = [] := List.length_eq_zero_iff.1 (by omega)
    rcases ha with ha | ha <;> contradiction
  case planeNormal p n =>
    obtain ⟨pl', h', -, hn, -⟩ := C03_plane_from_normal p n (hmem n (by simp [Form.params]))
    simp only [Form.result, h', Outcome.val_bind, Outcome.val.injEq, PyThing.plane.injEq] at ho
    rw [ho, hn]
    exact hmem n (by simp [Form.params])
  case planePoints p q r =>
    obtain ⟨pl', h', e⟩ := Outcome.bind_eq_val.1 ho.symm
    simp only [Outcome.val.injEq, PyThing.plane.injEq] at e
    exact e ▸ ofPoints_unit h'
  case planeBasis p a b n =>
    simp only [Form.result, Outcome.val.injEq, PyThing.plane.injEq] at ho
    rw [ho]
    exact hmem n (by simp [Form.params])

example : ∃ pl, construct .plane [.point 0] [("normal", .direction ⟨0, 0, 1⟩)] = some (.val (.plane pl)) ∧
    pl.normal = ⟨0, 0, 1⟩ := by
  obtain ⟨pl, h, -, hn, -⟩ := C03_plane_from_normal 0 ⟨0, 0, 1⟩ (by norm_num [Spec.IsUnit])
  refine ⟨pl, ?_, hn⟩
  refine (C131_construct (.planeNormal 0 ⟨0, 0, 1⟩) _ _ (by simp)
    ⟨by simp [Form.params], 1, by simp [Form.params], rfl, by simp [Form.params]⟩).trans ?_
  simp only [Form.result, h, Outcome.val_bind]

end Props
