import Verif.Spec.Euclid
import Verif.Model.Python.Objects
import Verif.Props.PyDispatch

/-!
# C113, C114: objects returned by functions of the Python package
-/

namespace Spec
open Verif Frackit

/-- Centre and axes of an elliptical object. -/
def component : PyVal → EllField → Option PyVal
  | .elliptical _ e, .center | .arc ⟨e, _, _, _, _, _⟩, .center => some (.point e.center)
  | .elliptical _ e, .majorAxis | .arc ⟨e, _, _, _, _, _⟩, .majorAxis => some (.direction e.major)
  | .elliptical _ e, .minorAxis | .arc ⟨e, _, _, _, _, _⟩, .minorAxis => some (.direction e.minor)
  | .elliptical _ e, .normal | .arc ⟨e, _, _, _, _, _⟩, .normal => some (.direction e.normal)
  | _, _ => none

/-- The values of the objects after a call if every call returns a new object: `vs` are the values before. -/
noncomputable def valueStep (vs : List PyVal) : PyStep → Outcome (List PyVal)
  | .make v => .val (vs ++ [v])
  | .query f args =>
      match readAll (fun h => vs[h]?) args with
      | some l => do
          let v ← f l
          pure (vs ++ [v])
      | none => .thrown "TypeError"
  | .get h f =>
      match vs[h]?.bind fun v => component v f with
      | some x => .val (vs ++ [x])
      | none => .thrown "AttributeError"
  | .base h second _ =>
      match vs[h]? with
      | some (.elliptical .circle e) => .val (vs ++ [.direction (if second then e.minor else e.major)])
      | _ => .thrown "AttributeError"
  | .supportingEllipse h =>
      match vs[h]? with
      | some (.arc a) => .val (vs ++ [.elliptical .ellipse a.ellipse])
      | _ => .thrown "AttributeError"
  | .change h m =>
      match vs[h]? with
      | some x => do
          let y ← changed (fun k => vs[k]?) m x
          pure (vs.set h y)
      | none => .thrown "TypeError"

/-- The values after a sequence of calls. -/
noncomputable def values (vs : List PyVal) : List PyStep → Outcome (List PyVal)
  | [] => .val vs
  | s :: t => do
      let vs ← valueStep vs s
      values vs t

/-- The call does not ask for the supporting ellipse of an arc. -/
def NoSupport : PyStep → Prop
  | .supportingEllipse _ => False
  | _ => True

/-- Only objects made by constructors, by functions that compute them, or by `base1` and `base2` of a circle for whose
axis there is no object are modified; `fl` tells this for the objects there are. -/
def Safe : List Bool → List PyStep → Prop
  | _, [] => True
  | fl, .make _ :: t => Safe (fl ++ [true]) t
  | fl, .query _ _ :: t => Safe (fl ++ [true]) t
  | fl, .get _ _ :: t => Safe (fl ++ [false]) t
  | fl, .base _ _ shared :: t => Safe (fl ++ [!shared]) t
  | _, .supportingEllipse _ :: _ => False
  | fl, .change h _ :: t => fl[h]? = some true ∧ Safe fl t

/-- The object from which each object was obtained, in one or several steps, by asking for a centre, an axis or a
supporting ellipse; `os` are those of the objects there are. -/
def origins : List ℕ → List PyStep → List ℕ
  | os, [] => os
  | os, .make _ :: t => origins (os ++ [os.length]) t
  | os, .query _ _ :: t => origins (os ++ [os.length]) t
  | os, .get h _ :: t => origins (os ++ [os.getD h 0]) t
  | os, .base h _ _ :: t => origins (os ++ [os.getD h 0]) t
  | os, .supportingEllipse h :: t => origins (os ++ [os.getD h 0]) t
  | os, .change _ _ :: t => origins os t

/-- Directions have length one, axes are orthonormal. -/
def Normalised : PyVal → Prop
  | .direction d => IsUnit d
  | .elliptical _ e | .arc ⟨e, _, _, _, _, _⟩ =>
      IsUnit e.major ∧ IsUnit e.minor ∧ IsUnit e.normal ∧
      Orthogonal e.major e.minor ∧ Orthogonal e.minor e.normal ∧ Orthogonal e.major e.normal
  | _ => True

/-- The call makes normalised objects. -/
def MakesNormalised : PyStep → Prop
  | .make v => Normalised v
  | .query f _ => ∀ l, (∀ v ∈ l, Normalised v) → ∀ v, f l = .val v → Normalised v
  | _ => True

end Spec

namespace Props
open Verif Frackit

theorem component_eq (v : PyVal) (f : EllField) : Spec.component v f = v.member f := by
  cases v <;> cases f <;> rfl

theorem read_append (H : PyHeap) (r : PyRef) (k : ℕ) :
    (PyHeap.mk H.objs (H.refs ++ [r])).read k = if k = H.refs.length then H.load r else H.read k := by
  unfold PyHeap.read
  split_ifs with h
  · subst h; simp; cases r <;> rfl
  · simp only [List.getElem?_append]
    split_ifs with h2
    · rcases H.refs[k]? with _ | r <;> [rfl; (cases r <;> rfl)]
    · rw [List.getElem?_eq_none (by simp; omega), List.getElem?_eq_none (by omega)]
      rfl

/-! ## C113 Supporting ellipse of an arc in Python -/

/-- The full claim: the object returned by `supportingEllipse` of an arc has the points of the ellipse. -/
def C113_full : Prop :=
  ∀ (prog : List PyStep) (H H' : PyHeap) (h : ℕ) (a : EllipseArc), PyHeap.run {} prog = .val H →
    H.read h = some (.arc a) → MadeArc a → H.step (.supportingEllipse h) = .val H' →
    ∃ v, H'.result = some v ∧ ∀ r, v.getPoint r = .val (Ellipse.getPoint a.ellipse r)

theorem supportingEllipse_step (H : PyHeap) (h : ℕ) (a : EllipseArc) (ha : H.read h = some (.arc a)) :
    ∃ H', H.step (.supportingEllipse h) = .val H' ∧ H'.result = some (.arc a) ∧
      ∀ k < H.refs.length, H'.read k = H.read k := by
  unfold PyHeap.read at ha
  obtain ⟨r, hr, hl⟩ := Option.bind_eq_some_iff.1 ha
  refine ⟨⟨H.objs, H.refs ++ [r]⟩, ?_, ?_, ?_⟩
  · simp only [PyHeap.step, PyHeap.read, hr, Option.bind_some, hl]
  · unfold PyHeap.result
    rw [read_append, if_pos (by simp), hl]
  · intro k hk
    rw [read_append, if_neg (by omega)]

/-- In every state, the call succeeds, and the object it returns has the value of the arc; its points are those of the
arc. -/
theorem C113_returns_arc (H : PyHeap) (h : ℕ) (a : EllipseArc) (ha : H.read h = some (.arc a)) :
    ∃ H', H.step (.supportingEllipse h) = .val H' ∧ H'.result = some (.arc a) ∧
      ∀ k < H.refs.length, H'.read k = H.read k :=
  supportingEllipse_step H h a ha

/-- What agrees: centre, axes and points for given angles are those of the ellipse. -/
theorem C113_agreement_partial (H H' : PyHeap) (h : ℕ) (a : EllipseArc) (ha : H.read h = some (.arc a))
    (hs : H.step (.supportingEllipse h) = .val H') :
    ∃ v, H'.result = some v ∧ (∀ f, v.member f = Spec.component (.elliptical .ellipse a.ellipse) f) ∧
      ∀ angle, v.getPointFromAngle angle = (PyVal.elliptical .ellipse a.ellipse).getPointFromAngle angle := by
  obtain ⟨H'', h1, h2, _⟩ := supportingEllipse_step H h a ha
  rw [h1] at hs
  cases hs
  exact ⟨_, h2, fun f => by cases f <;> rfl, fun _ => rfl⟩

/-- The claim fails for the quarter of the unit circle from `(1,0,0)` to `(0,1,0)`: the point for the local coordinate
`1` should be `(1,0,0)`, but it is the target of the arc. -/
theorem C113_disproof : ¬ C113_full := by
  intro hf
  obtain ⟨a, ha, he, hn, hs, ht, h1, h2⟩ := quarter_arc
  have hrun : PyHeap.run {} [.make (.arc a)] = .val (PyHeap.new {} (.arc a)) := rfl
  have hread : (PyHeap.new {} (.arc a)).read 0 = some (.arc a) := rfl
  obtain ⟨H', hs', hr, _⟩ := supportingEllipse_step _ _ a hread
  obtain ⟨v, hv, hp⟩ := hf _ _ H' 0 a hrun hread ha hs'
  rw [hr] at hv
  cases hv
  have hpi := Real.pi_pos
  have := congrArg V3.x (Outcome.val.inj (hp 1))
  simp [EllipseArc.getPoint, Ellipse.getPoint, h1, h2, he, unitCircle, Ellipse.getPointFromAngle, if_pos hpi] at this

/-- A program with an arc. -/
example : ∃ (a : EllipseArc) (H : PyHeap), PyHeap.run {} [.make (.arc a), .get 0 .center] = .val H ∧
    H.read 0 = some (.arc a) ∧ MadeArc a := by
  obtain ⟨a, ha, _⟩ := quarter_arc
  exact ⟨a, _, rfl, rfl, ha⟩

/-! ## C114 Independent objects -/

/-- The full claim: the objects returned by functions of the package, except by `supportingEllipse`, are independent. -/
def C114_full : Prop :=
  ∀ (prog : List PyStep) (H : PyHeap), (∀ s ∈ prog, Spec.NoSupport s) → PyHeap.run {} prog = .val H →
    ∃ vs, Spec.values [] prog = .val vs ∧ ∀ h, H.read h = vs[h]?

/-- The claim fails: adding a vector to the centre of a disk moves the disk. -/
theorem C114_disproof : ¬ C114_full := by
  intro hf
  obtain ⟨vs, hv, hr⟩ := hf [.make (.elliptical .disk unitCircle), .make (.vector ⟨1, 0, 0⟩), .get 0 .center,
    .change 2 (.add 1)] _ (by simp [Spec.NoSupport]) rfl
  cases hv
  have h0 : some (PyVal.elliptical .disk { unitCircle with center := unitCircle.center + ⟨1, 0, 0⟩ })
      = some (PyVal.elliptical .disk unitCircle) := hr 0
  have := congrArg (fun v => match v with | some (PyVal.elliptical _ e) => e.center.x | _ => 0) h0
  simp [unitCircle] at this

/-- The relation of objects and independent values. -/
structure Independent (H : PyHeap) (vs : List PyVal) (fl : List Bool) : Prop where
  len : H.refs.length = vs.length
  flen : fl.length = vs.length
  read : ∀ h : ℕ, H.read h = vs[h]?
  inj : ∀ h k i : ℕ, H.refs[h]? = some (.own i) → H.refs[k]? = some (.own i) → h = k
  bound : ∀ (h : ℕ) (r : PyRef), H.refs[h]? = some r → r.owner < H.objs.length
  fresh : ∀ h : ℕ, fl[h]? = some true → ∃ i, H.refs[h]? = some (.own i)

theorem load_new (H : PyHeap) (v : PyVal) (r : PyRef) (hr : r.owner < H.objs.length) (rs : List PyRef) :
    (PyHeap.mk (H.objs ++ [v]) rs).load r = H.load r := by
  cases r <;> simp only [PyHeap.load, PyRef.owner] at * <;> rw [List.getElem?_append_left hr]

theorem Independent.new {H : PyHeap} {vs : List PyVal} {fl : List Bool} (I : Independent H vs fl) (v : PyVal)
    (b : Bool) : Independent (H.new v) (vs ++ [v]) (fl ++ [b]) := by
  obtain ⟨l1, l2, hr, hi, hb, hf⟩ := I
  refine ⟨by simp [PyHeap.new, l1], by simp [l2], ?_, ?_, ?_, ?_⟩
  · intro h
    simp only [PyHeap.new, PyHeap.read, List.getElem?_append]
    by_cases h1 : h < H.refs.length
    · rw [if_pos h1, if_pos (by omega), ← hr h, PyHeap.read]
      rcases e : H.refs[h]? with _ | r
      · rfl
      · exact load_new H v r (hb h r e) _
    · rw [if_neg h1, if_neg (by omega), l1]
      by_cases h2 : h - vs.length = 0
      · rw [h2]; simp [PyHeap.load]
      · rw [List.getElem?_eq_none (by simp; omega), List.getElem?_eq_none (by simp; omega)]; rfl
  · intro h k i h1 h2
    simp only [PyHeap.new, List.getElem?_append] at h1 h2
    split_ifs at h1 h2 with c1 c2 c3
    · exact hi h k i h1 h2
    · have := hb _ _ h1
      obtain ⟨_, e⟩ := List.getElem?_eq_some_iff.1 h2
      simp at e
      simp [PyRef.owner] at this
      omega
    · have := hb _ _ h2
      obtain ⟨_, e⟩ := List.getElem?_eq_some_iff.1 h1
      simp at e
      simp [PyRef.owner] at this
      omega
    · obtain ⟨e1, -⟩ := List.getElem?_eq_some_iff.1 h1
      obtain ⟨e2, -⟩ := List.getElem?_eq_some_iff.1 h2
      simp at e1 e2
      omega
  · intro h r h1
    simp only [PyHeap.new, List.getElem?_append, List.length_append, List.length_singleton] at h1 ⊢
    split_ifs at h1 with c1
    · have := hb _ _ h1; omega
    · obtain ⟨_, e⟩ := List.getElem?_eq_some_iff.1 h1
      simp at e
      subst e
      simp [PyRef.owner]
  · intro h h1
    simp only [PyHeap.new, List.getElem?_append] at h1 ⊢
    split_ifs at h1 with c1
    · obtain ⟨i, e⟩ := hf h h1
      rw [if_pos (by omega)]
      exact ⟨i, e⟩
    · obtain ⟨e1, -⟩ := List.getElem?_eq_some_iff.1 h1
      simp at e1
      rw [if_neg (by omega)]
      exact ⟨H.objs.length, by rw [show h - H.refs.length = 0 by omega]; rfl⟩

theorem Independent.alias {H : PyHeap} {vs : List PyVal} {fl : List Bool} (I : Independent H vs fl) (i : ℕ)
    (f : EllField) (x : PyVal) (hx : H.load (.member i f) = some x) (hi' : i < H.objs.length) :
    Independent ⟨H.objs, H.refs ++ [.member i f]⟩ (vs ++ [x]) (fl ++ [false]) := by
  obtain ⟨l1, l2, hr, hi, hb, hf⟩ := I
  refine ⟨by simp [l1], by simp [l2], ?_, ?_, ?_, ?_⟩
  · intro h
    rw [read_append, hr]
    by_cases h1 : h = H.refs.length
    · rw [if_pos h1, hx, h1, l1]; simp
    · rw [if_neg h1, List.getElem?_append]
      split_ifs with h2
      · rfl
      · rw [List.getElem?_eq_none (by omega), List.getElem?_eq_none (by simp; omega)]
  · intro h k j h1 h2
    have key : ∀ h : ℕ, (H.refs ++ [PyRef.member i f])[h]? = some (.own j) → H.refs[h]? = some (.own j) := by
      intro h h1
      rw [List.getElem?_append] at h1
      split_ifs at h1 with c
      · exact h1
      · obtain ⟨_, e⟩ := List.getElem?_eq_some_iff.1 h1
        simp at e
    exact hi h k j (key h h1) (key k h2)
  · intro h r h1
    simp only [List.getElem?_append] at h1
    split_ifs at h1 with c
    · exact hb h r h1
    · obtain ⟨_, e⟩ := List.getElem?_eq_some_iff.1 h1
      simp at e
      subst e
      exact hi'
  · intro h h1
    rw [List.getElem?_append] at h1
    split_ifs at h1 with c
    · obtain ⟨j, e⟩ := hf h h1
      obtain ⟨e1, -⟩ := List.getElem?_eq_some_iff.1 e
      exact ⟨j, by show (H.refs ++ [PyRef.member i f])[h]? = _; rw [List.getElem?_append_left e1, e]⟩
    · obtain ⟨_, e⟩ := List.getElem?_eq_some_iff.1 h1
      simp at e

/-- Objects that are modified are points, vectors and directions. -/
theorem changed_plain {arg : ℕ → Option PyVal} {m : Change} {x y : PyVal} (h : changed arg m x = .val y) :
    ∀ f, x.member f = none := by
  intro f
  cases x with
  | elliptical k e => cases m <;> cases h
  | arc a => cases m <;> cases h
  | _ => rfl

theorem Independent.store {H : PyHeap} {vs : List PyVal} {fl : List Bool} (I : Independent H vs fl) (h : ℕ)
    (x y : PyVal) (hx : H.read h = some x) (hp : ∀ f, x.member f = none) (hfl : fl[h]? = some true) (r : PyRef)
    (hr' : H.refs[h]? = some r) : Independent (H.store r y) (vs.set h y) fl := by
  obtain ⟨l1, l2, hr, hi, hb, hf⟩ := I
  obtain ⟨i, e⟩ := hf h hfl
  rw [e] at hr'
  cases hr'
  have hobj : H.objs[i]? = some x := by
    unfold PyHeap.read at hx
    rw [e] at hx
    exact hx
  have hil := (List.getElem?_eq_some_iff.1 hobj).1
  have hhl := (List.getElem?_eq_some_iff.1 e).1
  refine ⟨by simpa [PyHeap.store] using l1, by simpa using l2, ?_, hi, ?_, hf⟩
  · intro k
    simp only [PyHeap.store, PyHeap.read, List.getElem?_set]
    by_cases hk : h = k
    · subst hk
      rw [e, if_pos rfl, if_pos (by omega)]
      simp [PyHeap.load, List.getElem?_set, hil]
    · rw [if_neg hk, ← hr k, PyHeap.read]
      rcases e2 : H.refs[k]? with _ | r
      · rfl
      · cases r with
        | own j =>
          have hj : i ≠ j := fun c => hk (hi h k i e (c ▸ e2))
          simp [PyHeap.load, List.getElem?_set, hj]
        | member j f =>
          have hj : i ≠ j := by
            intro c
            subst c
            have h3 := hr k
            unfold PyHeap.read at h3
            rw [e2] at h3
            simp only [Option.bind_some, PyHeap.load, hobj, hp f] at h3
            have := (List.getElem?_eq_some_iff.1 e2).1
            rw [List.getElem?_eq_getElem (by omega)] at h3
            cases h3
          simp [PyHeap.load, List.getElem?_set, hj]
  · intro k r hk
    have := hb k r hk
    simpa [PyHeap.store] using this

theorem Independent.step {H H' : PyHeap} {vs : List PyVal} {fl : List Bool} (I : Independent H vs fl) {s : PyStep}
    {t : List PyStep} (hs : H.step s = .val H') (hsafe : Spec.Safe fl (s :: t)) :
    ∃ vs' fl', Spec.valueStep vs s = .val vs' ∧ Independent H' vs' fl' ∧ Spec.Safe fl' t := by
  have hread : H.read = fun h => vs[h]? := funext I.read
  cases s with
  | make v => cases hs; exact ⟨_, _, rfl, I.new v true, hsafe⟩
  | query f args =>
    simp only [PyHeap.step, hread] at hs
    simp only [Spec.valueStep]
    split at hs
    · obtain ⟨v, h1, h2⟩ := Outcome.bind_eq_val.1 hs
      cases h2
      refine ⟨vs ++ [v], fl ++ [true], ?_, I.new v true, hsafe⟩
      rename_i l e
      rw [e]
      simp only [h1]
      rfl
    · cases hs
  | get h f =>
    simp only [PyHeap.step] at hs
    split at hs
    · rename_i i v e1 e2
      split at hs
      · rename_i x e3
        cases hs
        have e4 : H.objs[i]? = some v := by
          unfold PyHeap.read at e2; rw [e1] at e2; exact e2
        refine ⟨vs ++ [x], fl ++ [false], ?_, I.alias i f x ?_ ?_, hsafe⟩
        · rw [I.read] at e2
          simp only [Spec.valueStep, e2, Option.bind_some, component_eq, e3]
        · simp [PyHeap.load, e4, e3]
        · exact (List.getElem?_eq_some_iff.1 e4).1
      · cases hs
    · cases hs
  | base h second shared =>
    simp only [PyHeap.step] at hs
    split at hs
    · rename_i i e e1 e2
      have e4 : H.objs[i]? = some (.elliptical .circle e) := by
        have := e2
        unfold PyHeap.read at this; rw [e1] at this; exact this
      have hv : Spec.valueStep vs (.base h second shared)
          = .val (vs ++ [e.member (if second then .minorAxis else .majorAxis)]) := by
        rw [I.read] at e2
        simp only [Spec.valueStep, e2]
        cases second <;> rfl
      by_cases hc : shared = true ∧ PyRef.member i (if second then .minorAxis else .majorAxis) ∈ H.refs
      · rw [if_pos hc] at hs
        cases hs
        refine ⟨_, fl ++ [false], hv, I.alias i _ _ ?_ ?_, ?_⟩
        · simp [PyHeap.load, e4, PyVal.member]
        · exact (List.getElem?_eq_some_iff.1 e4).1
        · have := hsafe
          rw [hc.1] at this
          exact this
      · rw [if_neg hc] at hs
        cases hs
        exact ⟨_, fl ++ [!shared], hv, I.new _ _, hsafe⟩
    · cases hs
  | supportingEllipse h => exact hsafe.elim
  | change h m =>
    simp only [PyHeap.step] at hs
    split at hs
    · rename_i r x e1 e2
      obtain ⟨y, h1, h2⟩ := Outcome.bind_eq_val.1 hs
      cases h2
      refine ⟨vs.set h y, fl, ?_, I.store h x y e2 (changed_plain h1) hsafe.1 r e1, hsafe.2⟩
      rw [I.read] at e2
      rw [hread] at h1
      simp only [Spec.valueStep, e2, h1]
      rfl
    · cases hs

theorem Independent.run {t : List PyStep} {H H' : PyHeap} {vs : List PyVal} {fl : List Bool}
    (I : Independent H vs fl) (hs : H.run t = .val H') (hsafe : Spec.Safe fl t) :
    ∃ vs', Spec.values vs t = .val vs' ∧ ∀ h, H'.read h = vs'[h]? := by
  induction t generalizing H vs fl with
  | nil => cases hs; exact ⟨vs, rfl, I.read⟩
  | cons s t ih =>
    obtain ⟨H1, h1, h2⟩ := Outcome.bind_eq_val.1 hs
    obtain ⟨vs1, fl1, e1, I1, s1⟩ := I.step h1 hsafe
    obtain ⟨vs2, e2, e3⟩ := ih I1 h2 s1
    exact ⟨vs2, by simp only [Spec.values, e1]; exact e2, e3⟩

/-- The claim holds for programs that do not modify objects which they got from `center`, `majorAxis`, `minorAxis`,
`normal`, and from `base1` and `base2` while there is an object for the axis. -/
theorem C114_values_partial (prog : List PyStep) (H : PyHeap) (hsafe : Spec.Safe [] prog)
    (hrun : PyHeap.run {} prog = .val H) :
    ∃ vs, Spec.values [] prog = .val vs ∧ ∀ h, H.read h = vs[h]? :=
  Independent.run (H := {}) (vs := []) (fl := [])
    ⟨rfl, rfl, fun _ => rfl, fun _ _ _ h => by simp at h, fun _ _ h => by simp at h, fun _ h => by simp at h⟩ hrun hsafe

/-- A program that copies the centre of a disk, moves the copy and keeps the disk. -/
example : Spec.Safe [] [.make (.elliptical .disk unitCircle), .make (.vector ⟨1, 0, 0⟩), .get 0 .center,
      .query (fun l => match l with | [.point p] => .val (.point p) | _ => .thrown "TypeError") [2],
      .change 3 (.add 1)] ∧
    ∃ H, PyHeap.run {} [.make (.elliptical .disk unitCircle), .make (.vector ⟨1, 0, 0⟩), .get 0 .center,
      .query (fun l => match l with | [.point p] => .val (.point p) | _ => .thrown "TypeError") [2],
      .change 3 (.add 1)] = .val H ∧ H.read 0 = some (.elliptical .disk unitCircle) ∧
      H.read 3 = some (.point ((⟨0, 0, 0⟩ : V3) + ⟨1, 0, 0⟩)) :=
  ⟨⟨rfl, trivial⟩, _, rfl, rfl, rfl⟩

/-! ### Which objects a modification affects -/

/-- The relation of objects and their origins. -/
structure Linked (H : PyHeap) (os : List ℕ) (g : ℕ → ℕ) : Prop where
  orig : ∀ k : ℕ, os[k]? = H.refs[k]?.map fun r => g r.owner
  bound : ∀ (h : ℕ) (r : PyRef), H.refs[h]? = some r → r.owner < H.objs.length

theorem Linked.length {H : PyHeap} {os : List ℕ} {g : ℕ → ℕ} (L : Linked H os g) : os.length = H.refs.length := by
  apply le_antisymm
  · by_contra hc
    have := L.orig H.refs.length
    rw [List.getElem?_eq_none (l := H.refs) le_rfl, List.getElem?_eq_getElem (by omega)] at this
    cases this
  · by_contra hc
    have := L.orig os.length
    rw [List.getElem?_eq_none (l := os) le_rfl, List.getElem?_eq_getElem (by omega)] at this
    cases this

theorem Linked.append {H : PyHeap} {os : List ℕ} {g : ℕ → ℕ} (L : Linked H os g) (r : PyRef) (o : ℕ)
    (ho : o = g r.owner) (hr : r.owner < H.objs.length) : Linked ⟨H.objs, H.refs ++ [r]⟩ (os ++ [o]) g := by
  have hl := L.length
  refine ⟨fun k => ?_, fun h r' h1 => ?_⟩
  · simp only [List.getElem?_append, hl]
    split_ifs with c
    · exact L.orig k
    · by_cases h2 : k - H.refs.length = 0
      · rw [h2, ho]; rfl
      · rw [List.getElem?_eq_none (by simp; omega), List.getElem?_eq_none (by simp; omega)]; rfl
  · simp only [List.getElem?_append] at h1
    split_ifs at h1 with c
    · exact L.bound h r' h1
    · obtain ⟨_, e⟩ := List.getElem?_eq_some_iff.1 h1
      simp at e
      subst e
      exact hr

theorem Linked.new {H : PyHeap} {os : List ℕ} {g : ℕ → ℕ} (L : Linked H os g) (v : PyVal) (o : ℕ) :
    Linked (H.new v) (os ++ [o]) (Function.update g H.objs.length o) := by
  have L' : Linked ⟨H.objs ++ [v], H.refs⟩ os (Function.update g H.objs.length o) := by
    refine ⟨fun k => ?_, fun h r h1 => ?_⟩
    · rw [L.orig k]
      show _ = H.refs[k]?.map _
      rcases e : H.refs[k]? with _ | r
      · rfl
      · have := L.bound k r e
        simp [Function.update_of_ne (Nat.ne_of_lt this)]
    · have := L.bound h r h1
      simp
      omega
  exact L'.append (.own H.objs.length) o (by simp [PyRef.owner]) (by simp [PyRef.owner])

theorem Linked.getD {H : PyHeap} {os : List ℕ} {g : ℕ → ℕ} (L : Linked H os g) {h : ℕ} {r : PyRef}
    (hr : H.refs[h]? = some r) : os.getD h 0 = g r.owner := by
  rw [List.getD_eq_getElem?_getD, L.orig h, hr]
  rfl

theorem Linked.step {H H' : PyHeap} {os : List ℕ} {g : ℕ → ℕ} (L : Linked H os g) {s : PyStep}
    (hs : H.step s = .val H') : ∃ os' g', Linked H' os' g' ∧ ∀ t, Spec.origins os (s :: t) = Spec.origins os' t := by
  cases s with
  | make v => cases hs; exact ⟨_, _, L.new v _, fun t => rfl⟩
  | query f args =>
    simp only [PyHeap.step] at hs
    split at hs
    · obtain ⟨v, _, h2⟩ := Outcome.bind_eq_val.1 hs
      cases h2
      exact ⟨_, _, L.new v _, fun t => rfl⟩
    · cases hs
  | get h f =>
    simp only [PyHeap.step] at hs
    split at hs
    · rename_i i v e1 e2
      split at hs
      · cases hs
        exact ⟨_, _, L.append (.member i f) _ (L.getD (r := .own i) e1) (L.bound h (.own i) e1), fun t => rfl⟩
      · cases hs
    · cases hs
  | base h second shared =>
    simp only [PyHeap.step] at hs
    split at hs
    · rename_i i e e1 e2
      by_cases hc : shared = true ∧ PyRef.member i (if second then .minorAxis else .majorAxis) ∈ H.refs
      · rw [if_pos hc] at hs
        cases hs
        exact ⟨_, _, L.append (.member i _) _ (L.getD (r := .own i) e1) (L.bound h (.own i) e1), fun t => rfl⟩
      · rw [if_neg hc] at hs
        cases hs
        exact ⟨_, _, L.new _ _, fun t => rfl⟩
    · cases hs
  | supportingEllipse h =>
    simp only [PyHeap.step] at hs
    split at hs
    · rename_i r a e1 e2
      cases hs
      exact ⟨_, _, L.append r _ (L.getD e1) (L.bound h _ e1), fun t => rfl⟩
    · cases hs
  | change h m =>
    simp only [PyHeap.step] at hs
    split at hs
    · rename_i r x e1 e2
      obtain ⟨y, _, h2⟩ := Outcome.bind_eq_val.1 hs
      cases h2
      refine ⟨os, g, ?_, fun t => rfl⟩
      cases r <;> exact ⟨L.orig, fun k r hk => by simpa [PyHeap.store] using L.bound k r hk⟩
    · cases hs

theorem Linked.run {t : List PyStep} {H H' : PyHeap} {os : List ℕ} {g : ℕ → ℕ} (L : Linked H os g)
    (hs : H.run t = .val H') : ∃ g', Linked H' (Spec.origins os t) g' := by
  induction t generalizing H os g with
  | nil => cases hs; exact ⟨g, L⟩
  | cons s t ih =>
    obtain ⟨H1, h1, h2⟩ := Outcome.bind_eq_val.1 hs
    obtain ⟨os1, g1, L1, e⟩ := L.step h1
    rw [e]
    exact ih L1 h2

theorem store_other (H : PyHeap) (r q : PyRef) (y : PyVal) (h : q.owner ≠ r.owner) :
    (H.store r y).load q = H.load q := by
  cases r <;> cases q <;> simp only [PyRef.owner] at h <;>
    simp [PyHeap.store, PyHeap.load, Ne.symm h]

/-- A modification leaves all objects as they are that were not obtained from the same object. -/
theorem C114_frame (prog : List PyStep) (H H' : PyHeap) (hrun : PyHeap.run {} prog = .val H) (h k : ℕ) (m : Change)
    (hs : H.step (.change h m) = .val H')
    (hk : (Spec.origins [] prog)[k]? ≠ (Spec.origins [] prog)[h]?) : H'.read k = H.read k := by
  obtain ⟨g, L⟩ := Linked.run (H := {}) (os := []) (g := id) ⟨fun _ => rfl, fun _ _ h => by simp at h⟩ hrun
  simp only [PyHeap.step] at hs
  split at hs
  · rename_i r x e1 e2
    obtain ⟨y, _, h2⟩ := Outcome.bind_eq_val.1 hs
    cases h2
    have hrefs : (H.store r y).refs = H.refs := by cases r <;> rfl
    unfold PyHeap.read
    rw [hrefs]
    rw [L.orig, L.orig, e1] at hk
    rcases e3 : H.refs[k]? with _ | q
    · rfl
    · rw [e3] at hk
      exact store_other H r q y fun c => hk (by simp [c])
  · cases hs

/-- The centre of one disk does not concern another disk. -/
example : (Spec.origins [] [.make (.elliptical .disk unitCircle), .make (.elliptical .disk unitCircle),
    .get 0 .center])[1]? ≠ (Spec.origins [] [.make (.elliptical .disk unitCircle),
    .make (.elliptical .disk unitCircle), .get 0 .center])[2]? := by decide

/-- The class of an object. -/
theorem changed_class {arg : ℕ → Option PyVal} {m : Change} {x y : PyVal} (h : changed arg m x = .val y) :
    (∃ p q, x = .point p ∧ y = .point q) ∨ (∃ p q, x = .vector p ∧ y = .vector q) ∨
    (∃ p q, x = .direction p ∧ y = .direction q) := by
  cases m <;> cases x <;> simp only [changed] at h <;> (try split at h) <;> first | (cases h; simp) | cases h

theorem withMember_member {v x y : PyVal} {f : EllField} (h : v.member f = some x)
    (hc : (∃ p q, x = .point p ∧ y = .point q) ∨ (∃ p q, x = .vector p ∧ y = .vector q) ∨
      (∃ p q, x = .direction p ∧ y = .direction q)) :
    (v.withMember f y).member f = some y ∧ ∀ g, g ≠ f → (v.withMember f y).member g = v.member g := by
  rcases hc with ⟨p, q, rfl, rfl⟩ | ⟨p, q, rfl, rfl⟩ | ⟨p, q, rfl, rfl⟩ <;> cases v <;> cases f <;>
    first
    | (cases h; done)
    | (refine ⟨rfl, fun g hg => ?_⟩; cases g <;> first | rfl | exact absurd rfl hg)

theorem store_read (H : PyHeap) (h : ℕ) (r : PyRef) (x y : PyVal) (hr : H.refs[h]? = some r)
    (hx : H.read h = some x)
    (hc : (∃ p q, x = .point p ∧ y = .point q) ∨ (∃ p q, x = .vector p ∧ y = .vector q) ∨
      (∃ p q, x = .direction p ∧ y = .direction q)) : (H.store r y).read h = some y := by
  have hrefs : (H.store r y).refs = H.refs := by cases r <;> rfl
  unfold PyHeap.read at hx ⊢
  rw [hr] at hx
  rw [hrefs, hr]
  cases r with
  | own i =>
    have := (List.getElem?_eq_some_iff.1 (show H.objs[i]? = some x from hx)).1
    simp [PyHeap.store, PyHeap.load, this]
  | member i f =>
    obtain ⟨v, h1, h2⟩ := Option.bind_eq_some_iff.1 (show H.objs[i]?.bind (fun v => v.member f) = some x from hx)
    simp only [Option.bind_some, PyHeap.store, PyHeap.load, List.getElem?_modify, h1]
    simp [(withMember_member h2 hc).1]

theorem change_effect (H : PyHeap) (h : ℕ) (m : Change) (x y : PyVal) (hx : H.read h = some x)
    (hy : changed H.read m x = .val y) : ∃ H', H.step (.change h m) = .val H' ∧ H'.read h = some y := by
  have hx' := hx
  unfold PyHeap.read at hx
  obtain ⟨r, hr, hl⟩ := Option.bind_eq_some_iff.1 hx
  refine ⟨H.store r y, ?_, store_read H h r x y hr hx' (changed_class hy)⟩
  simp only [PyHeap.step, hr, hx', hy]
  rfl

/-- The effect of each modification on the modified object, in coordinates. -/
theorem C114_effect (H : PyHeap) (h k : ℕ) (p w : V3) :
    (H.read h = some (.point p) → H.read k = some (.vector w) →
      (∃ H', H.step (.change h (.add k)) = .val H' ∧
        H'.read h = some (.point ⟨p.x + w.x, p.y + w.y, p.z + w.z⟩)) ∧
      (∃ H', H.step (.change h (.subtract k)) = .val H' ∧
        H'.read h = some (.point ⟨p.x - w.x, p.y - w.y, p.z - w.z⟩))) ∧
    (H.read h = some (.point p) →
      (∀ c, ∃ H', H.step (.change h (.scale c)) = .val H' ∧ H'.read h = some (.point ⟨c * p.x, c * p.y, c * p.z⟩)) ∧
      (∀ c, c ≠ 0 → ∃ H', H.step (.change h (.divide c)) = .val H' ∧
        H'.read h = some (.point ⟨p.x / c, p.y / c, p.z / c⟩))) ∧
    (H.read h = some (.vector p) →
      (∀ c, ∃ H', H.step (.change h (.scale c)) = .val H' ∧ H'.read h = some (.vector ⟨c * p.x, c * p.y, c * p.z⟩)) ∧
      (∀ c, c ≠ 0 → ∃ H', H.step (.change h (.divide c)) = .val H' ∧
        H'.read h = some (.vector ⟨p.x / c, p.y / c, p.z / c⟩)) ∧
      (∀ angle, H.read k = some (.direction w) → ∃ H', H.step (.change h (.rotate k angle)) = .val H' ∧
        H'.read h = some (.vector (Frackit.rotate p w angle)))) ∧
    (H.read h = some (.direction p) →
      ∃ H', H.step (.change h .invert) = .val H' ∧ H'.read h = some (.direction ⟨-p.x, -p.y, -p.z⟩)) := by
  refine ⟨fun hp hw => ⟨?_, ?_⟩, fun hp => ⟨fun c => ?_, fun c hc => ?_⟩,
    fun hp => ⟨fun c => ?_, fun c hc => ?_, fun angle hw => ?_⟩, fun hp => ?_⟩
  · exact change_effect H h _ _ _ hp (by simp only [changed, hw]; rfl)
  · exact change_effect H h _ _ _ hp (by simp only [changed, hw]; rfl)
  · exact change_effect H h _ _ _ hp (by simp only [changed]; rfl)
  · exact change_effect H h _ _ _ hp (by simp only [changed, if_neg hc]; rfl)
  · exact change_effect H h _ _ _ hp (by simp only [changed]; rfl)
  · exact change_effect H h _ _ _ hp (by simp only [changed, if_neg hc]; rfl)
  · exact change_effect H h _ _ _ hp (by simp only [changed, hw])
  · exact change_effect H h _ _ _ hp (by simp only [changed]; congr 2; ext <;> simp)

/-- A modification of the object for the centre or an axis changes this component of the elliptical object, and no
other. -/
theorem C114_write_through (H H1 H2 : PyHeap) (h : ℕ) (f : EllField) (m : Change) (h1 : H.step (.get h f) = .val H1)
    (h2 : H1.step (.change H.refs.length m) = .val H2) :
    ∃ v w x y, H.read h = some v ∧ Spec.component v f = some x ∧ changed H1.read m x = .val y ∧
      H2.read h = some w ∧ H2.read H.refs.length = some y ∧ Spec.component w f = some y ∧
      ∀ g, g ≠ f → Spec.component w g = Spec.component v g := by
  simp only [PyHeap.step] at h1
  split at h1
  · rename_i i v e1 e2
    split at h1
    · rename_i x e3
      cases h1
      have e4 : H.objs[i]? = some v := by
        unfold PyHeap.read at e2; rw [e1] at e2; exact e2
      have hlt := (List.getElem?_eq_some_iff.1 e1).1
      have hr1 : (PyHeap.mk H.objs (H.refs ++ [.member i f])).read H.refs.length = some x := by
        rw [read_append, if_pos rfl]; simp [PyHeap.load, e4, e3]
      simp only [PyHeap.step] at h2
      split at h2
      · rename_i r x' e5 e6
        rw [hr1] at e6
        cases e6
        simp at e5
        subst e5
        obtain ⟨y, h3, h4⟩ := Outcome.bind_eq_val.1 h2
        cases h4
        have hw := withMember_member e3 (changed_class h3)
        refine ⟨v, v.withMember f y, x, y, e2, by rw [component_eq, e3], h3, ?_,
          store_read _ _ _ x y (by simp) hr1 (changed_class h3), by rw [component_eq]; exact hw.1,
          fun g hg => by rw [component_eq, component_eq]; exact hw.2 g hg⟩
        unfold PyHeap.read
        simp [PyHeap.store, List.getElem?_append_left hlt, e1, PyHeap.load, e4]
      · cases h2
    · cases h1
  · cases h1

/-- The accessors in every state: the centre and the axes of elliptical objects and arcs, the base vectors of circles
and the ellipses of arcs are returned, as new Python objects; for objects of other classes an exception is raised. -/
theorem C114_accessors (H : PyHeap) (h : ℕ) :
    (∀ f x, (H.read h).bind (Spec.component · f) = some x →
      ∃ H', H.step (.get h f) = .val H' ∧ H'.read H.refs.length = some x ∧ ∀ k ≠ H.refs.length, H'.read k = H.read k) ∧
    (∀ f, (H.read h).bind (Spec.component · f) = none → H.step (.get h f) = .thrown "AttributeError") ∧
    (∀ second shared, (∃ e, H.read h = some (.elliptical .circle e)) ∨
      H.step (.base h second shared) = .thrown "AttributeError") ∧
    (∀ a, H.read h = some (.arc a) → ∃ H', H.step (.supportingEllipse h) = .val H' ∧
      H'.read H.refs.length = some (.arc a)) ∧
    ((∀ a, H.read h ≠ some (.arc a)) → H.step (.supportingEllipse h) = .thrown "AttributeError") ∧
    (∀ m, (H.step (.change h m)) ≠ .ub) := by
  have hmm : ∀ (v x : PyVal) (f g : EllField), v.member f = some x → x.member g = none := by
    intro v x f g hv
    cases v <;> cases f <;> first | cases hv; rfl | cases hv
  -- objects with members are not members themselves
  have hown : ∀ v f x, H.read h = some v → v.member f = some x → ∃ i, H.refs[h]? = some (.own i) ∧
      H.objs[i]? = some v := by
    intro v f x hv hx
    unfold PyHeap.read at hv
    obtain ⟨r, hr, hl⟩ := Option.bind_eq_some_iff.1 hv
    cases r with
    | own i => exact ⟨i, hr, hl⟩
    | member i g =>
      obtain ⟨o, _, h2⟩ := Option.bind_eq_some_iff.1 (show H.objs[i]?.bind (fun v => v.member g) = some v from hl)
      rw [hmm o v g f h2] at hx
      cases hx
  refine ⟨fun f x hx => ?_, fun f hx => ?_, fun second shared => ?_, fun a ha => ?_, fun ha => ?_, fun m => ?_⟩
  · obtain ⟨v, hv, hc⟩ := Option.bind_eq_some_iff.1 hx
    rw [component_eq] at hc
    obtain ⟨i, hi, ho⟩ := hown v f x hv hc
    refine ⟨⟨H.objs, H.refs ++ [.member i f]⟩, ?_, ?_, fun k hk => ?_⟩
    · simp only [PyHeap.step, hi, hv, hc]
    · rw [read_append, if_pos rfl]; simp [PyHeap.load, ho, hc]
    · rw [read_append, if_neg hk]
  · simp only [PyHeap.step]
    split
    · rename_i i v e1 e2
      rw [e2] at hx
      have : v.member f = none := by rw [← component_eq]; exact hx
      rw [this]
    · rfl
  · simp only [PyHeap.step]
    split
    · rename_i i e e1 e2
      exact .inl ⟨e, e2⟩
    · exact .inr rfl
  · obtain ⟨i, hi, ho⟩ := hown _ .center _ ha rfl
    refine ⟨⟨H.objs, H.refs ++ [.own i]⟩, ?_, ?_⟩
    · simp only [PyHeap.step, hi, ha]
    · rw [read_append, if_pos rfl]; exact ho
  · simp only [PyHeap.step]
    split
    · rename_i r a e1 e2
      exact absurd e2 (ha a)
    · rfl
  · simp only [PyHeap.step]
    split
    · rename_i r x e1 e2
      cases hc : changed H.read m x with
      | val y => nofun
      | thrown s => nofun
      | nan => nofun
      | ub =>
        exfalso
        unfold changed at hc
        repeat' split at hc
        all_goals cases hc
    · nofun

/-- A disk and its centre, which has no centre itself. -/
example : ∃ H H', PyHeap.run {} [.make (.elliptical .disk unitCircle)] = .val H ∧ H.step (.get 0 .center) = .val H' ∧
    H'.step (.get 1 .center) = .thrown "AttributeError" := by
  refine ⟨_, _, rfl, rfl, ?_⟩
  exact (C114_accessors _ 1).2.1 _ rfl

/-! ### Normalised objects -/

theorem member_normalised {v x : PyVal} {f : EllField} (hv : Spec.Normalised v) (h : v.member f = some x) :
    Spec.Normalised x := by
  cases v <;> cases f <;> cases h <;> first | trivial | exact hv.1 | exact hv.2.1 | exact hv.2.2.1

theorem load_normalised {H : PyHeap} (hH : ∀ v ∈ H.objs, Spec.Normalised v) {r : PyRef} {v : PyVal}
    (h : H.load r = some v) : Spec.Normalised v := by
  cases r with
  | own i => exact hH v (List.mem_of_getElem? h)
  | member i f =>
    obtain ⟨o, h1, h2⟩ := Option.bind_eq_some_iff.1 (show H.objs[i]?.bind (fun v => v.member f) = some v from h)
    exact member_normalised (hH o (List.mem_of_getElem? h1)) h2

theorem read_normalised {H : PyHeap} (hH : ∀ v ∈ H.objs, Spec.Normalised v) {h : ℕ} {v : PyVal}
    (hr : H.read h = some v) : Spec.Normalised v := by
  unfold PyHeap.read at hr
  obtain ⟨r, _, hl⟩ := Option.bind_eq_some_iff.1 hr
  exact load_normalised hH hl

theorem readAll_normalised {H : PyHeap} (hH : ∀ v ∈ H.objs, Spec.Normalised v) {args : List ℕ} {l : List PyVal}
    (h : readAll H.read args = some l) : ∀ v ∈ l, Spec.Normalised v := by
  induction args generalizing l with
  | nil => cases h; simp
  | cons a t ih =>
    simp only [readAll] at h
    split at h
    · rename_i v vs e1 e2
      cases h
      intro x hx
      rcases List.mem_cons.1 hx with rfl | hx
      · exact read_normalised hH e1
      · exact ih e2 x hx
    · cases h

theorem unit_neg {d : V3} (h : Spec.IsUnit d) : Spec.IsUnit ((-1 : ℝ) • d) := by
  simp only [Spec.IsUnit, V3.smul_x, V3.smul_y, V3.smul_z] at *
  linarith

theorem orth_neg_left {a b : V3} (h : Spec.Orthogonal a b) : Spec.Orthogonal ((-1 : ℝ) • a) b := by
  simp only [Spec.Orthogonal, Spec.inner, V3.smul_x, V3.smul_y, V3.smul_z] at *
  linarith

theorem orth_neg_right {a b : V3} (h : Spec.Orthogonal a b) : Spec.Orthogonal a ((-1 : ℝ) • b) := by
  simp only [Spec.Orthogonal, Spec.inner, V3.smul_x, V3.smul_y, V3.smul_z] at *
  linarith

/-- The new value is a point, a vector or the opposite of a direction. -/
theorem changed_cases {arg : ℕ → Option PyVal} {m : Change} {x y : PyVal} (h : changed arg m x = .val y) :
    (∃ q, y = .point q) ∨ (∃ q, y = .vector q) ∨ ∃ d, x = .direction d ∧ y = .direction ((-1 : ℝ) • d) := by
  cases m <;> cases x <;> simp only [changed] at h <;> (try split at h) <;> first | (cases h; simp) | cases h

theorem withMember_normalised {v x y : PyVal} {f : EllField} (hv : Spec.Normalised v) (hx : v.member f = some x)
    (hy : (∃ q, y = .point q) ∨ (∃ q, y = .vector q) ∨ ∃ d, x = .direction d ∧ y = .direction ((-1 : ℝ) • d)) :
    Spec.Normalised (v.withMember f y) := by
  rcases hy with ⟨q, rfl⟩ | ⟨q, rfl⟩ | ⟨d, rfl, rfl⟩
  · cases v <;> cases f <;> exact hv
  · cases v <;> cases f <;> exact hv
  · cases v <;> cases f <;> cases hx <;> obtain ⟨a1, a2, a3, a4, a5, a6⟩ := hv
    · exact ⟨unit_neg a1, a2, a3, orth_neg_left a4, a5, orth_neg_left a6⟩
    · exact ⟨a1, unit_neg a2, a3, orth_neg_right a4, orth_neg_left a5, a6⟩
    · exact ⟨a1, a2, unit_neg a3, a4, orth_neg_right a5, orth_neg_right a6⟩
    · exact ⟨unit_neg a1, a2, a3, orth_neg_left a4, a5, orth_neg_left a6⟩
    · exact ⟨a1, unit_neg a2, a3, orth_neg_right a4, orth_neg_left a5, a6⟩
    · exact ⟨a1, a2, unit_neg a3, a4, orth_neg_right a5, orth_neg_right a6⟩

theorem step_normalised {H H' : PyHeap} {s : PyStep} (hH : ∀ v ∈ H.objs, Spec.Normalised v)
    (hm : Spec.MakesNormalised s) (hs : H.step s = .val H') : ∀ v ∈ H'.objs, Spec.Normalised v := by
  have hnew : ∀ x, Spec.Normalised x → ∀ v ∈ (H.new x).objs, Spec.Normalised v := by
    intro x hx v hv
    rcases List.mem_append.1 hv with h | h
    · exact hH v h
    · rw [List.mem_singleton.1 h]; exact hx
  cases s with
  | make v => cases hs; exact hnew v hm
  | query f args =>
    simp only [PyHeap.step] at hs
    split at hs
    · rename_i l e
      obtain ⟨v, h1, h2⟩ := Outcome.bind_eq_val.1 hs
      cases h2
      exact hnew v (hm l (readAll_normalised hH e) v h1)
    · cases hs
  | get h f =>
    simp only [PyHeap.step] at hs
    split at hs
    · split at hs
      · cases hs; exact hH
      · cases hs
    · cases hs
  | base h second shared =>
    simp only [PyHeap.step] at hs
    split at hs
    · rename_i i e e1 e2
      by_cases hc : shared = true ∧ PyRef.member i (if second then .minorAxis else .majorAxis) ∈ H.refs
      · rw [if_pos hc] at hs
        cases hs
        exact hH
      · rw [if_neg hc] at hs
        cases hs
        exact hnew _ (member_normalised (f := if second then .minorAxis else .majorAxis) (read_normalised hH e2) rfl)
    · cases hs
  | supportingEllipse h =>
    simp only [PyHeap.step] at hs
    split at hs
    · cases hs; exact hH
    · cases hs
  | change h m =>
    simp only [PyHeap.step] at hs
    split at hs
    · rename_i r x e1 e2
      obtain ⟨y, h1, h2⟩ := Outcome.bind_eq_val.1 hs
      cases h2
      have hl : H.load r = some x := by unfold PyHeap.read at e2; rw [e1] at e2; exact e2
      have hx := load_normalised hH hl
      have hy := changed_cases h1
      cases r with
      | own i =>
        intro v hv
        rcases List.mem_or_eq_of_mem_set hv with h | h
        · exact hH v h
        · rw [h]
          rcases hy with ⟨q, rfl⟩ | ⟨q, rfl⟩ | ⟨d, rfl, rfl⟩
          · trivial
          · trivial
          · exact unit_neg hx
      | member i f =>
        obtain ⟨o, h3, h4⟩ := Option.bind_eq_some_iff.1 (show H.objs[i]?.bind (fun v => v.member f) = some x from hl)
        intro v hv
        obtain ⟨j, hj⟩ := List.mem_iff_getElem?.1 hv
        simp only [PyHeap.store, List.getElem?_modify] at hj
        by_cases hij : i = j
        · subst hij
          rw [h3] at hj
          simp at hj
          rw [← hj]
          exact withMember_normalised (hH o (List.mem_of_getElem? h3)) h4 hy
        · simp [hij] at hj
          exact hH v (List.mem_of_getElem? hj)
    · cases hs

/-- Whatever is modified, all directions keep length one, and the axes of all elliptical objects stay orthonormal. -/
theorem C114_normalised (prog : List PyStep) (H : PyHeap) (hm : ∀ s ∈ prog, Spec.MakesNormalised s)
    (hrun : PyHeap.run {} prog = .val H) : ∀ h v, H.read h = some v → Spec.Normalised v := by
  have key : ∀ (t : List PyStep) (H1 : PyHeap), (∀ v ∈ H1.objs, Spec.Normalised v) →
      (∀ s ∈ t, Spec.MakesNormalised s) → H1.run t = .val H → ∀ v ∈ H.objs, Spec.Normalised v := by
    intro t
    induction t with
    | nil => intro H1 h1 _ hr; cases hr; exact h1
    | cons s t ih =>
      intro H1 h1 h2 hr
      obtain ⟨H2, h3, h4⟩ := Outcome.bind_eq_val.1 hr
      exact ih H2 (step_normalised h1 (h2 s (by simp)) h3) (fun s hs => h2 s (by simp [hs])) h4
  exact fun h v hv => read_normalised (key prog {} (by simp) hm hrun) hv

/-- The unit circle is normalised. -/
example : Spec.MakesNormalised (.make (.elliptical .disk unitCircle)) := by
  obtain ⟨⟨h1, h2, h3, h4, h5, h6, _⟩, _⟩ := unitCircle_valid
  exact ⟨h1, h2, h3, h4, h5, h6⟩

/-- But the axes of a valid disk need not stay right-handed. -/
theorem C114_left_handed : ∃ (prog : List PyStep) (H : PyHeap) (e : Elliptical),
    (∀ s ∈ prog, ∀ v, s = .make v → ∃ e, v = .elliptical .disk e ∧ ValidElliptical e) ∧
    PyHeap.run {} prog = .val H ∧ H.read 0 = some (.elliptical .disk e) ∧ Spec.det e.major e.minor e.normal = -1 := by
  refine ⟨[.make (.elliptical .disk unitCircle), .get 0 .normal, .change 1 .invert], _, _, ?_, rfl, rfl, ?_⟩
  · intro s hs v hv
    subst hv
    simp at hs
    exact ⟨_, hs, unitCircle_valid⟩
  · simp [Spec.det, unitCircle, Elliptical.withMember]

/-- C114: a call of a function with arguments of other classes, or of a function that the class of the object does not
have, raises an exception: no call has undefined behaviour as long as the functions that compute new values have none. -/
theorem C114_outcome (H : PyHeap) (s : PyStep) (hq : ∀ f args vs, s = .query f args → f vs ≠ .ub) : H.step s ≠ .ub := by
  have hc : ∀ (arg : ℕ → Option PyVal) (m : Change) (x : PyVal), changed arg m x ≠ .ub := by
    intro arg m x
    unfold changed
    split
    · split <;> simp
    · split <;> simp
    · simp
    · simp
    · split <;> simp
    · split <;> simp
    · simp
    · split <;> simp
    · simp
  have hb : ∀ (o : Outcome PyVal) (f : PyVal → PyHeap), o ≠ .ub → (o >>= fun v => pure (f v)) ≠ .ub := by
    intro o f ho
    cases o with
    | ub => exact absurd rfl ho
    | _ => exact fun h => nomatch h
  cases s with
  | make v => simp [PyHeap.step]
  | query f args =>
    simp only [PyHeap.step]
    split
    · exact hb _ _ (hq f args _ rfl)
    · simp
  | get h f =>
    simp only [PyHeap.step]
    split
    · split <;> simp
    · simp
  | base h second shared =>
    simp only [PyHeap.step]
    split
    · rename_i i e _ _
      by_cases hm : shared = true ∧ PyRef.member i (if second then .minorAxis else .majorAxis) ∈ H.refs
      · rw [if_pos hm]; exact fun h => nomatch h
      · rw [if_neg hm]; exact fun h => nomatch h
    · simp
  | supportingEllipse h =>
    simp only [PyHeap.step]
    split <;> simp
  | change h m =>
    simp only [PyHeap.step]
    split
    · exact hb _ _ (hc _ _ _)
    · simp

/-- C113: points, vectors, directions and disks have no point for a local coordinate, they raise an exception. -/
theorem C113_no_method (v : PyVal) (x : ℝ)
    (h : (∃ p, v = .point p) ∨ (∃ w, v = .vector w) ∨ (∃ d, v = .direction d) ∨ ∃ e, v = .elliptical .disk e) :
    (v.getPoint x).isThrown ∧ (v.getPointFromAngle x).isThrown := by
  rcases h with ⟨p, rfl⟩ | ⟨p, rfl⟩ | ⟨p, rfl⟩ | ⟨p, rfl⟩ <;> exact ⟨trivial, trivial⟩

end Props
