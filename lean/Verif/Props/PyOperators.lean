import Verif.Spec.Operators

/-!
# C140 Arithmetic operators in Python
-/

namespace Props
open Verif Frackit Frackit.Ops

theorem sameDim_self {α : Type} {n : ℕ} (p v : Coords n) (f : Coords n → Coords n → α) :
    sameDim n n p v f = some (f p v) := by
  unfold sameDim
  rw [dif_pos rfl]

theorem sameDim_some {α : Type} {n m : ℕ} {p : Coords n} {v : Coords m} {f : Coords n → Coords n → α} {r : α}
    (h : sameDim n m p v f = some r) : ∃ e : m = n, f p (e ▸ v) = r := by
  unfold sameDim at h
  split at h
  · rename_i e
    exact ⟨e, Option.some.inj h⟩
  · cases h

/-- The expression `a o b` has a value exactly in the cases of the specification, which include the operators of the C++
classes; in all other cases it raises an exception. -/
theorem C140_binary (o : Op) (a b : Obj) :
    (∀ r, binary o a b = .val r ↔ Spec.OpResult o a b r) ∧
    ((¬ ∃ r, Spec.OpResult o a b r) → (binary o a b).isThrown) := by
  have key : ∀ r, binary o a b = .val r ↔ Spec.OpResult o a b r := by
    intro r
    constructor
    · intro h
      unfold binary at h
      cases hm : method o a b with
      | none => rw [hm] at h; cases h
      | some s =>
        rw [hm] at h
        change s = .val r at h
        subst h
        unfold method at hm
        split at hm
        · obtain ⟨rfl, h⟩ := sameDim_some hm
          obtain rfl := Outcome.val.inj h
          exact .pointPlus _ _ _ fun _ => rfl
        · obtain ⟨rfl, h⟩ := sameDim_some hm
          obtain rfl := Outcome.val.inj h
          exact .pointMinus _ _ _ fun _ => rfl
        · obtain ⟨rfl, h⟩ := sameDim_some hm
          obtain rfl := Outcome.val.inj h
          exact .scalarProduct _ _
        · obtain ⟨rfl, h⟩ := sameDim_some hm
          obtain rfl := Outcome.val.inj h
          exact .vectorPlus _ _ _ fun _ => rfl
        · obtain ⟨rfl, h⟩ := sameDim_some hm
          obtain rfl := Outcome.val.inj h
          exact .vectorMinus _ _ _ fun _ => rfl
        · obtain rfl := Outcome.val.inj (Option.some.inj hm)
          exact .directionTimes _ _ _ fun i => mul_comm _ _
        · rename_i x y
          have h := Option.some.inj hm
          cases o with
          | add => obtain rfl := Outcome.val.inj h; exact .sum _ _
          | sub => obtain rfl := Outcome.val.inj h; exact .difference _ _
          | mul => obtain rfl := Outcome.val.inj h; exact .product _ _
          | div =>
            unfold numbers at h
            by_cases hy : y = 0
            · simp [hy] at h
            · simp only [if_neg hy] at h
              obtain rfl := Outcome.val.inj h
              exact .quotient _ _ hy
        · cases hm
    · intro h
      cases h with
      | pointPlus p v r h =>
        obtain rfl : r = fun i => p i + v i := funext h
        simp only [binary, method, sameDim_self]; rfl
      | pointMinus p v r h =>
        obtain rfl : r = fun i => p i - v i := funext h
        simp only [binary, method, sameDim_self]; rfl
      | vectorPlus p v r h =>
        obtain rfl : r = fun i => p i + v i := funext h
        simp only [binary, method, sameDim_self]; rfl
      | vectorMinus p v r h =>
        obtain rfl : r = fun i => p i - v i := funext h
        simp only [binary, method, sameDim_self]; rfl
      | scalarProduct v w => simp only [binary, method, sameDim_self]; rfl
      | directionTimes d r x h =>
        obtain rfl : r = fun i => d i * x := funext fun i => by rw [h i, mul_comm]
        rfl
      | sum x y => rfl
      | difference x y => rfl
      | product x y => rfl
      | quotient x y hy => simp [binary, method, numbers, hy]
  refine ⟨key, fun hne => ?_⟩
  have hnv : ∀ r, binary o a b ≠ .val r := fun r h => hne ⟨r, (key r).1 h⟩
  cases hb : binary o a b with
  | val r => exact absurd hb (hnv r)
  | thrown e => trivial
  | nan =>
    exfalso
    unfold binary method at hb
    split at hb <;> try (unfold sameDim at hb; split at hb <;> cases hb)
    · cases hb
    · rename_i x y _
      cases o <;> try cases hb
      simp only [numbers] at hb
      split at hb <;> cases hb
    · cases hb
  | ub =>
    exfalso
    unfold binary method at hb
    split at hb <;> try (unfold sameDim at hb; split at hb <;> cases hb)
    · cases hb
    · rename_i x y _
      cases o <;> try cases hb
      simp only [numbers] at hb
      split at hb <;> cases hb
    · cases hb

example : binary .add (.point 2 ![1, 2]) (.vector 2 ![3, 4]) = .val (.point 2 ![4, 6]) :=
  ((C140_binary _ _ _).1 _).2 (.pointPlus _ _ _ fun i => by fin_cases i <;> norm_num)

/-- Expressions that look natural and raise an exception: the scaling of vectors and points, with the number on either side,
the vector between two points, the sum of a vector and a point, operands of different dimension. -/
theorem C140_type_errors {n m : ℕ} (p q v : Fin n → ℝ) (w : Fin m → ℝ) (x : ℝ) (hnm : n ≠ m) :
    (binary .mul (.vector n v) (.number x)).isThrown ∧ (binary .mul (.number x) (.vector n v)).isThrown ∧
    (binary .div (.vector n v) (.number x)).isThrown ∧ (binary .mul (.number x) (.direction n v)).isThrown ∧
    (binary .mul (.point n p) (.number x)).isThrown ∧ (binary .div (.point n p) (.number x)).isThrown ∧
    (binary .sub (.point n p) (.point n q)).isThrown ∧ (binary .add (.vector n v) (.point n p)).isThrown ∧
    (binary .add (.vector n v) (.direction n q)).isThrown ∧
    (∀ o, (binary o (.point n p) (.vector m w)).isThrown ∧ (binary o (.vector n v) (.vector m w)).isThrown) := by
  have hne : ¬ m = n := fun h => hnm h.symm
  refine ⟨trivial, trivial, trivial, trivial, trivial, trivial, trivial, trivial, trivial, fun o => ?_⟩
  constructor <;> refine (C140_binary _ _ _).2 ?_ <;> rintro ⟨r, h⟩ <;> cases h <;> exact hne rfl

example : (binary .mul (.vector 3 ![1, 0, 0]) (.number 2)).isThrown :=
  (C140_type_errors (m := 2) ![0, 0, 0] ![0, 0, 0] ![1, 0, 0] ![0, 0] 2 (by norm_num)).1

/-- The in-place methods: the cases of the specification. -/
theorem inplaceMethod_val (o : Op) (a b r : Obj) :
    inplaceMethod o a b = some (.val r) ↔ Spec.Modified o a b r := by
  constructor
  · intro hm
    unfold inplaceMethod at hm
    split at hm
    · obtain ⟨rfl, h⟩ := sameDim_some hm
      obtain rfl := Outcome.val.inj h
      exact .pointPlus _ _ _ fun _ => rfl
    · obtain ⟨rfl, h⟩ := sameDim_some hm
      obtain rfl := Outcome.val.inj h
      exact .pointMinus _ _ _ fun _ => rfl
    · obtain rfl := Outcome.val.inj (Option.some.inj hm)
      exact .pointTimes _ _ _ fun i => mul_comm _ _
    · obtain ⟨q, hq, hr⟩ := Outcome.bind_eq_val.1 (Option.some.inj hm)
      obtain rfl := Outcome.val.inj hr
      unfold Coords.divide at hq
      split at hq
      · cases hq
      · rename_i hx
        obtain rfl := Outcome.val.inj hq
        exact .pointOver _ _ _ hx fun _ => rfl
    · obtain rfl := Outcome.val.inj (Option.some.inj hm)
      exact .vectorTimes _ _ _ fun i => mul_comm _ _
    · obtain ⟨q, hq, hr⟩ := Outcome.bind_eq_val.1 (Option.some.inj hm)
      obtain rfl := Outcome.val.inj hr
      unfold Coords.divide at hq
      split at hq
      · cases hq
      · rename_i hx
        obtain rfl := Outcome.val.inj hq
        exact .vectorOver _ _ _ hx fun _ => rfl
    · cases hm
  · intro h
    cases h with
    | pointPlus p v r h =>
      obtain rfl : r = fun i => p i + v i := funext h
      simp only [inplaceMethod, sameDim_self]; rfl
    | pointMinus p v r h =>
      obtain rfl : r = fun i => p i - v i := funext h
      simp only [inplaceMethod, sameDim_self]; rfl
    | pointTimes p r x h =>
      obtain rfl : r = fun i => p i * x := funext fun i => by rw [h i, mul_comm]
      rfl
    | pointOver p r x hx h =>
      obtain rfl : r = fun i => p i / x := funext h
      simp only [inplaceMethod, Coords.divide, if_neg hx]; rfl
    | vectorTimes p r x h =>
      obtain rfl : r = fun i => p i * x := funext fun i => by rw [h i, mul_comm]
      rfl
    | vectorOver p r x hx h =>
      obtain rfl : r = fun i => p i / x := funext h
      simp only [inplaceMethod, Coords.divide, if_neg hx]; rfl

/-- The interpreter at the start of a program. -/
def emptyEnv : Env := ⟨[], fun _ => none⟩

/-- All variables are bound to objects. -/
def Bound (E : Env) : Prop := ∀ x i, E.vars x = some i → i < E.objs.length

theorem bindNew_bound {E : Env} (h : Bound E) (x : ℕ) (a : Obj) : Bound (E.bindNew x a) := by
  intro y i hy
  simp only [Env.bindNew, List.length_append, List.length_singleton] at hy ⊢
  split at hy
  · obtain rfl := Option.some.inj hy
    omega
  · have := h y i hy
    omega

theorem exec_bound {E E' : Env} {s : Stmt} (h : Bound E) (he : E.exec s = .val E') : Bound E' := by
  cases s with
  | make x a =>
    obtain rfl := Outcome.val.inj he
    exact bindNew_bound h x a
  | rename x y =>
    simp only [Env.exec] at he
    split at he
    · rename_i i hi
      obtain rfl := Outcome.val.inj he
      intro z j hz
      simp only at hz ⊢
      split at hz
      · obtain rfl := Option.some.inj hz
        exact h y _ hi
      · exact h z j hz
    · cases he
  | binary x o a b =>
    simp only [Env.exec] at he
    split at he
    · obtain ⟨r, -, hr⟩ := Outcome.bind_eq_val.1 he
      obtain rfl := Outcome.val.inj hr
      exact bindNew_bound h x r
    · cases he
  | augmented x o y =>
    simp only [Env.exec] at he
    split at he
    · split at he
      · obtain ⟨r, -, hr⟩ := Outcome.bind_eq_val.1 he
        obtain rfl := Outcome.val.inj hr
        intro z j hz
        simp only [List.length_set]
        exact h z j hz
      · obtain ⟨r, -, hr⟩ := Outcome.bind_eq_val.1 he
        obtain rfl := Outcome.val.inj hr
        exact bindNew_bound h x r
    · cases he

theorem execAll_bound {E E' : Env} {l : List Stmt} (h : Bound E) (he : E.execAll l = .val E') : Bound E' := by
  induction l generalizing E with
  | nil =>
    obtain rfl := Outcome.val.inj he
    exact h
  | cons s t ih =>
    obtain ⟨E1, h1, h2⟩ := Outcome.bind_eq_val.1 he
    exact ih (exec_bound h h1) h2

theorem program_bound {l : List Stmt} {E : Env} (he : emptyEnv.execAll l = .val E) : Bound E :=
  execAll_bound (fun _ _ h => by cases h) he

theorem bindNew_value_self (E : Env) (x : ℕ) (a : Obj) : (E.bindNew x a).value x = some a := by
  simp [Env.value, Env.bindNew]

theorem bindNew_value_other {E : Env} (h : Bound E) {x y : ℕ} (hy : y ≠ x) (a : Obj) :
    (E.bindNew x a).value y = E.value y := by
  simp only [Env.value, Env.bindNew, if_neg hy]
  cases hv : E.vars y with
  | none => rfl
  | some i =>
    simp only [Option.bind_some]
    exact List.getElem?_append_left (h y i hv)

/-- `x = a o b` at any point of a program: `x` gets the value of the specification, and nothing else changes; in particular,
the operands are not modified. -/
theorem C140_assignment (l : List Stmt) (E E' : Env) (x : ℕ) (o : Op) (a b : ℕ)
    (hE : emptyEnv.execAll l = .val E) (he : E.exec (.binary x o a b) = .val E') :
    (∃ u w r, E.value a = some u ∧ E.value b = some w ∧ Spec.OpResult o u w r ∧ E'.value x = some r) ∧
    ∀ y, y ≠ x → E'.value y = E.value y := by
  have hb := program_bound hE
  simp only [Env.exec] at he
  split at he
  · rename_i u w hu hw
    obtain ⟨r, h1, hr⟩ := Outcome.bind_eq_val.1 he
    obtain rfl := Outcome.val.inj hr
    exact ⟨⟨u, w, r, hu, hw, ((C140_binary o u w).1 r).1 h1, bindNew_value_self E x r⟩,
      fun y hy => bindNew_value_other hb hy r⟩
  · cases he

theorem exec_augmented {E E' : Env} {x y : ℕ} {o : Op} (he : E.exec (.augmented x o y) = .val E') :
    ∃ i u w, E.vars x = some i ∧ E.value x = some u ∧ E.value y = some w ∧
      ((∃ r, Spec.Modified o u w r ∧ E' = ⟨E.objs.set i r, E.vars⟩) ∨
        (inplaceMethod o u w = none ∧ ∃ r, Spec.OpResult o u w r ∧ E' = E.bindNew x r)) := by
  simp only [Env.exec] at he
  split at he
  · rename_i i u w hi hu hw
    refine ⟨i, u, w, hi, hu, hw, ?_⟩
    split at he
    · rename_i r0 hm
      obtain ⟨r, h1, hr⟩ := Outcome.bind_eq_val.1 he
      obtain rfl := Outcome.val.inj hr
      exact .inl ⟨r, (inplaceMethod_val o u w r).1 (hm.trans (congrArg some h1)), rfl⟩
    · rename_i hm
      obtain ⟨r, h1, hr⟩ := Outcome.bind_eq_val.1 he
      obtain rfl := Outcome.val.inj hr
      exact .inr ⟨hm, r, ((C140_binary o u w).1 r).1 h1, rfl⟩
  · cases he

theorem set_value {E : Env} (h : Bound E) {x i : ℕ} (hx : E.vars x = some i) (r : Obj) (y : ℕ) :
    (⟨E.objs.set i r, E.vars⟩ : Env).value y = if E.vars y = E.vars x then some r else E.value y := by
  by_cases hxy : E.vars y = E.vars x
  · rw [if_pos hxy]
    simp only [Env.value, hxy, hx, Option.bind_some]
    exact List.getElem?_set_self (h x i hx)
  · rw [if_neg hxy]
    simp only [Env.value]
    cases hv : E.vars y with
    | none => rfl
    | some j =>
      simp only [Option.bind_some]
      refine List.getElem?_set_ne fun hij => hxy ?_
      rw [hv, hx, hij]

/-- `x o= y` at any point of a program.  Either the object of `x` is modified, and so are the values of exactly those
variables that are bound to the same object, or `x` is bound to the new object `x o y`, and nothing else changes. -/
theorem C140_augmented (l : List Stmt) (E E' : Env) (x : ℕ) (o : Op) (y : ℕ)
    (hE : emptyEnv.execAll l = .val E) (he : E.exec (.augmented x o y) = .val E') :
    ∃ u w r, E.value x = some u ∧ E.value y = some w ∧ E'.value x = some r ∧
      ((Spec.Modified o u w r ∧ ∀ z, E'.value z = if E.vars z = E.vars x then some r else E.value z) ∨
        ((¬ ∃ s, Spec.Modified o u w s) ∧ Spec.OpResult o u w r ∧ ∀ z, z ≠ x → E'.value z = E.value z)) := by
  have hb := program_bound hE
  obtain ⟨i, u, w, hi, hu, hw, h⟩ := exec_augmented he
  rcases h with ⟨r, hr, rfl⟩ | ⟨hn, r, hr, rfl⟩
  · exact ⟨u, w, r, hu, hw, by rw [set_value hb hi, if_pos rfl], .inl ⟨hr, fun z => set_value hb hi r z⟩⟩
  · refine ⟨u, w, r, hu, hw, bindNew_value_self E x r, .inr ⟨?_, hr, fun z hz => bindNew_value_other hb hz r⟩⟩
    rintro ⟨s, hs⟩
    rw [(inplaceMethod_val o u w s).2 hs] at hn
    cases hn

/-- Where both are defined, the modified object has the value of the expression. -/
theorem modified_opResult {o : Op} {u w r s : Obj} (h : Spec.Modified o u w r) (h' : Spec.OpResult o u w s) : r = s := by
  cases h with
  | pointPlus p v r hr => cases h' with | pointPlus _ _ r' hr' => rw [show r = r' from funext fun i => by rw [hr, hr']]
  | pointMinus p v r hr => cases h' with | pointMinus _ _ r' hr' => rw [show r = r' from funext fun i => by rw [hr, hr']]
  | pointTimes => cases h'
  | pointOver => cases h'
  | vectorTimes => cases h'
  | vectorOver => cases h'

/-- `x o= y` succeeds if `x = x o y` does, and gives `x` the same value. -/
theorem C140_same_value (l : List Stmt) (E E₁ : Env) (x : ℕ) (o : Op) (y : ℕ) (hE : emptyEnv.execAll l = .val E)
    (h₁ : E.exec (.binary x o x y) = .val E₁) :
    ∃ E₂, E.exec (.augmented x o y) = .val E₂ ∧ E₂.value x = E₁.value x := by
  have hb := program_bound hE
  obtain ⟨⟨u, w, r, hu, hw, hr, hx⟩, -⟩ := C140_assignment l E E₁ x o x y hE h₁
  cases hv : E.vars x with
  | none => simp [Env.value, hv] at hu
  | some i =>
    have hbin := ((C140_binary o u w).1 r).2 hr
    cases hm : inplaceMethod o u w with
    | none =>
      refine ⟨E.bindNew x r, ?_, (bindNew_value_self E x r).trans hx.symm⟩
      simp only [Env.exec, hv, hu, hw, hm, hbin]
      rfl
    | some q =>
      have hq : q = .val r := by
        cases hr with
        | pointPlus p v r h =>
          have := (inplaceMethod_val _ _ _ _).2 (Spec.Modified.pointPlus p v r h)
          exact Option.some.inj (hm.symm.trans this)
        | pointMinus p v r h =>
          have := (inplaceMethod_val _ _ _ _).2 (Spec.Modified.pointMinus p v r h)
          exact Option.some.inj (hm.symm.trans this)
        | _ => cases hm
      subst hq
      refine ⟨⟨E.objs.set i r, E.vars⟩, ?_, ?_⟩
      · simp only [Env.exec, hv, hu, hw, hm]
        rfl
      · rw [set_value hb hv, if_pos rfl, hx]

/-- Division of a point or vector by zero in place does not raise an exception: the coordinates become infinite or `NaN`.
Division of a number by zero is an exception. -/
theorem C140_division_by_zero (E : Env) (x y : ℕ) (n : ℕ) (p : Fin n → ℝ) (z : ℝ) (hy : E.value y = some (.number 0)) :
    (E.value x = some (.point n p) → E.exec (.augmented x .div y) = .nan) ∧
    (E.value x = some (.vector n p) → E.exec (.augmented x .div y) = .nan) ∧
    (E.value x = some (.number z) → (E.exec (.augmented x .div y)).isThrown) := by
  have hv : ∀ a, E.value x = some a → ∃ i, E.vars x = some i := by
    intro a ha
    cases hv : E.vars x with
    | none => simp [Env.value, hv] at ha
    | some i => exact ⟨i, rfl⟩
  refine ⟨fun h => ?_, fun h => ?_, fun h => ?_⟩ <;> obtain ⟨i, hi⟩ := hv _ h
  · simp only [Env.exec, hi, h, hy, inplaceMethod, Coords.divide, if_pos]
    rfl
  · simp only [Env.exec, hi, h, hy, inplaceMethod, Coords.divide, if_pos]
    rfl
  · simp only [Env.exec, hi, h, hy, inplaceMethod, Ops.binary, method, numbers, if_pos]
    trivial

/-- Augmented assignment keeps the class of the variable. -/
def C140_full : Prop := ∀ (l : List Stmt) (E E' : Env) (x : ℕ) (o : Op) (y : ℕ) (u r : Obj),
  emptyEnv.execAll l = .val E → E.exec (.augmented x o y) = .val E' → E.value x = some u → E'.value x = some r →
  Spec.SameClass u r

/-- After `d *= 2` the direction is a vector. -/
theorem C140_disproof : ¬ C140_full := by
  intro h
  have := h [.make 0 (.direction 1 ![1]), .make 1 (.number 2)]
    ⟨[.direction 1 ![1], .number 2], fun z => if z = 1 then some 1 else if z = 0 then some 0 else none⟩
    ⟨[.direction 1 ![1], .number 2, .vector 1 (directionTimes ![1] 2)],
      fun z => if z = 0 then some 2 else if z = 1 then some 1 else if z = 0 then some 0 else none⟩
    0 .mul 1 (.direction 1 ![1]) (.vector 1 (directionTimes ![1] 2)) rfl rfl rfl rfl
  exact this

/-- Augmented assignment keeps the class of the variable except for a direction times a number, which becomes a vector, and
the product of two vectors, which becomes a number. -/
theorem C140_class_partial (l : List Stmt) (E E' : Env) (x : ℕ) (o : Op) (y : ℕ) (u w r : Obj)
    (hE : emptyEnv.execAll l = .val E) (he : E.exec (.augmented x o y) = .val E') (hu : E.value x = some u)
    (hw : E.value y = some w) (hr : E'.value x = some r) :
    Spec.SameClass u r ↔ ¬ (o = .mul ∧ ((∃ n d z, u = .direction n d ∧ w = .number z) ∨
      ∃ n v v', u = .vector n v ∧ w = .vector n v')) := by
  obtain ⟨u', w', r', hu', hw', hr', h⟩ := C140_augmented l E E' x o y hE he
  obtain rfl := Option.some.inj (hu.symm.trans hu')
  obtain rfl := Option.some.inj (hw.symm.trans hw')
  obtain rfl := Option.some.inj (hr.symm.trans hr')
  rcases h with ⟨h, -⟩ | ⟨-, h, -⟩ <;> cases h <;> simp [Spec.SameClass]

/-- `q = p; p += v` moves `q` as well; `w = v; v += v'` leaves `w` where it is. -/
example : ∃ E, emptyEnv.execAll [.make 0 (.point 1 ![1]), .rename 1 0, .make 2 (.vector 1 ![3]), .augmented 0 .add 2] =
      .val E ∧ E.value 1 = E.value 0 ∧ E.value 1 = some (.point 1 (Coords.moveForward ![1] ![3])) :=
  ⟨⟨[.point 1 (Coords.moveForward ![1] ![3]), .vector 1 ![3]],
    fun z => if z = 2 then some 1 else if z = 1 then some 0 else if z = 0 then some 0 else none⟩, rfl, rfl, rfl⟩

example : ∃ E, emptyEnv.execAll [.make 0 (.vector 1 ![1]), .rename 1 0, .make 2 (.vector 1 ![3]), .augmented 0 .add 2] =
      .val E ∧ E.value 0 = some (.vector 1 (Coords.plus ![1] ![3])) ∧ E.value 1 = some (.vector 1 ![1]) :=
  ⟨⟨[.vector 1 ![1], .vector 1 ![3], .vector 1 (Coords.plus ![1] ![3])],
    fun z => if z = 0 then some 2 else if z = 2 then some 1 else if z = 1 then some 0 else if z = 0 then some 0 else none⟩,
    rfl, rfl, rfl⟩

/-- A statement that uses a variable without a value raises `NameError`. -/
theorem C140_name_errors (E : Env) (x y : ℕ) (o : Op) :
    (E.vars y = none → E.exec (.rename x y) = .thrown "NameError") ∧
    (∀ z, E.value y = none ∨ E.value z = none → E.exec (.binary x o y z) = .thrown "NameError") ∧
    (E.value x = none ∨ E.value y = none → E.exec (.augmented x o y) = .thrown "NameError") := by
  refine ⟨fun h => ?_, fun z h => ?_, fun h => ?_⟩
  · simp only [Env.exec, h]
  · simp only [Env.exec]
    rcases h with h | h
    · rw [h]
    · rw [h]
      cases E.value y <;> rfl
  · simp only [Env.exec]
    rcases h with h | h
    · rw [h]
      cases E.vars x <;> rfl
    · rw [h]
      cases E.vars x <;> cases E.value x <;> rfl

end Props
