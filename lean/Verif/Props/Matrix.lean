import Verif.Model.EntityNetwork.Matrix
import Verif.Spec.Matrix
import Verif.Props.Constraints

/-!
# C38, C39: the C++ matrix of constraints
-/

namespace Props
open Verif Frackit Spec.Matrix
open Frackit.Matrix (pushAt updateIndexMaps updateAll addConstraint evaluateLoop)

section
variable {C E : Type}

/-- The registrations for a first id. -/
def row (r : Regs C) (id : ℕ) : Regs C := r.filter (fun x => x.1.1 = id)

theorem mem_row {r : Regs C} {id : ℕ} {x : (ℕ × ℕ) × C} : x ∈ row r id ↔ x ∈ r ∧ x.1.1 = id := by
  simp [row]

theorem row_append (r : Regs C) (p : ℕ × ℕ) (c : C) (id : ℕ) :
    row (r ++ [(p, c)]) id = if p.1 = id then row r id ++ [(p, c)] else row r id := by
  unfold row
  rw [List.filter_append]
  by_cases h : p.1 = id <;> simp [h]

/-- The data of the matrix represents the registrations. -/
structure Repr (m : Frackit.Matrix C) (r : Regs C) : Prop where
  rel : ∀ id, (m.relations id).getD [] = (row r id).map (fun x => x.1.2)
  map : ∀ id, List.Forall₂ (fun (e : ℕ × ℕ) (x : (ℕ × ℕ) × C) => e.1 = x.1.2 ∧
    m.constraints[e.2]? = some x.2) ((m.indexMap id).getD []) (row r id)
  none : ∀ id, m.indexMap id = none ↔ row r id = []

theorem repr_init : Repr (Frackit.Matrix.init : Frackit.Matrix C) [] :=
  ⟨fun _ => rfl, fun _ => List.Forall₂.nil, fun _ => ⟨fun _ => rfl, fun _ => rfl⟩⟩

theorem repr_addConstraint {m : Frackit.Matrix C} {r : Regs C} (h : Repr m r) (c : C) :
    Repr (m.addConstraint c) r := by
  refine ⟨h.rel, fun id => ?_, h.none⟩
  refine (h.map id).imp ?_
  rintro e x ⟨h1, h2⟩
  refine ⟨h1, ?_⟩
  obtain ⟨hlt, h2'⟩ := List.getElem?_eq_some_iff.1 h2
  simp only [Frackit.Matrix.addConstraint]
  rw [List.getElem?_append_left hlt, h2]

theorem mem_keys_iff {m : Frackit.Matrix C} {r : Regs C} (h : Repr m r) (p : ℕ × ℕ) :
    ((m.relations p.1).getD []).count p.2 ≠ 0 ↔ p ∈ r.map (·.1) := by
  rw [h.rel p.1, ← Nat.pos_iff_ne_zero, List.count_pos_iff]
  simp only [List.mem_map, mem_row]
  constructor
  · rintro ⟨x, ⟨hx, hx1⟩, hx2⟩
    exact ⟨x, hx, Prod.ext hx1 hx2⟩
  · rintro ⟨x, hx, rfl⟩
    exact ⟨x, ⟨hx, rfl⟩, rfl⟩

theorem pushAt_same {α : Type} (f : ℕ → Option (List α)) (k : ℕ) (x : α) :
    pushAt f k x k = some ((f k).getD [] ++ [x]) := by simp [pushAt]

theorem pushAt_ne {α : Type} (f : ℕ → Option (List α)) (k : ℕ) (x : α) {j : ℕ} (h : k ≠ j) :
    pushAt f k x j = f j := by simp [pushAt, Function.update_of_ne (Ne.symm h)]

theorem repr_updateAll (c : C) (pairs : List (ℕ × ℕ)) :
    ∀ (m : Frackit.Matrix C) (r : Regs C), Repr m r → m.constraints.getLast? = some c →
      Repr (m.updateAll pairs).2 (add r c pairs) ∧
      (((m.updateAll pairs).1 = .val () ∧ pairs.Nodup ∧ (∀ p ∈ pairs, p ∉ r.map (·.1)) ∧
          add r c pairs = r ++ pairs.map (fun p => (p, c))) ∨
        ((m.updateAll pairs).1.isThrown ∧ ¬ (pairs.Nodup ∧ ∀ p ∈ pairs, p ∉ r.map (·.1)))) := by
  induction pairs with
  | nil =>
    intro m r h _
    refine ⟨h, Or.inl ⟨rfl, List.nodup_nil, by simp, by simp [add]⟩⟩
  | cons p t ih =>
    intro m r h hc
    by_cases hp : p ∈ r.map (·.1)
    · have hu : m.updateIndexMaps p = (.thrown "ConstraintsMatrix: Relation was already defined!", m) := by
        unfold Frackit.Matrix.updateIndexMaps
        rw [if_pos ((mem_keys_iff h p).2 hp)]
      simp only [Frackit.Matrix.updateAll, hu, add, if_pos hp]
      exact ⟨h, Or.inr ⟨trivial, fun hh => hh.2 p List.mem_cons_self hp⟩⟩
    · have hu := (mem_keys_iff h p).not.2 hp
      have hne : m.constraints ≠ [] := by
        intro h0; rw [h0] at hc; simp at hc
      have hlast : m.constraints[m.constraints.length - 1]? = some c := by
        rw [← List.getLast?_eq_getElem?, hc]
      have hR : Repr { m with
          indexMap := pushAt m.indexMap p.1 (p.2, m.constraints.length - 1)
          relations := pushAt m.relations p.1 p.2 } (r ++ [(p, c)]) := by
        refine ⟨fun id => ?_, fun id => ?_, fun id => ?_⟩
        · rw [row_append]
          by_cases hid : p.1 = id
          · subst hid
            simp only [pushAt_same, if_true, Option.getD_some, List.map_append, List.map_cons,
              List.map_nil]
            rw [h.rel]
          · simp only [pushAt_ne _ _ _ hid, if_neg hid]
            exact h.rel id
        · rw [row_append]
          by_cases hid : p.1 = id
          · subst hid
            simp only [pushAt_same, if_true, Option.getD_some]
            exact List.rel_append (h.map p.1) (List.Forall₂.cons ⟨rfl, hlast⟩ List.Forall₂.nil)
          · simp only [pushAt_ne _ _ _ hid, if_neg hid]
            exact h.map id
        · rw [row_append]
          by_cases hid : p.1 = id
          · subst hid
            simp [pushAt_same]
          · simp only [pushAt_ne _ _ _ hid, if_neg hid]
            exact h.none id
      have hu' : m.updateIndexMaps p = (.val (), { m with
          indexMap := pushAt m.indexMap p.1 (p.2, m.constraints.length - 1)
          relations := pushAt m.relations p.1 p.2 }) := by
        unfold Frackit.Matrix.updateIndexMaps
        rw [if_neg hu]
      simp only [Frackit.Matrix.updateAll, hu', add, if_neg hp]
      obtain ⟨g1, g2⟩ := ih _ _ hR hc
      refine ⟨g1, ?_⟩
      have key : ((p :: t).Nodup ∧ ∀ q ∈ p :: t, q ∉ r.map (·.1)) ↔
          (t.Nodup ∧ ∀ q ∈ t, q ∉ (r ++ [(p, c)]).map (·.1)) := by
        simp only [List.nodup_cons, List.mem_cons, List.map_append, List.map_cons, List.map_nil,
          List.mem_append, List.not_mem_nil, or_false, not_or]
        constructor
        · rintro ⟨⟨hpt, ht⟩, hq⟩
          exact ⟨ht, fun q hqt => ⟨hq q (Or.inr hqt), fun e => hpt (e ▸ hqt)⟩⟩
        · rintro ⟨ht, hq⟩
          refine ⟨⟨fun hpt => (hq p hpt).2 rfl, ht⟩, ?_⟩
          rintro q (rfl | hqt)
          · exact hp
          · exact (hq q hqt).1
      rcases g2 with ⟨g2, g3, g4, g5⟩ | ⟨g2, g3⟩
      · left
        have := key.2 ⟨g3, g4⟩
        refine ⟨g2, this.1, this.2, ?_⟩
        rw [g5]
        simp
      · right
        exact ⟨g2, fun hh => g3 (key.1 hh)⟩

theorem repr_run (calls : List (C × List (ℕ × ℕ))) :
    Repr (Frackit.Matrix.run calls) (regs calls) := by
  unfold Frackit.Matrix.run regs
  have : ∀ (calls : List (C × List (ℕ × ℕ))) (m : Frackit.Matrix C) (r : Regs C), Repr m r →
      Repr (calls.foldl (fun m x => (m.addConstraints x.1 x.2).2) m)
        (calls.foldl (fun r x => add r x.1 x.2) r) := by
    intro calls
    induction calls with
    | nil => intro m r h; exact h
    | cons x t ih =>
      intro m r h
      refine ih _ _ ?_
      exact (repr_updateAll x.1 x.2 _ r (repr_addConstraint h x.1)
        (by simp [Frackit.Matrix.addConstraint])).1
  exact this calls _ _ repr_init

/-- Evaluation of one registration. -/
def evalReg (ev : C → List E → E → Outcome Bool) (sets : ℕ → Option (List E)) (x : E)
    (r : (ℕ × ℕ) × C) : Outcome Bool :=
  match sets r.1.2 with
  | none => .val true
  | some set => ev r.2 set x

theorem evaluateLoop_eq (ev : C → List E → E → Outcome Bool) (cs : List C)
    (sets : ℕ → Option (List E)) (x : E) (l : List (ℕ × ℕ)) (r : Regs C)
    (h : List.Forall₂ (fun (e : ℕ × ℕ) (x : (ℕ × ℕ) × C) => e.1 = x.1.2 ∧ cs[e.2]? = some x.2) l r) :
    evaluateLoop ev cs sets x l = allOf (evalReg ev sets x) r := by
  induction h with
  | nil => rfl
  | @cons e y l r h _ ih =>
    obtain ⟨h1, h2⟩ := h
    obtain ⟨e1, e2⟩ := e
    simp only at h1 h2
    subst h1
    simp only [evaluateLoop, allOf, h2, evalReg]
    cases sets y.1.2 with
    | none => exact ih
    | some set =>
      simp only
      rw [ih]
      rfl

theorem evaluate_eq (ev : C → List E → E → Outcome Bool) (calls : List (C × List (ℕ × ℕ)))
    (sets : ℕ → Option (List E)) (x : E) (id : ℕ) (h : row (regs calls) id ≠ []) :
    (Frackit.Matrix.run calls).evaluate ev sets x id
      = allOf (evalReg ev sets x) (row (regs calls) id) := by
  have H := repr_run calls
  unfold Frackit.Matrix.evaluate
  cases hm : (Frackit.Matrix.run calls).indexMap id with
  | none => exact absurd ((H.none id).1 hm) h
  | some l =>
    have := H.map id
    rw [hm] at this
    exact evaluateLoop_eq _ _ _ _ _ _ this

theorem row_ne_nil {r : Regs C} {id : ℕ} : row r id ≠ [] ↔ ∃ b, Has r (id, b) := by
  constructor
  · intro h
    obtain ⟨x, hx⟩ := List.exists_mem_of_ne_nil _ h
    obtain ⟨hx', hid⟩ := mem_row.1 hx
    subst hid
    exact ⟨x.1.2, x.2, hx'⟩
  · rintro ⟨b, c, h⟩ h0
    have : ((id, b), c) ∈ row r id := mem_row.2 ⟨h, rfl⟩
    rw [h0] at this
    cases this

end

variable {E : Type} (eng : Engine E)

/-! ## C38 Constraints matrix applies all constraints of a set -/

/-- An entity is accepted for an id exactly if the id has constraints and the entity fulfils each
constraints object registered for the id and another one against all entities of the set of the
other id. -/
theorem C38_accepts_iff (calls : List (Constraints × List (ℕ × ℕ))) (sets : ℕ → Option (List E))
    (x : E) (id : ℕ) :
    (Frackit.Matrix.run calls).evaluate (Constraints.evaluateSet eng) sets x id = .val true ↔
      (∃ b, Has (regs calls) (id, b)) ∧
      ∀ b c, ((id, b), c) ∈ regs calls → ∀ set, sets b = some set → ∀ e ∈ set,
        Constraints.evaluate eng c e x = .val true := by
  by_cases h : row (regs calls) id = []
  · have h' : ¬ ∃ b, Has (regs calls) (id, b) := fun hh => (row_ne_nil.2 hh) h
    simp only [h', false_and, iff_false]
    unfold Frackit.Matrix.evaluate
    rw [((repr_run calls).none id).2 h]
    simp
  · rw [evaluate_eq _ _ _ _ _ h, allOf_true]
    simp only [row_ne_nil.1 h, true_and]
    constructor
    · intro H b c hc set hs e he
      have := H ((id, b), c) (mem_row.2 ⟨hc, rfl⟩)
      simp only [evalReg, hs] at this
      exact (C37_set eng c set x).1.1 this e he
    · intro H y hy
      obtain ⟨⟨a, b⟩, c⟩ := y
      obtain ⟨hy', hid⟩ := mem_row.1 hy
      simp only at hid
      subst hid
      simp only [evalReg]
      cases hs : sets b with
      | none => rfl
      | some set => exact (C37_set eng c set x).1.2 (H b c hy' set hs)

/-- If none of the pairwise evaluations fails, the entity is rejected exactly if some registered
constraints object is violated by some entity of the other set. -/
theorem C38_rejects_iff (calls : List (Constraints × List (ℕ × ℕ))) (sets : ℕ → Option (List E))
    (x : E) (id : ℕ) (hid : ∃ b, Has (regs calls) (id, b))
    (hv : ∀ b c, ((id, b), c) ∈ regs calls → ∀ set, sets b = some set → ∀ e ∈ set,
      (Constraints.evaluate eng c e x).isVal) :
    (Frackit.Matrix.run calls).evaluate (Constraints.evaluateSet eng) sets x id = .val false ↔
      ∃ b c set, ((id, b), c) ∈ regs calls ∧ sets b = some set ∧ ∃ e ∈ set,
        Constraints.evaluate eng c e x = .val false := by
  have hne := row_ne_nil.2 hid
  have hval : ((Frackit.Matrix.run calls).evaluate (Constraints.evaluateSet eng) sets x id).isVal := by
    rw [evaluate_eq _ _ _ _ _ hne]
    apply allOf_isVal
    intro y hy
    obtain ⟨⟨a, b⟩, c⟩ := y
    obtain ⟨hy', hid⟩ := mem_row.1 hy
    simp only at hid
    subst hid
    simp only [evalReg]
    cases hs : sets b with
    | none => trivial
    | some set => exact allOf_isVal _ _ (hv b c hy' set hs)
  have hacc := C38_accepts_iff eng calls sets x id
  cases hr : (Frackit.Matrix.run calls).evaluate (Constraints.evaluateSet eng) sets x id with
  | thrown e => rw [hr] at hval; exact hval.elim
  | nan => rw [hr] at hval; exact hval.elim
  | ub => rw [hr] at hval; exact hval.elim
  | val r =>
    rw [hr] at hacc
    cases r with
    | true =>
      obtain ⟨_, H⟩ := hacc.1 rfl
      simp only [Outcome.val.injEq, Bool.true_eq_false, false_iff]
      rintro ⟨b, c, set, hc, hs, e, he, hf⟩
      rw [H b c hc set hs e he] at hf
      cases hf
    | false =>
      simp only [true_iff]
      by_contra hno
      have : Outcome.val false = Outcome.val true := by
        refine hacc.2 ⟨hid, fun b c hc set hs e he => ?_⟩
        have hv' := hv b c hc set hs e he
        cases hr' : Constraints.evaluate eng c e x with
        | thrown e => rw [hr'] at hv'; exact hv'.elim
        | nan => rw [hr'] at hv'; exact hv'.elim
        | ub => rw [hr'] at hv'; exact hv'.elim
        | val r' =>
          cases r' with
          | true => rfl
          | false => exact absurd ⟨b, c, set, hc, hs, e, he, hr'⟩ hno
      cases this

/-- An id without constraints raises an error, whatever the constraints and the entity sets. -/
theorem C38_unregistered (calls : List (Constraints × List (ℕ × ℕ))) (sets : ℕ → Option (List E))
    (x : E) (id : ℕ) (h : ¬ ∃ b, Has (regs calls) (id, b)) :
    ((Frackit.Matrix.run calls).evaluate (Constraints.evaluateSet eng) sets x id).isThrown := by
  have : row (regs calls) id = [] := by
    by_contra h0; exact h (row_ne_nil.1 h0)
  unfold Frackit.Matrix.evaluate
  rw [((repr_run calls).none id).2 this]
  trivial

/-- Registering fails exactly if one of the pairs is repeated or has constraints already; otherwise
all pairs are registered with the given constraints. -/
theorem C38_register (calls : List (Constraints × List (ℕ × ℕ))) (c : Constraints)
    (pairs : List (ℕ × ℕ)) :
    ((((Frackit.Matrix.run calls).addConstraints c pairs).1 = .val () ∧
        regs (calls ++ [(c, pairs)]) = regs calls ++ pairs.map (fun p => (p, c))) ∨
      ((Frackit.Matrix.run calls).addConstraints c pairs).1.isThrown) ∧
    (((Frackit.Matrix.run calls).addConstraints c pairs).1.isThrown ↔
      ¬ pairs.Nodup ∨ ∃ p ∈ pairs, Has (regs calls) p) := by
  have hk : ∀ p, p ∈ (regs calls).map (·.1) ↔ Has (regs calls) p := by
    intro p
    simp only [List.mem_map, Has]
    constructor
    · rintro ⟨⟨q, c⟩, h, rfl⟩; exact ⟨c, h⟩
    · rintro ⟨c, h⟩; exact ⟨(p, c), h, rfl⟩
  have hr : regs (calls ++ [(c, pairs)]) = add (regs calls) c pairs := by
    simp [regs]
  obtain ⟨_, g⟩ := repr_updateAll c pairs _ _ (repr_addConstraint (repr_run calls) c)
    (by simp [Frackit.Matrix.addConstraint])
  rw [hr]
  unfold Frackit.Matrix.addConstraints
  rcases g with ⟨g1, g2, g3, g4⟩ | ⟨g1, g2⟩
  · refine ⟨Or.inl ⟨g1, g4⟩, ?_⟩
    rw [g1]
    simp only [Outcome.not_isThrown_val, false_iff, not_or, not_not, not_exists, not_and]
    exact ⟨g2, fun p hp => fun h => g3 p hp ((hk p).2 h)⟩
  · refine ⟨Or.inr g1, ?_⟩
    simp only [g1, true_iff]
    by_contra hno
    simp only [not_or, not_not, not_exists, not_and] at hno
    exact g2 ⟨hno.1, fun p hp h => hno.2 p hp ((hk p).1 h)⟩

/-- Each ordered pair has at most one constraints object. -/
theorem C38_unique (calls : List (Constraints × List (ℕ × ℕ))) :
    ((regs calls).map (·.1)).Nodup := by
  have key : ∀ (pairs : List (ℕ × ℕ)) (c : Constraints) (r : Regs Constraints),
      (r.map (·.1)).Nodup → ((add r c pairs).map (·.1)).Nodup := by
    intro pairs
    induction pairs with
    | nil => intro c r h; exact h
    | cons p t ih =>
      intro c r h
      simp only [add]
      split_ifs with hp
      · exact h
      · refine ih c _ ?_
        rw [List.map_append]
        refine List.Nodup.append h (by simp) ?_
        intro q hq hq'
        simp only [List.map_cons, List.map_nil, List.mem_singleton] at hq'
        subst hq'
        exact hp hq
  unfold regs
  have : ∀ (calls : List (Constraints × List (ℕ × ℕ))) (r : Regs Constraints), (r.map (·.1)).Nodup →
      ((calls.foldl (fun r x => add r x.1 x.2) r).map (·.1)).Nodup := by
    intro calls
    induction calls with
    | nil => intro r h; exact h
    | cons x t ih => intro r h; exact ih _ (key _ _ _ h)
  exact this calls [] (by simp)

/-- Constraints with a minimum distance. -/
noncomputable def minDist (d : ℝ) : Constraints := Constraints.run [.setMinDistance d]

theorem minDist_far {d : ℝ} {a b : ℕ} (h : a + 1 < b ∨ b + 1 < a) (hd : d ≤ |(a : ℝ) - b|) :
    Constraints.evaluate sampleEngine (minDist d) a b = .val true := by
  have h1 : a ≠ b := by omega
  have h2 : a + 1 ≠ b := by omega
  have h3 : b + 1 ≠ a := by omega
  simp [Constraints.evaluate, minDist, Constraints.run, Constraints.step, Constraints.init,
    sampleEngine, isEmptyIntersection, isEmptyGeom, h1, h2, h3, hd, greaterEqual]

theorem minDist_close {d : ℝ} {a b : ℕ} (h : a + 1 < b ∨ b + 1 < a) (hd : |(a : ℝ) - b| < d) :
    Constraints.evaluate sampleEngine (minDist d) a b = .val false := by
  have h1 : a ≠ b := by omega
  have h2 : a + 1 ≠ b := by omega
  have h3 : b + 1 ≠ a := by omega
  simp [Constraints.evaluate, minDist, Constraints.run, Constraints.step, Constraints.init,
    sampleEngine, isEmptyIntersection, isEmptyGeom, h1, h2, h3, not_le.2 hd, greaterEqual]

/-- Non-trivial instance: set 1 contains the entities 0 and 9, constraints are registered for (0, 1) and
(0, 0); entity 5 is accepted for a minimum distance of 3 and rejected for 5. -/
example : ∀ d : ℝ, regs [(minDist d, [(0, 1), (0, 0)])] = [((0, 1), minDist d), ((0, 0), minDist d)] ∧
    ((Frackit.Matrix.run [(minDist 3, [(0, 1), (0, 0)])]).evaluate
      (Constraints.evaluateSet sampleEngine) (fun i => if i = 1 then some [0, 9] else none) 5 0
      = .val true) ∧
    ((Frackit.Matrix.run [(minDist 5, [(0, 1), (0, 0)])]).evaluate
      (Constraints.evaluateSet sampleEngine) (fun i => if i = 1 then some [0, 9] else none) 5 0
      = .val false) := by
  have hreg : ∀ d : ℝ, regs [(minDist d, [(0, 1), (0, 0)])]
      = [((0, 1), minDist d), ((0, 0), minDist d)] := by
    intro d; simp [regs, add]
  intro d
  refine ⟨hreg d, ?_, ?_⟩
  · rw [C38_accepts_iff, hreg]
    refine ⟨⟨1, minDist 3, by simp⟩, ?_⟩
    intro b c hc set hs e he
    have hb : b = 1 := by
      by_contra hb; simp [hb] at hs
    subst hb
    have hc' : c = minDist 3 := by simpa using hc
    have hset : set = [0, 9] := by simpa using hs.symm
    subst hc' hset
    simp only [List.mem_cons, List.not_mem_nil, or_false] at he
    rcases he with rfl | rfl
    · exact minDist_far (by omega) (by norm_num)
    · exact minDist_far (by omega) (by norm_num)
  · rw [C38_rejects_iff, hreg]
    · exact ⟨1, minDist 5, [0, 9], by simp, by simp, 9, by simp,
        minDist_close (by omega) (by norm_num)⟩
    · rw [hreg]; exact ⟨1, minDist 5, by simp⟩
    · intro b c hc set hs e he
      rw [hreg] at hc
      have hb : b = 1 := by
        by_contra hb; simp [hb] at hs
      subst hb
      have hc' : c = minDist 5 := by simpa using hc
      have hset : set = [0, 9] := by simpa using hs.symm
      subst hc' hset
      simp only [List.mem_cons, List.not_mem_nil, or_false] at he
      rcases he with rfl | rfl
      · rw [minDist_far (by omega) (by norm_num)]; trivial
      · rw [minDist_close (by omega) (by norm_num)]; trivial

/-! ## C39 Constraints matrix is symmetric in the id pair -/

/-- Full claim: once constraints have been registered for (a, b), candidates for set a which are
accepted fulfil them against set b, and candidates for set b which are accepted fulfil them against
set a; candidates for set b are not refused with an error. -/
def C39_full : Prop :=
  ∀ (E : Type) (eng : Engine E) (calls : List (Constraints × List (ℕ × ℕ))) (a b : ℕ)
    (c : Constraints), ((a, b), c) ∈ regs calls → ∀ (sets : ℕ → Option (List E)) (x : E),
    ((Frackit.Matrix.run calls).evaluate (Constraints.evaluateSet eng) sets x a = .val true →
      ∀ set, sets b = some set → ∀ e ∈ set, Constraints.evaluate eng c e x = .val true) ∧
    ((Frackit.Matrix.run calls).evaluate (Constraints.evaluateSet eng) sets x b = .val true →
      ∀ set, sets a = some set → ∀ e ∈ set, Constraints.evaluate eng c e x = .val true)

/-- A minimum distance of 5 is registered for (0, 1), another of 1 for (1, 1): a candidate for set 1 at
distance 3 from an entity of set 0 is accepted. -/
theorem C39_disproof : ¬ C39_full := by
  intro H
  have hreg : regs [(minDist 5, [(0, 1)]), (minDist 1, [(1, 1)])]
      = [((0, 1), minDist 5), ((1, 1), minDist 1)] := by simp [regs, add]
  have h := (H ℕ sampleEngine [(minDist 5, [(0, 1)]), (minDist 1, [(1, 1)])] 0 1 (minDist 5)
    (by rw [hreg]; simp) (fun i => if i = 0 then some [3] else none) 0).2
  have hacc : (Frackit.Matrix.run [(minDist 5, [(0, 1)]), (minDist 1, [(1, 1)])]).evaluate
      (Constraints.evaluateSet sampleEngine) (fun i => if i = 0 then some [3] else none) 0 1
      = .val true := by
    rw [C38_accepts_iff, hreg]
    refine ⟨⟨1, minDist 1, by simp⟩, ?_⟩
    intro b c hc set hs
    have hb : b = 0 := by
      by_contra hb; simp [hb] at hs
    subst hb
    simp at hc
  have := h hacc [3] (by simp) 3 (by simp)
  rw [minDist_close (by omega) (by norm_num)] at this
  cases this

/-- With constraints for (0, 1) only, checking any candidate for set 1 raises an error. -/
theorem C39_second_id_throws (c : Constraints) (sets : ℕ → Option (List E)) (x : E) :
    ((Frackit.Matrix.run [(c, [(0, 1)])]).evaluate (Constraints.evaluateSet eng) sets x 1).isThrown := by
  apply C38_unregistered
  simp [regs, add, Has]

/-- The claim holds for pairs registered in both orders with the same constraints (missing: pairs
registered in one order only, see `C39_disproof`). -/
theorem C39_both_orders_partial (calls : List (Constraints × List (ℕ × ℕ))) (a b : ℕ)
    (c : Constraints) (h1 : ((a, b), c) ∈ regs calls) (h2 : ((b, a), c) ∈ regs calls)
    (sets : ℕ → Option (List E)) (x : E) :
    ((Frackit.Matrix.run calls).evaluate (Constraints.evaluateSet eng) sets x a = .val true →
      ∀ set, sets b = some set → ∀ e ∈ set, Constraints.evaluate eng c e x = .val true) ∧
    ((Frackit.Matrix.run calls).evaluate (Constraints.evaluateSet eng) sets x b = .val true →
      ∀ set, sets a = some set → ∀ e ∈ set, Constraints.evaluate eng c e x = .val true) :=
  ⟨fun h => ((C38_accepts_iff eng calls sets x a).1 h).2 b c h1,
    fun h => ((C38_accepts_iff eng calls sets x b).1 h).2 a c h2⟩

/-- Non-trivial instance of the hypotheses of `C39_both_orders_partial`. -/
example (c : Constraints) : ((0, 1), c) ∈ regs [(c, [(0, 1), (1, 0)])] ∧
    ((1, 0), c) ∈ regs [(c, [(0, 1), (1, 0)])] := by
  simp [regs, add]

end Props
