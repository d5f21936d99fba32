import Verif.Spec.PyMatrix
import Verif.Props.Matrix

/-!
# C40, C41: the Python implementations of the matrix and of the evaluation on lists
-/

namespace Props
open Verif Frackit Spec.Matrix
open Spec.PyMatrix (prefixPairs pairsOf WellFormed items)

section
variable {C E α : Type}

theorem get_append_new (d : List (ℕ × α)) (k j : ℕ) (v : α) (h : PyMatrix.get d k = none) :
    PyMatrix.get (d ++ [(k, v)]) j = if j = k then some v else PyMatrix.get d j := by
  unfold PyMatrix.get at *
  rw [List.find?_append]
  by_cases hj : j = k
  · subst hj
    have : d.find? (fun p => p.1 = j) = none := by simpa using h
    simp [this]
  · simp [hj, Ne.symm hj]

theorem get_map_set (d : List (ℕ × α)) (k j : ℕ) (v : α) :
    PyMatrix.get (d.map (fun p => if p.1 = k then (k, v) else p)) j
      = if j = k then (PyMatrix.get d k).map (fun _ => v) else PyMatrix.get d j := by
  unfold PyMatrix.get
  induction d with
  | nil => simp
  | cons p t ih =>
    simp only [List.map_cons, List.find?_cons]
    by_cases hpk : p.1 = k
    · simp only [hpk, if_true]
      by_cases hj : j = k
      · simp [hj]
      · have : k ≠ j := fun e => hj e.symm
        simp only [this, decide_false, hj, if_false] at ih ⊢
        exact ih
    · simp only [hpk, if_false]
      by_cases hj : j = k
      · subst hj
        simp only [hpk, decide_false, if_true] at ih ⊢
        exact ih
      · simp only [hj, if_false] at ih ⊢
        by_cases hpj : p.1 = j
        · simp [hpj]
        · simp only [hpj, decide_false]
          exact ih

theorem get_set (d : List (ℕ × α)) (k j : ℕ) (v : α) :
    PyMatrix.get (PyMatrix.set d k v) j = if j = k then some v else PyMatrix.get d j := by
  unfold PyMatrix.set
  cases h : PyMatrix.get d k with
  | none => exact get_append_new d k j v h
  | some w => simp only [get_map_set, h, Option.map_some]

theorem mem_keys_get (d : List (ℕ × α)) (k : ℕ) :
    k ∈ d.map (·.1) ↔ ∃ v, PyMatrix.get d k = some v := by
  unfold PyMatrix.get
  induction d with
  | nil => simp
  | cons p t ih =>
    simp only [List.map_cons, List.mem_cons, List.find?_cons]
    by_cases h : p.1 = k
    · simp [h]
    · simp only [h, decide_false]
      rw [← ih]
      simp [Ne.symm h]

/-- Lookup of a pair. -/
def look (m : PyMatrix C) (a b : ℕ) : Option C := (PyMatrix.get m a).bind (fun row => PyMatrix.get row b)

theorem look_set_new (m : PyMatrix C) (a b : ℕ) (c : C) (h : PyMatrix.get m a = none) (a' b' : ℕ) :
    look (PyMatrix.set m a [(b, c)]) a' b' = if (a', b') = (a, b) then some c else look m a' b' := by
  unfold look
  rw [get_set]
  by_cases ha : a' = a
  · subst ha
    simp only [if_true, Option.bind_some, h, Option.bind_none, Prod.mk.injEq, true_and]
    unfold PyMatrix.get
    by_cases hb : b' = b
    · simp [hb]
    · simp [hb, Ne.symm hb]
  · simp [ha]

theorem look_set_row (m : PyMatrix C) (a b : ℕ) (c : C) (row : List (ℕ × C))
    (h : PyMatrix.get m a = some row) (a' b' : ℕ) :
    look (PyMatrix.set m a (PyMatrix.set row b c)) a' b'
      = if (a', b') = (a, b) then some c else look m a' b' := by
  unfold look
  rw [get_set]
  by_cases ha : a' = a
  · subst ha
    simp only [if_true, Option.bind_some, h, Prod.mk.injEq, true_and]
    exact get_set row b b' c
  · simp [ha]

/-- The dictionary represents the registrations. -/
structure PyRepr (m : PyMatrix C) (r : Regs C) : Prop where
  look : ∀ a b c, look m a b = some c ↔ ((a, b), c) ∈ r
  keys : ∀ a, (∃ row, PyMatrix.get m a = some row) ↔ ∃ b, Has r (a, b)
  nodup : (r.map (·.1)).Nodup

theorem pyRepr_nil : PyRepr ([] : PyMatrix C) [] :=
  ⟨fun a b c => by simp [Props.look, PyMatrix.get], fun a => by simp [PyMatrix.get, Has], by simp⟩

theorem has_iff_look {m : PyMatrix C} {r : Regs C} (h : PyRepr m r) (p : ℕ × ℕ) :
    p ∈ r.map (·.1) ↔ ∃ c, look m p.1 p.2 = some c := by
  simp only [List.mem_map]
  constructor
  · rintro ⟨⟨q, c⟩, hq, rfl⟩; exact ⟨c, (h.look _ _ _).2 hq⟩
  · rintro ⟨c, hc⟩; exact ⟨(p, c), (h.look _ _ _).1 hc, rfl⟩

theorem pyRepr_ext {m m' : PyMatrix C} {r : Regs C} (h : PyRepr m r) (a b : ℕ) (c : C)
    (hnew : (a, b) ∉ r.map (·.1))
    (hl : ∀ a' b', look m' a' b' = if (a', b') = (a, b) then some c else look m a' b')
    (hk : ∀ a', (∃ row, PyMatrix.get m' a' = some row) ↔
      a' = a ∨ ∃ row, PyMatrix.get m a' = some row) :
    PyRepr m' (r ++ [((a, b), c)]) := by
  refine ⟨fun a' b' c' => ?_, fun a' => ?_, ?_⟩
  · rw [hl, List.mem_append, List.mem_singleton]
    by_cases he : (a', b') = (a, b)
    · rw [if_pos he]
      have : ((a', b'), c') ∉ r := fun hm => hnew (he ▸ List.mem_map.2 ⟨_, hm, rfl⟩)
      simp only [this, false_or, Option.some.injEq, Prod.mk.injEq]
      simp only [Prod.mk.injEq] at he
      constructor
      · rintro rfl; exact ⟨he, rfl⟩
      · rintro ⟨_, h⟩; exact h.symm
    · rw [if_neg he, h.look]
      constructor
      · exact Or.inl
      · rintro (hm | hm)
        · exact hm
        · simp only [Prod.mk.injEq] at hm he
          exact absurd hm.1 he
  · rw [hk, h.keys]
    constructor
    · rintro (rfl | ⟨b', c', hb'⟩)
      · exact ⟨b, c, by simp⟩
      · exact ⟨b', c', by simp [hb']⟩
    · rintro ⟨b', c', hb'⟩
      rcases List.mem_append.1 hb' with hm | hm
      · exact Or.inr ⟨b', c', hm⟩
      · simp only [List.mem_singleton, Prod.mk.injEq] at hm
        exact Or.inl hm.1.1
  · rw [List.map_append]
    refine List.Nodup.append h.nodup (by simp) ?_
    intro q hq hq'
    simp only [List.map_cons, List.map_nil, List.mem_singleton] at hq'
    exact hnew (hq' ▸ hq)

theorem addPair_repr {m : PyMatrix C} {r : Regs C} (h : PyRepr m r) (c : C) (a b : ℕ) :
    (((a, b) ∈ r.map (·.1)) ∧ (PyMatrix.addPair m c a b).1.isThrown ∧
        (PyMatrix.addPair m c a b).2 = m) ∨
      (((a, b) ∉ r.map (·.1)) ∧ (PyMatrix.addPair m c a b).1 = .val () ∧
        PyRepr (PyMatrix.addPair m c a b).2 (r ++ [((a, b), c)])) := by
  have hl := has_iff_look h (a, b)
  unfold PyMatrix.addPair
  cases hm : PyMatrix.get m a with
  | none =>
    right
    have hnew : (a, b) ∉ r.map (·.1) := by
      rw [hl]; simp [look, hm]
    refine ⟨hnew, rfl, pyRepr_ext h a b c hnew (look_set_new m a b c hm) fun a' => ?_⟩
    simp only [get_set]
    by_cases ha : a' = a
    · simp [ha]
    · simp [ha]
  | some row =>
    cases hb : PyMatrix.get row b with
    | some c' =>
      left
      refine ⟨hl.2 ⟨c', by simp [look, hm, hb]⟩, ?_, ?_⟩ <;> simp only [hb] <;> trivial
    | none =>
      right
      have hnew : (a, b) ∉ r.map (·.1) := by
        rw [hl]; simp [look, hm, hb]
      simp only [hb]
      refine ⟨hnew, trivial, pyRepr_ext h a b c hnew (look_set_row m a b c row hm) fun a' => ?_⟩
      simp only [get_set]
      by_cases ha : a' = a
      · simp [ha]
      · simp [ha]

theorem addLoop_repr (c : C) (l : List PyItem) : ∀ (m : PyMatrix C) (r : Regs C), PyRepr m r →
    PyRepr (PyMatrix.addLoop m c l).2 (add r c (prefixPairs l)) ∧
    ((PyMatrix.addLoop m c l).1.isThrown ∨ ((PyMatrix.addLoop m c l).1 = .val () ∧
      add r c (prefixPairs l) = r ++ (prefixPairs l).map (fun p => (p, c)))) := by
  induction l with
  | nil => intro m r h; exact ⟨h, Or.inr ⟨rfl, by simp [prefixPairs, add]⟩⟩
  | cons i t ih =>
    intro m r h
    cases i with
    | id n => exact ⟨by simpa [PyMatrix.addLoop, prefixPairs, add] using h, Or.inl trivial⟩
    | list l =>
      match l with
      | [] => exact ⟨by simpa [PyMatrix.addLoop, PyMatrix.addIdPair, prefixPairs, add] using h, Or.inl trivial⟩
      | [a] => exact ⟨by simpa [PyMatrix.addLoop, PyMatrix.addIdPair, prefixPairs, add] using h, Or.inl trivial⟩
      | a :: b :: x :: y =>
        exact ⟨by simpa [PyMatrix.addLoop, PyMatrix.addIdPair, prefixPairs, add] using h, Or.inl trivial⟩
      | [a, b] =>
        simp only [PyMatrix.addLoop, PyMatrix.addIdPair, prefixPairs, add]
        rcases addPair_repr h c a b with ⟨h1, h2, h3⟩ | ⟨h1, h2, h3⟩
        · rw [if_pos h1]
          cases hp : PyMatrix.addPair m c a b with
          | mk o m' =>
            rw [hp] at h2 h3
            cases o with
            | thrown e => exact ⟨by rw [← h3] at h; exact h, Or.inl trivial⟩
            | val _ => exact h2.elim
            | nan => exact h2.elim
            | ub => exact h2.elim
        · rw [if_neg h1]
          cases hp : PyMatrix.addPair m c a b with
          | mk o m' =>
            rw [hp] at h2 h3
            simp only at h2
            subst h2
            obtain ⟨g1, g2⟩ := ih _ _ h3
            refine ⟨g1, ?_⟩
            rcases g2 with g2 | ⟨g2, g3⟩
            · exact Or.inl g2
            · exact Or.inr ⟨g2, by rw [g3]; simp⟩

theorem add_repr (c : C) (l : List PyItem) (m : PyMatrix C) (r : Regs C) (h : PyRepr m r) :
    PyRepr (PyMatrix.addConstraints m c l).2 (add r c (pairsOf l)) ∧
    ((PyMatrix.addConstraints m c l).1.isThrown ∨ ((PyMatrix.addConstraints m c l).1 = .val () ∧
      add r c (pairsOf l) = r ++ (pairsOf l).map (fun p => (p, c)))) := by
  match l with
  | [] => exact ⟨h, Or.inl trivial⟩
  | .list l :: t =>
    have e : pairsOf (.list l :: t) = prefixPairs (.list l :: t) := rfl
    rw [e]
    exact addLoop_repr c _ m r h
  | [.id a, .id b] =>
    simp only [PyMatrix.addConstraints, pairsOf, add]
    rcases addPair_repr h c a b with ⟨h1, h2, h3⟩ | ⟨h1, h2, h3⟩
    · rw [if_pos h1, h3]; exact ⟨h, Or.inl h2⟩
    · rw [if_neg h1]; exact ⟨h3, Or.inr ⟨h2, by simp⟩⟩
  | [.id a] => exact ⟨h, Or.inl trivial⟩
  | [.id a, .list l] => exact ⟨h, Or.inl trivial⟩
  | .id a :: .id b :: x :: y => exact ⟨h, Or.inl trivial⟩
  | .id a :: .list b :: x :: y => exact ⟨h, Or.inl trivial⟩

theorem addLoop_wellFormed (c : C) (l : List PyItem) : ∀ (m : PyMatrix C),
    (PyMatrix.addLoop m c l).1 = .val () → ∀ i ∈ l, ∃ a b, i = .list [a, b] := by
  induction l with
  | nil => intro m _ i hi; cases hi
  | cons i t ih =>
    intro m h
    cases i with
    | id n => simp [PyMatrix.addLoop] at h
    | list l =>
      match l with
      | [] => simp [PyMatrix.addLoop, PyMatrix.addIdPair] at h
      | [a] => simp [PyMatrix.addLoop, PyMatrix.addIdPair] at h
      | a :: b :: x :: y => simp [PyMatrix.addLoop, PyMatrix.addIdPair] at h
      | [a, b] =>
        simp only [PyMatrix.addLoop, PyMatrix.addIdPair] at h
        cases hp : PyMatrix.addPair m c a b with
        | mk o m' =>
          rw [hp] at h
          cases o with
          | val u =>
            simp only at h
            intro i hi
            rcases List.mem_cons.1 hi with rfl | hi
            · exact ⟨a, b, rfl⟩
            · exact ih m' h i hi
          | thrown e => cases h
          | nan => cases h
          | ub => cases h

theorem addLoop_complete (c : C) (l : List PyItem) : ∀ (m : PyMatrix C) (r : Regs C), PyRepr m r →
    (∀ i ∈ l, ∃ a b, i = .list [a, b]) → (prefixPairs l).Nodup →
    (∀ p ∈ prefixPairs l, p ∉ r.map (·.1)) → (PyMatrix.addLoop m c l).1 = .val () := by
  induction l with
  | nil => intro m r _ _ _ _; rfl
  | cons i t ih =>
    intro m r h hw hn hd
    obtain ⟨a, b, rfl⟩ := hw i List.mem_cons_self
    simp only [prefixPairs, List.nodup_cons] at hn hd
    simp only [PyMatrix.addLoop, PyMatrix.addIdPair]
    rcases addPair_repr h c a b with ⟨h1, _, _⟩ | ⟨h1, h2, h3⟩
    · exact absurd h1 (hd _ List.mem_cons_self)
    · cases hp : PyMatrix.addPair m c a b with
      | mk o m' =>
        rw [hp] at h2 h3
        simp only at h2
        subst h2
        refine ih m' _ h3 (fun i hi => hw i (List.mem_cons_of_mem _ hi)) hn.2 fun p hp hp' => ?_
        rw [List.map_append, List.mem_append] at hp'
        rcases hp' with hp' | hp'
        · exact hd p (List.mem_cons_of_mem _ hp) hp'
        · simp only [List.map_cons, List.map_nil, List.mem_singleton] at hp'
          exact hn.1 (hp' ▸ hp)

theorem pyRepr_run (calls : List (C × List PyItem)) :
    PyRepr (PyMatrix.run calls) (Spec.PyMatrix.regs calls) := by
  unfold PyMatrix.run Spec.PyMatrix.regs Spec.Matrix.regs
  rw [List.foldl_map]
  have : ∀ (calls : List (C × List PyItem)) (m : PyMatrix C) (r : Regs C), PyRepr m r →
      PyRepr (calls.foldl (fun m x => (PyMatrix.addConstraints m x.1 x.2).2) m)
        (calls.foldl (fun r x => add r x.1 (pairsOf x.2)) r) := by
    intro calls
    induction calls with
    | nil => intro m r h; exact h
    | cons x t ih => intro m r h; exact ih _ _ (add_repr x.1 x.2 m r h).1
  exact this calls _ _ pyRepr_nil

/-- Evaluation for one other id. -/
def evalOther (ev : C → List E → E → Outcome Bool) (row : List (ℕ × C)) (sets : ℕ → Option (List E))
    (x : E) (other : ℕ) : Outcome Bool :=
  match sets other, PyMatrix.get row other with
  | some set, some c => ev c set x
  | _, _ => .val true

theorem pyLoop_eq (ev : C → List E → E → Outcome Bool) (m : PyMatrix C) (sets : ℕ → Option (List E))
    (x : E) (row : List (ℕ × C)) (ids : List ℕ) :
    PyMatrix.evaluateLoop ev m sets x row ids = allOf (evalOther ev row sets x) ids := by
  induction ids with
  | nil => rfl
  | cons i t ih =>
    simp only [PyMatrix.evaluateLoop, allOf, evalOther]
    cases hs : sets i with
    | none => simp only; exact ih
    | some set =>
      cases hg : PyMatrix.get row i with
      | none => simp only; exact ih
      | some c =>
        simp only
        rw [ih]
        rfl

end

variable {E : Type} (eng : Engine E)

/-- Evaluation of a Python constraints object on a list and a geometry. -/
noncomputable def pyEval (c : Constraints) (set : List E) (x : E) : Outcome Bool :=
  PyConstraints.evaluate (Constraints.evaluate eng c) (.list set) (.geo x)

theorem pyEval_true (c : Constraints) (set : List E) (x : E) :
    pyEval eng c set x = .val true ↔ ∀ e ∈ set, Constraints.evaluate eng c e x = .val true :=
  allOf_true _ _

/-! ## C40 Python constraints matrix applies all constraints of a set -/

/-- Full claim. -/
def C40_full : Prop :=
  ∀ (E : Type) (eng : Engine E) (calls : List (Constraints × List PyItem))
    (sets : ℕ → Option (List E)) (x : E) (id : ℕ),
    PyMatrix.evaluate (pyEval eng) (PyMatrix.run calls) sets x id = .val true ↔
      ∀ b c, ((id, b), c) ∈ Spec.PyMatrix.regs calls → ∀ set, sets b = some set → ∀ e ∈ set,
        Constraints.evaluate eng c e x = .val true

/-- What the code decides: constraints towards a set which does not have constraints as first id
itself are ignored. -/
theorem C40_accepts_iff (calls : List (Constraints × List PyItem)) (sets : ℕ → Option (List E))
    (x : E) (id : ℕ) :
    PyMatrix.evaluate (pyEval eng) (PyMatrix.run calls) sets x id = .val true ↔
      ∀ b c, ((id, b), c) ∈ Spec.PyMatrix.regs calls →
        (∃ b', Has (Spec.PyMatrix.regs calls) (b, b')) → ∀ set, sets b = some set → ∀ e ∈ set,
        Constraints.evaluate eng c e x = .val true := by
  have H := pyRepr_run calls
  generalize PyMatrix.run calls = m at *
  generalize Spec.PyMatrix.regs calls = r at *
  unfold PyMatrix.evaluate
  cases hm : PyMatrix.get m id with
  | none =>
    simp only [true_iff]
    intro b c hc
    have := (H.look id b c).2 hc
    simp [look, hm] at this
  | some row =>
    simp only
    rw [pyLoop_eq, allOf_true]
    constructor
    · intro h b c hc hb set hs
      have hl := (H.look id b c).2 hc
      simp only [look, hm, Option.bind_some] at hl
      have := h b ((mem_keys_get m b).2 ((H.keys b).2 hb))
      simp only [evalOther, hs, hl] at this
      exact (pyEval_true eng c set x).1 this
    · intro h b hb
      simp only [evalOther]
      cases hs : sets b with
      | none => rfl
      | some set =>
        cases hg : PyMatrix.get row b with
        | none => rfl
        | some c =>
          refine (pyEval_true eng c set x).2 (h b c ?_ ?_ set hs)
          · rw [← H.look]; simp [look, hm, hg]
          · exact (H.keys b).1 ((mem_keys_get m b).1 hb)

/-- A constraint from set 0 towards set 1 is not evaluated. -/
theorem C40_disproof : ¬ C40_full := by
  intro H
  have hreg : Spec.PyMatrix.regs [(minDist 5, [.id 0, .id 1])] = [((0, 1), minDist 5)] := by
    simp [Spec.PyMatrix.regs, pairsOf, regs, add]
  have hacc : PyMatrix.evaluate (pyEval sampleEngine)
      (PyMatrix.run [(minDist 5, [.id 0, .id 1])]) (fun _ => some [3]) 0 0 = .val true := by
    rw [C40_accepts_iff, hreg]
    rintro b c hc ⟨b', hb'⟩
    simp only [Has, List.mem_singleton, Prod.mk.injEq] at hc hb'
    obtain ⟨_, hb', _⟩ := hb'
    omega
  have := (H ℕ sampleEngine _ _ _ _).1 hacc 1 (minDist 5) (by rw [hreg]; simp) [3] rfl 3 (by simp)
  rw [minDist_close (by omega) (by norm_num)] at this
  cases this

/-- The claim holds if each set for which constraints are registered with the given id also has
constraints as first id itself (missing: other sets, see `C40_disproof`). -/
theorem C40_accepts_partial (calls : List (Constraints × List PyItem)) (sets : ℕ → Option (List E))
    (x : E) (id : ℕ)
    (hrow : ∀ b, Has (Spec.PyMatrix.regs calls) (id, b) → ∃ b', Has (Spec.PyMatrix.regs calls) (b, b')) :
    PyMatrix.evaluate (pyEval eng) (PyMatrix.run calls) sets x id = .val true ↔
      ∀ b c, ((id, b), c) ∈ Spec.PyMatrix.regs calls → ∀ set, sets b = some set → ∀ e ∈ set,
        Constraints.evaluate eng c e x = .val true := by
  rw [C40_accepts_iff]
  exact ⟨fun h b c hc => h b c hc (hrow b ⟨c, hc⟩), fun h b c hc _ => h b c hc⟩

/-- A rejection is always justified by a registered constraints object that is violated. -/
theorem C40_rejects_sound (calls : List (Constraints × List PyItem)) (sets : ℕ → Option (List E))
    (x : E) (id : ℕ)
    (h : PyMatrix.evaluate (pyEval eng) (PyMatrix.run calls) sets x id = .val false) :
    ∃ b c set, ((id, b), c) ∈ Spec.PyMatrix.regs calls ∧ sets b = some set ∧ ∃ e ∈ set,
      Constraints.evaluate eng c e x = .val false := by
  have H := pyRepr_run calls
  generalize PyMatrix.run calls = m at *
  generalize Spec.PyMatrix.regs calls = r at *
  unfold PyMatrix.evaluate at h
  cases hm : PyMatrix.get m id with
  | none => rw [hm] at h; simp at h
  | some row =>
    rw [hm] at h
    simp only at h
    rw [pyLoop_eq, allOf_false] at h
    obtain ⟨_, b, _, _, hb, _⟩ := h
    simp only [evalOther] at hb
    cases hs : sets b with
    | none => simp [hs] at hb
    | some set =>
      cases hg : PyMatrix.get row b with
      | none => simp [hs, hg] at hb
      | some c =>
        simp only [hs, hg] at hb
        unfold pyEval PyConstraints.evaluate PyConstraints.evalList at hb
        simp only at hb
        rw [allOf_false] at hb
        obtain ⟨l1, e, l2, rfl, he, _⟩ := hb
        refine ⟨b, c, _, ?_, hs, e, by simp, he⟩
        rw [← H.look]; simp [look, hm, hg]

/-- Registration either raises an error or registers all pairs of a well-formed argument; well-formed
arguments raise an error exactly if a pair is repeated or has constraints already. -/
theorem C40_register (calls : List (Constraints × List PyItem)) (c : Constraints) (l : List PyItem) :
    ((PyMatrix.addConstraints (PyMatrix.run calls) c l).1.isThrown ∨
      ((PyMatrix.addConstraints (PyMatrix.run calls) c l).1 = .val () ∧ WellFormed l ∧
        Spec.PyMatrix.regs (calls ++ [(c, l)])
          = Spec.PyMatrix.regs calls ++ (pairsOf l).map (fun p => (p, c)))) ∧
    ((PyMatrix.addConstraints (PyMatrix.run calls) c l).1 = .val () ↔
      WellFormed l ∧ (pairsOf l).Nodup ∧ ∀ p ∈ pairsOf l, ¬ Has (Spec.PyMatrix.regs calls) p) := by
  have hr : Spec.PyMatrix.regs (calls ++ [(c, l)]) = add (Spec.PyMatrix.regs calls) c (pairsOf l) := by
    simp [Spec.PyMatrix.regs, Spec.Matrix.regs]
  rw [hr]
  have H := pyRepr_run calls
  generalize PyMatrix.run calls = m at *
  generalize Spec.PyMatrix.regs calls = r at *
  have hk : ∀ p, p ∈ r.map (·.1) ↔ Has r p := by
    intro p
    simp only [List.mem_map, Has]
    constructor
    · rintro ⟨⟨q, c⟩, h, rfl⟩; exact ⟨c, h⟩
    · rintro ⟨c, h⟩; exact ⟨(p, c), h, rfl⟩
  obtain ⟨g1, g2⟩ := add_repr c l m r H
  have hw : (PyMatrix.addConstraints m c l).1 = .val () → WellFormed l := by
    match l with
    | [] => intro h; cases h
    | .list l :: t =>
      intro h
      exact Or.inr ⟨by simp, addLoop_wellFormed c _ m h⟩
    | [.id a, .id b] => intro _; exact Or.inl ⟨a, b, rfl⟩
    | [.id a] => intro h; cases h
    | [.id a, .list l] => intro h; cases h
    | .id a :: .id b :: x :: y => intro h; cases h
    | .id a :: .list b :: x :: y => intro h; cases h
  refine ⟨?_, ?_, ?_⟩
  · rcases g2 with g2 | ⟨g2, g3⟩
    · exact Or.inl g2
    · exact Or.inr ⟨g2, hw g2, g3⟩
  · intro h
    refine ⟨hw h, ?_⟩
    rcases g2 with g2 | ⟨_, g3⟩
    · rw [h] at g2; exact g2.elim
    · have hn := g1.nodup
      rw [g3, List.map_append, List.map_map] at hn
      have e : (pairsOf l).map ((fun x : (ℕ × ℕ) × Constraints => x.1) ∘ fun p => (p, c)) = pairsOf l := by
        simp [Function.comp_def]
      rw [e] at hn
      obtain ⟨_, hn2, hn3⟩ := List.nodup_append.1 hn
      exact ⟨hn2, fun p hp hh => hn3 p ((hk p).2 hh) p hp rfl⟩
  · rintro ⟨h1, h2, h3⟩
    rcases h1 with ⟨a, b, rfl⟩ | ⟨hne, hall⟩
    · rcases addPair_repr H c a b with ⟨h, _, _⟩ | ⟨_, h, _⟩
      · exact absurd ((hk _).1 h) (h3 (a, b) (by simp [pairsOf]))
      · exact h
    · obtain ⟨i, t, rfl⟩ := List.exists_cons_of_ne_nil hne
      obtain ⟨a, b, rfl⟩ := hall i List.mem_cons_self
      exact addLoop_complete c _ m r H hall h2 fun p hp hm => h3 p hp ((hk p).1 hm)

/-- Non-trivial instance of a well-formed argument. -/
example : WellFormed [.list [0, 1], .list [1, 0]] ∧ pairsOf [.list [0, 1], .list [1, 0]] = [(0, 1), (1, 0)] :=
  ⟨Or.inr ⟨by simp, by simp⟩, rfl⟩

/-- Non-trivial instance of the hypotheses of `C40_accepts_partial`: constraints within set 0, within
set 1 and between the two in both directions. -/
example (c : Constraints) : ∀ b, Has (Spec.PyMatrix.regs [(c, [.list [0, 0], .list [1, 1]]),
      (c, [.list [0, 1], .list [1, 0]])]) (0, b) →
    ∃ b', Has (Spec.PyMatrix.regs [(c, [.list [0, 0], .list [1, 1]]),
      (c, [.list [0, 1], .list [1, 0]])]) (b, b') := by
  have : Spec.PyMatrix.regs [(c, [.list [0, 0], .list [1, 1]]), (c, [.list [0, 1], .list [1, 0]])]
      = [((0, 0), c), ((1, 1), c), ((0, 1), c), ((1, 0), c)] := by
    simp [Spec.PyMatrix.regs, pairsOf, prefixPairs, regs, add]
  rw [this]
  rintro b ⟨c', hb⟩
  simp only [List.mem_cons, Prod.mk.injEq, List.not_mem_nil, or_false] at hb
  refine ⟨b, c, ?_⟩
  have : b = 0 ∨ b = 1 := by omega
  rcases this with rfl | rfl <;> simp

/-! ## C41 Python constraint evaluation accepts lists on either side -/

/-- Full claim: for a symmetric evaluation of pairs, the evaluation of geometries or lists is the
conjunction over all pairs. -/
def C41_full : Prop :=
  ∀ (E : Type) (ev : E → E → Outcome Bool), (∀ x y, ev x y = ev y x) → ∀ a b : PyArg E,
    PyConstraints.evaluate ev a b = .val true ↔ ∀ x ∈ items a, ∀ y ∈ items b, ev x y = .val true

/-- A geometry and a list, in this order, raise an error. -/
theorem C41_disproof : ¬ C41_full := by
  intro H
  have := (H ℕ (fun _ _ => .val true) (fun _ _ => rfl) (.geo 0) (.list [1])).2 (by simp)
  simp [PyConstraints.evaluate, PyConstraints.evalList, allOf, PyConstraints.native] at this

/-- Which arguments raise an error: a list with elements as second argument, unless the first one is an
empty list. -/
theorem C41_throws (ev : E → E → Outcome Bool) (a : PyArg E) (l : List E) (hl : l ≠ [])
    (ha : items a ≠ []) : (PyConstraints.evaluate ev a (.list l)).isThrown := by
  obtain ⟨x, t, rfl⟩ := List.exists_cons_of_ne_nil hl
  cases a with
  | geo e => simp [PyConstraints.evaluate, PyConstraints.evalList, allOf, PyConstraints.native]
  | list la =>
    obtain ⟨y, s, rfl⟩ := List.exists_cons_of_ne_nil ha
    simp [PyConstraints.evaluate, PyConstraints.evalList, allOf, PyConstraints.native]

/-- The claim holds, also without symmetry, if the second argument is a geometry or one of the
arguments is an empty list (missing: a list with elements as second argument, see `C41_throws`). -/
theorem C41_accepts_partial (ev : E → E → Outcome Bool) (a b : PyArg E)
    (h : (∃ e, b = .geo e) ∨ items a = [] ∨ items b = []) :
    PyConstraints.evaluate ev a b = .val true ↔
      ∀ x ∈ items a, ∀ y ∈ items b, ev x y = .val true := by
  cases a with
  | geo x =>
    cases b with
    | geo y => simp [PyConstraints.evaluate, PyConstraints.native, items]
    | list l =>
      have hl : l = [] := by
        rcases h with ⟨e, h⟩ | h | h
        · cases h
        · cases h
        · exact h
      subst hl
      simp [PyConstraints.evaluate, PyConstraints.evalList, allOf, items]
  | list la =>
    cases b with
    | geo y =>
      simp only [PyConstraints.evaluate, PyConstraints.evalList, allOf_true, items,
        PyConstraints.native, List.mem_singleton, forall_eq]
    | list l =>
      simp only [PyConstraints.evaluate, PyConstraints.evalList, allOf_true, items,
        PyConstraints.native]
      rcases h with ⟨e, h⟩ | h | h
      · cases h
      · simp only [items] at h; subst h; simp
      · simp only [items] at h; subst h; simp

/-- Non-trivial instance: two geometries against one. -/
example : PyConstraints.evaluate (fun a b : ℕ => .val (decide (a ≠ b))) (.list [1, 2]) (.geo 3)
    = .val true := by
  rw [C41_accepts_partial _ _ _ (Or.inl ⟨3, rfl⟩)]
  simp [items]

end Props
