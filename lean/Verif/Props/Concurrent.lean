import Verif.Model.Geometry.HollowCylinderCache
import Verif.Props.HollowCylinder

/-!
# C119: accessors of hollow cylinders in several threads
-/

namespace Props
open Verif Frackit Frackit.HollowCache

/-! ## C119 References returned by a hollow cylinder stay valid -/

/-- What an accessor is to return. -/
noncomputable def expectedObject (c : HollowCylinder) : Slot → Object
  | .bottomOuter => .circle c.bottomOuterCircle
  | .topOuter => .circle c.topOuterCircle
  | .innerLateral => .surface c.innerLateralFace
  | .outerLateral => .surface c.outerLateralFace

/-- The reference refers to an object that is alive and has the value expected of the accessor. -/
def ValidRef (c : HollowCylinder) (m : Memory) (r : Slot × ℕ) : Prop := m.heap r.2 = some (expectedObject c r.1)

/-- No thread has used an object that is not alive, and all references obtained so far are valid. -/
def Sound (c : HollowCylinder) (st : State) : Prop :=
  ∀ i, (st.threads i).pc ≠ .ub ∧ ∀ r ∈ (st.threads i).results, ValidRef c st.memory r

/-- The full claim: for all calls in any number of threads and all schedules. -/
def C119_full : Prop :=
  ∀ (c : HollowCylinder) (calls : ℕ → List Slot) (schedule : List ℕ), Sound c (run c (.init calls) schedule)

/-- Threads make steps only while all other threads are not in a call: this is the case if there is one thread, or if
the calls are protected by a lock. -/
def Exclusive (c : HollowCylinder) : State → List ℕ → Prop
  | _, [] => True
  | st, i :: t => (∀ j, j ≠ i → (st.threads j).pc = .idle) ∧ Exclusive c (step c st i) t

/-- State of a thread that is compatible with the memory. -/
def GoodThread (c : HollowCylinder) (m : Memory) (t : Thread) : Prop :=
  match t.pc with
  | .idle => t.nested = false
  | .check s => t.nested = true → s = .bottomOuter ∧ m.slots .outerLateral = none
  | .make s arg => m.slots s = none ∧ (t.nested = true → s = .bottomOuter ∧ m.slots .outerLateral = none) ∧
      (s = .outerLateral → ∃ a, arg = some a ∧ m.slots .bottomOuter = some a)
  | .assign s a => m.slots s = none ∧ (t.nested = true → s = .bottomOuter ∧ m.slots .outerLateral = none) ∧
      m.heap a = some (expectedObject c s)
  | .load s => m.slots s ≠ none ∧ (t.nested = true → s = .bottomOuter ∧ m.slots .outerLateral = none)
  | .ub => False

/-- Invariant of exclusive executions. -/
structure CacheInv (c : HollowCylinder) (st : State) : Prop where
  slots : ∀ s a, st.memory.slots s = some a → st.memory.heap a = some (expectedObject c s)
  fresh : ∀ a, st.memory.next ≤ a → st.memory.heap a = none
  results : ∀ i, ∀ r ∈ (st.threads i).results, st.memory.slots r.1 = some r.2
  threads : ∀ i, GoodThread c st.memory (st.threads i)

theorem cacheInv_init (c : HollowCylinder) (calls : ℕ → List Slot) : CacheInv c (.init calls) :=
  ⟨fun s a h => by simp [State.init, Memory.init] at h, fun a _ => rfl,
    fun i r h => by simp [State.init, Thread.start] at h, fun i => rfl⟩

theorem makeObject_expected {c : HollowCylinder} {m : Memory} {s : Slot} {arg : Option ℕ}
    (hs : ∀ s a, m.slots s = some a → m.heap a = some (expectedObject c s))
    (h : s = .outerLateral → ∃ a, arg = some a ∧ m.slots .bottomOuter = some a) :
    makeObject c m.heap s arg = some (expectedObject c s) := by
  cases s with
  | bottomOuter => rfl
  | topOuter => rfl
  | innerLateral => rfl
  | outerLateral =>
    obtain ⟨a, rfl, ha⟩ := h rfl
    simp only [makeObject, Option.bind_some, hs _ a ha, expectedObject, HollowCylinder.outerLateralFace]

/-- Threads that are not in a call stay compatible. -/
theorem goodThread_idle {c : HollowCylinder} {m m' : Memory} {t : Thread} (hi : t.pc = .idle)
    (h : GoodThread c m t) : GoodThread c m' t := by
  unfold GoodThread at h ⊢
  rw [hi] at h ⊢
  exact h

theorem cacheInv_step {c : HollowCylinder} {st : State} {i : ℕ} (h : CacheInv c st)
    (ho : ∀ j, j ≠ i → (st.threads j).pc = .idle) : CacheInv c (step c st i) := by
  obtain ⟨⟨slots, heap, next⟩, threads⟩ := st
  obtain ⟨h1, h2, h3, h4⟩ := h
  simp only at h1 h2 h3 h4 ho
  -- reduction to the memory and the thread
  suffices hs : ∀ r, stepThread c ⟨slots, heap, next⟩ (threads i) = r →
      (∀ s a, r.1.slots s = some a → r.1.heap a = some (expectedObject c s)) ∧
      (∀ a, r.1.next ≤ a → r.1.heap a = none) ∧
      (∀ s a, slots s = some a → r.1.slots s = some a) ∧
      (∀ x ∈ r.2.results, r.1.slots x.1 = some x.2) ∧ GoodThread c r.1 r.2 by
    obtain ⟨g1, g2, g3, g4, g5⟩ := hs _ rfl
    refine ⟨g1, g2, fun j x hx => ?_, fun j => ?_⟩
    · by_cases hj : j = i
      · subst hj
        simp only [step, Function.update_self] at hx
        exact g4 x hx
      · simp only [step, Function.update_of_ne hj] at hx
        exact g3 _ _ (h3 j x hx)
    · by_cases hj : j = i
      · subst hj
        simp only [step, Function.update_self]
        exact g5
      · simp only [step, Function.update_of_ne hj]
        exact goodThread_idle (ho j hj) (h4 j)
  rintro r rfl
  have hg := h4 i
  have hr := h3 i
  generalize threads i = t at *
  obtain ⟨todo, pc, nested, results⟩ := t
  simp only at hr
  cases pc with
  | idle =>
    simp only [GoodThread] at hg
    subst hg
    cases todo with
    | nil => exact ⟨h1, h2, fun _ _ h => h, hr, rfl⟩
    | cons s rest => exact ⟨h1, h2, fun _ _ h => h, hr, fun h => by cases h⟩
  | check s =>
    simp only [GoodThread] at hg
    simp only [stepThread]
    split
    · rename_i a ha
      exact ⟨h1, h2, fun _ _ h => h, hr, by simp [ha], hg⟩
    · rename_i ha
      by_cases hs : s = .outerLateral
      · subst hs
        rw [if_pos rfl]
        exact ⟨h1, h2, fun _ _ h => h, hr, fun _ => ⟨rfl, ha⟩⟩
      · rw [if_neg hs]
        exact ⟨h1, h2, fun _ _ h => h, hr, ha, hg, fun h => absurd h hs⟩
  | make s arg =>
    simp only [GoodThread] at hg
    obtain ⟨g1, g2, g3⟩ := hg
    have hm := makeObject_expected (m := ⟨slots, heap, next⟩) h1 g3
    simp only at hm
    simp only [stepThread, hm]
    refine ⟨fun s' a ha => ?_, fun a ha => ?_, fun _ _ h => h, hr, g1, g2, by simp⟩
    · have hne : a ≠ next := by
        rintro rfl
        have e1 := h1 s' a ha
        rw [h2 a le_rfl] at e1
        cases e1
      rw [Function.update_of_ne hne]
      exact h1 s' a ha
    · have ha' : next + 1 ≤ a := ha
      rw [Function.update_of_ne (by omega)]
      exact h2 a (by omega)
  | assign s a =>
    simp only [GoodThread] at hg
    obtain ⟨g1, g2, g3⟩ := hg
    simp only [stepThread, Memory.assign, g1]
    have keep : ∀ s' a', slots s' = some a' → Function.update slots s (some a) s' = some a' := by
      intro s' a' h
      have hne : s' ≠ s := by
        rintro rfl
        rw [g1] at h
        cases h
      rw [Function.update_of_ne hne]
      exact h
    refine ⟨fun s' a' h => ?_, h2, keep, fun x hx => keep _ _ (hr x hx), by simp, fun hn => ?_⟩
    · by_cases hs : s' = s
      · subst hs
        rw [Function.update_self] at h
        cases h
        exact g3
      · rw [Function.update_of_ne hs] at h
        exact h1 s' a' h
    · obtain ⟨rfl, e⟩ := g2 hn
      refine ⟨rfl, ?_⟩
      change Function.update slots Slot.bottomOuter (some a) Slot.outerLateral = none
      rw [Function.update_of_ne (by decide)]
      exact e
  | load s =>
    simp only [GoodThread] at hg
    obtain ⟨g1, g2⟩ := hg
    obtain ⟨a, ha⟩ := Option.ne_none_iff_exists'.1 g1
    simp only [stepThread, ha]
    cases nested with
    | true =>
      obtain ⟨rfl, e⟩ := g2 rfl
      exact ⟨h1, h2, fun _ _ h => h, hr, e, (fun h => by cases h), fun _ => ⟨a, rfl, ha⟩⟩
    | false =>
      refine ⟨h1, h2, fun _ _ h => h, fun x hx => ?_, rfl⟩
      rcases List.mem_append.1 hx with hx | hx
      · exact hr x hx
      · rw [List.mem_singleton.1 hx]; exact ha
  | ub => exact hg.elim

theorem cacheInv_run {c : HollowCylinder} (schedule : List ℕ) : ∀ {st : State}, CacheInv c st →
    Exclusive c st schedule → CacheInv c (run c st schedule) := by
  induction schedule with
  | nil => intro st h _; exact h
  | cons i t ih => intro st h he; exact ih (cacheInv_step h he.1) he.2

theorem sound_of_inv {c : HollowCylinder} {st : State} (h : CacheInv c st) : Sound c st := by
  intro i
  refine ⟨fun e => ?_, fun r hr => h.slots _ _ (h.results i r hr)⟩
  have := h.threads i
  unfold GoodThread at this
  rw [e] at this
  exact this

/-- All references are valid, and accessors return the same object in each call, as long as no two threads are in a
call at the same time (missing: overlapping calls, see `C119_disproof`). -/
theorem C119_exclusive_partial (c : HollowCylinder) (calls : ℕ → List Slot) (schedule : List ℕ)
    (he : Exclusive c (.init calls) schedule) :
    Sound c (run c (.init calls) schedule) ∧
    ∀ i j, ∀ r ∈ ((run c (.init calls) schedule).threads i).results,
      ∀ r' ∈ ((run c (.init calls) schedule).threads j).results, r.1 = r'.1 → r.2 = r'.2 := by
  have h := cacheInv_run schedule (cacheInv_init c calls) he
  refine ⟨sound_of_inv h, fun i j r hr r' hr' e => ?_⟩
  have e1 := h.results i r hr
  have e2 := h.results j r' hr'
  rw [e, e2] at e1
  exact (Option.some.inj e1).symm

/-- A single thread. -/
theorem exclusive_single (c : HollowCylinder) (i : ℕ) (n : ℕ) : ∀ st : State, (∀ j, j ≠ i → (st.threads j).pc = .idle) →
    Exclusive c st (List.replicate n i) := by
  induction n with
  | zero => intro st _; trivial
  | succ n ih =>
    intro st h
    refine ⟨h, ih _ fun j hj => ?_⟩
    simp only [step, Function.update_of_ne hj]
    exact h j hj

theorem exclusive_append (c : HollowCylinder) (l' : List ℕ) (l : List ℕ) : ∀ {st : State}, Exclusive c st l →
    Exclusive c (run c st l) l' → Exclusive c st (l ++ l') := by
  induction l with
  | nil => intro st _ h; exact h
  | cons i t ih => intro st h h'; exact ⟨h.1, ih h.2 h'⟩

/-- With a single thread all references stay valid, whatever has been called in whatever order. -/
theorem C119_single_partial (c : HollowCylinder) (calls : List Slot) (n : ℕ) :
    Sound c (run c (.init fun i => if i = 0 then calls else []) (List.replicate n 0)) :=
  (C119_exclusive_partial c _ _ (exclusive_single c 0 n _ fun _ _ => rfl)).1

/-! ### Members that exist already -/

/-- A thread that calls accessors of existing members only. -/
structure WarmThread (m : Memory) (t : Thread) : Prop where
  todo : ∀ s ∈ t.todo, m.slots s ≠ none
  pc : t.pc = .idle ∨ ∃ s, (t.pc = .check s ∨ t.pc = .load s) ∧ m.slots s ≠ none
  nested : t.nested = false
  results : ∀ r ∈ t.results, m.slots r.1 = some r.2

theorem warm_step {c : HollowCylinder} {m : Memory} {t : Thread} (h : WarmThread m t) :
    (stepThread c m t).1 = m ∧ WarmThread m (stepThread c m t).2 := by
  obtain ⟨todo, pc, nested, results⟩ := t
  obtain ⟨h1, h2, h3, h4⟩ := h
  simp only at h1 h2 h3 h4
  subst h3
  rcases h2 with rfl | ⟨s, rfl | rfl, hs⟩
  · cases todo with
    | nil => exact ⟨rfl, h1, Or.inl rfl, rfl, h4⟩
    | cons s rest =>
      exact ⟨rfl, fun x hx => h1 x (List.mem_cons_of_mem _ hx), Or.inr ⟨s, Or.inl rfl, h1 s (by simp)⟩, rfl, h4⟩
  · obtain ⟨a, ha⟩ := Option.ne_none_iff_exists'.1 hs
    simp only [stepThread, ha]
    exact ⟨trivial, h1, Or.inr ⟨s, Or.inr rfl, hs⟩, rfl, h4⟩
  · obtain ⟨a, ha⟩ := Option.ne_none_iff_exists'.1 hs
    simp only [stepThread, ha]
    refine ⟨rfl, h1, Or.inl rfl, rfl, fun r hr => ?_⟩
    rcases List.mem_append.1 hr with hr | hr
    · exact h4 r hr
    · rw [List.mem_singleton.1 hr]; exact ha

theorem warm_run {c : HollowCylinder} (schedule : List ℕ) : ∀ {st : State}, (∀ i, WarmThread st.memory (st.threads i)) →
    (run c st schedule).memory = st.memory ∧ ∀ i, WarmThread st.memory ((run c st schedule).threads i) := by
  induction schedule with
  | nil => intro st h; exact ⟨rfl, h⟩
  | cons i t ih =>
    intro st h
    obtain ⟨e, hw⟩ := warm_step (c := c) (h i)
    have : ∀ j, WarmThread (step c st i).memory ((step c st i).threads j) := by
      intro j
      simp only [step]
      rw [e]
      by_cases hj : j = i
      · subst hj; rw [Function.update_self]; exact hw
      · rw [Function.update_of_ne hj]; exact h j
    obtain ⟨r1, r2⟩ := ih this
    have e' : (step c st i).memory = st.memory := e
    exact ⟨r1.trans e', fun j => by have := r2 j; rw [e'] at this; exact this⟩

/-- Calls may overlap in any way if all accessors that are still to be called have been called before, by threads that
did not overlap (missing: members that do not exist yet, see `C119_disproof`). -/
theorem C119_warm_partial (c : HollowCylinder) (calls : ℕ → List Slot) (before after : List ℕ)
    (he : Exclusive c (.init calls) before)
    (hidle : ∀ i, ((run c (.init calls) before).threads i).pc = .idle)
    (hwarm : ∀ i, ∀ s ∈ ((run c (.init calls) before).threads i).todo,
      ∃ j a, (s, a) ∈ ((run c (.init calls) before).threads j).results) :
    Sound c (run c (.init calls) (before ++ after)) := by
  have h := cacheInv_run before (cacheInv_init c calls) he
  have hr : run c (.init calls) (before ++ after) = run c (run c (.init calls) before) after := by
    simp [run, List.foldl_append]
  rw [hr]
  generalize run c (.init calls) before = st at *
  obtain ⟨e, hw⟩ := warm_run (c := c) after (st := st) fun i => by
    refine ⟨fun s hs => ?_, Or.inl (hidle i), ?_, h.results i⟩
    · obtain ⟨j, a, hm⟩ := hwarm i s hs
      rw [h.results j _ hm]
      simp
    · have := h.threads i
      unfold GoodThread at this
      rw [hidle i] at this
      exact this
  intro i
  refine ⟨fun hub => ?_, fun r hr => ?_⟩
  · rcases (hw i).pc with hp | ⟨s, hp | hp, -⟩ <;> rw [hub] at hp <;> cases hp
  · unfold ValidRef
    rw [e]
    exact h.slots _ _ ((hw i).results r hr)

/-! ### All calls return -/

/-- The thread has made all its calls, or is in an undefined state. -/
def Finished (t : Thread) : Prop := t.pc = .ub ∨ (t.pc = .idle ∧ t.todo = [])

/-- Bound for the number of steps a thread still makes. -/
def stepsLeft (t : Thread) : ℕ :=
  9 * t.todo.length + match t.pc with
  | .idle => 0
  | .check s => if s = .outerLateral then 8 else if t.nested then 7 else 4
  | .make _ _ => if t.nested then 6 else 3
  | .assign _ _ => if t.nested then 5 else 2
  | .load _ => if t.nested then 4 else 1
  | .ub => 0

theorem stepsLeft_step (c : HollowCylinder) (m : Memory) (t : Thread) :
    Finished (stepThread c m t).2 ∨ stepsLeft (stepThread c m t).2 < stepsLeft t := by
  obtain ⟨todo, pc, nested, results⟩ := t
  cases pc with
  | idle =>
    cases todo with
    | nil => exact Or.inl (Or.inr ⟨rfl, rfl⟩)
    | cons s rest =>
      right
      simp only [stepThread, stepsLeft, List.length_cons]
      cases nested <;> by_cases hs : s = .outerLateral <;> simp [hs] <;> omega
  | check s =>
    right
    simp only [stepThread]
    split
    · cases nested <;> by_cases hs : s = .outerLateral <;> simp [stepsLeft, hs]
    · by_cases hs : s = .outerLateral
      · rw [if_pos hs]; simp [stepsLeft, hs]
      · rw [if_neg hs]; cases nested <;> simp [stepsLeft, hs]
  | make s arg =>
    simp only [stepThread]
    split
    · exact Or.inl (Or.inl rfl)
    · right; cases nested <;> simp [stepsLeft]
  | assign s a =>
    right
    cases nested <;> simp [stepThread, stepsLeft]
  | load s =>
    simp only [stepThread]
    split
    · exact Or.inl (Or.inl rfl)
    · right
      cases nested <;> simp [stepsLeft]
  | ub => exact Or.inl (Or.inl rfl)

theorem finished_step {c : HollowCylinder} {m : Memory} {t : Thread} (h : Finished t) : Finished (stepThread c m t).2 := by
  obtain ⟨todo, pc, nested, results⟩ := t
  rcases h with rfl | ⟨rfl, rfl⟩
  · exact Or.inl rfl
  · exact Or.inr ⟨rfl, rfl⟩

theorem finishes (c : HollowCylinder) (i : ℕ) (schedule : List ℕ) : ∀ st : State,
    Finished ((run c st schedule).threads i) ∨
      stepsLeft ((run c st schedule).threads i) + schedule.count i ≤ stepsLeft (st.threads i) := by
  induction schedule with
  | nil => intro st; right; simp [run]
  | cons k t ih =>
    intro st
    have hrun : run c st (k :: t) = run c (step c st k) t := rfl
    rw [hrun]
    by_cases hk : k = i
    · subst hk
      rcases stepsLeft_step c st.memory (st.threads k) with h | h
      · left
        have : ∀ (l : List ℕ) (st : State), Finished (st.threads k) → Finished ((run c st l).threads k) := by
          intro l
          induction l with
          | nil => intro st h; exact h
          | cons j l ihl =>
            intro st h
            refine ihl (step c st j) ?_
            simp only [step]
            by_cases hj : k = j
            · subst hj; rw [Function.update_self]; exact finished_step h
            · rw [Function.update_of_ne hj]; exact h
        refine this t _ ?_
        simp only [step, Function.update_self]
        exact h
      · rcases ih (step c st k) with h' | h'
        · exact Or.inl h'
        · right
          have e : ((step c st k).threads k) = (stepThread c st.memory (st.threads k)).2 := by simp [step]
          rw [e] at h'
          rw [List.count_cons_self]
          omega
    · rcases ih (step c st k) with h' | h'
      · exact Or.inl h'
      · right
        have e : ((step c st k).threads i) = st.threads i := by simp [step, Function.update_of_ne (Ne.symm hk)]
        rw [e] at h'
        rw [List.count_cons_of_ne hk]
        exact h'

theorem finished_of_stepsLeft {t : Thread} (h : stepsLeft t = 0) : Finished t := by
  obtain ⟨todo, pc, nested, results⟩ := t
  have h0 : todo = [] := by
    cases todo with
    | nil => rfl
    | cons s rest => simp [stepsLeft] at h
  subst h0
  cases pc with
  | idle => exact Or.inr ⟨rfl, rfl⟩
  | ub => exact Or.inl rfl
  | check s => cases nested <;> by_cases hs : s = .outerLateral <;> simp [stepsLeft, hs] at h
  | make s arg => cases nested <;> simp [stepsLeft] at h
  | assign s a => cases nested <;> simp [stepsLeft] at h
  | load s => cases nested <;> simp [stepsLeft] at h

/-- Whatever the other threads do, a thread makes at most nine steps for each call. -/
theorem C119_terminates (c : HollowCylinder) (calls : ℕ → List Slot) (schedule : List ℕ) (i : ℕ)
    (h : 9 * (calls i).length ≤ schedule.count i) : Finished ((run c (.init calls) schedule).threads i) := by
  rcases finishes c i schedule (.init calls) with h' | h'
  · exact h'
  · have : stepsLeft ((State.init calls).threads i) = 9 * (calls i).length := rfl
    exact finished_of_stepsLeft (by omega)

/-- The bound is attained: the first call of `outerLateralFace` in a single thread makes nine steps. -/
example (c : HollowCylinder) :
    ((run c (.init fun i => if i = 0 then [.outerLateral] else []) (List.replicate 8 0)).threads 0).pc = .load .outerLateral ∧
    ((run c (.init fun i => if i = 0 then [.outerLateral] else []) (List.replicate 9 0)).threads 0).pc = .idle := ⟨rfl, rfl⟩

/-! ### Overlapping calls -/

/-- Two threads call `bottomOuterCircle` for the first time: both find no circle, the second one deletes the
circle a reference to which has been returned by the first one. -/
theorem dangling (c : HollowCylinder) :
    ((run c (.init fun i => if i < 2 then [.bottomOuter] else []) [0, 0, 1, 1, 0, 0, 0, 1, 1]).threads 0).results =
      [(.bottomOuter, 0)] ∧
    (run c (.init fun i => if i < 2 then [.bottomOuter] else []) [0, 0, 1, 1, 0, 0, 0, 1, 1]).memory.heap 0 = none :=
  ⟨rfl, rfl⟩

theorem C119_disproof : ¬ C119_full := by
  intro H
  let c : HollowCylinder := ⟨⟨0, 0, 0, 0, 1, 1⟩, ⟨0, 0, 0, 0, 1, 1⟩, 2, 1⟩
  have h := (H c (fun i => if i < 2 then [.bottomOuter] else []) [0, 0, 1, 1, 0, 0, 0, 1, 1] 0).2 (.bottomOuter, 0)
    (by rw [(dangling c).1]; simp)
  unfold ValidRef at h
  rw [(dangling c).2] at h
  cases h

/-- The call of `outerLateralFace` can use a circle that has been deleted by another thread. -/
theorem C119_use_after_free (c : HollowCylinder) :
    ((run c (.init fun i => if i = 0 then [.outerLateral] else if i = 1 then [.bottomOuter] else [])
      [0, 0, 0, 1, 1, 0, 0, 0, 1, 1, 0]).threads 0).pc = .ub := rfl

/-- Calls of the examples: three threads. -/
def exampleCalls : ℕ → List Slot
  | 0 => [.topOuter]
  | 1 => [.topOuter]
  | 2 => [.topOuter, .topOuter]
  | _ => []

theorem example_first (c : HollowCylinder) :
    (run c (.init exampleCalls) [0, 0, 0, 0, 0]).threads 0 = ⟨[], .idle, false, [(.topOuter, 0)]⟩ := rfl

theorem example_other (c : HollowCylinder) (j : ℕ) :
    (run c (.init exampleCalls) [0, 0, 0, 0, 0]).threads (j + 1) = .start (exampleCalls (j + 1)) := rfl

theorem example_exclusive (c : HollowCylinder) : Exclusive c (.init exampleCalls) [0, 0, 0, 0, 0] :=
  exclusive_single c 0 5 _ fun _ _ => rfl

/-- Instance of `C119_exclusive_partial`: thread 0 makes its call, then thread 1. -/
example (c : HollowCylinder) :
    Exclusive c (.init exampleCalls) ([0, 0, 0, 0, 0] ++ [1, 1, 1]) ∧
    ((run c (.init exampleCalls) ([0, 0, 0, 0, 0] ++ [1, 1, 1])).threads 1).results = [(.topOuter, 0)] := by
  refine ⟨exclusive_append c _ _ (example_exclusive c) (exclusive_single c 1 3 _ fun j hj => ?_), rfl⟩
  match j with
  | 0 => rw [example_first]
  | j + 1 => rw [example_other]; rfl

/-- Instance of `C119_warm_partial`: after the call of thread 0 the calls of threads 1 and 2 overlap. -/
example (c : HollowCylinder) : Sound c (run c (.init exampleCalls) ([0, 0, 0, 0, 0] ++ [1, 2, 1, 2, 2, 1, 2])) := by
  refine C119_warm_partial c exampleCalls _ _ (example_exclusive c) ?_ ?_
  · intro i
    match i with
    | 0 => rw [example_first]
    | i + 1 => rw [example_other]; rfl
  · intro i s hs
    refine ⟨0, 0, ?_⟩
    rw [example_first]
    match i with
    | 0 => rw [example_first] at hs; simp at hs
    | 1 => rw [example_other] at hs; simpa [Thread.start, exampleCalls] using hs
    | 2 => rw [example_other] at hs; simpa [Thread.start, exampleCalls] using hs
    | i + 3 => rw [example_other] at hs; simp [Thread.start, exampleCalls] at hs

end Props
