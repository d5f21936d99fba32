import Verif.Model.EntityNetwork.PyBuilder
import Verif.Props.BuildLifecycle

/-!
# Network builders in Python
-/

namespace Props
open Verif Frackit

section
variable {Sh K : Type} [DecidableEq Sh] [DecidableEq K] (key : Sh → K) (occ : Occ Sh) (big : ℝ)

/-! ## C105 Network builders in Python -/

/-- The classes whose objects can be entities of a network in Python. -/
def EntityClass (c : PyClass) : Prop := c = .disk ∨ c = .quadrilateral ∨ c = .polygon ∨ c = .wrapper .face

/-- The classes whose objects can be domains of a network in Python. -/
def DomainClass (c : PyClass) : Prop := c = .box ∨ c = .cylinder ∨ c = .wrapper .solid

theorem resolve_entity (c : PyClass) : (∃ d, resolve PyBuilder.entityOverloads c = some d) ↔ EntityClass c := by
  constructor
  · rintro ⟨d, h⟩
    unfold resolve at h
    have h1 := List.find?_some h
    have h2 := List.mem_of_find?_eq_some h
    unfold EntityClass
    cases c with
    | wrapper k => cases k <;> simp_all [PyClass.isInstance, PyClass.ancestors, PyClass.bases, PyBuilder.entityOverloads]
    | _ => simp_all [PyClass.isInstance, PyClass.ancestors, PyClass.bases, PyBuilder.entityOverloads]
  · rintro (rfl | rfl | rfl | rfl) <;> exact ⟨_, rfl⟩

theorem resolve_domain (c : PyClass) : (∃ d, resolve PyBuilder.domainOverloads c = some d) ↔ DomainClass c := by
  constructor
  · rintro ⟨d, h⟩
    unfold resolve at h
    have h1 := List.find?_some h
    have h2 := List.mem_of_find?_eq_some h
    unfold DomainClass
    cases c with
    | wrapper k => cases k <;> simp_all [PyClass.isInstance, PyClass.ancestors, PyClass.bases, PyBuilder.domainOverloads]
    | _ => simp_all [PyClass.isInstance, PyClass.ancestors, PyClass.bases, PyBuilder.domainOverloads]
  · rintro (rfl | rfl | rfl) <;> exact ⟨_, rfl⟩

theorem resolve_entity_none {c : PyClass} (h : ¬ EntityClass c) : resolve PyBuilder.entityOverloads c = none := by
  rw [← resolve_entity] at h
  cases hr : resolve PyBuilder.entityOverloads c with
  | none => rfl
  | some d => exact absurd ⟨d, hr⟩ h

theorem resolve_domain_none {c : PyClass} (h : ¬ DomainClass c) : resolve PyBuilder.domainOverloads c = none := by
  rw [← resolve_domain] at h
  cases hr : resolve PyBuilder.domainOverloads c with
  | none => rfl
  | some d => exact absurd ⟨d, hr⟩ h

/-- A single object: for objects of the supported classes and an `Id`, Python calls have the effect of the C++ calls
(entities without a sub-domain get the id 0); all other calls are type errors that do not change the builder. -/
theorem C105_single (b : Builder Sh) (e : PyEntity Sh) (i : ℕ) :
    (EntityClass e.cls → PyBuilder.addSubDomainEntity b e (.id i) = Builder.step key occ big b (.addEntity e.dim e.shape i) ∧
      PyBuilder.addEntity b e = Builder.step key occ big b (.addEntity e.dim e.shape 0)) ∧
    (DomainClass e.cls → PyBuilder.addSubDomain b e (.id i) = Builder.step key occ big b (.addSubDomain e.dim e.shape i) ∧
      PyBuilder.addConfiningSubDomain b e (.id i) = Builder.step key occ big b (.addConfiningSubDomain e.dim e.shape i)) ∧
    (¬ EntityClass e.cls → ∀ j, PyBuilder.addSubDomainEntity b e j = (.thrown "TypeError", b) ∧
      PyBuilder.addEntity b e = (.thrown "TypeError", b)) ∧
    (¬ DomainClass e.cls → ∀ j, PyBuilder.addSubDomain b e j = (.thrown "TypeError", b) ∧
      PyBuilder.addConfiningSubDomain b e j = (.thrown "TypeError", b)) ∧
    PyBuilder.addSubDomainEntity b e .other = (.thrown "TypeError", b) ∧
    PyBuilder.addSubDomain b e .other = (.thrown "TypeError", b) ∧
    PyBuilder.addConfiningSubDomain b e .other = (.thrown "TypeError", b) := by
  refine ⟨fun h => ?_, fun h => ?_, fun h j => ?_, fun h j => ?_, ?_, ?_, ?_⟩
  · obtain ⟨d, hd⟩ := (resolve_entity _).2 h
    unfold PyBuilder.addSubDomainEntity PyBuilder.addEntity
    rw [hd]
    exact ⟨rfl, rfl⟩
  · obtain ⟨d, hd⟩ := (resolve_domain _).2 h
    unfold PyBuilder.addSubDomain PyBuilder.addConfiningSubDomain
    rw [hd]
    exact ⟨rfl, rfl⟩
  · unfold PyBuilder.addSubDomainEntity PyBuilder.addEntity
    rw [resolve_entity_none h]
    exact ⟨rfl, rfl⟩
  · unfold PyBuilder.addSubDomain PyBuilder.addConfiningSubDomain
    rw [resolve_domain_none h]
    exact ⟨rfl, rfl⟩
  · unfold PyBuilder.addSubDomainEntity
    cases resolve PyBuilder.entityOverloads e.cls <;> rfl
  · unfold PyBuilder.addSubDomain
    cases resolve PyBuilder.domainOverloads e.cls <;> rfl
  · unfold PyBuilder.addConfiningSubDomain
    cases resolve PyBuilder.domainOverloads e.cls <;> rfl

/-- The C++ calls for the entities of a list. -/
def addAll (l : List (PyEntity Sh)) (i : ℕ) : List (Builder.Op Sh) := l.map fun e => .addEntity e.dim e.shape i

/-- All C++ calls succeed, one after the other. -/
def AllSucceed : Builder Sh → List (Builder.Op Sh) → Prop
  | _, [] => True
  | b, op :: t => (Builder.step key occ big b op).1 = .val () ∧ AllSucceed (Builder.step key occ big b op).2 t

theorem addEntities_eq (b : Builder Sh) (l : List (PyEntity Sh)) :
    PyBuilder.addEntities b l = PyBuilder.addSubDomainEntities (.id 0) b l := by
  induction l generalizing b with
  | nil => rfl
  | cons e t ih =>
    have h : PyBuilder.addEntity b e = PyBuilder.addSubDomainEntity b e (.id 0) := by
      unfold PyBuilder.addSubDomainEntity PyBuilder.addEntity
      cases resolve PyBuilder.entityOverloads e.cls <;> rfl
    unfold PyBuilder.addEntities PyBuilder.addSubDomainEntities
    rw [h]
    split
    · exact ih _
    · rfl

/-- A list: the entities are added in the order of the list.  If the call returns, all entities have been added by C++
calls.  Otherwise the entities before the first one that cannot be added have been added, and those after it have not. -/
theorem C105_list (b : Builder Sh) (l : List (PyEntity Sh)) (i : ℕ) :
    PyBuilder.addEntities b l = PyBuilder.addSubDomainEntities (.id 0) b l ∧
    (((PyBuilder.addSubDomainEntities (.id i) b l).1 = .val () ↔
      (∀ e ∈ l, EntityClass e.cls) ∧ AllSucceed key occ big b (addAll l i))) ∧
    ((PyBuilder.addSubDomainEntities (.id i) b l).1 = .val () →
      (PyBuilder.addSubDomainEntities (.id i) b l).2 = runFrom key occ big b (addAll l i)) ∧
    ((PyBuilder.addSubDomainEntities (.id i) b l).1 ≠ .val () → ∃ l₁ e l₂, l = l₁ ++ e :: l₂ ∧
      (∀ x ∈ l₁, EntityClass x.cls) ∧ AllSucceed key occ big b (addAll l₁ i) ∧
      PyBuilder.addSubDomainEntities (.id i) b l =
        PyBuilder.addSubDomainEntity (runFrom key occ big b (addAll l₁ i)) e (.id i) ∧
      (PyBuilder.addSubDomainEntity (runFrom key occ big b (addAll l₁ i)) e (.id i)).1 ≠ .val ()) := by
  refine ⟨addEntities_eq b l, ?_⟩
  induction l generalizing b with
  | nil => exact ⟨⟨fun _ => ⟨(by intro e he; cases he), trivial⟩, fun _ => rfl⟩, fun _ => rfl, fun h => absurd rfl h⟩
  | cons e t ih =>
    obtain ⟨hE, -, hN, -⟩ := C105_single key occ big b e i
    by_cases hc : EntityClass e.cls
    · have h1 := (hE hc).1
      cases hs : Builder.step key occ big b (.addEntity e.dim e.shape i) with
      | mk r b' =>
        rw [hs] at h1
        cases r with
        | val u =>
          have hcons : PyBuilder.addSubDomainEntities (.id i) b (e :: t) = PyBuilder.addSubDomainEntities (.id i) b' t := by
            rw [PyBuilder.addSubDomainEntities, h1]
          have hrun : ∀ m : List (PyEntity Sh), runFrom key occ big b (addAll (e :: m) i) = runFrom key occ big b' (addAll m i) := by
            intro m
            unfold runFrom addAll
            rw [List.map_cons, List.foldl_cons, hs]
          have hall : ∀ m : List (PyEntity Sh), AllSucceed key occ big b (addAll (e :: m) i) ↔
              AllSucceed key occ big b' (addAll m i) := by
            intro m
            unfold addAll
            rw [List.map_cons, AllSucceed, hs]
            exact and_iff_right rfl
          obtain ⟨i1, i2, i3⟩ := ih b'
          rw [hcons]
          refine ⟨?_, fun h => ?_, fun h => ?_⟩
          · rw [i1, hall]
            constructor
            · rintro ⟨h1, h2⟩
              exact ⟨fun x hx => by rcases List.mem_cons.1 hx with rfl | hx; exacts [hc, h1 x hx], h2⟩
            · rintro ⟨h1, h2⟩
              exact ⟨fun x hx => h1 x (List.mem_cons_of_mem _ hx), h2⟩
          · rw [hrun]; exact i2 h
          · obtain ⟨l₁, x, l₂, e1, e2, e3, e4, e5⟩ := i3 h
            refine ⟨e :: l₁, x, l₂, by rw [e1]; rfl, fun y hy => ?_, (hall _).2 e3, by rw [hrun]; exact e4, by rw [hrun]; exact e5⟩
            rcases List.mem_cons.1 hy with rfl | hy
            exacts [hc, e2 y hy]
        | _ =>
          all_goals
            have hcons : PyBuilder.addSubDomainEntities (.id i) b (e :: t) = PyBuilder.addSubDomainEntity b e (.id i) := by
              rw [PyBuilder.addSubDomainEntities, h1]
            have hne : (PyBuilder.addSubDomainEntity b e (.id i)).1 ≠ .val () := by rw [h1]; nofun
            rw [hcons]
            refine ⟨⟨fun h => absurd h hne, fun h => ?_⟩, fun h => absurd h hne,
              fun _ => ⟨[], e, t, rfl, (by intro x hx; cases hx), trivial, rfl, hne⟩⟩
            have := h.2.1
            rw [hs] at this
            cases this
    · have h1 := ((hN hc) (.id i)).1
      have hcons : PyBuilder.addSubDomainEntities (.id i) b (e :: t) = PyBuilder.addSubDomainEntity b e (.id i) := by
        rw [PyBuilder.addSubDomainEntities, h1]
      have hne : (PyBuilder.addSubDomainEntity b e (.id i)).1 ≠ .val () := by rw [h1]; nofun
      rw [hcons]
      exact ⟨⟨fun h => absurd h hne, fun h => absurd (h.1 e List.mem_cons_self) hc⟩, fun h => absurd h hne,
        fun _ => ⟨[], e, t, rfl, (by intro x hx; cases hx), trivial, rfl, hne⟩⟩

/-- The state of a builder after Python calls. -/
noncomputable def runPy (b : Builder Sh) (calls : List (PyBuilder.Call Sh)) : Builder Sh :=
  calls.foldl (fun b c => (PyBuilder.call key occ big b c).2) b

theorem runFrom_append (b : Builder Sh) (o₁ o₂ : List (Builder.Op Sh)) :
    runFrom key occ big b (o₁ ++ o₂) = runFrom key occ big (runFrom key occ big b o₁) o₂ := List.foldl_append

theorem single_reachable (b : Builder Sh) (e : PyEntity Sh) (i : PyId) :
    (∃ ops, (PyBuilder.addSubDomainEntity b e i).2 = runFrom key occ big b ops) ∧
    (∃ ops, (PyBuilder.addEntity b e).2 = runFrom key occ big b ops) ∧
    (∃ ops, (PyBuilder.addSubDomain b e i).2 = runFrom key occ big b ops) ∧
    (∃ ops, (PyBuilder.addConfiningSubDomain b e i).2 = runFrom key occ big b ops) := by
  cases i with
  | other =>
    obtain ⟨h1, -, h3, -, h5, h6, h7⟩ := C105_single key occ big b e 0
    refine ⟨⟨[], by rw [h5]; rfl⟩, ?_, ⟨[], by rw [h6]; rfl⟩, ⟨[], by rw [h7]; rfl⟩⟩
    by_cases hc : EntityClass e.cls
    · exact ⟨[_], by rw [(h1 hc).2]; rfl⟩
    · exact ⟨[], by rw [(h3 hc .other).2]; rfl⟩
  | id i =>
    obtain ⟨h1, h2, h3, h4, -, -, -⟩ := C105_single key occ big b e i
    by_cases hc : EntityClass e.cls
    · by_cases hd : DomainClass e.cls
      · exact ⟨⟨[_], by rw [(h1 hc).1]; rfl⟩, ⟨[_], by rw [(h1 hc).2]; rfl⟩, ⟨[_], by rw [(h2 hd).1]; rfl⟩,
          ⟨[_], by rw [(h2 hd).2]; rfl⟩⟩
      · exact ⟨⟨[_], by rw [(h1 hc).1]; rfl⟩, ⟨[_], by rw [(h1 hc).2]; rfl⟩, ⟨[], by rw [(h4 hd (.id i)).1]; rfl⟩,
          ⟨[], by rw [(h4 hd (.id i)).2]; rfl⟩⟩
    · by_cases hd : DomainClass e.cls
      · exact ⟨⟨[], by rw [(h3 hc (.id i)).1]; rfl⟩, ⟨[], by rw [(h3 hc (.id i)).2]; rfl⟩, ⟨[_], by rw [(h2 hd).1]; rfl⟩,
          ⟨[_], by rw [(h2 hd).2]; rfl⟩⟩
      · exact ⟨⟨[], by rw [(h3 hc (.id i)).1]; rfl⟩, ⟨[], by rw [(h3 hc (.id i)).2]; rfl⟩,
          ⟨[], by rw [(h4 hd (.id i)).1]; rfl⟩, ⟨[], by rw [(h4 hd (.id i)).2]; rfl⟩⟩

theorem list_reachable (b : Builder Sh) (l : List (PyEntity Sh)) (i : PyId) :
    ∃ ops, (PyBuilder.addSubDomainEntities i b l).2 = runFrom key occ big b ops := by
  induction l generalizing b with
  | nil => exact ⟨[], rfl⟩
  | cons e t ih =>
    obtain ⟨ops, h⟩ := (single_reachable key occ big b e i).1
    unfold PyBuilder.addSubDomainEntities
    split
    · rename_i b' hb
      rw [hb] at h
      obtain ⟨ops', h'⟩ := ih b'
      exact ⟨ops ++ ops', by rw [h', runFrom_append]; exact congrArg (fun x => runFrom key occ big x ops') h⟩
    · exact ⟨ops, h⟩

/-- Whatever is done with a builder in Python could have been done in C++: every state after Python calls, including
those that raise errors, is the state after some C++ calls.  In particular the theorems about networks that are built,
which hold for all sequences of C++ calls, hold for Python. -/
theorem C105_refinement (calls : List (PyBuilder.Call Sh)) (b : Builder Sh) :
    ∃ ops, runPy key occ big b calls = runFrom key occ big b ops := by
  induction calls generalizing b with
  | nil => exact ⟨[], rfl⟩
  | cons c t ih =>
    have hc : ∃ ops, (PyBuilder.call key occ big b c).2 = runFrom key occ big b ops := by
      cases c with
      | addSubDomain e i => exact (single_reachable key occ big b e i).2.2.1
      | addConfiningSubDomain e i => exact (single_reachable key occ big b e i).2.2.2
      | addEntity e => exact (single_reachable key occ big b e .other).2.1
      | addSubDomainEntity e i => exact (single_reachable key occ big b e i).1
      | addEntities l =>
        obtain ⟨ops, h⟩ := list_reachable key occ big b l (.id 0)
        exact ⟨ops, by rw [← h]; exact congrArg Prod.snd (addEntities_eq b l)⟩
      | addSubDomainEntities l i => exact list_reachable key occ big b l i
      | clear => exact ⟨[.clear], rfl⟩
      | setEpsilon e => exact ⟨[.setEpsilon e], rfl⟩
      | setDefaultEpsilon o => exact ⟨[.setDefaultEpsilon o], rfl⟩
      | setConfineToSubDomainUnion v => exact ⟨[.setConfineToSubDomainUnion v], rfl⟩
      | buildContained o => exact ⟨[.buildContained o], rfl⟩
      | buildNetwork o => exact ⟨[.buildNetwork o], rfl⟩
    obtain ⟨ops, h⟩ := hc
    obtain ⟨ops', h'⟩ := ih (PyBuilder.call key occ big b c).2
    refine ⟨ops ++ ops', ?_⟩
    rw [runFrom_append, ← h]
    exact h'

end

/-- A list of a disk, a point and a polygon: the disk is added, then the point is rejected. -/
example : PyBuilder.addEntities (Builder.init : Builder ℕ)
      [⟨.disk, .val 2, .val 1⟩, ⟨.point 3, .val 0, .val 2⟩, ⟨.polygon, .val 2, .val 3⟩] =
    (.thrown "TypeError", (Builder.addSubDomainEntity Builder.init (.val 2) (.val 1) 0).2) ∧
    (Builder.addSubDomainEntity (Builder.init : Builder ℕ) (.val 2) (.val 1) 0).1 = .val () := by
  have em1 : Builder.IsEmpty (fun _ => none : ℕ → Option ℕ) := fun _ => rfl
  have em2 : Builder.IsEmpty (fun _ => none : ℕ → Option (List ℕ)) := fun _ => rfl
  have h : (Builder.addSubDomainEntity (Builder.init : Builder ℕ) (.val 2) (.val 1) 0).1 = .val () := by
    simp [Builder.addSubDomainEntity, Builder.init, em1, em2]
  refine ⟨?_, h⟩
  have h1 : PyBuilder.addEntity (Builder.init : Builder ℕ) ⟨.disk, .val 2, .val 1⟩ =
      Builder.addSubDomainEntity Builder.init (.val 2) (.val 1) 0 := rfl
  rw [PyBuilder.addEntities, h1]
  generalize Builder.addSubDomainEntity (Builder.init : Builder ℕ) (.val 2) (.val 1) 0 = r at h
  obtain ⟨r1, r2⟩ := r
  simp only at h
  subst h
  rfl

end Props
