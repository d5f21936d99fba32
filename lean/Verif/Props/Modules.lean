/-
  C149: the modules of the Python package can be imported in any order, and every call returns
  objects of classes that Python knows.
-/
import Verif.Model.Python.ModuleFunctions
import Mathlib.Data.List.Forall2
import Mathlib.Logic.Relation
import Mathlib.Tactic.Tauto

namespace Spec.Modules
open Verif Frackit.Py

/-- The interpreter states that a user can reach: any sequence of imports and of calls of
    functions of the package with objects that have been created before. -/
inductive Reach : Interp → Prop
  | init : Reach Interp.init
  | imp {s s' : Interp} (m : Mod) : Reach s → importMod m s = .val s' → Reach s'
  | call {s s' : Interp} {f : Fn} (args : List Cls) (pick : Option Cls) : Reach s →
      f ∈ functions → (∀ a ∈ args, a ∈ s.objects) → (∀ r, pick = some r → r ∈ f.results) →
      call f args pick s = .val s' → Reach s'

/-- `b` is a base class of `c`, according to the bindings. -/
def Base (c b : Cls) : Prop := ∃ m, ∃ r ∈ registrations m, r.cls = c ∧ b ∈ r.bases

/-- The objects fit the parameters: each is of the class of the parameter or of a class derived
    from it. -/
def Fits (args params : List Cls) : Prop := List.Forall₂ (Relation.ReflTransGen Base) args params

/-- The class is registered by one of the imported modules. -/
def Provided (s : Interp) (c : Cls) : Prop := ∃ m ∈ s.loaded, ∃ r ∈ registrations m, r.cls = c

end Spec.Modules

namespace Props
open Verif Frackit.Py Spec.Modules

namespace ModulesAux

/-- All modules. -/
def allMods : List Mod :=
  [.common, .geometry, .entitynetwork, .io, .occutilities, .precision, .sampling]

theorem mem_allMods (m : Mod) : m ∈ allMods := by cases m <;> decide

/-- The names of the classes that a module registers. -/
def classes (m : Mod) : List Cls := (registrations m).map Reg.cls

/-- All registered classes. -/
def allClasses : List Cls := allMods.flatMap classes

theorem mem_classes {m : Mod} {c : Cls} : c ∈ classes m ↔ ∃ r ∈ registrations m, r.cls = c := by
  simp [classes]

/-- Each class is new and its bases come before it. -/
def ordered : List Cls → List Reg → Bool
  | _, [] => true
  | pre, r :: rs =>
    r.bases.all (· ∈ pre) && !(r.cls ∈ rs.map Reg.cls) && ordered (pre ++ [r.cls]) rs

theorem registerAll_ordered (rs : List Reg) : ∀ (pre known : List Cls), ordered pre rs = true →
    (∀ c ∈ pre, c ∈ known) → (∀ r ∈ rs, r.cls ∉ known) →
    registerAll known rs = .val (known ++ rs.map Reg.cls) := by
  induction rs with
  | nil => intro pre known _ _ _; simp [registerAll]
  | cons r rs ih =>
    intro pre known h hp hk
    simp only [ordered, Bool.and_eq_true, List.all_eq_true, decide_eq_true_eq, Bool.not_eq_true',
      decide_eq_false_iff_not] at h
    obtain ⟨⟨hb, hn⟩, ho⟩ := h
    have h1 : register known r = .val (known ++ [r.cls]) := by
      unfold register
      rw [if_neg (hk r (by simp)), if_pos]
      simp only [List.all_eq_true, decide_eq_true_eq]
      exact fun b hb' => hp b (hb b hb')
    rw [registerAll, h1]
    show registerAll (known ++ [r.cls]) rs = _
    rw [ih (pre ++ [r.cls]) (known ++ [r.cls]) ho]
    · simp
    · intro c hc
      rcases List.mem_append.1 hc with hc | hc
      · exact List.mem_append_left _ (hp c hc)
      · exact List.mem_append_right _ hc
    · intro r' hr' hc
      rcases List.mem_append.1 hc with hc | hc
      · exact hk r' (by simp [hr']) hc
      · simp only [List.mem_singleton] at hc
        exact hn (hc ▸ List.mem_map_of_mem hr')

theorem ordered_all (m : Mod) : ordered [] (registrations m) = true := by
  cases m <;> decide +kernel

/-- No class is registered by two modules. -/
theorem disjoint_modules {m m' : Mod} {c : Cls} (h : c ∈ classes m) (h' : c ∈ classes m') :
    m = m' := by
  have key : ∀ m ∈ allMods, ∀ m' ∈ allMods, ∀ c ∈ classes m, c ∈ classes m' → m = m' := by
    decide +kernel
  exact key m (mem_allMods m) m' (mem_allMods m') c h h'

/-- What holds in all reachable states. -/
structure Inv (s : Interp) : Prop where
  known : ∀ c, c ∈ s.known ↔ ∃ m ∈ s.loaded, c ∈ classes m
  tops : ∀ m ∈ s.loaded, ∀ m' ∈ topImports m, m' ∈ s.loaded
  objs : ∀ c ∈ s.objects, c ∈ s.known
  samplers : ∀ c ∈ s.objects, c = .boxSampler ∨ c = .cylinderSampler → Mod.geometry ∈ s.loaded

theorem inv_init : Inv Interp.init := by
  constructor <;> simp [Interp.init]

/-- Initialising the extension module of a module that has not been imported. -/
theorem registerAll_new {s : Interp} (hk : ∀ c, c ∈ s.known ↔ ∃ m ∈ s.loaded, c ∈ classes m)
    {m : Mod} (hm : m ∉ s.loaded) :
    registerAll s.known (registrations m) = .val (s.known ++ classes m) := by
  refine registerAll_ordered _ [] _ (ordered_all m) (by simp) ?_
  intro r hr hc
  obtain ⟨m', hm', hc'⟩ := (hk _).1 hc
  have := disjoint_modules (mem_classes.2 ⟨r, hr, rfl⟩) hc'
  exact hm (this ▸ hm')

/-- The import of a module that imports no others. -/
theorem import_leaf {s : Interp} (hk : ∀ c, c ∈ s.known ↔ ∃ m ∈ s.loaded, c ∈ classes m)
    {m : Mod} (ht : topImports m = []) (k : ℕ) :
    ∃ s', importFuel (k + 1) m s = .val s' ∧ (∀ x, x ∈ s'.loaded ↔ x = m ∨ x ∈ s.loaded) ∧
      (∀ c, c ∈ s'.known ↔ ∃ m ∈ s'.loaded, c ∈ classes m) ∧ s'.objects = s.objects := by
  by_cases hm : m ∈ s.loaded
  · refine ⟨s, by simp [importFuel, hm], ?_, hk, rfl⟩
    intro x
    constructor
    · exact Or.inr
    · rintro (rfl | h)
      · exact hm
      · exact h
  · refine ⟨{ s with loaded := m :: s.loaded, known := s.known ++ classes m }, ?_, ?_, ?_, rfl⟩
    · rw [importFuel, if_neg hm, registerAll_new hk hm, ht]
      rfl
    · intro x
      simp
    · intro c
      simp only [List.mem_append, hk, List.mem_cons]
      constructor
      · rintro (⟨m', h1, h2⟩ | h)
        · exact ⟨m', Or.inr h1, h2⟩
        · exact ⟨m, Or.inl rfl, h⟩
      · rintro ⟨m', rfl | h1, h2⟩
        · exact Or.inr h2
        · exact Or.inl ⟨m', h1, h2⟩

theorem top_leaf : ∀ m, ∀ m' ∈ topImports m, topImports m' = [] := by
  intro m; cases m <;> decide

/-- The import of any module. -/
theorem import_any {s : Interp} (hi : Inv s) (m : Mod) :
    ∃ s', importMod m s = .val s' ∧
      (∀ x, x ∈ s'.loaded ↔ x = m ∨ x ∈ topImports m ∨ x ∈ s.loaded) ∧
      Inv s' ∧ s'.objects = s.objects := by
  have fin : ∀ s' : Interp, (∀ x, x ∈ s'.loaded ↔ x = m ∨ x ∈ topImports m ∨ x ∈ s.loaded) →
      (∀ c, c ∈ s'.known ↔ ∃ m ∈ s'.loaded, c ∈ classes m) → s'.objects = s.objects → Inv s' := by
    intro s' hl hk ho
    refine ⟨hk, ?_, ?_, ?_⟩
    · intro x hx x' hx'
      rcases (hl x).1 hx with rfl | h | h
      · exact (hl x').2 (Or.inr (Or.inl hx'))
      · rw [top_leaf m x h] at hx'; simp at hx'
      · exact (hl x').2 (Or.inr (Or.inr (hi.tops x h x' hx')))
    · intro c hc
      rw [ho] at hc
      obtain ⟨x, hx, hc'⟩ := (hi.known c).1 (hi.objs c hc)
      exact (hk c).2 ⟨x, (hl x).2 (Or.inr (Or.inr hx)), hc'⟩
    · intro c hc h
      rw [ho] at hc
      exact (hl _).2 (Or.inr (Or.inr (hi.samplers c hc h)))
  by_cases ht : topImports m = []
  · obtain ⟨s', h1, h2, h3, h4⟩ := import_leaf hi.known ht 6
    have hl : ∀ x, x ∈ s'.loaded ↔ x = m ∨ x ∈ topImports m ∨ x ∈ s.loaded := by
      intro x; rw [h2, ht]; simp
    exact ⟨s', h1, hl, fin s' hl h3 h4, h4⟩
  · by_cases hm : m ∈ s.loaded
    · have hl : ∀ x, x ∈ s.loaded ↔ x = m ∨ x ∈ topImports m ∨ x ∈ s.loaded := by
        intro x
        constructor
        · exact fun h => Or.inr (Or.inr h)
        · rintro (rfl | h | h)
          · exact hm
          · exact hi.tops m hm x h
          · exact h
      exact ⟨s, by simp [importMod, importFuel, hm], hl, hi, rfl⟩
    · obtain ⟨t, htt⟩ : ∃ t, topImports m = [t] := by
        cases m <;> simp [topImports] at ht ⊢
      have hk' : ∀ c, c ∈ s.known ++ classes m ↔ ∃ m' ∈ m :: s.loaded, c ∈ classes m' := by
        intro c
        simp only [List.mem_append, hi.known, List.mem_cons]
        constructor
        · rintro (⟨m', h1, h2⟩ | h)
          · exact ⟨m', Or.inr h1, h2⟩
          · exact ⟨m, Or.inl rfl, h⟩
        · rintro ⟨m', rfl | h1, h2⟩
          · exact Or.inr h2
          · exact Or.inl ⟨m', h1, h2⟩
      obtain ⟨s', h1, h2, h3, h4⟩ := import_leaf
        (s := { s with loaded := m :: s.loaded, known := s.known ++ classes m }) hk'
        (m := t) (top_leaf m t (by simp [htt])) 5
      have hl : ∀ x, x ∈ s'.loaded ↔ x = m ∨ x ∈ topImports m ∨ x ∈ s.loaded := by
        intro x; rw [h2, htt]; simp; tauto
      refine ⟨s', ?_, hl, fin s' hl h3 h4, h4⟩
      rw [importMod, importFuel, if_neg hm, registerAll_new hi.known hm, htt]
      exact h1

/-- The imports inside a function. -/
theorem import_many (ms : List Mod) : ∀ {s : Interp}, Inv s →
    ∃ s', ms.foldl (fun (o : Outcome Interp) m => o.bind (importMod m)) (.val s) = .val s' ∧
      (∀ x, x ∈ s'.loaded ↔ (∃ m ∈ ms, x = m ∨ x ∈ topImports m) ∨ x ∈ s.loaded) ∧
      Inv s' ∧ s'.objects = s.objects := by
  induction ms with
  | nil => intro s hi; exact ⟨s, rfl, by simp, hi, rfl⟩
  | cons m ms ih =>
    intro s hi
    obtain ⟨s1, h1, h2, h3, h4⟩ := import_any hi m
    obtain ⟨s', h5, h6, h7, h8⟩ := ih h3
    refine ⟨s', ?_, ?_, h7, h8.trans h4⟩
    · rw [List.foldl_cons]
      show List.foldl _ (importMod m s) ms = _
      rw [h1, h5]
    · intro x
      rw [h6, h2]
      constructor
      · rintro (⟨m', h, hx⟩ | h | h | h)
        · exact Or.inl ⟨m', by simp [h], hx⟩
        · exact Or.inl ⟨m, by simp, Or.inl h⟩
        · exact Or.inl ⟨m, by simp, Or.inr h⟩
        · exact Or.inr h
      · rintro (⟨m', h, hx⟩ | h)
        · rcases List.mem_cons.1 h with rfl | h
          · exact Or.inr (hx.elim Or.inl fun hx => Or.inr (Or.inl hx))
          · exact Or.inl ⟨m', h, hx⟩
        · exact Or.inr (Or.inr (Or.inr h))

theorem basesOf_iff (c b : Cls) : b ∈ basesOf c ↔ Base c b := by
  unfold basesOf Base
  simp only [List.mem_flatMap]
  constructor
  · rintro ⟨r, ⟨m, _, hr⟩, hb⟩
    by_cases h : r.cls = c
    · rw [if_pos h] at hb; exact ⟨m, r, hr, h, hb⟩
    · rw [if_neg h] at hb; simp at hb
  · rintro ⟨m, r, hr, h, hb⟩
    exact ⟨r, ⟨m, mem_allMods m, hr⟩, by rw [if_pos h]; exact hb⟩

theorem mem_allClasses_of_base {c b : Cls} (h : Base c b) : c ∈ allClasses := by
  obtain ⟨m, r, hr, rfl, _⟩ := h
  exact List.mem_flatMap.2 ⟨m, mem_allMods m, mem_classes.2 ⟨r, hr, rfl⟩⟩

theorem no_fourth : ∀ c ∈ allClasses,
    (((basesOf c).flatMap basesOf).flatMap basesOf).flatMap basesOf = [] := by
  decide +kernel

theorem isA_iff (c a : Cls) : isA c a = true ↔ Relation.ReflTransGen Base c a := by
  unfold isA
  simp only [Bool.or_eq_true, decide_eq_true_eq, List.mem_flatMap, basesOf_iff]
  constructor
  · rintro (((rfl | h) | ⟨x, h1, h2⟩) | ⟨y, ⟨x, h1, h2⟩, h3⟩)
    · exact .refl
    · exact .single h
    · exact (Relation.ReflTransGen.single h1).tail h2
    · exact ((Relation.ReflTransGen.single h1).tail h2).tail h3
  · intro h
    rcases Relation.ReflTransGen.cases_head h with rfl | ⟨x, h1, h⟩
    · exact Or.inl (Or.inl (Or.inl rfl))
    rcases Relation.ReflTransGen.cases_head h with rfl | ⟨y, h2, h⟩
    · exact Or.inl (Or.inl (Or.inr h1))
    rcases Relation.ReflTransGen.cases_head h with rfl | ⟨z, h3, h⟩
    · exact Or.inl (Or.inr ⟨x, h1, h2⟩)
    rcases Relation.ReflTransGen.cases_head h with rfl | ⟨w, h4, h⟩
    · exact Or.inr ⟨y, ⟨x, h1, h2⟩, h3⟩
    · exfalso
      have := no_fourth c (mem_allClasses_of_base h1)
      have hw : w ∈ (((basesOf c).flatMap basesOf).flatMap basesOf).flatMap basesOf := by
        simp only [List.mem_flatMap, basesOf_iff]
        exact ⟨z, ⟨y, ⟨x, h1, h2⟩, h3⟩, h4⟩
      rw [this] at hw
      simp at hw

/-- The base classes of a class are registered by the same module. -/
theorem base_same {c b : Cls} (h : Base c b) : ∃ m, c ∈ classes m ∧ b ∈ classes m := by
  obtain ⟨m, r, hr, rfl, hb⟩ := h
  refine ⟨m, mem_classes.2 ⟨r, hr, rfl⟩, ?_⟩
  have key : ∀ m ∈ allMods, ∀ r ∈ registrations m, ∀ b ∈ r.bases, b ∈ classes m := by
    decide +kernel
  exact key m (mem_allMods m) r hr b hb

theorem base_known {s : Interp} (hi : Inv s) {c a : Cls} (h : Relation.ReflTransGen Base c a)
    (hc : c ∈ s.known) : a ∈ s.known := by
  induction h with
  | refl => exact hc
  | tail _ hb ih =>
    obtain ⟨m, h1, h2⟩ := base_same hb
    obtain ⟨m', hm', h3⟩ := (hi.known _).1 ih
    have := disjoint_modules h1 h3
    subst this
    exact (hi.known _).2 ⟨m, hm', h2⟩

/-- Nothing is derived from the samplers. -/
theorem no_derived {c a : Cls} (ha : a = .boxSampler ∨ a = .cylinderSampler)
    (h : Relation.ReflTransGen Base c a) : c = a := by
  rcases Relation.ReflTransGen.cases_tail h with h | ⟨x, _, m, r, hr, _, hb⟩
  · exact h.symm
  · have key : ∀ m ∈ allMods, ∀ r ∈ registrations m,
        Cls.boxSampler ∉ r.bases ∧ Cls.cylinderSampler ∉ r.bases := by decide +kernel
    rcases ha with rfl | rfl
    · exact absurd hb (key m (mem_allMods m) r hr).1
    · exact absurd hb (key m (mem_allMods m) r hr).2

/-- The modules whose import follows from the existence of an object of the class. -/
def needs (a : Cls) : List Mod :=
  allMods.filter (fun m => a ∈ classes m) ++
    (if a = .boxSampler ∨ a = .cylinderSampler then [.geometry] else [])

/-- The modules that have been imported whenever the function computes its result. -/
def guaranteed (f : Fn) : List Mod :=
  f.home :: topImports f.home ++ f.lazy ++ f.args.flatMap needs

theorem results_guaranteed : ∀ f ∈ functions, ∀ r ∈ f.results,
    (∃ m ∈ guaranteed f, r ∈ classes m) := by
  decide +kernel

theorem samplers_guaranteed : ∀ f ∈ functions, ∀ r ∈ f.results,
    r = .boxSampler ∨ r = .cylinderSampler →
      Mod.geometry ∈ guaranteed f ∨ Cls.distribution ∈ f.args := by
  decide +kernel

theorem distribution_unknown {s : Interp} (hi : Inv s) : Cls.distribution ∉ s.known := by
  intro h
  obtain ⟨m, _, h⟩ := (hi.known _).1 h
  have key : ∀ m ∈ allMods, Cls.distribution ∉ classes m := by decide +kernel
  exact key m (mem_allMods m) h

/-- The condition under which the function is executed. -/
theorem accepted_iff {s : Interp} (f : Fn) (args : List Cls) :
    (args.length = f.args.length ∧ (List.zipWith isA args f.args).all (· = true)) ↔
      Fits args f.args := by
  unfold Fits
  generalize f.args = params
  induction args generalizing params with
  | nil => cases params <;> simp
  | cons a as ih =>
    cases params with
    | nil => simp
    | cons p ps =>
      simp only [List.length_cons, Nat.add_right_cancel_iff, List.zipWith_cons_cons,
        List.all_cons, Bool.and_eq_true, decide_eq_true_eq, List.forall₂_cons, ← ih, isA_iff]
      tauto

theorem fits_known {s : Interp} (hi : Inv s) {args params : List Cls} (h : Fits args params)
    (ho : ∀ a ∈ args, a ∈ s.objects) : ∀ p ∈ params, p ∈ s.known ∧
      ∀ m ∈ needs p, m ∈ s.loaded := by
  induction h with
  | nil => simp
  | cons h1 _ ih =>
    rename_i a p as ps _
    intro q hq
    rcases List.mem_cons.1 hq with rfl | hq
    · have hk := base_known hi h1 (hi.objs _ (ho _ (by simp)))
      refine ⟨hk, ?_⟩
      intro m hm
      rcases List.mem_append.1 hm with hm | hm
      · obtain ⟨m', hm', hc⟩ := (hi.known _).1 hk
        have := disjoint_modules (of_decide_eq_true (List.mem_filter.1 hm).2) hc
        exact this ▸ hm'
      · by_cases hs : q = .boxSampler ∨ q = .cylinderSampler
        · rw [if_pos hs] at hm
          have hg := List.mem_singleton.1 hm
          have : a = q := no_derived hs h1
          subst this
          rw [hg]
          exact hi.samplers _ (ho _ (by simp)) hs
        · rw [if_neg hs] at hm; simp at hm
    · exact ih (fun x hx => ho x (by simp [hx])) q hq

/-- A call with fitting arguments. -/
theorem call_fits {s : Interp} (hi : Inv s) {f : Fn} (hf : f ∈ functions)
    (hl : f.home ∈ s.loaded) {args : List Cls} (ho : ∀ a ∈ args, a ∈ s.objects)
    (hfit : Fits args f.args) (pick : Option Cls) (hp : ∀ r, pick = some r → r ∈ f.results) :
    ∃ s', call f args pick s = .val s' ∧ Inv s' ∧ s'.objects = pick.toList ++ s.objects := by
  obtain ⟨s1, h1, h2, h3, h4⟩ := import_many f.lazy hi
  have hknown := fits_known hi hfit ho
  have hacc : ¬ ¬ (args.length = f.args.length ∧
      (List.zipWith isA args f.args).all (· = true) ∧ f.args.all (· ∈ s.known)) := by
    rw [not_not]
    obtain ⟨ha, hb⟩ := (accepted_iff (s := s) f args).2 hfit
    refine ⟨ha, hb, ?_⟩
    simp only [List.all_eq_true, decide_eq_true_eq]
    exact fun p hp => (hknown p hp).1
  have hloaded : ∀ m ∈ guaranteed f, m ∈ s1.loaded := by
    intro m hm
    simp only [guaranteed, List.cons_append, List.mem_cons, List.mem_append,
      List.mem_flatMap] at hm
    rw [h2]
    rcases hm with rfl | (h | h) | ⟨p, hp, h⟩
    · exact Or.inr hl
    · exact Or.inr (hi.tops _ hl _ h)
    · exact Or.inl ⟨m, h, Or.inl rfl⟩
    · exact Or.inr ((hknown p hp).2 m h)
  cases pick with
  | none =>
    refine ⟨s1, ?_, h3, by simpa using h4⟩
    rw [call, if_neg (not_not.2 hl), if_neg hacc, h1]
    rfl
  | some r =>
    have hr := hp r rfl
    obtain ⟨m, hm, hc⟩ := results_guaranteed f hf r hr
    have hrk : r ∈ s1.known := (h3.known r).2 ⟨m, hloaded m hm, hc⟩
    refine ⟨{ s1 with objects := r :: s1.objects }, ?_, ?_, by simp [h4]⟩
    · rw [call, if_neg (not_not.2 hl), if_neg hacc, h1]
      show (if r ∈ s1.known then _ else _) = _
      rw [if_pos hrk]
    · refine ⟨h3.known, h3.tops, ?_, ?_⟩
      · intro c hc
        rcases List.mem_cons.1 hc with rfl | hc
        · exact hrk
        · exact h3.objs c hc
      · intro c hc hs
        rcases List.mem_cons.1 hc with rfl | hc
        · rcases samplers_guaranteed f hf c hr hs with hg | hd
          · exact hloaded _ hg
          · exact absurd (hknown _ hd).1 (distribution_unknown hi)
        · exact h3.samplers c hc hs

/-- A call that returns had fitting arguments. -/
theorem fits_of_call {s s' : Interp} {f : Fn} {args : List Cls} {pick : Option Cls}
    (h : call f args pick s = .val s') : f.home ∈ s.loaded ∧ Fits args f.args := by
  unfold call at h
  split at h
  · cases h
  rename_i hl
  split at h
  · cases h
  rename_i ha
  rw [not_not] at ha
  exact ⟨not_not.1 hl, (accepted_iff (s := s) f args).1 ⟨ha.1, ha.2.1⟩⟩

theorem inv_reach {s : Interp} (h : Reach s) : Inv s := by
  induction h with
  | init => exact inv_init
  | imp m _ he ih =>
    obtain ⟨s', h1, _, h2, _⟩ := import_any ih m
    rw [he] at h1
    cases h1
    exact h2
  | call args pick _ hf ho hp he ih =>
    obtain ⟨hl, hfit⟩ := fits_of_call he
    obtain ⟨s', h1, h2, _⟩ := call_fits ih hf hl ho hfit pick hp
    rw [he] at h1
    cases h1
    exact h2

/-- Each class is returned by a function whose parameters accept objects obtained before. -/
def buildable : List Cls → List Cls → Bool
  | _, [] => true
  | pre, c :: cs =>
    functions.any (fun f => c ∈ f.results && f.args.all fun p => pre.any fun o => isA o p) &&
      buildable (c :: pre) cs

/-- An order in which objects of all classes can be obtained. -/
def plan : List Cls :=
  [.id, .point 1, .point 2, .point 3, .vector 1, .vector 2, .vector 3, .direction 1,
   .direction 2, .direction 3, .segment 1, .segment 2, .segment 3, .line 1, .line 2, .line 3,
   .elliptical, .ellipse, .ellipseArc, .circle, .plane, .triangle, .quad, .polygon, .disk,
   .cylinderSurface, .cylinder, .hollowCylinder, .box, .sphere, .wrap .shape, .wrap .vertex,
   .wrap .edge, .wrap .wire, .wrap .face, .wrap .shell, .wrap .solid, .wrap .compound,
   .emptyIntersection 3, .constraints, .builderWrapper, .containedBuilderWrapper, .network,
   .containedNetwork, .gmshWriter, .status, .boxSampler, .cylinderSampler]

/-- Objects for the parameters of a function. -/
theorem fits_of_any {objs params : List Cls}
    (h : ∀ p ∈ params, ∃ o ∈ objs, isA o p = true) :
    ∃ args, (∀ a ∈ args, a ∈ objs) ∧ Fits args params := by
  induction params with
  | nil => exact ⟨[], by simp, .nil⟩
  | cons p ps ih =>
    obtain ⟨as, h1, h2⟩ := ih fun q hq => h q (by simp [hq])
    obtain ⟨o, ho, hp⟩ := h p (by simp)
    refine ⟨o :: as, ?_, .cons ((isA_iff o p).1 hp) h2⟩
    intro a ha
    rcases List.mem_cons.1 ha with rfl | ha
    · exact ho
    · exact h1 a ha

theorem build_all (cs : List Cls) : ∀ {s : Interp}, Reach s → (∀ m, m ∈ s.loaded) →
    buildable s.objects cs = true →
    ∃ s', Reach s' ∧ (∀ m, m ∈ s'.loaded) ∧ ∀ c, c ∈ cs ∨ c ∈ s.objects → c ∈ s'.objects := by
  induction cs with
  | nil => intro s h hl _; exact ⟨s, h, hl, by simp⟩
  | cons c cs ih =>
    intro s h hl hb
    simp only [buildable, Bool.and_eq_true, List.any_eq_true, List.all_eq_true,
      decide_eq_true_eq] at hb
    obtain ⟨⟨f, hf, hr, hp⟩, hb⟩ := hb
    obtain ⟨args, ha, hfit⟩ := fits_of_any hp
    have hpick : ∀ r, some c = some r → r ∈ f.results := by rintro _ ⟨rfl⟩; exact hr
    obtain ⟨s1, h1, _, h3⟩ := call_fits (inv_reach h) hf (hl _) ha hfit (some c) hpick
    have hreach : Reach s1 := .call args (some c) h hf ha hpick h1
    have hl1 : ∀ m, m ∈ s1.loaded := by
      intro m
      obtain ⟨t, ht, ht2, _⟩ := import_many f.lazy (inv_reach h)
      have : s1.loaded = t.loaded := by
        unfold call at h1
        split at h1
        · cases h1
        split at h1
        · cases h1
        rw [ht] at h1
        change (if c ∈ t.known then _ else _) = _ at h1
        split at h1
        · cases h1; rfl
        · cases h1
      rw [this, ht2]
      exact Or.inr (hl m)
    obtain ⟨s', h4, h5, h6⟩ := ih hreach hl1 (by rw [h3]; exact hb)
    refine ⟨s', h4, h5, ?_⟩
    intro x hx
    apply h6
    rw [h3]
    rcases hx with hx | hx
    · rcases List.mem_cons.1 hx with rfl | hx
      · right; simp
      · exact Or.inl hx
    · right; simp [hx]

theorem all_loaded : ∃ s, Reach s ∧ (∀ m, m ∈ s.loaded) ∧ s.objects = [] := by
  have key : ∀ ms : List Mod, ∃ s, Reach s ∧ (∀ m ∈ ms, m ∈ s.loaded) ∧ s.objects = [] := by
    intro ms
    induction ms with
    | nil => exact ⟨_, .init, by simp, rfl⟩
    | cons m ms ih =>
      obtain ⟨s, h1, h2, h3⟩ := ih
      obtain ⟨s', h4, h5, h6, h7⟩ := import_any (inv_reach h1) m
      refine ⟨s', .imp m h1 h4, ?_, h7.trans h3⟩
      intro x hx
      rw [h5]
      rcases List.mem_cons.1 hx with rfl | hx
      · exact Or.inl rfl
      · exact Or.inr (Or.inr (h2 x hx))
  obtain ⟨s, h1, h2, h3⟩ := key allMods
  exact ⟨s, h1, fun m => h2 m (mem_allMods m), h3⟩

theorem plan_buildable : buildable [] plan = true := by decide +kernel

theorem plan_enough : ∀ f ∈ functions, (∀ p ∈ f.args,
    p ≠ .distribution ∧ p ≠ .emptyIntersection 1 ∧ p ≠ .emptyIntersection 2) →
    ∀ p ∈ f.args, ∃ o ∈ plan, isA o p = true := by
  decide +kernel

end ModulesAux

open ModulesAux

/-- C149: at any time any module can be imported; the objects are kept, and the classes that
    Python knows afterwards are those of the imported modules. -/
theorem C149_imports {s : Interp} (h : Reach s) (m : Mod) :
    ∃ s', importMod m s = .val s' ∧ m ∈ s'.loaded ∧ (∀ x ∈ s.loaded, x ∈ s'.loaded) ∧
      s'.objects = s.objects ∧ ∀ c, c ∈ s'.known ↔ Provided s' c := by
  obtain ⟨s', h1, h2, h3, h4⟩ := import_any (inv_reach h) m
  refine ⟨s', h1, (h2 m).2 (Or.inl rfl), fun x hx => (h2 x).2 (Or.inr (Or.inr hx)), h4, ?_⟩
  intro c
  rw [h3.known]
  simp only [mem_classes, Provided]

/-- C149: the classes known after a sequence of imports do not depend on the order of the imports
    or on repetitions. -/
theorem C149_order (ms ms' : List Mod) (h : ∀ m, m ∈ ms ↔ m ∈ ms') :
    ∃ s s', ms.foldl (fun (o : Outcome Interp) m => o.bind (importMod m)) (.val Interp.init) = .val s ∧
      ms'.foldl (fun (o : Outcome Interp) m => o.bind (importMod m)) (.val Interp.init) = .val s' ∧
      ∀ c, c ∈ s.known ↔ c ∈ s'.known := by
  obtain ⟨s, h1, h2, h3, _⟩ := import_many ms inv_init
  obtain ⟨s', h1', h2', h3', _⟩ := import_many ms' inv_init
  refine ⟨s, s', h1, h1', ?_⟩
  intro c
  rw [h3.known, h3'.known]
  constructor
  · rintro ⟨x, hx, hc⟩
    refine ⟨x, ?_, hc⟩
    rw [h2'] ; rw [h2] at hx
    rcases hx with ⟨m, hm, hx⟩ | hx
    · exact Or.inl ⟨m, (h m).1 hm, hx⟩
    · exact Or.inr hx
  · rintro ⟨x, hx, hc⟩
    refine ⟨x, ?_, hc⟩
    rw [h2] ; rw [h2'] at hx
    rcases hx with ⟨m, hm, hx⟩ | hx
    · exact Or.inl ⟨m, (h m).2 hm, hx⟩
    · exact Or.inr hx

/-- C149: whatever was imported and called before, a call of a function of an imported module with
    objects that fit its parameters returns, whichever of its possible results it computes: the
    class of the result is always known. -/
theorem C149_results {s : Interp} (h : Reach s) {f : Fn} (hf : f ∈ functions)
    (hl : f.home ∈ s.loaded) {args : List Cls} (ho : ∀ a ∈ args, a ∈ s.objects)
    (hfit : Fits args f.args) {r : Cls} (hr : r ∈ f.results) :
    ∃ s', call f args (some r) s = .val s' ∧ s'.objects = r :: s.objects ∧ Provided s' r := by
  obtain ⟨s', h1, h2, h3⟩ := call_fits (inv_reach h) hf hl ho hfit (some r)
    (by rintro _ ⟨rfl⟩; exact hr)
  refine ⟨s', h1, h3, ?_⟩
  have hrk := h2.objs r (by rw [h3]; simp)
  obtain ⟨m, hm, hc⟩ := (h2.known r).1 hrk
  exact ⟨m, hm, mem_classes.1 hc⟩

/-- C149: other arguments are rejected with a TypeError. -/
theorem C149_rejects {s : Interp} {f : Fn} (hl : f.home ∈ s.loaded) {args : List Cls}
    (hfit : ¬ Fits args f.args) (pick : Option Cls) :
    call f args pick s = .thrown "TypeError: incompatible function arguments" := by
  rw [call, if_neg (not_not.2 hl), if_pos]
  rintro ⟨h1, h2, _⟩
  exact hfit ((accepted_iff (s := s) f args).1 ⟨h1, h2⟩)

/-- C149: a call succeeds if and only if the module of the function has been imported and the
    objects fit its parameters; a call that does not succeed raises an exception. -/
theorem C149_succeeds_iff {s : Interp} (h : Reach s) {f : Fn} (hf : f ∈ functions)
    {args : List Cls} (ho : ∀ a ∈ args, a ∈ s.objects) (pick : Option Cls)
    (hp : ∀ r, pick = some r → r ∈ f.results) :
    ((∃ s', call f args pick s = .val s') ↔ f.home ∈ s.loaded ∧ Fits args f.args) ∧
      ((∃ s', call f args pick s = .val s') ∨ ∃ e, call f args pick s = .thrown e) := by
  by_cases hl : f.home ∈ s.loaded
  · by_cases hfit : Fits args f.args
    · obtain ⟨s', h1, -, -⟩ := call_fits (inv_reach h) hf hl ho hfit pick hp
      exact ⟨⟨fun _ => ⟨hl, hfit⟩, fun _ => ⟨s', h1⟩⟩, Or.inl ⟨s', h1⟩⟩
    · have e := C149_rejects hl hfit pick
      refine ⟨⟨?_, fun k => absurd k.2 hfit⟩, Or.inr ⟨_, e⟩⟩
      rintro ⟨s', k⟩
      rw [e] at k
      cases k
  · have e : call f args pick s = .thrown "AttributeError" := if_pos hl
    refine ⟨⟨?_, fun k => absurd k.1 hl⟩, Or.inr ⟨_, e⟩⟩
    rintro ⟨s', k⟩
    rw [e] at k
    cases k

/-- C149, in full: every function of the package can be called with success. -/
def C149_full : Prop := ∀ f ∈ functions, ∃ s args s', Reach s ∧ (∀ a ∈ args, a ∈ s.objects) ∧
  call f args (f.results.head?) s = .val s'

/-- C149: every function of the package can be called with success, but for the constructors that
    take distributions of the C++ standard library and the methods of the empty intersections in
    one and two dimensions.  What is missing: those functions (`C149_disproof`). -/
theorem C149_callable_partial : ∀ f ∈ functions, (∀ p ∈ f.args,
      p ≠ .distribution ∧ p ≠ .emptyIntersection 1 ∧ p ≠ .emptyIntersection 2) →
    ∃ s args s', Reach s ∧ (∀ a ∈ args, a ∈ s.objects) ∧
      call f args (f.results.head?) s = .val s' := by
  intro f hf hp
  obtain ⟨s0, h1, h2, h3⟩ := all_loaded
  obtain ⟨s, h4, h5, h6⟩ := build_all plan h1 h2 (by rw [h3]; exact plan_buildable)
  obtain ⟨args, ha, hfit⟩ := fits_of_any (objs := s.objects) (params := f.args) (by
    intro p hpm
    obtain ⟨o, ho, hA⟩ := plan_enough f hf hp p hpm
    exact ⟨o, h6 o (Or.inl ho), hA⟩)
  obtain ⟨s', h7, _⟩ := call_fits (inv_reach h4) hf (h5 _) ha hfit f.results.head?
    (fun r hr => List.mem_of_mem_head? hr)
  exact ⟨s, args, s', h4, ha, h7⟩

/-- C149: no call of the constructors of the uniform point samplers succeeds, in any history: no
    module registers the distributions that they take. -/
theorem C149_distributions {s : Interp} (h : Reach s) {f : Fn} (hd : Cls.distribution ∈ f.args)
    {args : List Cls} (ho : ∀ a ∈ args, a ∈ s.objects) (hl : f.home ∈ s.loaded)
    (pick : Option Cls) :
    call f args pick s = .thrown "TypeError: incompatible function arguments" := by
  apply C149_rejects hl
  intro hfit
  exact distribution_unknown (inv_reach h) (fits_known (inv_reach h) hfit ho _ hd).1

/-- C149 is violated by the code: the constructors of `UniformBoxPointSampler` and
    `UniformCylinderPointSampler` exist in Python but can never be called. -/
theorem C149_disproof : ¬ C149_full := by
  intro h
  have hmem : ctor .sampling .boxSampler [.distribution, .distribution, .distribution] ∈
      functions := by
    unfold functions distributionFns
    simp
  obtain ⟨s, args, s', hr, ho, hc⟩ := h _ hmem
  rw [C149_distributions hr (by simp [ctor]) ho (fits_of_call hc).1] at hc
  cases hc

/-! ### Examples -/

/-- Only the sampling module is imported; its box sampler returns a point although the user never
    imported the geometry module: the function does. -/
example : ∃ s, Reach s ∧ Cls.point 3 ∈ s.objects := by
  obtain ⟨s, h1, h2, _⟩ := C149_imports .init .sampling
  have hr : Reach s := .imp _ .init h1
  have hmem : (⟨"BoxPointSampler", .sampling, [], [.geometry], [.point 3]⟩ : Fn) ∈ functions := by
    unfold functions pythonSamplerFns
    simp
  obtain ⟨s', h3, h4, _⟩ := C149_results (r := .point 3) (args := []) hr hmem h2 (by simp) .nil
    (by simp)
  exact ⟨s', .call [] (some (.point 3)) hr hmem (by simp) (by rintro _ ⟨rfl⟩; simp) h3,
    by rw [h4]; simp⟩

/-- A disc fits where an elliptical geometry is expected, a point does not. -/
example : Fits [.disk] [.elliptical] ∧ ¬ Fits [.point 3] [.elliptical] := by
  simp only [Fits, List.forall₂_cons, ← isA_iff]
  constructor
  · refine ⟨by decide +kernel, .nil⟩
  · rintro ⟨h, _⟩
    revert h
    decide +kernel

end Props
