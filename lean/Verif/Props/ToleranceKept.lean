import Verif.Props.BuildLifecycle

/-!
# C46: the tolerance of a builder after its first build
-/

namespace Props
open Verif Frackit Spec.Builder
open Frackit.Builder (IsEmpty Op)

section
variable {Sh K : Type} [DecidableEq Sh] [DecidableEq K] (key : Sh → K) (occ : Occ Sh) (big : ℝ)

/-- The tolerances of two builders agree. -/
structure SameTolerance (b b' : Builder Sh) : Prop where
  eps : b'.eps = b.eps
  epsIsSet : b'.epsIsSet = b.epsIsSet

theorem SameTolerance.trans {a b c : Builder Sh} (h : SameTolerance a b) (h' : SameTolerance b c) :
    SameTolerance a c := ⟨h'.1.trans h.1, h'.2.trans h.2⟩

theorem confineOne_tol (o : Orders) (eps : ℝ) (b : Builder Sh) (i : ℕ) :
    SameTolerance b (Builder.confineOne key occ o eps b i).2 := by
  unfold Builder.confineOne
  simp only
  repeat' split
  all_goals exact ⟨rfl, rfl⟩

theorem confine_tol (o : Orders) (eps : ℝ) (ids : List ℕ) : ∀ b : Builder Sh,
    SameTolerance b (Builder.confine key occ o eps b ids).2 := by
  induction ids with
  | nil => intro b; exact ⟨rfl, rfl⟩
  | cons i t ih =>
    intro b
    have h := confineOne_tol key occ o eps b i
    simp only [Builder.confine]
    cases hc : Builder.confineOne key occ o eps b i with
    | mk r b' =>
      rw [hc] at h
      cases r with
      | val u => exact h.trans (ih b')
      | thrown e => exact h
      | nan => exact h
      | ub => exact h

theorem fragment_tol (o : Orders) (eps : ℝ) (only : Bool) (b : Builder Sh) :
    SameTolerance b (Builder.fragment key occ o eps only b).2 := by
  unfold Builder.fragment
  simp only
  repeat' split
  all_goals exact ⟨rfl, rfl⟩

/-- The tolerance is stored and is `e`. -/
structure ToleranceIs (b : Builder Sh) (e : ℝ) : Prop where
  eps : b.eps = some e
  epsIsSet : b.epsIsSet = true

theorem ToleranceIs.of_same {b b' : Builder Sh} {e : ℝ} (h : ToleranceIs b e) (hs : SameTolerance b b') :
    ToleranceIs b' e := ⟨hs.eps.trans h.eps, hs.epsIsSet.trans h.epsIsSet⟩

theorem prepare_tol (o : Orders) (only : Bool) (b : Builder Sh) (hb : b.epsIsSet = true → ∃ e, b.eps = some e) :
    ToleranceIs (Builder.prepare key occ big o only b).2 (tolerance occ big o b) := by
  have h1 : ToleranceIs ((Builder.initializeBuild key b.clearBuild).getEpsilon occ big o) (tolerance occ big o b) := by
    unfold Builder.getEpsilon tolerance
    by_cases he : b.epsIsSet = true
    · obtain ⟨e, hb⟩ := hb he
      have : (Builder.initializeBuild key b.clearBuild).epsIsSet = true := he
      rw [if_pos this, if_pos he, hb]
      exact ⟨hb, he⟩
    · have : ¬ (Builder.initializeBuild key b.clearBuild).epsIsSet = true := he
      rw [if_neg this, if_neg he]
      exact ⟨rfl, rfl⟩
  unfold Builder.prepare
  simp only
  generalize (Builder.initializeBuild key b.clearBuild).getEpsilon occ big o = b1 at h1
  have h2 := h1.of_same (confine_tol key occ o (b1.eps.getD 0) o.networks b1)
  cases hc : Builder.confine key occ o (b1.eps.getD 0) b1 o.networks with
  | mk r b2 =>
    rw [hc] at h2
    cases r with
    | val u => exact h2.of_same (fragment_tol key occ o _ only b2)
    | thrown e => exact h2
    | nan => exact h2
    | ub => exact h2

theorem buildContained_tol (o : Orders) (b : Builder Sh) (hb : b.epsIsSet = true → ∃ e, b.eps = some e) :
    ToleranceIs (Builder.buildContained key occ big o b).2 (tolerance occ big o b) := by
  have h := prepare_tol key occ big o false b hb
  unfold Builder.buildContained
  repeat' split
  all_goals simp_all only
  all_goals exact ⟨h.1, h.2⟩

theorem buildNetwork_tol (o : Orders) (b : Builder Sh) (hb : b.epsIsSet = true → ∃ e, b.eps = some e) :
    ToleranceIs (Builder.buildNetwork key occ big o b).2 (tolerance occ big o b) := by
  have h := prepare_tol key occ big o true b hb
  unfold Builder.buildNetwork
  repeat' split
  all_goals simp_all only
  all_goals exact ⟨h.1, h.2⟩

/-- Calls by which the user chooses a tolerance. -/
def SetsTolerance : Op Sh → Prop
  | .setEpsilon _ => True
  | .setDefaultEpsilon _ => True
  | _ => False

/-- Calls that neither choose a tolerance nor build. -/
theorem step_sameTol (b : Builder Sh) (op : Op Sh) (h1 : ¬ SetsTolerance op)
    (h2 : ∀ o, op ≠ .buildContained o) (h3 : ∀ o, op ≠ .buildNetwork o) :
    SameTolerance b (Builder.step key occ big b op).2 := by
  have hadd : ∀ d s i, SameTolerance b (b.addSubDomain d s i).2 := by
    intro d s i
    unfold Builder.addSubDomain
    repeat' split
    all_goals exact ⟨rfl, rfl⟩
  cases op with
  | addSubDomain d s i => exact hadd d s i
  | addConfiningSubDomain d s i =>
    have := hadd d s i
    simp only [Builder.step, Builder.addConfiningSubDomain]
    cases ha : b.addSubDomain d s i with
    | mk r b1 =>
      rw [ha] at this
      cases r <;> exact ⟨this.1, this.2⟩
  | addEntity d s i =>
    simp only [Builder.step]
    unfold Builder.addSubDomainEntity
    simp only
    repeat' split
    all_goals exact ⟨rfl, rfl⟩
  | clear => exact ⟨rfl, rfl⟩
  | setEpsilon e => exact absurd trivial h1
  | setDefaultEpsilon o => exact absurd trivial h1
  | setConfineToSubDomainUnion v => exact ⟨rfl, rfl⟩
  | buildContained o => exact absurd rfl (h2 o)
  | buildNetwork o => exact absurd rfl (h3 o)

theorem tolerance_of {b : Builder Sh} {e : ℝ} (h : ToleranceIs b e) (o : Orders) : tolerance occ big o b = e := by
  unfold tolerance
  rw [if_pos h.epsIsSet, h.eps]
  rfl

theorem step_keeps (b : Builder Sh) (op : Op Sh) {e : ℝ} (h : ToleranceIs b e) (h1 : ¬ SetsTolerance op) :
    ToleranceIs (Builder.step key occ big b op).2 e := by
  by_cases h2 : ∃ o, op = .buildContained o
  · obtain ⟨o, rfl⟩ := h2
    have := buildContained_tol key occ big o b fun _ => ⟨e, h.eps⟩
    rwa [tolerance_of occ big h] at this
  by_cases h3 : ∃ o, op = .buildNetwork o
  · obtain ⟨o, rfl⟩ := h3
    have := buildNetwork_tol key occ big o b fun _ => ⟨e, h.eps⟩
    rwa [tolerance_of occ big h] at this
  · exact h.of_same (step_sameTol key occ big b op h1 (fun o ho => h2 ⟨o, ho⟩) fun o ho => h3 ⟨o, ho⟩)

theorem runFrom_keeps (ops : List (Op Sh)) : ∀ (b : Builder Sh) {e : ℝ}, ToleranceIs b e →
    (∀ op ∈ ops, ¬ SetsTolerance op) → ToleranceIs (runFrom key occ big b ops) e := by
  induction ops with
  | nil => intro b e h _; exact h
  | cons op t ih =>
    intro b e h ht
    exact ih _ (step_keeps key occ big b op h (ht op List.mem_cons_self))
      fun x hx => ht x (List.mem_cons_of_mem _ hx)

/-- A stored tolerance has a value. -/
theorem set_has_value (ops : List (Op Sh)) : ∀ (b : Builder Sh), (b.epsIsSet = true → ∃ e, b.eps = some e) →
    (runFrom key occ big b ops).epsIsSet = true → ∃ e, (runFrom key occ big b ops).eps = some e := by
  induction ops with
  | nil => intro b h; exact h
  | cons op t ih =>
    intro b h
    refine ih (Builder.step key occ big b op).2 ?_
    by_cases h1 : SetsTolerance op
    · cases op with
      | setEpsilon e => exact fun _ => ⟨e, rfl⟩
      | setDefaultEpsilon o => exact fun _ => ⟨_, rfl⟩
      | _ => exact h1.elim
    by_cases h2 : ∃ o, op = .buildContained o
    · obtain ⟨o, rfl⟩ := h2
      exact fun _ => ⟨_, (buildContained_tol key occ big o b h).eps⟩
    by_cases h3 : ∃ o, op = .buildNetwork o
    · obtain ⟨o, rfl⟩ := h3
      exact fun _ => ⟨_, (buildNetwork_tol key occ big o b h).eps⟩
    · have hs := step_sameTol key occ big b op h1 (fun o ho => h2 ⟨o, ho⟩) fun o ho => h3 ⟨o, ho⟩
      rw [hs.eps, hs.epsIsSet]
      exact h

/-- The tolerance of a builder is fixed by its first build, successful or not: all later builds use the same one,
whatever is registered in between and also after `clear()`, unless `setEpsilon` or `setDefaultEpsilon` is called. -/
theorem C46_tolerance_kept (before after : List (Op Sh)) (o o' : Orders) (build : Op Sh)
    (hb : build = .buildContained o ∨ build = .buildNetwork o) (ha : ∀ op ∈ after, ¬ SetsTolerance op) :
    tolerance occ big o' (runFrom key occ big Builder.init (before ++ build :: after)) =
      tolerance occ big o (runFrom key occ big Builder.init before) := by
  have hs := set_has_value key occ big before Builder.init (by intro h; cases h)
  have e : runFrom key occ big Builder.init (before ++ build :: after) =
      runFrom key occ big (Builder.step key occ big (runFrom key occ big Builder.init before) build).2 after := by
    simp [runFrom]
  rw [e]
  refine tolerance_of occ big (runFrom_keeps key occ big after _ ?_ ha) o'
  rcases hb with rfl | rfl
  · exact buildContained_tol key occ big o _ hs
  · exact buildNetwork_tol key occ big o _ hs

/-- Registration of a larger box after `clear()`. -/
example : ∀ op ∈ ([.clear, .addEntity (.val 2) (.val 7) 0] : List (Op ℕ)), ¬ SetsTolerance op := by
  simp [SetsTolerance]

end

end Props
