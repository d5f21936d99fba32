import Verif.Props.Fragments
import Mathlib.Tactic.NormNum

/-!
# C46: building is a function of the registered data
-/

namespace Props
open Verif Frackit Spec.Builder
open Frackit.Builder (IsEmpty Op)

section
variable {Sh K : Type} [DecidableEq Sh] [DecidableEq K] (key : Sh → K) (occ : Occ Sh) (big : ℝ)

/-- State after a history. -/
noncomputable def runFrom (b : Builder Sh) (ops : List (Op Sh)) : Builder Sh :=
  ops.foldl (fun b op => (Builder.step key occ big b op).2) b

theorem runReg_runFrom (ops : List (Op Sh)) :
    (runReg key occ big ops).1 = runFrom key occ big Builder.init ops := by
  induction ops using List.reverseRecOn with
  | nil => rfl
  | append_singleton ops op ih =>
    rw [runReg_snoc, runFrom, List.foldl_append]
    simp only [ih, List.foldl_cons, List.foldl_nil]
    rfl

/-- The build reads nothing but what `clearBuild` keeps. -/
theorem prepare_clearBuild (o : Orders) (only : Bool) (b : Builder Sh) :
    Builder.prepare key occ big o only b.clearBuild = Builder.prepare key occ big o only b := rfl

/-- Simulation: the second builder has the same data, it may have dimensions the first has not. -/
structure Sim (b b' : Builder Sh) : Prop where
  subDomains : b'.subDomains = b.subDomains
  bounds : b'.bounds = b.bounds
  networks : b'.networks = b.networks
  confineUnion : b'.confineUnion = b.confineUnion
  eps : b'.eps = b.eps
  epsIsSet : b'.epsIsSet = b.epsIsSet
  domainDim : ∀ d, b.domainDim = some d → b'.domainDim = some d
  entityDim : ∀ d, b.entityDim = some d → b'.entityDim = some d

/-- The second builder with the dimensions of the first. -/
def withDims (b' : Builder Sh) (d e : Option ℤ) : Builder Sh := { b' with domainDim := d, entityDim := e }

theorem sim_clearBuild {b b' : Builder Sh} (h : Sim b b') :
    withDims b'.clearBuild b.domainDim b.entityDim = b.clearBuild := by
  obtain ⟨h1, h2, h3, h4, h5, h6, _, _⟩ := h
  cases b; cases b'
  simp only at *
  subst h1 h2 h3 h4 h5 h6
  rfl

theorem confineOne_dims (o : Orders) (eps : ℝ) (b : Builder Sh) (i : ℕ) (d e : Option ℤ) :
    Builder.confineOne key occ o eps (withDims b d e) i =
      ((Builder.confineOne key occ o eps b i).1, withDims (Builder.confineOne key occ o eps b i).2 d e) := by
  have hu : (withDims b d e).getSubDomainUnion occ o eps = b.getSubDomainUnion occ o eps := rfl
  have h1 : (withDims b d e).subDomains = b.subDomains := rfl
  have h2 : (withDims b d e).bounds = b.bounds := rfl
  have h3 : (withDims b d e).networks = b.networks := rfl
  have h4 : (withDims b d e).confineUnion = b.confineUnion := rfl
  unfold Builder.confineOne
  simp only [hu, h1, h2, h3, h4]
  cases b.subDomains i with
  | none => rfl
  | some sd =>
    simp only
    cases b.bounds i with
    | none => rfl
    | some bd =>
      simp only
      split
      · rfl
      · cases (if bd = true then Outcome.val sd else b.getSubDomainUnion occ o eps) with
        | thrown x => rfl
        | nan => rfl
        | ub => rfl
        | val tool =>
          simp only
          cases occ.common ((b.networks i).getD []) [tool] eps with
          | thrown x => cases bd <;> rfl
          | nan => cases bd <;> rfl
          | ub => cases bd <;> rfl
          | val h =>
            cases bd with
            | true =>
              simp only [if_true]
              have : ((withDims b d e).fragMaps i) = b.fragMaps i := rfl
              rw [this]
              cases Builder.confineLoop key h ((b.fragMaps i).getD []) ((b.networks i).getD []) ([], []) <;> rfl
            | false =>
              simp only [Bool.false_eq_true, if_false]
              have : ((withDims b d e).fragMaps i) = b.fragMaps i := rfl
              rw [this]
              cases Builder.confineLoop key h ((b.fragMaps i).getD []) ((b.networks i).getD []) ([], []) <;> rfl

theorem confine_dims (o : Orders) (eps : ℝ) (d e : Option ℤ) (ids : List ℕ) : ∀ b : Builder Sh,
    Builder.confine key occ o eps (withDims b d e) ids =
      ((Builder.confine key occ o eps b ids).1, withDims (Builder.confine key occ o eps b ids).2 d e) := by
  induction ids with
  | nil => intro b; rfl
  | cons i t ih =>
    intro b
    simp only [Builder.confine]
    rw [confineOne_dims]
    cases hc : Builder.confineOne key occ o eps b i with
    | mk r b' =>
      cases r with
      | val u => exact ih b'
      | thrown x => rfl
      | nan => rfl
      | ub => rfl

theorem fragment_dims (o : Orders) (eps : ℝ) (only : Bool) (d e : Option ℤ) (b : Builder Sh) :
    Builder.fragment key occ o eps only (withDims b d e) =
      ((Builder.fragment key occ o eps only b).1, withDims (Builder.fragment key occ o eps only b).2 d e) := by
  have h1 : (withDims b d e).allEntities o = b.allEntities o := rfl
  have h2 : (withDims b d e).subDomains = b.subDomains := rfl
  have h3 : (withDims b d e).fragMaps = b.fragMaps := rfl
  have h4 : (withDims b d e).sdFragments = b.sdFragments := rfl
  unfold Builder.fragment
  simp only [h1, h2, h3, h4]
  generalize (if only = true then [] else
    o.subDomains.filterMap (fun i => (b.subDomains i).map (fun s => (s, i)))) = doms
  cases occ.general ((b.allEntities o).map (·.1) ++ doms.map (·.1)) eps with
  | thrown x => rfl
  | nan => rfl
  | ub => rfl
  | val h =>
    simp only
    cases Builder.fragmentLoop key h (Builder.bindAll key (b.allEntities o)) b.fragMaps
      ((b.allEntities o).map (·.1)) (fun _ => none) with
    | thrown x => rfl
    | nan => rfl
    | ub => rfl
    | val acc =>
      simp only
      cases Builder.domainLoop key h (Builder.bindAll key doms) (doms.map (·.1)) b.sdFragments <;> rfl

theorem prepare_dims (o : Orders) (only : Bool) (d e : Option ℤ) (b : Builder Sh) :
    Builder.prepare key occ big o only (withDims b d e) =
      ((Builder.prepare key occ big o only b).1, withDims (Builder.prepare key occ big o only b).2 d e) := by
  have h0 : Builder.initializeBuild key (withDims b d e).clearBuild
      = withDims (Builder.initializeBuild key b.clearBuild) d e := rfl
  have h1 : ∀ b : Builder Sh, (withDims b d e).getEpsilon occ big o = withDims (b.getEpsilon occ big o) d e := by
    intro b
    unfold Builder.getEpsilon
    have : (withDims b d e).epsIsSet = b.epsIsSet := rfl
    rw [this]
    split <;> rfl
  unfold Builder.prepare
  simp only [h0, h1]
  generalize (Builder.initializeBuild key b.clearBuild).getEpsilon occ big o = b1
  have h2 : (withDims b1 d e).eps = b1.eps := rfl
  rw [h2, confine_dims]
  cases hc : Builder.confine key occ o (b1.eps.getD 0) b1 o.networks with
  | mk r b2 =>
    cases r with
    | val u => exact fragment_dims key occ o _ only d e b2
    | thrown x => rfl
    | nan => rfl
    | ub => rfl

/-- Two builders with the same data prepare the same. -/
theorem prepare_sim {b b' : Builder Sh} (h : Sim b b') (o : Orders) (only : Bool) :
    (Builder.prepare key occ big o only b).1 = (Builder.prepare key occ big o only b').1 ∧
    (Builder.prepare key occ big o only b).2 =
      withDims (Builder.prepare key occ big o only b').2 b.domainDim b.entityDim := by
  rw [← prepare_clearBuild key occ big o only b, ← sim_clearBuild h, prepare_dims,
    prepare_clearBuild]
  exact ⟨rfl, rfl⟩

theorem prepare_dim_eq (o : Orders) (only : Bool) (b : Builder Sh) :
    (Builder.prepare key occ big o only b).2.entityDim = b.entityDim ∧
    (Builder.prepare key occ big o only b).2.domainDim = b.domainDim :=
  ⟨(prepare_data key occ big o only b).entityDim, (prepare_data key occ big o only b).domainDim⟩

theorem buildContained_sim {b b' : Builder Sh} (h : Sim b b') (o : Orders) :
    ((Builder.buildContained key occ big o b).1 ≠ .ub →
      (Builder.buildContained key occ big o b).1 = (Builder.buildContained key occ big o b').1) ∧
    Sim (Builder.buildContained key occ big o b).2 (Builder.buildContained key occ big o b').2 := by
  obtain ⟨h1, h2⟩ := prepare_sim key occ big h o false
  obtain ⟨d1, d2⟩ := prepare_dim_eq key occ big o false b
  obtain ⟨d1', d2'⟩ := prepare_dim_eq key occ big o false b'
  have hdata := prepare_data key occ big o false b'
  unfold Builder.buildContained
  cases hp : Builder.prepare key occ big o false b with
  | mk r b1 =>
    cases hp' : Builder.prepare key occ big o false b' with
    | mk r' b1' =>
      rw [hp, hp'] at h1 h2
      rw [hp] at d1 d2
      rw [hp'] at d1' d2'
      simp only at h1 h2 d1 d2 d1' d2'
      subst h1
      have hsim : Sim b1 b1' := by
        refine ⟨by rw [h2]; rfl, by rw [h2]; rfl, by rw [h2]; rfl, by rw [h2]; rfl, by rw [h2]; rfl,
          by rw [h2]; rfl, ?_, ?_⟩
        · rw [d2, d2']; exact h.domainDim
        · rw [d1, d1']; exact h.entityDim
      cases r with
      | thrown e => exact ⟨fun _ => rfl, hsim⟩
      | nan => exact ⟨fun _ => rfl, hsim⟩
      | ub => exact ⟨fun _ => rfl, hsim⟩
      | val u =>
        simp only
        have hsame : ∀ f l m v, Sim b1 { b1' with sdFragments := f, fragLists := l, fragMaps := m, built := v } :=
          fun _ _ _ _ => ⟨hsim.1, hsim.2, hsim.3, hsim.4, hsim.5, hsim.6, hsim.7, hsim.8⟩
        cases he : b1.entityDim with
        | none =>
          refine ⟨fun hne => absurd rfl hne, ?_⟩
          simp only
          split
          · exact hsame _ _ _ _
          · exact hsim
        | some e =>
          cases hd : b1.domainDim with
          | none =>
            refine ⟨fun hne => absurd rfl hne, ?_⟩
            simp only
            split
            · exact hsame _ _ _ _
            · exact hsim
          | some d =>
            rw [hsim.entityDim e he, hsim.domainDim d hd]
            simp only
            refine ⟨fun _ => ?_, ⟨hsim.1, hsim.2, hsim.3, hsim.4, hsim.5, hsim.6, fun _ hx => hx, fun _ hx => hx⟩⟩
            rw [h2]
            rfl

theorem buildNetwork_sim {b b' : Builder Sh} (h : Sim b b') (o : Orders) :
    ((Builder.buildNetwork key occ big o b).1 ≠ .ub →
      (Builder.buildNetwork key occ big o b).1 = (Builder.buildNetwork key occ big o b').1) ∧
    Sim (Builder.buildNetwork key occ big o b).2 (Builder.buildNetwork key occ big o b').2 := by
  obtain ⟨h1, h2⟩ := prepare_sim key occ big h o true
  obtain ⟨d1, d2⟩ := prepare_dim_eq key occ big o true b
  obtain ⟨d1', d2'⟩ := prepare_dim_eq key occ big o true b'
  unfold Builder.buildNetwork
  cases hp : Builder.prepare key occ big o true b with
  | mk r b1 =>
    cases hp' : Builder.prepare key occ big o true b' with
    | mk r' b1' =>
      rw [hp, hp'] at h1 h2
      rw [hp] at d1 d2
      rw [hp'] at d1' d2'
      simp only at h1 h2 d1 d2 d1' d2'
      subst h1
      have hsim : Sim b1 b1' := by
        refine ⟨by rw [h2]; rfl, by rw [h2]; rfl, by rw [h2]; rfl, by rw [h2]; rfl, by rw [h2]; rfl,
          by rw [h2]; rfl, ?_, ?_⟩
        · rw [d2, d2']; exact h.domainDim
        · rw [d1, d1']; exact h.entityDim
      cases r with
      | thrown e => exact ⟨fun _ => rfl, hsim⟩
      | nan => exact ⟨fun _ => rfl, hsim⟩
      | ub => exact ⟨fun _ => rfl, hsim⟩
      | val u =>
        simp only
        cases he : b1.entityDim with
        | none =>
          refine ⟨fun hne => absurd rfl hne, ?_⟩
          simp only
          split
          · exact ⟨hsim.1, hsim.2, hsim.3, hsim.4, hsim.5, hsim.6, hsim.7, hsim.8⟩
          · exact hsim
        | some e =>
          rw [hsim.entityDim e he]
          simp only
          refine ⟨fun _ => ?_, ⟨hsim.1, hsim.2, hsim.3, hsim.4, hsim.5, hsim.6, hsim.7, fun _ hx => hx⟩⟩
          rw [h2]
          rfl

theorem addSubDomain_sim {b b' : Builder Sh} {r : Reg Sh} (h : Sim b b') (hr : RegInv b r) (dim : Outcome ℤ)
    (shape : Outcome Sh) (id : ℕ) :
    (b.addSubDomain dim shape id).1 = (b'.addSubDomain dim shape id).1 ∧
    Sim (b.addSubDomain dim shape id).2 (b'.addSubDomain dim shape id).2 := by
  cases dim with
  | thrown e => exact ⟨rfl, h⟩
  | nan => exact ⟨rfl, h⟩
  | ub => exact ⟨rfl, h⟩
  | val d =>
    have hed : ¬ IsEmpty b.networks → b'.entityDim = b.entityDim := by
      intro hne
      obtain ⟨e, he, _⟩ := hr.entDim hne
      rw [he]; exact h.entityDim e he
    have hdd : ¬ IsEmpty b.subDomains → b'.domainDim = b.domainDim := by
      intro hne
      rw [empty_dom hr] at hne
      obtain ⟨x, hx⟩ := List.exists_mem_of_ne_nil _ hne
      rw [hr.domDim x hx]; exact h.domainDim _ (hr.domDim x hx)
    unfold Builder.addSubDomain
    rw [h.networks, h.subDomains]
    dsimp only
    have c1 : (¬ IsEmpty b.networks ∧ b'.entityDim = none) ↔ (¬ IsEmpty b.networks ∧ b.entityDim = none) :=
      and_congr_right (fun hne => by rw [hed hne])
    have c2 : (¬ IsEmpty b.networks ∧ ∃ e, b'.entityDim = some e ∧ d ≤ e) ↔
        (¬ IsEmpty b.networks ∧ ∃ e, b.entityDim = some e ∧ d ≤ e) :=
      and_congr_right (fun hne => by rw [hed hne])
    have c3 : (¬ IsEmpty b.subDomains ∧ b'.domainDim = none) ↔ (¬ IsEmpty b.subDomains ∧ b.domainDim = none) :=
      and_congr_right (fun hne => by rw [hdd hne])
    have c4 : (¬ IsEmpty b.subDomains ∧ b'.domainDim ≠ some d) ↔
        (¬ IsEmpty b.subDomains ∧ b.domainDim ≠ some d) :=
      and_congr_right (fun hne => by rw [hdd hne])
    by_cases q1 : ¬ IsEmpty b.networks ∧ b.entityDim = none
    · rw [if_pos q1, if_pos (c1.2 q1)]; exact ⟨rfl, h⟩
    rw [if_neg q1, if_neg (fun x => q1 (c1.1 x))]
    by_cases q2 : ¬ IsEmpty b.networks ∧ ∃ e, b.entityDim = some e ∧ d ≤ e
    · rw [if_pos q2, if_pos (c2.2 q2)]; exact ⟨rfl, h⟩
    rw [if_neg q2, if_neg (fun x => q2 (c2.1 x))]
    by_cases q3 : ¬ IsEmpty b.subDomains ∧ b.domainDim = none
    · rw [if_pos q3, if_pos (c3.2 q3)]; exact ⟨rfl, h⟩
    rw [if_neg q3, if_neg (fun x => q3 (c3.1 x))]
    by_cases q4 : ¬ IsEmpty b.subDomains ∧ b.domainDim ≠ some d
    · rw [if_pos q4, if_pos (c4.2 q4)]; exact ⟨rfl, h⟩
    rw [if_neg q4, if_neg (fun x => q4 (c4.1 x))]
    by_cases q5 : b.subDomains id ≠ none
    · rw [if_pos q5, if_pos q5]; exact ⟨rfl, h⟩
    rw [if_neg q5, if_neg q5]
    cases shape with
    | ub => exact ⟨rfl, h⟩
    | thrown e => exact ⟨rfl, rfl, h.2, rfl, h.4, h.5, h.6, fun _ hx => hx, h.8⟩
    | nan => exact ⟨rfl, rfl, h.2, rfl, h.4, h.5, h.6, fun _ hx => hx, h.8⟩
    | val s =>
      refine ⟨rfl, rfl, ?_, rfl, h.4, h.5, h.6, fun _ hx => hx, h.8⟩
      simp only [h.bounds]

theorem step_sim {b b' : Builder Sh} {r : Reg Sh} (h : Sim b b') (hr : RegInv b r) (op : Op Sh) :
    Sim (Builder.step key occ big b op).2 (Builder.step key occ big b' op).2 := by
  cases op with
  | addSubDomain d s i => exact (addSubDomain_sim h hr d s i).2
  | addConfiningSubDomain d s i =>
    obtain ⟨h1, h2⟩ := addSubDomain_sim h hr d s i
    simp only [Builder.step, Builder.addConfiningSubDomain]
    cases ha : b.addSubDomain d s i with
    | mk r b1 =>
      cases ha' : b'.addSubDomain d s i with
      | mk r' b1' =>
        rw [ha, ha'] at h1 h2
        simp only at h1 h2
        subst h1
        cases r with
        | val u =>
          refine ⟨h2.1, ?_, h2.3, h2.4, h2.5, h2.6, h2.7, h2.8⟩
          simp only [h2.bounds]
        | thrown e => exact h2
        | nan => exact h2
        | ub => exact h2
  | addEntity dim shape id =>
    simp only [Builder.step]
    cases dim with
    | thrown e => exact h
    | nan => exact h
    | ub => exact h
    | val d =>
      have hed : ¬ IsEmpty b.networks → b'.entityDim = b.entityDim := by
        intro hne
        obtain ⟨e, he, _⟩ := hr.entDim hne
        rw [he]; exact h.entityDim e he
      have hdd : ¬ IsEmpty b.subDomains → b'.domainDim = b.domainDim := by
        intro hne
        rw [empty_dom hr] at hne
        obtain ⟨x, hx⟩ := List.exists_mem_of_ne_nil _ hne
        rw [hr.domDim x hx]; exact h.domainDim _ (hr.domDim x hx)
      unfold Builder.addSubDomainEntity
      rw [h.networks, h.subDomains]
      dsimp only
      have c1 : (¬ IsEmpty b.networks ∧ b'.entityDim = none) ↔ (¬ IsEmpty b.networks ∧ b.entityDim = none) :=
        and_congr_right (fun hne => by rw [hed hne])
      have c2 : (¬ IsEmpty b.networks ∧ b'.entityDim ≠ some d) ↔
          (¬ IsEmpty b.networks ∧ b.entityDim ≠ some d) :=
        and_congr_right (fun hne => by rw [hed hne])
      have c3 : (¬ IsEmpty b.subDomains ∧ b'.domainDim = none) ↔
          (¬ IsEmpty b.subDomains ∧ b.domainDim = none) :=
        and_congr_right (fun hne => by rw [hdd hne])
      have c4 : (¬ IsEmpty b.subDomains ∧ ∃ e, b'.domainDim = some e ∧ e ≤ d) ↔
          (¬ IsEmpty b.subDomains ∧ ∃ e, b.domainDim = some e ∧ e ≤ d) :=
        and_congr_right (fun hne => by rw [hdd hne])
      by_cases q1 : ¬ IsEmpty b.networks ∧ b.entityDim = none
      · rw [if_pos q1, if_pos (c1.2 q1)]; exact h
      rw [if_neg q1, if_neg (fun x => q1 (c1.1 x))]
      by_cases q2 : ¬ IsEmpty b.networks ∧ b.entityDim ≠ some d
      · rw [if_pos q2, if_pos (c2.2 q2)]; exact h
      rw [if_neg q2, if_neg (fun x => q2 (c2.1 x))]
      by_cases q3 : ¬ IsEmpty b.subDomains ∧ b.domainDim = none
      · rw [if_pos q3, if_pos (c3.2 q3)]; exact h
      rw [if_neg q3, if_neg (fun x => q3 (c3.1 x))]
      by_cases q4 : ¬ IsEmpty b.subDomains ∧ ∃ e, b.domainDim = some e ∧ e ≤ d
      · rw [if_pos q4, if_pos (c4.2 q4)]; exact h
      rw [if_neg q4, if_neg (fun x => q4 (c4.1 x))]
      cases shape with
      | ub => exact h
      | thrown e => exact ⟨rfl, h.2, rfl, h.4, h.5, h.6, h.7, fun _ hx => hx⟩
      | nan => exact ⟨rfl, h.2, rfl, h.4, h.5, h.6, h.7, fun _ hx => hx⟩
      | val s => exact ⟨rfl, h.2, rfl, h.4, h.5, h.6, h.7, fun _ hx => hx⟩
  | clear => exact ⟨rfl, rfl, rfl, h.4, h.5, h.6, h.7, h.8⟩
  | setEpsilon e => exact ⟨h.1, h.2, h.3, h.4, rfl, rfl, h.7, h.8⟩
  | setDefaultEpsilon o =>
    refine ⟨h.1, h.2, h.3, h.4, ?_, rfl, h.7, h.8⟩
    simp only [Builder.step, Builder.setDefaultEpsilon, Builder.defaultEpsilon]
    rw [h.subDomains, h.networks]
  | setConfineToSubDomainUnion v => exact ⟨h.1, h.2, h.3, rfl, h.5, h.6, h.7, h.8⟩
  | buildContained o => exact (buildContained_sim key occ big h o).2
  | buildNetwork o => exact (buildNetwork_sim key occ big h o).2

theorem run_sim (ops : List (Op Sh)) : ∀ {b b' : Builder Sh} {r : Reg Sh}, Sim b b' →
    RegInv b r → Sim (runFrom key occ big b ops) (runFrom key occ big b' ops) := by
  induction ops with
  | nil => intro b b' r h _; exact h
  | cons op t ih =>
    intro b b' r h hr
    exact ih (step_sim key occ big h hr op) (step_regInv key occ big hr op)

/-! Flag `built` -/

theorem confineOne_built (o : Orders) (eps : ℝ) (b : Builder Sh) (i : ℕ) :
    (Builder.confineOne key occ o eps b i).2.built = b.built := by
  unfold Builder.confineOne
  simp only
  repeat' split
  all_goals rfl

theorem confine_built (o : Orders) (eps : ℝ) (ids : List ℕ) : ∀ b : Builder Sh,
    (Builder.confine key occ o eps b ids).2.built = b.built := by
  induction ids with
  | nil => intro b; rfl
  | cons i t ih =>
    intro b
    have h := confineOne_built key occ o eps b i
    simp only [Builder.confine]
    cases hc : Builder.confineOne key occ o eps b i with
    | mk r b' =>
      rw [hc] at h
      cases r with
      | val u => exact (ih b').trans h
      | thrown e => exact h
      | nan => exact h
      | ub => exact h

theorem fragment_built (o : Orders) (eps : ℝ) (only : Bool) (b : Builder Sh) :
    (Builder.fragment key occ o eps only b).2.built = b.built := by
  unfold Builder.fragment
  simp only
  repeat' split
  all_goals rfl

theorem prepare_built (o : Orders) (only : Bool) (b : Builder Sh) :
    (Builder.prepare key occ big o only b).2.built = false := by
  unfold Builder.prepare
  simp only
  have h1 : ((Builder.initializeBuild key b.clearBuild).getEpsilon occ big o).built = false := by
    unfold Builder.getEpsilon; split <;> rfl
  generalize (Builder.initializeBuild key b.clearBuild).getEpsilon occ big o = b1 at h1
  have h2 := confine_built key occ o (b1.eps.getD 0) o.networks b1
  cases hc : Builder.confine key occ o (b1.eps.getD 0) b1 o.networks with
  | mk r b2 =>
    rw [hc] at h2
    cases r with
    | val u => exact (fragment_built key occ o _ only b2).trans (h2.trans h1)
    | thrown e => exact h2.trans h1
    | nan => exact h2.trans h1
    | ub => exact h2.trans h1

theorem buildContained_built (o : Orders) (b : Builder Sh) :
    (Builder.buildContained key occ big o b).2.built = true ↔
      (Builder.buildContained key occ big o b).1.isVal := by
  have h := prepare_built key occ big o false b
  unfold Builder.buildContained
  cases hp : Builder.prepare key occ big o false b with
  | mk r b' =>
    rw [hp] at h
    simp only at h
    cases r with
    | val u =>
      simp only
      cases b'.entityDim <;> cases b'.domainDim <;> simp [h]
    | thrown e => simp [h]
    | nan => simp [h]
    | ub => simp [h]

theorem add_built (b : Builder Sh) (d : Outcome ℤ) (s : Outcome Sh) (i : ℕ) :
    (b.addSubDomain d s i).2.built = b.built ∧ (b.addSubDomainEntity d s i).2.built = b.built := by
  constructor
  · unfold Builder.addSubDomain
    repeat' split
    all_goals rfl
  · unfold Builder.addSubDomainEntity
    simp only
    repeat' split
    all_goals rfl

end

variable {Sh K : Type} [DecidableEq Sh] [DecidableEq K] (key : Sh → K) (occ : Occ Sh) (big : ℝ)

/-! ## C46 Building is a function of the registered data -/

/-- A call that registers, builds or clears. -/
def NoSetting : Op Sh → Prop
  | .setEpsilon _ => False
  | .setDefaultEpsilon _ => False
  | .setConfineToSubDomainUnion _ => False
  | _ => True

/-- A call that registers or clears. -/
def OnlyRegisters : Op Sh → Prop
  | .addSubDomain _ _ _ => True
  | .addConfiningSubDomain _ _ _ => True
  | .addEntity _ _ _ => True
  | .clear => True
  | _ => False

/-- Full claim: what was registered and built before `clear` has no influence on the network. -/
def C46_full : Prop :=
  ∀ (Sh K : Type) [DecidableEq Sh] [DecidableEq K] (key : Sh → K) (occ : Occ Sh) (big : ℝ)
    (ops1 ops2 : List (Op Sh)) (o : Orders), (∀ op ∈ ops1, NoSetting op) →
    (Builder.buildNetwork key occ big o (runFrom key occ big Builder.init ops2)).1 ≠ .ub →
    (Builder.buildNetwork key occ big o (runFrom key occ big Builder.init ops2)).1 =
      (Builder.buildNetwork key occ big o (runFrom key occ big Builder.init (ops1 ++ .clear :: ops2))).1

/-- What the initial builder and a cleared one have in common. -/
theorem clear_sim (b : Builder Sh) (h1 : b.confineUnion = true) (h2 : b.eps = none) (h3 : b.epsIsSet = false) :
    Sim Builder.init b.clear :=
  ⟨rfl, rfl, rfl, h1, h2, h3, fun _ h => (by cases h), fun _ h => (by cases h)⟩

/-- Whatever happened before `clear`, if tolerance and confinement are set explicitly afterwards the network
is the same as that of a new builder (missing: the default tolerance, which is not recomputed, see
`C46_disproof`; a new builder without registered entity or sub-domain has undefined behaviour). -/
theorem C46_clear_partial (ops1 ops2 : List (Op Sh)) (e : ℝ) (v : Bool) (o : Orders) :
    ((Builder.buildContained key occ big o (runFrom key occ big Builder.init
        (.setEpsilon e :: .setConfineToSubDomainUnion v :: ops2))).1 ≠ .ub →
      (Builder.buildContained key occ big o (runFrom key occ big Builder.init
          (.setEpsilon e :: .setConfineToSubDomainUnion v :: ops2))).1 =
        (Builder.buildContained key occ big o (runFrom key occ big Builder.init
          (ops1 ++ .clear :: .setEpsilon e :: .setConfineToSubDomainUnion v :: ops2))).1) ∧
    ((Builder.buildNetwork key occ big o (runFrom key occ big Builder.init
        (.setEpsilon e :: .setConfineToSubDomainUnion v :: ops2))).1 ≠ .ub →
      (Builder.buildNetwork key occ big o (runFrom key occ big Builder.init
          (.setEpsilon e :: .setConfineToSubDomainUnion v :: ops2))).1 =
        (Builder.buildNetwork key occ big o (runFrom key occ big Builder.init
          (ops1 ++ .clear :: .setEpsilon e :: .setConfineToSubDomainUnion v :: ops2))).1) := by
  have hsim : Sim (runFrom key occ big Builder.init (.setEpsilon e :: .setConfineToSubDomainUnion v :: ops2))
      (runFrom key occ big Builder.init
        (ops1 ++ .clear :: .setEpsilon e :: .setConfineToSubDomainUnion v :: ops2)) := by
    have hf : runFrom key occ big Builder.init
        (ops1 ++ .clear :: .setEpsilon e :: .setConfineToSubDomainUnion v :: ops2)
        = runFrom key occ big (((runFrom key occ big Builder.init ops1).clear.setEpsilon
          e).setConfineToSubDomainUnion v) ops2 := by
      unfold runFrom
      rw [List.foldl_append]
      rfl
    have hg : runFrom key occ big Builder.init (.setEpsilon e :: .setConfineToSubDomainUnion v :: ops2)
        = runFrom key occ big (((Builder.init : Builder Sh).setEpsilon e).setConfineToSubDomainUnion v) ops2 := rfl
    rw [hf, hg]
    refine run_sim key occ big ops2 (r := ⟨[], []⟩) ?_ ?_
    · exact ⟨rfl, rfl, rfl, rfl, rfl, rfl, fun _ h => (by cases h), fun _ h => (by cases h)⟩
    · have h0 := step_regInv key occ big (regInv_init (Sh := Sh)) (.setEpsilon e)
      exact step_regInv key occ big h0 (.setConfineToSubDomainUnion v)
  exact ⟨(buildContained_sim key occ big hsim o).1, (buildNetwork_sim key occ big hsim o).1⟩

/-- The same without setting anything, if nothing has been built before `clear` (missing: histories with a
build, in which the default tolerance is fixed). -/
theorem C46_clear_registered_partial (ops1 ops2 : List (Op Sh)) (o : Orders)
    (h1 : ∀ op ∈ ops1, OnlyRegisters op) :
    ((Builder.buildContained key occ big o (runFrom key occ big Builder.init ops2)).1 ≠ .ub →
      (Builder.buildContained key occ big o (runFrom key occ big Builder.init ops2)).1 =
        (Builder.buildContained key occ big o (runFrom key occ big Builder.init (ops1 ++ .clear :: ops2))).1) ∧
    ((Builder.buildNetwork key occ big o (runFrom key occ big Builder.init ops2)).1 ≠ .ub →
      (Builder.buildNetwork key occ big o (runFrom key occ big Builder.init ops2)).1 =
        (Builder.buildNetwork key occ big o (runFrom key occ big Builder.init (ops1 ++ .clear :: ops2))).1) := by
  have hset : ∀ (ops : List (Op Sh)) (b : Builder Sh), (∀ op ∈ ops, OnlyRegisters op) →
      (runFrom key occ big b ops).confineUnion = b.confineUnion ∧
      (runFrom key occ big b ops).eps = b.eps ∧ (runFrom key occ big b ops).epsIsSet = b.epsIsSet := by
    intro ops
    induction ops with
    | nil => intro b _; exact ⟨rfl, rfl, rfl⟩
    | cons op t ih =>
      intro b hall
      have hop := hall op (by simp)
      obtain ⟨i1, i2, i3⟩ := ih (Builder.step key occ big b op).2 (fun x hx => hall x (by simp [hx]))
      have hstep : (Builder.step key occ big b op).2.confineUnion = b.confineUnion ∧
          (Builder.step key occ big b op).2.eps = b.eps ∧
          (Builder.step key occ big b op).2.epsIsSet = b.epsIsSet := by
        have hadd : ∀ d s i, (b.addSubDomain d s i).2.confineUnion = b.confineUnion ∧
            (b.addSubDomain d s i).2.eps = b.eps ∧ (b.addSubDomain d s i).2.epsIsSet = b.epsIsSet := by
          intro d s i
          unfold Builder.addSubDomain
          repeat' split
          all_goals exact ⟨rfl, rfl, rfl⟩
        cases op with
        | addSubDomain d s i => exact hadd d s i
        | addConfiningSubDomain d s i =>
          have := hadd d s i
          simp only [Builder.step, Builder.addConfiningSubDomain]
          cases ha : b.addSubDomain d s i with
          | mk r b1 =>
            rw [ha] at this
            cases r <;> exact this
        | addEntity d s i =>
          simp only [Builder.step]
          unfold Builder.addSubDomainEntity
          simp only
          repeat' split
          all_goals exact ⟨rfl, rfl, rfl⟩
        | clear => exact ⟨rfl, rfl, rfl⟩
        | setEpsilon e => exact hop.elim
        | setDefaultEpsilon o => exact hop.elim
        | setConfineToSubDomainUnion v => exact hop.elim
        | buildContained o => exact hop.elim
        | buildNetwork o => exact hop.elim
      exact ⟨i1.trans hstep.1, i2.trans hstep.2.1, i3.trans hstep.2.2⟩
  have hsim : Sim (runFrom key occ big Builder.init ops2)
      (runFrom key occ big Builder.init (ops1 ++ .clear :: ops2)) := by
    have hf : runFrom key occ big Builder.init (ops1 ++ .clear :: ops2)
        = runFrom key occ big (runFrom key occ big Builder.init ops1).clear ops2 := by
      unfold runFrom
      rw [List.foldl_append]
      rfl
    rw [hf]
    obtain ⟨s1, s2, s3⟩ := hset ops1 Builder.init h1
    exact run_sim key occ big ops2 (r := ⟨[], []⟩)
      (clear_sim _ s1 s2 s3) regInv_init
  exact ⟨(buildContained_sim key occ big hsim o).1, (buildNetwork_sim key occ big hsim o).1⟩

/-- Building again gives the same network, and earlier builds have no influence except through the
tolerance: the outcome is a function of the registered data, the tolerance and the settings. -/
theorem C46_function (b b' : Builder Sh) (hd : SameData b b') (he : b'.eps = b.eps)
    (hs : b'.epsIsSet = b.epsIsSet) (o : Orders) :
    (Builder.buildContained key occ big o b).1 = (Builder.buildContained key occ big o b').1 ∧
    (Builder.buildNetwork key occ big o b).1 = (Builder.buildNetwork key occ big o b').1 := by
  have hc : b'.clearBuild = b.clearBuild := by
    obtain ⟨h1, h2, h3, h4, h5, h6⟩ := hd
    cases b; cases b'
    simp only at *
    subst h1 h2 h3 h4 h5 h6 he hs
    rfl
  have hp : ∀ only, Builder.prepare key occ big o only b = Builder.prepare key occ big o only b' := by
    intro only
    rw [← prepare_clearBuild key occ big o only b, ← hc, prepare_clearBuild]
  constructor
  · unfold Builder.buildContained; rw [hp]
  · unfold Builder.buildNetwork; rw [hp]

/-- `network()` raises an error unless the last build since the last `clear` was successful; otherwise it
returns the network that was built. -/
theorem C46_network_access (ops : List (Op Sh)) (h : ∀ op ∈ ops, ∀ o, op ≠ .buildNetwork o) :
    let final := ops.foldl (fun (x : Builder.Session Sh × Option (Builder.ContainedNetwork Sh)) op =>
      (Builder.Session.step key occ big x.1 op,
        match op with
        | .clear => none
        | .buildContained o =>
            match (Builder.buildContained key occ big o x.1.b).1 with
            | .val n => some n
            | _ => none
        | _ => x.2)) (⟨Builder.init, none⟩, none)
    final.1.network = match final.2 with
      | some n => .val n
      | none => .thrown "Network has not been built yet!" := by
  intro final
  suffices hinv : (final.1.b.built = true ↔ final.2.isSome) ∧
      ∀ n, final.2 = some n → final.1.stored = some n by
    obtain ⟨h1, h2⟩ := hinv
    unfold Builder.Session.network
    cases hf : final.2 with
    | none =>
      rw [hf] at h1
      have : final.1.b.built = false := by simpa using h1
      rw [if_pos this]
    | some n =>
      rw [hf] at h1
      have hb : ¬ final.1.b.built = false := by simpa using h1
      rw [if_neg hb, h2 n hf]
  have hgen : ∀ (ops : List (Op Sh)), (∀ op ∈ ops, ∀ o, op ≠ .buildNetwork o) →
      ∀ (x : Builder.Session Sh × Option (Builder.ContainedNetwork Sh)),
      ((x.1.b.built = true ↔ x.2.isSome) ∧ ∀ n, x.2 = some n → x.1.stored = some n) →
      let final := ops.foldl (fun (x : Builder.Session Sh × Option (Builder.ContainedNetwork Sh)) op =>
        (Builder.Session.step key occ big x.1 op,
          match op with
          | .clear => none
          | .buildContained o =>
              match (Builder.buildContained key occ big o x.1.b).1 with
              | .val n => some n
              | _ => none
          | _ => x.2)) x
      (final.1.b.built = true ↔ final.2.isSome) ∧ ∀ n, final.2 = some n → final.1.stored = some n := by
    intro ops
    induction ops with
    | nil => intro _ x hx; exact hx
    | cons op t ih =>
      intro hall x hx
      refine ih (fun y hy => hall y (by simp [hy])) _ ?_
      cases op with
      | addSubDomain d s i =>
        refine ⟨?_, hx.2⟩
        simp only [Builder.Session.step, Builder.step, (add_built x.1.b d s i).1]
        exact hx.1
      | addConfiningSubDomain d s i =>
        refine ⟨?_, hx.2⟩
        have hb := (add_built x.1.b d s i).1
        simp only [Builder.Session.step, Builder.step, Builder.addConfiningSubDomain]
        cases ha : x.1.b.addSubDomain d s i with
        | mk r b1 =>
          rw [ha] at hb
          simp only at hb
          cases r <;> (simp only [hb]; exact hx.1)
      | addEntity d s i =>
        refine ⟨?_, hx.2⟩
        simp only [Builder.Session.step, Builder.step, (add_built x.1.b d s i).2]
        exact hx.1
      | clear => exact ⟨by simp [Builder.Session.step, Builder.step, Builder.clear, Builder.clearBuild],
          fun n hn => (by cases hn)⟩
      | setEpsilon e => exact hx
      | setDefaultEpsilon o => exact hx
      | setConfineToSubDomainUnion v => exact hx
      | buildNetwork o => exact absurd rfl (hall _ (by simp) o)
      | buildContained o =>
        have hb := buildContained_built key occ big o x.1.b
        simp only [Builder.Session.step]
        cases hr : (Builder.buildContained key occ big o x.1.b).1 with
        | val n =>
          rw [hr] at hb
          exact ⟨by simpa using hb, fun m hm => hm⟩
        | thrown e =>
          rw [hr] at hb
          exact ⟨by simpa using hb, fun m hm => (by cases hm)⟩
        | nan =>
          rw [hr] at hb
          exact ⟨by simpa using hb, fun m hm => (by cases hm)⟩
        | ub =>
          rw [hr] at hb
          exact ⟨by simpa using hb, fun m hm => (by cases hm)⟩
  exact hgen ops h (⟨Builder.init, none⟩, none) ⟨by simp [Builder.init], fun n hn => (by cases hn)⟩

/-! ### Stale tolerance -/

open Classical in
/-- Default tolerance of shape `s` is `s`; fragmentation with tolerance one splits shape 2. -/
noncomputable def epsOcc : Occ ℕ :=
  ⟨fun _ _ _ => .val ⟨fun _ => false, fun _ => [], fun _ => []⟩,
    fun _ e => .val ⟨fun _ => false, fun _ => [], fun s => if s = 2 ∧ e = 1 then [3, 4] else []⟩,
    fun _ _ => .val 0, fun s => s⟩

theorem C46_disproof : ¬ C46_full := by
  intro H
  have n2 : ∀ i s (m : ℕ → Option (List ℕ)), ¬ Builder.IsEmpty (Function.update m i (some s)) :=
    fun i s m h => by have := h i; simp at this
  have em1 : Builder.IsEmpty (fun _ => none : ℕ → Option ℕ) := fun _ => rfl
  have em2 : Builder.IsEmpty (fun _ => none : ℕ → Option (List ℕ)) := fun _ => rfl
  have hmin : ¬ (min 10 2 : ℝ) = 1 := by rw [min_eq_right (by norm_num)]; norm_num
  have hfresh : (Builder.buildNetwork id epsOcc 10 ⟨[], [0], [0], [0]⟩
      (runFrom id epsOcc 10 Builder.init [.addEntity (.val 2) (.val 2) 0])).1
      = .val ⟨2, [2], [(2, 1)]⟩ := by
    simp [runFrom, Builder.step, Builder.addSubDomainEntity, Builder.init, em1, em2,
      Builder.buildNetwork, Builder.prepare, Builder.initializeBuild, Builder.clearBuild, Builder.getEpsilon,
      Builder.setDefaultEpsilon, Builder.defaultEpsilon, n2, Builder.confine, Builder.confineOne,
      Builder.fragment, Builder.allEntities, epsOcc, Builder.bindAll, Builder.fragmentLoop, DMap.bind, DMap.find,
      Builder.collect, Builder.domainLoop, Builder.mergeMaps, hmin]
  have hstale : (Builder.buildNetwork id epsOcc 10 ⟨[], [0], [0], [0]⟩
      (runFrom id epsOcc 10 Builder.init ([.addEntity (.val 2) (.val 1) 0, .buildNetwork ⟨[], [0], [0], [0]⟩] ++
        .clear :: [.addEntity (.val 2) (.val 2) 0]))).1
      = .val ⟨2, [3, 4], [(3, 1), (4, 1)]⟩ := by
    simp [runFrom, Builder.step, Builder.addSubDomainEntity, Builder.init, em1, em2,
      Builder.buildNetwork, Builder.prepare, Builder.initializeBuild, Builder.clearBuild, Builder.getEpsilon,
      Builder.setDefaultEpsilon, Builder.defaultEpsilon, n2, Builder.confine, Builder.confineOne,
      Builder.fragment, Builder.allEntities, epsOcc, Builder.bindAll, Builder.fragmentLoop, DMap.bind, DMap.find,
      Builder.collect, Builder.domainLoop, Builder.mergeMaps, Builder.clear, Builder.addFragment]
  have := H ℕ ℕ id epsOcc 10
    [.addEntity (.val 2) (.val 1) 0, .buildNetwork ⟨[], [0], [0], [0]⟩]
    [.addEntity (.val 2) (.val 2) 0] ⟨[], [0], [0], [0]⟩
    (by intro op hop; simp only [List.mem_cons, List.not_mem_nil, or_false] at hop
        rcases hop with rfl | rfl <;> trivial)
    (by rw [hfresh]; simp)
  rw [hfresh, hstale] at this
  simp at this

/-- Non-trivial instance of the assumptions of `C46_clear_partial`: the new builder builds. -/
example : (Builder.buildNetwork id idleOcc 1 ⟨[], [0], [0], [0]⟩ (runFrom id idleOcc 1 Builder.init
    [.setEpsilon 1, .setConfineToSubDomainUnion true, .addEntity (.val 2) (.val 5) 0])).1 ≠ .ub := by
  have em1 : Builder.IsEmpty (fun _ => none : ℕ → Option ℕ) := fun _ => rfl
  have em2 : Builder.IsEmpty (fun _ => none : ℕ → Option (List ℕ)) := fun _ => rfl
  simp [runFrom, Builder.step, Builder.addSubDomainEntity, Builder.init, em1, em2, Builder.setEpsilon,
    Builder.setConfineToSubDomainUnion,
    Builder.buildNetwork, Builder.prepare, Builder.initializeBuild, Builder.clearBuild, Builder.getEpsilon,
    Builder.confine, Builder.confineOne,
    Builder.fragment, Builder.allEntities, idleOcc, Builder.bindAll, Builder.fragmentLoop, DMap.bind, DMap.find,
    Builder.collect, Builder.domainLoop, Builder.mergeMaps]

end Props
