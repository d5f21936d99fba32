import Verif.Spec.Builder
import Mathlib.Data.List.Induction

/-!
# C43: registration of sub-domains and entities
-/

namespace Props
open Verif Frackit Spec.Builder
open Frackit.Builder (IsEmpty Op)

section
variable {Sh K : Type} [DecidableEq Sh] [DecidableEq K] (key : Sh → K) (occ : Occ Sh) (big : ℝ)

/-- The registered data of two builders agree. -/
structure SameData (b b' : Builder Sh) : Prop where
  subDomains : b'.subDomains = b.subDomains
  bounds : b'.bounds = b.bounds
  networks : b'.networks = b.networks
  domainDim : b'.domainDim = b.domainDim
  entityDim : b'.entityDim = b.entityDim
  confineUnion : b'.confineUnion = b.confineUnion

theorem SameData.refl (b : Builder Sh) : SameData b b := ⟨rfl, rfl, rfl, rfl, rfl, rfl⟩

theorem SameData.trans {a b c : Builder Sh} (h : SameData a b) (h' : SameData b c) : SameData a c :=
  ⟨h'.1.trans h.1, h'.2.trans h.2, h'.3.trans h.3, h'.4.trans h.4, h'.5.trans h.5, h'.6.trans h.6⟩

theorem confineOne_data (o : Orders) (eps : ℝ) (b : Builder Sh) (i : ℕ) :
    SameData b (Builder.confineOne key occ o eps b i).2 := by
  unfold Builder.confineOne
  simp only
  repeat' split
  all_goals exact ⟨rfl, rfl, rfl, rfl, rfl, rfl⟩

theorem confine_data (o : Orders) (eps : ℝ) (ids : List ℕ) : ∀ b : Builder Sh,
    SameData b (Builder.confine key occ o eps b ids).2 := by
  induction ids with
  | nil => intro b; exact SameData.refl b
  | cons i t ih =>
    intro b
    have h := confineOne_data key occ o eps b i
    simp only [Builder.confine]
    cases hc : Builder.confineOne key occ o eps b i with
    | mk r b' =>
      rw [hc] at h
      cases r with
      | val u => exact h.trans (ih b')
      | thrown e => exact h
      | nan => exact h
      | ub => exact h

theorem fragment_data (o : Orders) (eps : ℝ) (only : Bool) (b : Builder Sh) :
    SameData b (Builder.fragment key occ o eps only b).2 := by
  unfold Builder.fragment
  simp only
  repeat' split
  all_goals exact ⟨rfl, rfl, rfl, rfl, rfl, rfl⟩

theorem getEpsilon_data (o : Orders) (b : Builder Sh) : SameData b (b.getEpsilon occ big o) := by
  unfold Builder.getEpsilon
  split
  · exact SameData.refl b
  · exact ⟨rfl, rfl, rfl, rfl, rfl, rfl⟩

theorem prepare_data (o : Orders) (only : Bool) (b : Builder Sh) :
    SameData b (Builder.prepare key occ big o only b).2 := by
  have h0 : SameData b (Builder.initializeBuild key b.clearBuild) := ⟨rfl, rfl, rfl, rfl, rfl, rfl⟩
  have h1 := h0.trans (getEpsilon_data occ big o _)
  unfold Builder.prepare
  simp only
  generalize (Builder.initializeBuild key b.clearBuild).getEpsilon occ big o = b1 at h1
  have h2 := h1.trans (confine_data key occ o (b1.eps.getD 0) o.networks b1)
  cases hc : Builder.confine key occ o (b1.eps.getD 0) b1 o.networks with
  | mk r b2 =>
    rw [hc] at h2
    cases r with
    | val u => exact h2.trans (fragment_data key occ o _ only b2)
    | thrown e => exact h2
    | nan => exact h2
    | ub => exact h2

theorem buildContained_data (o : Orders) (b : Builder Sh) :
    SameData b (Builder.buildContained key occ big o b).2 := by
  have h := prepare_data key occ big o false b
  unfold Builder.buildContained
  cases hp : Builder.prepare key occ big o false b with
  | mk r b' =>
    rw [hp] at h
    cases r with
    | val u =>
      simp only
      split
      · exact ⟨h.1, h.2, h.3, h.4, h.5, h.6⟩
      · exact h
    | thrown e => exact h
    | nan => exact h
    | ub => exact h

theorem buildNetwork_data (o : Orders) (b : Builder Sh) :
    SameData b (Builder.buildNetwork key occ big o b).2 := by
  have h := prepare_data key occ big o true b
  unfold Builder.buildNetwork
  cases hp : Builder.prepare key occ big o true b with
  | mk r b' =>
    rw [hp] at h
    cases r with
    | val u =>
      simp only
      split
      · exact ⟨h.1, h.2, h.3, h.4, h.5, h.6⟩
      · exact h
    | thrown e => exact h
    | nan => exact h
    | ub => exact h

/-- The shapes registered for an id. -/
def shapesOf (l : List (ℕ × ℤ × Sh)) (i : ℕ) : List Sh :=
  (l.filter (fun x => x.1 = i)).map (fun x => x.2.2)

/-- The state of the builder represents the registrations. -/
structure RegInv (b : Builder Sh) (r : Reg Sh) : Prop where
  cons : Consistent r
  dom : ∀ i s, b.subDomains i = some s ↔ ∃ d, (i, d, s) ∈ r.domains
  domDim : ∀ x ∈ r.domains, b.domainDim = some x.2.1
  bounds : ∀ i, b.bounds i = none ↔ b.subDomains i = none
  net : ∀ i l, b.networks i = some l → l = shapesOf r.entities i
  netNone : ∀ i, b.networks i = none → shapesOf r.entities i = []
  entDim : ¬ IsEmpty b.networks → ∃ e, b.entityDim = some e ∧ (∀ x ∈ r.entities, x.2.1 = e) ∧
    ∀ x ∈ r.domains, e < x.2.1

theorem regInv_same {b b' : Builder Sh} {r : Reg Sh} (h : RegInv b r) (hs : SameData b b') :
    RegInv b' r := by
  obtain ⟨h1, h2, h3, h4, h5, h6, h7⟩ := h
  refine ⟨h1, ?_, ?_, ?_, ?_, ?_, ?_⟩
  · rw [hs.subDomains]; exact h2
  · rw [hs.domainDim]; exact h3
  · rw [hs.bounds, hs.subDomains]; exact h4
  · rw [hs.networks]; exact h5
  · rw [hs.networks]; exact h6
  · rw [hs.networks, hs.entityDim]; exact h7

theorem regInv_init : RegInv (Builder.init : Builder Sh) ⟨[], []⟩ := by
  refine ⟨⟨by simp, by simp, by simp, by simp⟩, by simp [Builder.init], by simp, by simp [Builder.init],
    by simp [Builder.init], by simp [shapesOf], fun h => absurd (fun _ => rfl) h⟩

theorem empty_dom {b : Builder Sh} {r : Reg Sh} (h : RegInv b r) :
    IsEmpty b.subDomains ↔ r.domains = [] := by
  constructor
  · intro he
    by_contra hne
    obtain ⟨⟨i, d, s⟩, hx⟩ := List.exists_mem_of_ne_nil _ hne
    have := (h.dom i s).2 ⟨d, hx⟩
    rw [he i] at this
    cases this
  · intro he i
    cases hi : b.subDomains i with
    | none => rfl
    | some s =>
      obtain ⟨d, hd⟩ := (h.dom i s).1 hi
      rw [he] at hd
      cases hd

theorem nonempty_net {b : Builder Sh} {r : Reg Sh} (h : RegInv b r) (hr : r.entities ≠ []) :
    ¬ IsEmpty b.networks := by
  intro he
  obtain ⟨⟨i, d, s⟩, hx⟩ := List.exists_mem_of_ne_nil _ hr
  have := h.netNone i (he i)
  have hm : s ∈ shapesOf r.entities i :=
    List.mem_map.2 ⟨(i, d, s), List.mem_filter.2 ⟨hx, by simp⟩, rfl⟩
  rw [this] at hm
  cases hm

/-- The possible results of `addSubDomain`. -/
theorem addSubDomain_cases {b : Builder Sh} {r : Reg Sh} (h : RegInv b r) (d : ℤ) (shape : Outcome Sh)
    (id : ℕ) :
    ((b.addSubDomain (.val d) shape id).1.isThrown ∧ (b.addSubDomain (.val d) shape id).2 = b ∧
      ((¬ IsEmpty b.networks ∧ ∃ e, b.entityDim = some e ∧ d ≤ e) ∨ ¬ DomainOk r id d)) ∨
    (DomainOk r id d ∧ (¬ IsEmpty b.networks → ∃ e, b.entityDim = some e ∧ e < d) ∧
      ((∃ s, shape = .val s ∧ b.addSubDomain (.val d) shape id = (.val (),
          { b with domainDim := some d
                   subDomains := Function.update b.subDomains id (some s)
                   bounds := Function.update b.bounds id (some false) })) ∨
        (¬ shape.isVal ∧ ¬ (b.addSubDomain (.val d) shape id).1.isVal ∧
          ((b.addSubDomain (.val d) shape id).2 = b ∨
            (b.addSubDomain (.val d) shape id).2 = { b with domainDim := some d })))) := by
  classical
  have hok : DomainOk r id d ↔ ((∀ x ∈ r.domains, x.2.1 = d) ∧ b.subDomains id = none ∧
      ∀ x ∈ r.entities, x.2.1 < d) := by
    unfold DomainOk
    have : (∀ x ∈ r.domains, x.1 ≠ id) ↔ b.subDomains id = none := by
      constructor
      · intro hx
        cases hi : b.subDomains id with
        | none => rfl
        | some s =>
          obtain ⟨d', hd'⟩ := (h.dom id s).1 hi
          exact absurd rfl (hx _ hd')
      · rintro hn ⟨i, d', s⟩ hx rfl
        have := (h.dom i s).2 ⟨d', hx⟩
        rw [hn] at this
        cases this
    rw [← this]
    constructor
    · rintro ⟨h1, h2⟩; exact ⟨fun x hx => (h1 x hx).2, fun x hx => (h1 x hx).1, h2⟩
    · rintro ⟨h1, h2, h3⟩; exact ⟨fun x hx => ⟨h2 x hx, h1 x hx⟩, h3⟩
  have hd1 : ¬ (¬ IsEmpty b.networks ∧ b.entityDim = none) := by
    rintro ⟨hne, hnone⟩
    obtain ⟨e, he, _⟩ := h.entDim hne
    rw [hnone] at he; cases he
  have hd2 : ¬ (¬ IsEmpty b.subDomains ∧ b.domainDim = none) := by
    rintro ⟨hne, hnone⟩
    rw [empty_dom h] at hne
    obtain ⟨x, hx⟩ := List.exists_mem_of_ne_nil _ hne
    rw [h.domDim x hx] at hnone; cases hnone
  unfold Builder.addSubDomain
  simp only
  rw [if_neg hd1]
  by_cases c1 : ¬ IsEmpty b.networks ∧ ∃ e, b.entityDim = some e ∧ d ≤ e
  · rw [if_pos c1]
    exact Or.inl ⟨trivial, rfl, Or.inl c1⟩
  rw [if_neg c1, if_neg hd2]
  by_cases c2 : ¬ IsEmpty b.subDomains ∧ b.domainDim ≠ some d
  · rw [if_pos c2]
    refine Or.inl ⟨trivial, rfl, Or.inr ?_⟩
    rw [hok]
    rintro ⟨hx, -, -⟩
    obtain ⟨hne, hdd⟩ := c2
    rw [empty_dom h] at hne
    obtain ⟨x, hx'⟩ := List.exists_mem_of_ne_nil _ hne
    apply hdd
    rw [h.domDim x hx', hx x hx']
  rw [if_neg c2]
  by_cases c3 : b.subDomains id ≠ none
  · rw [if_pos c3]
    refine Or.inl ⟨trivial, rfl, Or.inr ?_⟩
    rw [hok]
    exact fun hh => c3 hh.2.1
  rw [if_neg c3]
  have hlt : ¬ IsEmpty b.networks → ∃ e, b.entityDim = some e ∧ e < d := by
    intro hne
    obtain ⟨e, he, _⟩ := h.entDim hne
    refine ⟨e, he, ?_⟩
    by_contra hle
    exact c1 ⟨hne, e, he, not_lt.1 hle⟩
  refine Or.inr ⟨hok.2 ⟨?_, not_not.1 c3, ?_⟩, hlt, ?_⟩
  · intro x hx
    by_contra hne
    apply c2
    refine ⟨?_, ?_⟩
    · rw [empty_dom h]; intro h0; rw [h0] at hx; cases hx
    · rw [h.domDim x hx]
      intro he
      exact hne (Option.some.inj he)
  · intro x hx
    have hne := nonempty_net h (fun h0 => by rw [h0] at hx; cases hx)
    obtain ⟨e, he, hlt⟩ := hlt hne
    obtain ⟨e', he', hall, _⟩ := h.entDim hne
    rw [he] at he'
    cases he'
    rw [hall x hx]; exact hlt
  · cases shape with
    | val s => exact Or.inl ⟨s, rfl, rfl⟩
    | thrown e => exact Or.inr ⟨fun h => h.elim, fun h => h.elim, Or.inr rfl⟩
    | nan => exact Or.inr ⟨fun h => h.elim, fun h => h.elim, Or.inr rfl⟩
    | ub => exact Or.inr ⟨fun h => h.elim, fun h => h.elim, Or.inl rfl⟩

theorem entity_cases {b : Builder Sh} {r : Reg Sh} (h : RegInv b r) (d : ℤ) (shape : Outcome Sh)
    (id : ℕ) :
    ((b.addSubDomainEntity (.val d) shape id).1.isThrown ∧
      (b.addSubDomainEntity (.val d) shape id).2 = b ∧
      ((¬ IsEmpty b.networks ∧ b.entityDim ≠ some d) ∨ ¬ EntityOk r d)) ∨
    (EntityOk r d ∧ (¬ IsEmpty b.networks → b.entityDim = some d) ∧
      ((∃ s, shape = .val s ∧ b.addSubDomainEntity (.val d) shape id = (.val (),
          { b with entityDim := some d
                   networks := Function.update b.networks id (some ((b.networks id).getD [] ++ [s])) })) ∨
        (¬ shape.isVal ∧ ¬ (b.addSubDomainEntity (.val d) shape id).1.isVal ∧
          ((b.addSubDomainEntity (.val d) shape id).2 = b ∨
            (b.addSubDomainEntity (.val d) shape id).2 = { b with
              entityDim := some d
              networks := Function.update b.networks id (some ((b.networks id).getD [])) })))) := by
  classical
  have hd1 : ¬ (¬ IsEmpty b.networks ∧ b.entityDim = none) := by
    rintro ⟨hne, hnone⟩
    obtain ⟨e, he, _⟩ := h.entDim hne
    rw [hnone] at he; cases he
  have hd2 : ¬ (¬ IsEmpty b.subDomains ∧ b.domainDim = none) := by
    rintro ⟨hne, hnone⟩
    rw [empty_dom h] at hne
    obtain ⟨x, hx⟩ := List.exists_mem_of_ne_nil _ hne
    rw [h.domDim x hx] at hnone; cases hnone
  unfold Builder.addSubDomainEntity
  simp only
  rw [if_neg hd1]
  by_cases c1 : ¬ IsEmpty b.networks ∧ b.entityDim ≠ some d
  · rw [if_pos c1]
    exact Or.inl ⟨trivial, rfl, Or.inl c1⟩
  rw [if_neg c1, if_neg hd2]
  by_cases c2 : ¬ IsEmpty b.subDomains ∧ ∃ e, b.domainDim = some e ∧ e ≤ d
  · rw [if_pos c2]
    refine Or.inl ⟨trivial, rfl, Or.inr ?_⟩
    rintro ⟨_, h2⟩
    obtain ⟨hne, e, he, hle⟩ := c2
    rw [empty_dom h] at hne
    obtain ⟨x, hx'⟩ := List.exists_mem_of_ne_nil _ hne
    have := h2 x hx'
    rw [h.domDim x hx'] at he
    cases he
    omega
  rw [if_neg c2]
  have hdim : ¬ IsEmpty b.networks → b.entityDim = some d := by
    intro hne
    by_contra hd
    exact c1 ⟨hne, hd⟩
  refine Or.inr ⟨⟨?_, ?_⟩, hdim, ?_⟩
  · intro x hx
    have hne := nonempty_net h (fun h0 => by rw [h0] at hx; cases hx)
    obtain ⟨e', he', hall, _⟩ := h.entDim hne
    rw [hdim hne] at he'
    cases he'
    exact hall x hx
  · intro x hx
    by_contra hlt
    apply c2
    refine ⟨?_, x.2.1, h.domDim x hx, not_lt.1 hlt⟩
    rw [empty_dom h]; intro h0; rw [h0] at hx; cases hx
  · cases shape with
    | val s => exact Or.inl ⟨s, rfl, rfl⟩
    | thrown e => exact Or.inr ⟨fun h => h.elim, fun h => h.elim, Or.inr rfl⟩
    | nan => exact Or.inr ⟨fun h => h.elim, fun h => h.elim, Or.inr rfl⟩
    | ub => exact Or.inr ⟨fun h => h.elim, fun h => h.elim, Or.inl rfl⟩

theorem regInv_setDim {b : Builder Sh} {r : Reg Sh} (h : RegInv b r) {id : ℕ} {d : ℤ}
    (hok : DomainOk r id d) : RegInv { b with domainDim := some d } r := by
  refine ⟨h.cons, h.dom, fun x hx => ?_, h.bounds, h.net, h.netNone, h.entDim⟩
  show some d = some x.2.1
  rw [(hok.1 x hx).2]

theorem regInv_addDomain {b : Builder Sh} {r : Reg Sh} (h : RegInv b r) {id : ℕ} {d : ℤ} (s : Sh)
    (v : Bool) (hok : DomainOk r id d)
    (hlt : ¬ IsEmpty b.networks → ∃ e, b.entityDim = some e ∧ e < d) :
    RegInv { b with domainDim := some d
                    subDomains := Function.update b.subDomains id (some s)
                    bounds := Function.update b.bounds id (some v) }
      { r with domains := r.domains ++ [(id, d, s)] } := by
  obtain ⟨hok1, hok2⟩ := hok
  refine ⟨⟨?_, ?_, h.cons.entityDim, ?_⟩, ?_, ?_, ?_, h.net, h.netNone, ?_⟩
  · rw [List.map_append]
    refine List.nodup_append.2 ⟨h.cons.ids, by simp, ?_⟩
    rintro x hx x' hx' rfl
    simp only [List.map_cons, List.map_nil, List.mem_singleton] at hx'
    obtain ⟨y, hy, e⟩ := List.mem_map.1 hx
    exact (hok1 y hy).1 (e.trans hx')
  · have hall : ∀ x ∈ r.domains ++ [(id, d, s)], x.2.1 = d := by
      intro x hx
      rcases List.mem_append.1 hx with hx | hx
      · exact (hok1 x hx).2
      · simp only [List.mem_singleton] at hx; subst hx; rfl
    intro x hx y hy
    rw [hall x hx, hall y hy]
  · intro x hx y hy
    rcases List.mem_append.1 hy with hy | hy
    · exact h.cons.smaller x hx y hy
    · simp only [List.mem_singleton] at hy; subst hy; exact hok2 x hx
  · intro i t
    simp only [List.mem_append, List.mem_singleton, Prod.mk.injEq]
    by_cases hi : i = id
    · subst hi
      simp only [Function.update_self, Option.some.injEq, true_and]
      constructor
      · rintro rfl; exact ⟨d, Or.inr ⟨rfl, rfl⟩⟩
      · rintro ⟨d', hm | ⟨_, rfl⟩⟩
        · exact absurd rfl (hok1 _ hm).1
        · rfl
    · simp only [Function.update_of_ne hi, hi, false_and, or_false]
      exact h.dom i t
  · intro x hx
    rcases List.mem_append.1 hx with hx | hx
    · show some d = some x.2.1
      rw [(hok1 x hx).2]
    · simp only [List.mem_singleton] at hx; subst hx; rfl
  · intro i
    by_cases hi : i = id
    · subst hi; simp
    · simp only [Function.update_of_ne hi]; exact h.bounds i
  · intro hne
    obtain ⟨e, he, hall, hd⟩ := h.entDim hne
    obtain ⟨e', he', hlt'⟩ := hlt hne
    rw [he] at he'; cases he'
    refine ⟨e, he, hall, ?_⟩
    intro x hx
    rcases List.mem_append.1 hx with hx | hx
    · exact hd x hx
    · simp only [List.mem_singleton] at hx; subst hx; exact hlt'

theorem regInv_addEntity {b : Builder Sh} {r : Reg Sh} (h : RegInv b r) {id : ℕ} {d : ℤ} (o : Option Sh)
    (hok : EntityOk r d) :
    RegInv { b with entityDim := some d
                    networks := Function.update b.networks id
                      (some ((b.networks id).getD [] ++ o.toList)) }
      { r with entities := r.entities ++ o.toList.map (fun s => (id, d, s)) } := by
  obtain ⟨hok1, hok2⟩ := hok
  have hall : ∀ x ∈ r.entities ++ o.toList.map (fun s => (id, d, s)), x.2.1 = d := by
    intro x hx
    rcases List.mem_append.1 hx with hx | hx
    · exact hok1 x hx
    · obtain ⟨s, _, rfl⟩ := List.mem_map.1 hx; rfl
  have hsh : ∀ i, shapesOf (r.entities ++ o.toList.map (fun s => (id, d, s))) i
      = shapesOf r.entities i ++ (if i = id then o.toList else []) := by
    intro i
    unfold shapesOf
    rw [List.filter_append, List.map_append]
    congr 1
    by_cases hi : i = id
    · subst hi
      cases o <;> simp
    · have : ¬ id = i := fun e => hi e.symm
      cases o <;> simp [hi, this]
  have hold : (b.networks id).getD [] = shapesOf r.entities id := by
    cases hn : b.networks id with
    | none => rw [h.netNone id hn]; rfl
    | some l => rw [← h.net id l hn]; rfl
  refine ⟨⟨h.cons.ids, h.cons.domainDim, ?_, ?_⟩, h.dom, h.domDim, h.bounds, ?_, ?_, ?_⟩
  · intro x hx y hy
    rw [hall x hx, hall y hy]
  · intro x hx y hy
    rw [hall x hx]
    exact hok2 y hy
  · intro i l hl
    rw [hsh]
    by_cases hi : i = id
    · subst hi
      simp only [Function.update_self, Option.some.injEq] at hl
      rw [if_pos rfl, ← hold, ← hl]
    · simp only [Function.update_of_ne hi] at hl
      rw [if_neg hi, List.append_nil]
      exact h.net i l hl
  · intro i hl
    rw [hsh]
    by_cases hi : i = id
    · subst hi
      simp at hl
    · simp only [Function.update_of_ne hi] at hl
      rw [if_neg hi, List.append_nil]
      exact h.netNone i hl
  · intro _
    exact ⟨d, rfl, hall, fun x hx => hok2 x hx⟩

/-- State and registrations after a history. -/
noncomputable def runReg (ops : List (Op Sh)) : Builder Sh × Reg Sh :=
  ops.foldl (fun x op => ((Builder.step key occ big x.1 op).2,
    record x.2 op (Builder.step key occ big x.1 op).1)) (Builder.init, ⟨[], []⟩)

theorem step_regInv {b : Builder Sh} {r : Reg Sh} (h : RegInv b r) (op : Op Sh) :
    RegInv (Builder.step key occ big b op).2 (record r op (Builder.step key occ big b op).1) := by
  have hdom : ∀ (d : Outcome ℤ) (s : Outcome Sh) (i : ℕ), ∀ (c : Bool),
      RegInv (Builder.step key occ big b (if c then .addConfiningSubDomain d s i else .addSubDomain d s i)).2
        (record r (if c then .addConfiningSubDomain d s i else .addSubDomain d s i)
          (Builder.step key occ big b
            (if c then .addConfiningSubDomain d s i else .addSubDomain d s i)).1) := by
    intro d s i c
    cases d with
    | thrown e =>
      cases c <;> simpa [Builder.step, Builder.addConfiningSubDomain, Builder.addSubDomain, record] using h
    | nan =>
      cases c <;> simpa [Builder.step, Builder.addConfiningSubDomain, Builder.addSubDomain, record] using h
    | ub =>
      cases c <;> simpa [Builder.step, Builder.addConfiningSubDomain, Builder.addSubDomain, record] using h
    | val d =>
      rcases addSubDomain_cases h d s i with ⟨h1, h2, _⟩ | ⟨hok, hlt, ⟨t, rfl, ht⟩ | ⟨h1, h2, h3⟩⟩
      · cases ha : b.addSubDomain (.val d) s i with
        | mk res b' =>
          rw [ha] at h1 h2
          cases res with
          | thrown e =>
            simp only at h2
            subst h2
            cases c <;> (simp only [Builder.step, Builder.addConfiningSubDomain, ha, if_true,
              Bool.false_eq_true, if_false]; cases s <;> simpa [record] using h)
          | val u => exact h1.elim
          | nan => exact h1.elim
          | ub => exact h1.elim
      · cases c
        · simp only [Bool.false_eq_true, if_false, Builder.step, ht, record]
          exact regInv_addDomain h t false hok hlt
        · simp only [if_true, Builder.step, Builder.addConfiningSubDomain, ht, record,
            Function.update_idem]
          exact regInv_addDomain h t true hok hlt
      · have hb : RegInv (b.addSubDomain (.val d) s i).2 r := by
          rcases h3 with h3 | h3
          · rw [h3]; exact h
          · rw [h3]; exact regInv_setDim h hok
        cases ha : b.addSubDomain (.val d) s i with
        | mk res b' =>
          rw [ha] at h2 hb
          cases res with
          | val u => exact absurd trivial h2
          | thrown e =>
            cases c <;> (simp only [Builder.step, Builder.addConfiningSubDomain, ha, if_true,
              Bool.false_eq_true, if_false]; cases s <;> simpa [record] using hb)
          | nan =>
            cases c <;> (simp only [Builder.step, Builder.addConfiningSubDomain, ha, if_true,
              Bool.false_eq_true, if_false]; cases s <;> simpa [record] using hb)
          | ub =>
            cases c <;> (simp only [Builder.step, Builder.addConfiningSubDomain, ha, if_true,
              Bool.false_eq_true, if_false]; cases s <;> simpa [record] using hb)
  cases op with
  | addSubDomain d s i => exact hdom d s i false
  | addConfiningSubDomain d s i => exact hdom d s i true
  | addEntity d s i =>
    simp only [Builder.step]
    cases d with
    | thrown e => simpa [Builder.addSubDomainEntity, record] using h
    | nan => simpa [Builder.addSubDomainEntity, record] using h
    | ub => simpa [Builder.addSubDomainEntity, record] using h
    | val d =>
      rcases entity_cases h d s i with ⟨h1, h2, _⟩ | ⟨hok, hdim, ⟨t, rfl, ht⟩ | ⟨h1, h2, h3⟩⟩
      · cases ha : b.addSubDomainEntity (.val d) s i with
        | mk res b' =>
          rw [ha] at h1 h2
          cases res with
          | thrown e =>
            simp only at h2
            subst h2
            cases s <;> simpa [record] using h
          | val u => exact h1.elim
          | nan => exact h1.elim
          | ub => exact h1.elim
      · rw [ht]
        exact regInv_addEntity h (some t) hok
      · have hb : RegInv (b.addSubDomainEntity (.val d) s i).2 r := by
          rcases h3 with h3 | h3
          · rw [h3]; exact h
          · rw [h3]
            have := regInv_addEntity (id := i) h none hok
            simpa using this
        cases ha : b.addSubDomainEntity (.val d) s i with
        | mk res b' =>
          rw [ha] at h2 hb
          cases res with
          | val u => exact absurd trivial h2
          | thrown e => cases s <;> simpa [record] using hb
          | nan => cases s <;> simpa [record] using hb
          | ub => cases s <;> simpa [record] using hb
  | clear =>
    simp only [Builder.step, record]
    refine ⟨⟨by simp, by simp, by simp, by simp⟩, by simp [Builder.clear], by simp,
      by simp [Builder.clear], by simp [Builder.clear], by simp [shapesOf],
      fun h => absurd (fun _ => rfl) h⟩
  | setEpsilon e => exact regInv_same h ⟨rfl, rfl, rfl, rfl, rfl, rfl⟩
  | setDefaultEpsilon o => exact regInv_same h ⟨rfl, rfl, rfl, rfl, rfl, rfl⟩
  | setConfineToSubDomainUnion v =>
    obtain ⟨h1, h2, h3, h4, h5, h6, h7⟩ := h
    exact ⟨h1, h2, h3, h4, h5, h6, h7⟩
  | buildContained o => exact regInv_same h (buildContained_data key occ big o b)
  | buildNetwork o => exact regInv_same h (buildNetwork_data key occ big o b)

theorem runReg_snoc (ops : List (Op Sh)) (op : Op Sh) :
    runReg key occ big (ops ++ [op]) =
      ((Builder.step key occ big (runReg key occ big ops).1 op).2,
        record (runReg key occ big ops).2 op (Builder.step key occ big (runReg key occ big ops).1 op).1) := by
  simp [runReg]

theorem runReg_inv (ops : List (Op Sh)) :
    RegInv (runReg key occ big ops).1 (runReg key occ big ops).2 := by
  unfold runReg
  have : ∀ (ops : List (Op Sh)) (x : Builder Sh × Reg Sh), RegInv x.1 x.2 →
      RegInv (ops.foldl (fun x op => ((Builder.step key occ big x.1 op).2,
        record x.2 op (Builder.step key occ big x.1 op).1)) x).1
        (ops.foldl (fun x op => ((Builder.step key occ big x.1 op).2,
        record x.2 op (Builder.step key occ big x.1 op).1)) x).2 := by
    intro ops
    induction ops with
    | nil => intro x h; exact h
    | cons op t ih => intro x h; exact ih _ (step_regInv key occ big h op)
  exact this ops _ regInv_init

end

variable {Sh K : Type} [DecidableEq Sh] [DecidableEq K] (key : Sh → K) (occ : Occ Sh) (big : ℝ)

/-! ## C43 Network builder accepts only consistent sub-domains -/

/-- After any history, including failing calls, builds and clearing, the registrations that succeeded
since the last `clear` are consistent, and they are what is stored. -/
theorem C43_consistent (ops : List (Op Sh)) :
    Consistent (runReg key occ big ops).2 ∧
    (∀ i s, (runReg key occ big ops).1.subDomains i = some s ↔
      ∃ d, (i, d, s) ∈ (runReg key occ big ops).2.domains) ∧
    (∀ i, ((runReg key occ big ops).1.networks i).getD [] =
      ((runReg key occ big ops).2.entities.filter (fun x => x.1 = i)).map (fun x => x.2.2)) := by
  have h := runReg_inv key occ big ops
  refine ⟨h.cons, h.dom, fun i => ?_⟩
  cases hn : (runReg key occ big ops).1.networks i with
  | none => exact (h.netNone i hn).symm
  | some l => exact h.net i l hn

/-- A sub-domain or an entity that does not fit to the registrations is refused and nothing is changed,
whatever the history. -/
theorem C43_refuses (ops : List (Op Sh)) (d : ℤ) (s : Outcome Sh) (i : ℕ) :
    (¬ DomainOk (runReg key occ big ops).2 i d →
      (((runReg key occ big ops).1.addSubDomain (.val d) s i).1.isThrown ∧
        ((runReg key occ big ops).1.addSubDomain (.val d) s i).2 = (runReg key occ big ops).1) ∧
      (((runReg key occ big ops).1.addConfiningSubDomain (.val d) s i).1.isThrown ∧
        ((runReg key occ big ops).1.addConfiningSubDomain (.val d) s i).2 = (runReg key occ big ops).1)) ∧
    (¬ EntityOk (runReg key occ big ops).2 d →
      ((runReg key occ big ops).1.addSubDomainEntity (.val d) s i).1.isThrown ∧
        ((runReg key occ big ops).1.addSubDomainEntity (.val d) s i).2 = (runReg key occ big ops).1) := by
  have h := runReg_inv key occ big ops
  generalize (runReg key occ big ops).1 = b at h
  constructor
  · intro hno
    rcases addSubDomain_cases h d s i with ⟨h1, h2, _⟩ | ⟨hok, _⟩
    · refine ⟨⟨h1, h2⟩, ?_⟩
      unfold Builder.addConfiningSubDomain
      cases ha : b.addSubDomain (.val d) s i with
      | mk res b' =>
        rw [ha] at h1 h2
        cases res with
        | thrown e => exact ⟨trivial, h2⟩
        | val u => exact h1.elim
        | nan => exact h1.elim
        | ub => exact h1.elim
    · exact absurd hok hno
  · intro hno
    rcases entity_cases h d s i with ⟨h1, h2, _⟩ | ⟨hok, _⟩
    · exact ⟨h1, h2⟩
    · exact absurd hok hno

/-- Full claim, other direction: whatever the history, a call that fits to the registrations succeeds
if its geometry is supported, and a call that throws changes nothing. -/
def C43_full : Prop :=
  ∀ (Sh K : Type) [DecidableEq Sh] [DecidableEq K] (key : Sh → K) (occ : Occ Sh) (big : ℝ)
    (ops : List (Op Sh)),
    (∀ d s i, DomainOk (runReg key occ big ops).2 i d →
      ((runReg key occ big ops).1.addSubDomain (.val d) (.val s) i).1 = .val ()) ∧
    (∀ d s i, ((runReg key occ big ops).1.addSubDomainEntity d s i).1.isThrown →
      ((runReg key occ big ops).1.addSubDomainEntity d s i).2 = (runReg key occ big ops).1)

/-- An operation set for examples: nothing is ever changed. -/
def idleOcc : Occ ℕ :=
  ⟨fun _ _ _ => .val ⟨fun _ => false, fun _ => [], fun _ => []⟩,
    fun _ _ => .val ⟨fun _ => false, fun _ => [], fun _ => []⟩, fun _ _ => .val 0, fun _ => 1⟩

/-- A triangle, for which no shape can be made, is refused; afterwards a two-dimensional sub-domain is
refused although no entity is registered. -/
theorem C43_disproof : ¬ C43_full ∧
    (runReg id idleOcc 1 [.addEntity (.val 2) (.thrown "getShape() not implemented") 0]).2 = ⟨[], []⟩ ∧
    ((runReg id idleOcc 1 [.addEntity (.val 2) (.thrown "getShape() not implemented") 0]).1.addSubDomain
      (.val 2) (.val 5) 1).1.isThrown := by
  classical
  have hs : (runReg id idleOcc 1 [.addEntity (.val 2) (.thrown "getShape() not implemented") 0])
      = ({ (Builder.init : Builder ℕ) with
            entityDim := some 2
            networks := Function.update (fun _ => none) 0 (some []) }, ⟨[], []⟩) := by
    simp [runReg, Builder.step, Builder.addSubDomainEntity, Builder.init, Builder.IsEmpty, record]
  have hne : ¬ IsEmpty (Function.update (fun _ => none) 0 (some []) : ℕ → Option (List ℕ)) := by
    intro h; have := h 0; simp at this
  have h3 : ((runReg id idleOcc 1
      [.addEntity (.val 2) (.thrown "getShape() not implemented") 0]).1.addSubDomain
      (.val 2) (.val 5) 1).1.isThrown := by
    rw [hs]
    simp [Builder.addSubDomain, hne]
  have h2 : (runReg id idleOcc 1 [.addEntity (.val 2) (.thrown "getShape() not implemented") 0]).2
      = ⟨[], []⟩ := by rw [hs]
  refine ⟨fun H => ?_, h2, h3⟩
  have := (H ℕ ℕ id idleOcc 1 [.addEntity (.val 2) (.thrown "getShape() not implemented") 0]).1 2 5 1
    (by rw [h2]; exact ⟨by simp, by simp⟩)
  rw [this] at h3
  exact h3

/-- Calls that fit to the registrations succeed if all geometries passed so far are supported (missing:
after an attempt to add an unsupported geometry, see `C43_disproof`). -/
theorem C43_accepts_partial (ops : List (Op Sh)) (hs : ∀ op ∈ ops, Supported op) (d : ℤ) (s : Sh)
    (i : ℕ) :
    (DomainOk (runReg key occ big ops).2 i d →
      ((runReg key occ big ops).1.addSubDomain (.val d) (.val s) i).1 = .val () ∧
      ((runReg key occ big ops).1.addConfiningSubDomain (.val d) (.val s) i).1 = .val ()) ∧
    (EntityOk (runReg key occ big ops).2 d →
      ((runReg key occ big ops).1.addSubDomainEntity (.val d) (.val s) i).1 = .val ()) := by
  have h := runReg_inv key occ big ops
  have hne : ¬ IsEmpty (runReg key occ big ops).1.networks → (runReg key occ big ops).2.entities ≠ [] := by
    clear h
    induction ops using List.reverseRecOn with
    | nil => intro hne; exact absurd (fun _ => rfl) hne
    | append_singleton ops op ih =>
      have ih := ih (fun o ho => hs o (List.mem_append_left _ ho))
      have hop := hs op (by simp)
      have hinv := runReg_inv key occ big ops
      rw [runReg_snoc]
      generalize runReg key occ big ops = x at *
      obtain ⟨b, r⟩ := x
      simp only at *
      have hsame : ∀ b' : Builder Sh, SameData b b' → (¬ IsEmpty b'.networks → r.entities ≠ []) := by
        intro b' hb'
        rw [hb'.networks]
        exact ih
      cases op with
      | addSubDomain dd ss ii =>
        obtain ⟨h1, h2⟩ := hop
        cases dd with
        | val dd =>
          cases ss with
          | val ss =>
            rcases addSubDomain_cases hinv dd (.val ss) ii with ⟨g1, g2, _⟩ | ⟨_, _, ⟨t, ht, g⟩ | ⟨g, _⟩⟩
            · simp only [Builder.step]
              rw [g2]
              cases hg : (b.addSubDomain (.val dd) (.val ss) ii).1 with
              | thrown e => exact ih
              | val u => rw [hg] at g1; exact g1.elim
              | nan => rw [hg] at g1; exact g1.elim
              | ub => rw [hg] at g1; exact g1.elim
            · simp only [Builder.step, g, record]; exact ih
            · exact absurd trivial g
          | thrown e => exact h2.elim
          | nan => exact h2.elim
          | ub => exact h2.elim
        | thrown e => exact h1.elim
        | nan => exact h1.elim
        | ub => exact h1.elim
      | addConfiningSubDomain dd ss ii =>
        obtain ⟨h1, h2⟩ := hop
        cases dd with
        | val dd =>
          cases ss with
          | val ss =>
            rcases addSubDomain_cases hinv dd (.val ss) ii with ⟨g1, g2, _⟩ | ⟨_, _, ⟨t, ht, g⟩ | ⟨g, _⟩⟩
            · simp only [Builder.step, Builder.addConfiningSubDomain]
              cases hg : b.addSubDomain (.val dd) (.val ss) ii with
              | mk res b' =>
                rw [hg] at g1 g2
                simp only at g2
                subst g2
                cases res with
                | thrown e => exact ih
                | val u => exact g1.elim
                | nan => exact g1.elim
                | ub => exact g1.elim
            · simp only [Builder.step, Builder.addConfiningSubDomain, g, record]; exact ih
            · exact absurd trivial g
          | thrown e => exact h2.elim
          | nan => exact h2.elim
          | ub => exact h2.elim
        | thrown e => exact h1.elim
        | nan => exact h1.elim
        | ub => exact h1.elim
      | addEntity dd ss ii =>
        obtain ⟨h1, h2⟩ := hop
        cases dd with
        | val dd =>
          cases ss with
          | val ss =>
            rcases entity_cases hinv dd (.val ss) ii with ⟨g1, g2, _⟩ | ⟨_, _, ⟨t, ht, g⟩ | ⟨g, _⟩⟩
            · simp only [Builder.step]
              rw [g2]
              cases hg : (b.addSubDomainEntity (.val dd) (.val ss) ii).1 with
              | thrown e => exact ih
              | val u => rw [hg] at g1; exact g1.elim
              | nan => rw [hg] at g1; exact g1.elim
              | ub => rw [hg] at g1; exact g1.elim
            · simp only [Builder.step, g, record]
              intro _ h0
              simp at h0
            · exact absurd trivial g
          | thrown e => exact h2.elim
          | nan => exact h2.elim
          | ub => exact h2.elim
        | thrown e => exact h1.elim
        | nan => exact h1.elim
        | ub => exact h1.elim
      | clear =>
        intro hc
        exact absurd (fun _ => rfl) hc
      | setEpsilon e => exact hsame _ ⟨rfl, rfl, rfl, rfl, rfl, rfl⟩
      | setDefaultEpsilon o => exact hsame _ ⟨rfl, rfl, rfl, rfl, rfl, rfl⟩
      | setConfineToSubDomainUnion v => exact ih
      | buildContained o => exact hsame _ (buildContained_data key occ big o b)
      | buildNetwork o => exact hsame _ (buildNetwork_data key occ big o b)
  generalize runReg key occ big ops = x at *
  obtain ⟨b, r⟩ := x
  simp only at *
  have hent : ∀ e, ¬ IsEmpty b.networks → b.entityDim = some e → ∃ x ∈ r.entities, x.2.1 = e := by
    intro e hn he
    obtain ⟨x, hx⟩ := List.exists_mem_of_ne_nil _ (hne hn)
    obtain ⟨e', he', hall, _⟩ := h.entDim hn
    rw [he] at he'; cases he'
    exact ⟨x, hx, hall x hx⟩
  constructor
  · intro hok
    rcases addSubDomain_cases h d (.val s) i with ⟨_, _, hbad | hbad⟩ | ⟨_, _, ⟨t, ht, g⟩ | ⟨g, _⟩⟩
    · obtain ⟨hn, e, he, hle⟩ := hbad
      obtain ⟨x, hx, hxe⟩ := hent e hn he
      have := hok.2 x hx
      omega
    · exact absurd hok hbad
    · refine ⟨by rw [g], ?_⟩
      unfold Builder.addConfiningSubDomain
      rw [g]
    · exact absurd trivial g
  · intro hok
    rcases entity_cases h d (.val s) i with ⟨_, _, hbad | hbad⟩ | ⟨_, _, ⟨t, ht, g⟩ | ⟨g, _⟩⟩
    · obtain ⟨hn, hd⟩ := hbad
      obtain ⟨e, he, hall, _⟩ := h.entDim hn
      obtain ⟨x, hx, hxe⟩ := hent e hn he
      rw [← hxe, hok.1 x hx] at he
      exact absurd he hd
    · exact absurd hok hbad
    · rw [g]
    · exact absurd trivial g

/-- Non-trivial instance: two volumes and a face; a further volume fits, a face as sub-domain or a volume as
entity does not. -/
example : DomainOk (⟨[(1, 3, 10), (2, 3, 20)], [(1, 2, 30)]⟩ : Reg ℕ) 3 3 ∧
    ¬ DomainOk (⟨[(1, 3, 10), (2, 3, 20)], [(1, 2, 30)]⟩ : Reg ℕ) 2 3 ∧
    ¬ DomainOk (⟨[(1, 3, 10), (2, 3, 20)], [(1, 2, 30)]⟩ : Reg ℕ) 3 2 ∧
    ¬ EntityOk (⟨[(1, 3, 10), (2, 3, 20)], [(1, 2, 30)]⟩ : Reg ℕ) 3 ∧
    ∀ op ∈ [Op.addSubDomain (.val 3) (.val 10) 1, .addEntity (.val 2) (.val 30) 1], Supported op := by
  refine ⟨by simp [DomainOk], by simp [DomainOk], by simp [DomainOk], by simp [EntityOk],
    by simp [Supported]⟩

end Props
