import Verif.Props.Fragments
import Mathlib.Data.List.Range
import Mathlib.Data.List.Perm.Subperm

/-!
# C45: entity indices in merged networks
-/

namespace Props
open Verif Frackit Spec.Builder
open Frackit.Builder (Op)

section
variable {Sh K : Type} [DecidableEq Sh] [DecidableEq K] (key : Sh → K)

/-- Number of shapes in the maps of the given ids. -/
def extentOf (maps : ℕ → Option (DMap Sh)) (ids : List ℕ) : ℕ :=
  (ids.map (fun i => ((maps i).getD []).length)).sum

omit [DecidableEq Sh] in
theorem foldl_bind_spec (off : ℕ) (m : DMap Sh) : ∀ acc : DMap Sh,
    (∀ x ∈ m.foldl (fun a p => DMap.bind key a p.1 (p.2 + off)) acc,
      x ∈ acc ∨ ∃ y ∈ m, key y.1 = key x.1 ∧ x.2 = y.2 + off) ∧
    (∀ t, (DMap.find key acc t).isSome ∨ (∃ y ∈ m, key y.1 = key t) →
      (DMap.find key (m.foldl (fun a p => DMap.bind key a p.1 (p.2 + off)) acc) t).isSome) := by
  induction m with
  | nil => intro acc; exact ⟨fun x h => Or.inl h, fun t h => by simpa using h⟩
  | cons y m ih =>
    intro acc
    obtain ⟨h1, h2⟩ := ih (DMap.bind key acc y.1 (y.2 + off))
    refine ⟨fun x hx => ?_, fun t ht => h2 t ?_⟩
    · rcases h1 x hx with h | ⟨z, hz, hk, e⟩
      · rcases dmem_bind key h with h | ⟨hk, e⟩
        · exact Or.inl h
        · exact Or.inr ⟨y, by simp, hk.symm, e⟩
      · exact Or.inr ⟨z, by simp [hz], hk, e⟩
    · rw [dfind_bind]
      rcases ht with h | ⟨z, hz, hk⟩
      · left; split
        · rfl
        · exact h
      · rcases List.mem_cons.1 hz with rfl | hz
        · left; rw [if_pos hk.symm]; rfl
        · exact Or.inr ⟨z, hz, hk⟩

omit [DecidableEq Sh] in
theorem mergeMaps_spec (maps : ℕ → Option (DMap Sh)) (ids : List ℕ) : ∀ (off : ℕ) (acc : DMap Sh),
    (∀ x ∈ Builder.mergeMaps key maps ids off acc, x ∈ acc ∨ ∃ pre i post, ids = pre ++ i :: post ∧
      ∃ y ∈ (maps i).getD [], key y.1 = key x.1 ∧ x.2 = y.2 + (off + extentOf maps pre)) ∧
    (∀ t, (DMap.find key acc t).isSome ∨ (∃ i ∈ ids, ∃ y ∈ (maps i).getD [], key y.1 = key t) →
      (DMap.find key (Builder.mergeMaps key maps ids off acc) t).isSome) := by
  induction ids with
  | nil => intro off acc; exact ⟨fun x h => Or.inl h, fun t h => by simpa [Builder.mergeMaps] using h⟩
  | cons i ids ih =>
    intro off acc
    simp only [Builder.mergeMaps]
    obtain ⟨f1, f2⟩ := foldl_bind_spec key off ((maps i).getD []) acc
    obtain ⟨h1, h2⟩ := ih (off + ((maps i).getD []).length)
      (((maps i).getD []).foldl (fun a p => DMap.bind key a p.1 (p.2 + off)) acc)
    refine ⟨fun x hx => ?_, fun t ht => h2 t ?_⟩
    · rcases h1 x hx with h | ⟨pre, j, post, rfl, y, hy, hk, e⟩
      · rcases f1 x h with h | ⟨y, hy, hk, e⟩
        · exact Or.inl h
        · exact Or.inr ⟨[], i, ids, rfl, y, hy, hk, by simp [extentOf, e]⟩
      · refine Or.inr ⟨i :: pre, j, post, rfl, y, hy, hk, ?_⟩
        rw [e]
        simp only [extentOf, List.map_cons, List.sum_cons]
        omega
    · rcases ht with h | ⟨j, hj, y, hy, hk⟩
      · exact Or.inl (f2 t (Or.inl h))
      · rcases List.mem_cons.1 hj with rfl | hj
        · exact Or.inl (f2 t (Or.inr ⟨y, hy, hk⟩))
        · exact Or.inr ⟨j, hj, y, hy, hk⟩

omit [DecidableEq Sh] [DecidableEq K] in
theorem owner_unique (maps : ℕ → Option (DMap Sh)) {pre post pre' post' : List ℕ} {i i' v v' : ℕ}
    (h : pre ++ i :: post = pre' ++ i' :: post')
    (hv : 1 ≤ v ∧ v ≤ ((maps i).getD []).length) (hv' : 1 ≤ v' ∧ v' ≤ ((maps i').getD []).length)
    (he : v + extentOf maps pre = v' + extentOf maps pre') : i = i' ∧ v = v' := by
  have happ : ∀ a b : List ℕ, extentOf maps (a ++ b) = extentOf maps a + extentOf maps b := by
    intro a b; simp [extentOf]
  have hcons : ∀ (a : ℕ) (b : List ℕ), extentOf maps (a :: b) = ((maps a).getD []).length + extentOf maps b := by
    intro a b; simp [extentOf]
  rcases List.append_eq_append_iff.1 h with ⟨z, hz, hz'⟩ | ⟨z, hz, hz'⟩
  · cases z with
    | nil =>
      simp only [List.append_nil, List.nil_append] at hz hz'
      subst hz
      simp only [List.cons.injEq] at hz'
      exact ⟨hz'.1, by omega⟩
    | cons c z =>
      simp only [List.cons_append, List.cons.injEq] at hz'
      obtain ⟨rfl, -⟩ := hz'
      rw [hz, happ, hcons] at he
      omega
  · cases z with
    | nil =>
      simp only [List.append_nil, List.nil_append] at hz hz'
      subst hz
      simp only [List.cons.injEq] at hz'
      exact ⟨hz'.1.symm, by omega⟩
    | cons c z =>
      simp only [List.cons_append, List.cons.injEq] at hz'
      obtain ⟨rfl, -⟩ := hz'
      rw [hz, happ, hcons] at he
      omega

end

variable {Sh K : Type} [DecidableEq Sh] [DecidableEq K] (key : Sh → K) (occ : Occ Sh) (big : ℝ)

/-! ## C45 Entities of different sub-domains stay distinguishable in a merged network -/

/-- Fragments with the same entity index stem from a common entity. -/
def Distinguishable (b : Builder Sh) (o : Orders) (eps : ℝ) (n : Builder.Network Sh) : Prop :=
  ∃ h l, occ.general l eps = .val h ∧ ∀ f ∈ n.fragments, ∀ f' ∈ n.fragments,
    DMap.find key n.indexMap f = DMap.find key n.indexMap f' →
    ∃ i p, StemsFrom key occ b (o.subDomains.filterMap b.subDomains) eps h i p f ∧
      StemsFrom key occ b (o.subDomains.filterMap b.subDomains) eps h i p f'

/-- The full claim (for shape objects that are not shared by sub-domains). -/
def C45_full : Prop :=
  ∀ (Sh K : Type) [DecidableEq Sh] [DecidableEq K] (key : Sh → K) (occ : Occ Sh) (big : ℝ)
    (ops : List (Op Sh)) (o : Orders) (n : Builder.Network Sh),
    ValidOrders o (runReg key occ big ops).1 →
    NoSharedShapes key occ (runReg key occ big ops).1
      (o.subDomains.filterMap (runReg key occ big ops).1.subDomains)
      (tolerance occ big o (runReg key occ big ops).1) →
    (Builder.buildNetwork key occ big o (runReg key occ big ops).1).1 = .val n →
    Distinguishable key occ (runReg key occ big ops).1 o
      (tolerance occ big o (runReg key occ big ops).1) n

/-- Every entity keeps a fragment that stems from it alone. -/
def AllEntitiesKept (b : Builder Sh) (o : Orders) (eps : ℝ) (h : Hist Sh) : Prop :=
  ∀ i p, p < ((b.networks i).getD []).length → ∃ f,
    (∃ s ∈ (b.networks i).getD [], ∃ g,
      Confined occ b (o.subDomains.filterMap b.subDomains) eps i s g ∧ Piece h g f) ∧
    ∀ q, StemsFrom key occ b (o.subDomains.filterMap b.subDomains) eps h i q f → q = p

/-- All fragments have an index; the indices of different entities are different if every entity keeps a
fragment of its own (missing: entities that are lost by confinement or hidden by others, for which indices
may coincide, see `C45_disproof`). -/
theorem C45_distinct_partial (ops : List (Op Sh)) (o : Orders) (n : Builder.Network Sh)
    (hv : ValidOrders o (runReg key occ big ops).1)
    (hns : NoSharedShapes key occ (runReg key occ big ops).1
      (o.subDomains.filterMap (runReg key occ big ops).1.subDomains)
      (tolerance occ big o (runReg key occ big ops).1))
    (hn : (Builder.buildNetwork key occ big o (runReg key occ big ops).1).1 = .val n) :
    (∀ f ∈ n.fragments, (DMap.find key n.indexMap f).isSome) ∧
    ((∀ h l, occ.general l (tolerance occ big o (runReg key occ big ops).1) = .val h →
      AllEntitiesKept key occ (runReg key occ big ops).1 o
        (tolerance occ big o (runReg key occ big ops).1) h) →
    Distinguishable key occ (runReg key occ big ops).1 o
      (tolerance occ big o (runReg key occ big ops).1) n) := by
  have hinv := runReg_inv key occ big ops
  generalize (runReg key occ big ops).1 = b at *
  generalize heps : tolerance occ big o b = eps at *
  unfold Builder.buildNetwork at hn
  cases hp : Builder.prepare key occ big o true b with
  | mk r b' =>
    rw [hp] at hn
    cases r with
    | thrown e => simp at hn
    | nan => simp at hn
    | ub => simp at hn
    | val u =>
      obtain ⟨h, a, f, d⟩ := prepare_spec key occ big hv hinv.bounds hp
      rw [heps] at a f
      obtain ⟨l, hl, _⟩ := a
      have f := f hns
      simp only at hn
      cases he : b'.entityDim with
      | none => rw [he] at hn; simp at hn
      | some e =>
        rw [he] at hn
        simp only [Outcome.val.injEq] at hn
        subst hn
        obtain ⟨m1, m2⟩ := mergeMaps_spec key b'.fragMaps o.maps 0 []
        have hsome : ∀ x ∈ o.lists.flatMap (fun i => (b'.fragLists i).getD []),
            (DMap.find key (Builder.mergeMaps key b'.fragMaps o.maps 0 []) x).isSome := by
          intro x hx
          obtain ⟨i, hi, hxi⟩ := List.mem_flatMap.1 hx
          obtain ⟨p, hp', _⟩ := (f i).2.1 x hxi
          obtain ⟨y, hy, hk, _⟩ := dfind_mem key hp'
          refine m2 x (Or.inr ⟨i, ?_, y, hy, hk⟩)
          rw [hv.maps.2, ← hv.lists.2]
          exact hi
        refine ⟨hsome, fun hkept => ⟨h, l, hl, fun x hx x' hx' hxx => ?_⟩⟩
        have hkept := hkept h l hl
        -- the extent of a map is at least the number of entities
        have hext : ∀ i, ((b.networks i).getD []).length ≤ ((b'.fragMaps i).getD []).length := by
          intro i
          have hsub : List.range' 1 ((b.networks i).getD []).length ⊆
              ((b'.fragMaps i).getD []).map (·.2) := by
            intro k hk
            rw [List.mem_range'_1] at hk
            obtain ⟨fr, hfr, hq⟩ := hkept i (k - 1) (by omega)
            obtain ⟨p, hp', hst⟩ := (f i).2.1 fr (((f i).1 fr).2 hfr)
            obtain ⟨y, hy, _, hy2⟩ := dfind_mem key hp'
            have := hq p hst
            exact List.mem_map.2 ⟨y, hy, by omega⟩
          have := ((List.nodup_range' (s := 1) (n := ((b.networks i).getD []).length)).subperm hsub).length_le
          simpa using this
        have hown : ∀ z ∈ o.lists.flatMap (fun i => (b'.fragLists i).getD []), ∃ k pre i post p,
            DMap.find key (Builder.mergeMaps key b'.fragMaps o.maps 0 []) z = some k ∧
            o.maps = pre ++ i :: post ∧ k = (p + 1) + extentOf b'.fragMaps pre ∧
            p + 1 ≤ ((b'.fragMaps i).getD []).length ∧
            StemsFrom key occ b (o.subDomains.filterMap b.subDomains) eps h i p z := by
          intro z hz
          obtain ⟨k, hk⟩ := Option.isSome_iff_exists.1 (hsome z hz)
          obtain ⟨y, hy, hky, rfl⟩ := dfind_mem key hk
          rcases m1 y hy with hh | ⟨pre, i, post, ho, w, hw, hkw, e⟩
          · simp at hh
          · obtain ⟨p, hp', hst⟩ := (f i).2.2 w hw
            refine ⟨_, pre, i, post, p, hk, ho, by omega, ?_, ?_⟩
            · have hlt : p < ((b.networks i).getD []).length := by
                obtain ⟨s, _, _, _, _, hs, _⟩ := hst
                exact (List.getElem?_eq_some_iff.1 hs).1
              have := hext i
              omega
            · obtain ⟨s, s', g, g', f0, a1, a2, a3, a4, a5, a6, a7, a8⟩ := hst
              exact ⟨s, s', g, g', f0, a1, a2, a3, a4, a5, a6, a7, a8.trans (hkw.trans hky)⟩
        obtain ⟨k, pre, i, post, p, e1, e2, e3, e4, e5⟩ := hown x hx
        obtain ⟨k', pre', i', post', p', e1', e2', e3', e4', e5'⟩ := hown x' hx'
        have hkk : k = k' := by
          have hxx' : some k = some k' := by rw [← e1, ← e1']; exact hxx
          exact Option.some.inj hxx'
        obtain ⟨rfl, hpp⟩ := owner_unique b'.fragMaps (e2.symm.trans e2') ⟨by omega, e4⟩ ⟨by omega, e4'⟩
          (by omega)
        have : p = p' := by omega
        subst this
        exact ⟨i, p, e5, e5'⟩

/-! ### Collision -/

/-- Confinement removes the second face of both networks. -/
def loseOcc : Occ ℕ :=
  ⟨fun _ _ _ => .val ⟨fun s => s == 2 || s == 5, fun _ => [], fun _ => []⟩,
    fun _ _ => .val ⟨fun _ => false, fun _ => [], fun _ => []⟩,
    fun _ _ => .val 0, fun _ => 1⟩

/-- Two confining volumes with three faces each. -/
def loseOps : List (Op ℕ) :=
  [.setEpsilon 1, .addConfiningSubDomain (.val 3) (.val 10) 0, .addConfiningSubDomain (.val 3) (.val 20) 1,
    .addEntity (.val 2) (.val 1) 0, .addEntity (.val 2) (.val 2) 0, .addEntity (.val 2) (.val 3) 0,
    .addEntity (.val 2) (.val 4) 1, .addEntity (.val 2) (.val 5) 1, .addEntity (.val 2) (.val 6) 1]

/-- State after `loseOps`. -/
noncomputable def loseState : Builder ℕ :=
  { (Builder.init : Builder ℕ) with
    eps := some 1, epsIsSet := true, domainDim := some 3, entityDim := some 2
    subDomains := fun i => if i = 0 then some 10 else if i = 1 then some 20 else none
    bounds := fun i => if i = 0 then some true else if i = 1 then some true else none
    networks := fun i => if i = 0 then some [1, 2, 3] else if i = 1 then some [4, 5, 6] else none }

theorem lose_run : (runReg id loseOcc 1 loseOps).1 = loseState := by
  have n0 : ∀ i s, ¬ Builder.IsEmpty (Function.update (fun _ => none) i (some s) : ℕ → Option ℕ) :=
    fun i s h => by have := h i; simp at this
  have n1 : ∀ i s (m : ℕ → Option ℕ), ¬ Builder.IsEmpty (Function.update m i (some s)) :=
    fun i s m h => by have := h i; simp at this
  have n2 : ∀ i s (m : ℕ → Option (List ℕ)), ¬ Builder.IsEmpty (Function.update m i (some s)) :=
    fun i s m h => by have := h i; simp at this
  have em1 : Builder.IsEmpty (fun _ => none : ℕ → Option ℕ) := fun _ => rfl
  have em2 : Builder.IsEmpty (fun _ => none : ℕ → Option (List ℕ)) := fun _ => rfl
  simp [runReg, loseOps, Builder.step, Builder.setEpsilon,
    Builder.addSubDomain, Builder.addConfiningSubDomain, Builder.addSubDomainEntity, Builder.init, em1, em2,
    n1, n2, loseState]
  refine ⟨?_, ?_, ?_⟩
  all_goals
    funext i
    by_cases h0 : i = 0
    · subst h0; simp
    · by_cases h1 : i = 1
      · subst h1; simp
      · simp [h0, h1]

theorem lose_orders : ValidOrders twoOrders loseState := by
  have hmem : ∀ i, i ∈ [0, 1] ↔ i = 0 ∨ i = 1 := by intro i; simp
  refine ⟨⟨by decide, fun i => ?_⟩, ⟨by decide, fun i => ?_⟩, ⟨by decide, fun i => ?_⟩,
    ⟨by decide, fun i => ?_⟩⟩
  all_goals
    simp only [twoOrders, hmem, loseState]
    by_cases h0 : i = 0
    · simp [h0]
    · by_cases h1 : i = 1
      · simp [h1]
      · simp [h0, h1]

/-- The third face of the first and the first face of the second sub-domain (in the order of traversal) get
the same index, for both orders. -/
theorem C45_collision :
    (∃ n, (Builder.buildNetwork id loseOcc 1 twoOrders loseState).1 = .val n ∧
      n.fragments = [1, 3, 4, 6] ∧ n.indexMap = [(1, 1), (3, 3), (4, 3), (6, 5)]) ∧
    (∃ n, (Builder.buildNetwork id loseOcc 1 ⟨[1, 0], [1, 0], [1, 0], [1, 0]⟩ loseState).1 = .val n ∧
      n.fragments = [4, 6, 1, 3] ∧ n.indexMap = [(4, 1), (6, 3), (1, 3), (3, 5)]) := by
  refine ⟨⟨_, rfl, ?_, ?_⟩, ⟨_, rfl, ?_, ?_⟩⟩ <;> rfl

theorem lose_nets (i : ℕ) : (loseState.networks i).getD []
    = if i = 0 then [1, 2, 3] else if i = 1 then [4, 5, 6] else [] := by
  unfold loseState
  simp only
  split
  · rfl
  · split <;> rfl

theorem lose_confined {doms : List ℕ} {eps : ℝ} {i s g : ℕ} (hs : s ∈ (loseState.networks i).getD [])
    (h : Confined loseOcc loseState doms eps i s g) : g = s := by
  rw [lose_nets] at hs
  have hpiece : ∀ s g, Piece (⟨fun s => s == 2 || s == 5, fun _ => [], fun _ => []⟩ : Hist ℕ) s g → g = s := by
    rintro s g (⟨_, _, _, e⟩ | e | e)
    · exact e
    · simp at e
    · simp at e
  by_cases h0 : i = 0
  · subst h0
    simp only [Confined, confinesTo, loseState, loseOcc, if_true, Option.some.injEq] at h
    obtain ⟨_, hh, _, e, hp⟩ := h
    cases e
    exact hpiece s g hp
  · by_cases h1 : i = 1
    · subst h1
      simp only [Confined, confinesTo, loseState, loseOcc, Nat.one_ne_zero, if_false, if_true] at h
      obtain ⟨_, hh, _, e, hp⟩ := h
      cases e
      exact hpiece s g hp
    · simp [h0, h1] at hs

theorem C45_disproof : ¬ C45_full := by
  intro H
  obtain ⟨⟨n, hn, hf, hm⟩, _⟩ := C45_collision
  have := H ℕ ℕ id loseOcc 1 loseOps twoOrders n (by rw [lose_run]; exact lose_orders)
    (by
      rw [lose_run]
      intro i j hij s hs t ht g g' hc hc'
      rw [lose_confined hs hc, lose_confined ht hc']
      rw [lose_nets] at hs ht
      by_cases h0 : i = 0
      · have hj0 : j ≠ 0 := fun e => hij (h0.trans e.symm)
        rw [if_pos h0] at hs
        rw [if_neg hj0] at ht
        split at ht
        · simp at hs ht; simp only [id]; omega
        · cases ht
      · rw [if_neg h0] at hs
        by_cases h1 : i = 1
        · rw [if_pos h1] at hs
          have hj1 : j ≠ 1 := fun e => hij (h1.trans e.symm)
          rw [if_neg hj1] at ht
          split at ht
          · simp at hs ht; simp only [id]; omega
          · cases ht
        · rw [if_neg h1] at hs; cases hs)
    (by rw [lose_run]; exact hn)
  rw [lose_run] at this
  obtain ⟨h, l, hl, hall⟩ := this
  obtain ⟨i, p, h3, h4⟩ := hall 3 (by rw [hf]; simp) 4 (by rw [hf]; simp) (by rw [hm]; rfl)
  simp only [loseOcc, Outcome.val.injEq] at hl
  subst hl
  have hval : ∀ x, StemsFrom id loseOcc loseState (twoOrders.subDomains.filterMap loseState.subDomains)
      (tolerance loseOcc 1 twoOrders loseState) ⟨fun _ => false, fun _ => [], fun _ => []⟩ i p x →
      x ∈ (loseState.networks i).getD [] := by
    rintro x ⟨s, s', g, g', f', a1, a2, a3, a4, a5, ⟨t, ht, hct⟩, a7, a8⟩
    have e1 : g' = t := lose_confined ht hct
    have e2 : f' = g' := by
      rcases a7 with ⟨_, _, _, e⟩ | e | e
      · exact e
      · simp at e
      · simp at e
    simp only [id] at a8
    rw [← a8, e2, e1]
    exact ht
  have m3 := hval 3 h3
  have m4 := hval 4 h4
  rw [lose_nets] at m3 m4
  by_cases h0 : i = 0
  · rw [if_pos h0] at m4; simp at m4
  · rw [if_neg h0] at m3
    split at m3
    · simp at m3
    · cases m3

/-- Non-trivial instance of the assumption of `C45_distinct_partial`: nothing is lost. -/
example : AllEntitiesKept id idleOcc (runReg id idleOcc 1
    [.addEntity (.val 2) (.val 1) 0, .addEntity (.val 2) (.val 2) 0]).1 ⟨[], [0], [0], [0]⟩ 1
    ⟨fun _ => false, fun _ => [], fun _ => []⟩ := by
  have n2 : ∀ i s (m : ℕ → Option (List ℕ)), ¬ Builder.IsEmpty (Function.update m i (some s)) :=
    fun i s m h => by have := h i; simp at this
  have em1 : Builder.IsEmpty (fun _ => none : ℕ → Option ℕ) := fun _ => rfl
  have em2 : Builder.IsEmpty (fun _ => none : ℕ → Option (List ℕ)) := fun _ => rfl
  simp only [runReg, Builder.step, Builder.addSubDomainEntity, Builder.init, List.foldl]
  simp [em1, em2, n2, AllEntitiesKept, record, StemsFrom, Confined, confinesTo, Piece]
  intro i p hp
  by_cases h0 : i = 0
  · subst h0
    simp only [Function.update_self, Option.getD_some, List.length_cons, List.length_nil] at hp
    have : p = 0 ∨ p = 1 := by omega
    rcases this with rfl | rfl
    · refine ⟨1, by simp, fun q => ?_⟩
      match q with
      | 0 => simp
      | 1 => simp
      | (q + 2) => simp
    · refine ⟨2, by simp, fun q => ?_⟩
      match q with
      | 0 => simp
      | 1 => simp
      | (q + 2) => simp
  · simp [h0] at hp

end Props
