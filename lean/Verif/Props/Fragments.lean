import Verif.Props.Builder

/-!
# C44: origin of fragments
-/

namespace Props
open Verif Frackit Spec.Builder
open Frackit.Builder (Op)

section
variable {Sh K : Type} [DecidableEq Sh] [DecidableEq K] (key : Sh → K)

/-! ## Maps of shapes -/

omit [DecidableEq Sh] in
theorem dfind_map (m : DMap Sh) (s t : Sh) (i : ℕ) :
    DMap.find key (m.map (fun p => if key p.1 = key s then (p.1, i) else p)) t
      = if key t = key s then (DMap.find key m t).map (fun _ => i) else DMap.find key m t := by
  unfold DMap.find
  induction m with
  | nil => simp
  | cons p m ih =>
    rw [List.map_cons]
    by_cases hps : key p.1 = key s
    · rw [if_pos hps]
      by_cases hpt : key p.1 = key t
      · have hts : key t = key s := hpt.symm.trans hps
        simp [List.find?_cons, hpt, hts]
      · have hts : ¬ key t = key s := fun h => hpt (hps.trans h.symm)
        simp only [List.find?_cons, hpt, decide_false]
        rw [ih]
    · rw [if_neg hps]
      by_cases hpt : key p.1 = key t
      · have hts : ¬ key t = key s := fun h => hps (hpt.trans h)
        simp [List.find?_cons, hpt, hts]
      · simp only [List.find?_cons, hpt, decide_false]
        rw [ih]

omit [DecidableEq Sh] in
theorem dfind_congr (m : DMap Sh) {s t : Sh} (h : key s = key t) :
    DMap.find key m s = DMap.find key m t := by
  unfold DMap.find; rw [h]

omit [DecidableEq Sh] in
theorem dfind_bind (m : DMap Sh) (s t : Sh) (i : ℕ) :
    DMap.find key (DMap.bind key m s i) t = if key t = key s then some i else DMap.find key m t := by
  unfold DMap.bind
  cases hs : DMap.find key m s with
  | some j =>
    simp only
    rw [dfind_map]
    by_cases h : key t = key s
    · rw [if_pos h, if_pos h, dfind_congr key m h, hs]; rfl
    · rw [if_neg h, if_neg h]
  | none =>
    simp only
    have happ : DMap.find key (m ++ [(s, i)]) t
        = (DMap.find key m t).or (if key t = key s then some i else none) := by
      unfold DMap.find
      rw [List.find?_append]
      cases hm : m.find? (fun p => key p.1 = key t) with
      | some x => simp
      | none =>
        simp only [Option.none_or, Option.map_none]
        by_cases h : key t = key s
        · simp [h]
        · have h' : ¬ key s = key t := fun e => h e.symm
          simp [h, h']
    rw [happ]
    by_cases h : key t = key s
    · rw [if_pos h, if_pos h, dfind_congr key m h, hs]; rfl
    · rw [if_neg h, if_neg h]; simp

/-! ## Registration of pieces -/

/-- Every shape of the list is bound, and every shape bound is related to its index. -/
def Good (R : ℕ → K → Prop) (a : List Sh × DMap Sh) : Prop :=
  (∀ f ∈ a.1, (DMap.find key a.2 f).isSome) ∧ ∀ x ∈ a.2, R x.2 (key x.1)

omit [DecidableEq Sh] in
theorem dfind_mem {m : DMap Sh} {t : Sh} {i : ℕ} (h : DMap.find key m t = some i) :
    ∃ x ∈ m, key x.1 = key t ∧ x.2 = i := by
  unfold DMap.find at h
  cases hf : m.find? (fun p => key p.1 = key t) with
  | none => rw [hf] at h; cases h
  | some x =>
    rw [hf] at h
    refine ⟨x, List.mem_of_find?_eq_some hf, ?_, by simpa using h⟩
    simpa using List.find?_some hf

omit [DecidableEq Sh] in
theorem dmem_bind {m : DMap Sh} {s : Sh} {i : ℕ} {x : Sh × ℕ} (h : x ∈ DMap.bind key m s i) :
    x ∈ m ∨ (key x.1 = key s ∧ x.2 = i) := by
  unfold DMap.bind at h
  cases hs : DMap.find key m s with
  | some j =>
    rw [hs] at h
    obtain ⟨y, hy, rfl⟩ := List.mem_map.1 h
    split
    · rename_i hk; exact Or.inr ⟨hk, rfl⟩
    · exact Or.inl hy
  | none =>
    rw [hs] at h
    rcases List.mem_append.1 h with h | h
    · exact Or.inl h
    · simp only [List.mem_singleton] at h
      subst h
      exact Or.inr ⟨rfl, rfl⟩

omit [DecidableEq Sh] in
theorem Good.find {R : ℕ → K → Prop} {a : List Sh × DMap Sh} (h : Good key R a) {t : Sh} {idx : ℕ}
    (ht : DMap.find key a.2 t = some idx) : R idx (key t) := by
  obtain ⟨x, hx, hk, rfl⟩ := dfind_mem key ht
  rw [← hk]; exact h.2 x hx

omit [DecidableEq Sh] in
theorem good_bind {R : ℕ → K → Prop} {a : List Sh × DMap Sh} (h : Good key R a) {f : Sh} {idx : ℕ}
    (hR : R idx (key f)) (l : List Sh) (hl : ∀ g ∈ l, g ∈ a.1 ∨ g = f) :
    Good key R (l, DMap.bind key a.2 f idx) := by
  constructor
  · intro g hg
    simp only
    rw [dfind_bind]
    split
    · rfl
    · rename_i hne
      rcases hl g hg with h' | h'
      · exact h.1 g h'
      · exact absurd (by rw [h']) hne
  · intro x hx
    rcases dmem_bind key hx with hx | ⟨hk, rfl⟩
    · exact h.2 x hx
    · rw [hk]; exact hR

theorem addFragment_mem (idx : ℕ) (acc : List Sh × DMap Sh) (f g : Sh) :
    g ∈ (Builder.addFragment key idx acc f).1 ↔ g ∈ acc.1 ∨ g = f := by
  unfold Builder.addFragment
  simp only
  split
  · rename_i h
    constructor
    · exact Or.inl
    · rintro (h' | rfl)
      · exact h'
      · exact h
  · simp

theorem addFragment_good {R : ℕ → K → Prop} {acc : List Sh × DMap Sh} (h : Good key R acc) {f : Sh}
    {idx : ℕ} (hR : R idx (key f)) : Good key R (Builder.addFragment key idx acc f) := by
  have hm := addFragment_mem key idx acc f
  unfold Builder.addFragment at *
  simp only at *
  by_cases hb : (DMap.find key acc.2 f).isSome
  · simp only [hb, if_true]
    refine ⟨?_, h.2⟩
    intro g hg
    rcases (hm g).1 hg with h' | rfl
    · exact h.1 g h'
    · exact hb
  · simp only [hb]
    exact good_bind key h hR _ (fun g hg => (hm g).1 hg)

theorem foldl_addFragment (idx : ℕ) (l : List Sh) : ∀ acc : List Sh × DMap Sh,
    (∀ g, g ∈ (l.foldl (Builder.addFragment key idx) acc).1 ↔ g ∈ acc.1 ∨ g ∈ l) ∧
    ∀ R : ℕ → K → Prop, Good key R acc → (∀ f ∈ l, R idx (key f)) →
      Good key R (l.foldl (Builder.addFragment key idx) acc) := by
  induction l with
  | nil => intro acc; exact ⟨by simp, fun R h _ => h⟩
  | cons f t ih =>
    intro acc
    obtain ⟨h1, h2⟩ := ih (Builder.addFragment key idx acc f)
    refine ⟨fun g => ?_, fun R h hR => ?_⟩
    · rw [List.foldl_cons, h1, addFragment_mem, List.mem_cons, or_assoc]
    · rw [List.foldl_cons]
      exact h2 R (addFragment_good key h (hR f (by simp))) (fun x hx => hR x (by simp [hx]))

theorem collect_spec (h : Hist Sh) (s : Sh) (idx : ℕ) (acc : List Sh × DMap Sh) :
    (∀ f, f ∈ (Builder.collect key h s idx acc).1 ↔ f ∈ acc.1 ∨ Piece h s f) ∧
    ∀ R : ℕ → K → Prop, Good key R acc → (∀ f, Piece h s f → R idx (key f)) →
      Good key R (Builder.collect key h s idx acc) := by
  unfold Builder.collect
  simp only
  have hcond : (!h.isDeleted s && (h.generated s).isEmpty && (h.modified s).isEmpty) = true ↔
      h.isDeleted s = false ∧ h.generated s = [] ∧ h.modified s = [] := by
    simp [and_assoc]
  generalize hacc : (if (!h.isDeleted s && (h.generated s).isEmpty && (h.modified s).isEmpty) = true then
      (acc.1 ++ [s], DMap.bind key acc.2 s idx) else acc) = acc1
  obtain ⟨g1, g2⟩ := foldl_addFragment key idx (h.generated s) acc1
  obtain ⟨m1, m2⟩ := foldl_addFragment key idx (h.modified s)
    ((h.generated s).foldl (Builder.addFragment key idx) acc1)
  refine ⟨fun f => ?_, fun R hg hR => ?_⟩
  · rw [m1, g1]
    by_cases hc : h.isDeleted s = false ∧ h.generated s = [] ∧ h.modified s = []
    · rw [if_pos (hcond.2 hc)] at hacc
      subst hacc
      obtain ⟨c1, c2, c3⟩ := hc
      simp [Piece, c1, c2, c3]
    · rw [if_neg (fun h' => hc (hcond.1 h'))] at hacc
      subst hacc
      unfold Piece
      constructor
      · rintro ((h' | h') | h')
        · exact Or.inl h'
        · exact Or.inr (Or.inr (Or.inl h'))
        · exact Or.inr (Or.inr (Or.inr h'))
      · rintro (h' | (h' | h' | h'))
        · exact Or.inl (Or.inl h')
        · exact absurd ⟨h'.1, h'.2.1, h'.2.2.1⟩ hc
        · exact Or.inl (Or.inr h')
        · exact Or.inr h'
  · apply m2 R _ (fun f hf => hR f (Or.inr (Or.inr hf)))
    apply g2 R _ (fun f hf => hR f (Or.inr (Or.inl hf)))
    by_cases hc : h.isDeleted s = false ∧ h.generated s = [] ∧ h.modified s = []
    · rw [if_pos (hcond.2 hc)] at hacc
      subst hacc
      exact good_bind key hg (hR s (Or.inl ⟨hc.1, hc.2.1, hc.2.2, rfl⟩)) _ (fun g hg => by simpa using hg)
    · rw [if_neg (fun h' => hc (hcond.1 h'))] at hacc
      subst hacc
      exact hg

omit [DecidableEq Sh] in
theorem initialMap_go (l : List Sh) : ∀ (m : DMap Sh) (n : ℕ),
    let r := l.foldl (fun (a : DMap Sh × ℕ) s => (DMap.bind key a.1 s a.2, a.2 + 1)) (m, n)
    (∀ x ∈ r.1, x ∈ m ∨ ∃ p s, l[p]? = some s ∧ key s = key x.1 ∧ x.2 = n + p) ∧
    (∀ t, (DMap.find key m t).isSome ∨ t ∈ l → (DMap.find key r.1 t).isSome) := by
  induction l with
  | nil => intro m n; exact ⟨fun x h => Or.inl h, fun t h => by simpa using h⟩
  | cons s l ih =>
    intro m n
    simp only [List.foldl_cons]
    obtain ⟨h1, h2⟩ := ih (DMap.bind key m s n) (n + 1)
    refine ⟨fun x h => ?_, fun t h => h2 t ?_⟩
    · rcases h1 x h with h' | ⟨p, s', hp, hk, e⟩
      · rcases dmem_bind key h' with h' | ⟨hk, e⟩
        · exact Or.inl h'
        · exact Or.inr ⟨0, s, rfl, hk.symm, e⟩
      · exact Or.inr ⟨p + 1, s', by simpa using hp, hk, by omega⟩
    · rw [dfind_bind]
      rcases h with h | h
      · left; split
        · rfl
        · exact h
      · rcases List.mem_cons.1 h with rfl | h
        · left; simp
        · exact Or.inr h

omit [DecidableEq Sh] in
theorem initialMap_spec (l : List Sh) :
    (∀ x ∈ Builder.initialMap key l, ∃ p s, l[p]? = some s ∧ key s = key x.1 ∧ x.2 = p + 1) ∧
    (∀ t ∈ l, (DMap.find key (Builder.initialMap key l) t).isSome) := by
  obtain ⟨h1, h2⟩ := initialMap_go key l [] 1
  refine ⟨fun x h => ?_, fun t ht => h2 t (Or.inr ht)⟩
  rcases h1 x h with h | ⟨p, s, hp, hk, e⟩
  · simp at h
  · exact ⟨p, s, hp, hk, by omega⟩

theorem confineLoop_spec (h : Hist Sh) (m : DMap Sh) (l : List Sh) : ∀ acc,
    (∀ s ∈ l, (DMap.find key m s).isSome) →
    ∃ acc', Builder.confineLoop key h m l acc = .val acc' ∧
      (∀ f, f ∈ acc'.1 ↔ f ∈ acc.1 ∨ ∃ s ∈ l, Piece h s f) ∧
      ∀ R : ℕ → K → Prop, Good key R acc →
        (∀ s ∈ l, ∀ idx, DMap.find key m s = some idx → ∀ f, Piece h s f → R idx (key f)) →
        Good key R acc' := by
  induction l with
  | nil =>
    intro acc _
    exact ⟨acc, rfl, by simp, fun R hg _ => hg⟩
  | cons s l ih =>
    intro acc hf
    obtain ⟨idx, hidx⟩ := Option.isSome_iff_exists.1 (hf s (by simp))
    obtain ⟨c1, c2⟩ := collect_spec key h s idx acc
    obtain ⟨acc', e, h1, h2⟩ := ih (Builder.collect key h s idx acc) (fun t ht => hf t (by simp [ht]))
    refine ⟨acc', ?_, fun f => ?_, fun R hg hR => ?_⟩
    · simp only [Builder.confineLoop, hidx]; exact e
    · rw [h1, c1]
      simp only [List.mem_cons, exists_eq_or_imp, or_assoc]
    · exact h2 R (c2 R hg (fun f hp => hR s (by simp) idx hidx f hp))
        (fun t ht => hR t (by simp [ht]))

/-! ## Confinement -/

variable (occ : Occ Sh)

/-- List and map of fragments represent the parts of the entities of network `i` after confinement. -/
def CI (b0 : Builder Sh) (doms : List Sh) (eps : ℝ) (i : ℕ) (l : List Sh) (m : DMap Sh) : Prop :=
  (∀ g, g ∈ l ↔ ∃ s ∈ (b0.networks i).getD [], Confined occ b0 doms eps i s g) ∧
  Good key (fun idx k => ∃ p s s' g, ((b0.networks i).getD [])[p]? = some s ∧
    s' ∈ (b0.networks i).getD [] ∧ key s' = key s ∧ Confined occ b0 doms eps i s' g ∧ key g = k ∧
    idx = p + 1) (l, m)

theorem CI_unconfined {b0 : Builder Sh} {doms : List Sh} {eps : ℝ} {i : ℕ}
    (h : confinesTo occ b0 doms eps i = none) :
    CI key occ b0 doms eps i ((b0.networks i).getD [])
      (Builder.initialMap key ((b0.networks i).getD [])) := by
  obtain ⟨h1, h2⟩ := initialMap_spec key ((b0.networks i).getD [])
  refine ⟨fun g => ?_, h2, ?_⟩
  · simp only [Confined, h]
    exact ⟨fun hg => ⟨g, hg, rfl⟩, fun ⟨s, hs, e⟩ => e ▸ hs⟩
  · intro x hx
    obtain ⟨p, s, hp, hk, e⟩ := h1 x hx
    exact ⟨p, s, s, s, hp, List.mem_of_getElem? hp, rfl, by simp only [Confined, h], hk, e⟩

theorem CI_confined {b0 : Builder Sh} {doms : List Sh} {eps : ℝ} {i : ℕ} {tool : Sh} {h : Hist Sh}
    (hc : confinesTo occ b0 doms eps i = some (.val tool))
    (hcom : occ.common ((b0.networks i).getD []) [tool] eps = .val h) :
    ∃ acc, Builder.confineLoop key h (Builder.initialMap key ((b0.networks i).getD []))
      ((b0.networks i).getD []) ([], []) = .val acc ∧ CI key occ b0 doms eps i acc.1 acc.2 := by
  obtain ⟨h1, h2⟩ := initialMap_spec key ((b0.networks i).getD [])
  obtain ⟨acc, e, l1, l2⟩ := confineLoop_spec key h _ _ ([], []) h2
  have hconf : ∀ s g, Confined occ b0 doms eps i s g ↔ Piece h s g := by
    intro s g
    simp only [Confined, hc]
    constructor
    · rintro ⟨tool', h', ht, hh, hp⟩
      cases ht
      rw [hcom] at hh
      cases hh
      exact hp
    · intro hp
      exact ⟨tool, h, rfl, hcom, hp⟩
  refine ⟨acc, e, fun g => ?_, ?_⟩
  · rw [l1]
    simp [hconf]
  · apply l2
    · exact ⟨by simp, by simp⟩
    · intro s hs idx hidx f hp
      obtain ⟨x, hx, hkx, rfl⟩ := dfind_mem key hidx
      obtain ⟨p, s', hp', hk, e⟩ := h1 x hx
      exact ⟨p, s', s, f, hp', hs, (hk.trans hkx).symm, (hconf s f).2 hp, rfl, e⟩

/-- State during confinement; `todo` are the networks to be confined. -/
structure ConfineInv (b0 : Builder Sh) (doms : List Sh) (eps : ℝ) (b : Builder Sh) (todo : List ℕ) : Prop where
  data : SameData b0 b
  union : ∀ u, b.union = some u → unionShape occ doms eps = .val u
  done : ∀ i, i ∉ todo → CI key occ b0 doms eps i ((b.fragLists i).getD []) ((b.fragMaps i).getD [])
  todo : ∀ i ∈ todo, (b.fragLists i).getD [] = (b0.networks i).getD [] ∧
    (b.fragMaps i).getD [] = Builder.initialMap key ((b0.networks i).getD [])
  some : ∀ i, (b.fragLists i ≠ none ↔ b0.subDomains i ≠ none ∨ b0.networks i ≠ none) ∧
    (b.fragMaps i ≠ none ↔ b0.subDomains i ≠ none ∨ b0.networks i ≠ none)
  sd : b.sdFragments = fun _ => none

theorem getSubDomainUnion_eq {b0 : Builder Sh} {o : Orders} {eps : ℝ} {b : Builder Sh}
    (hs : b.subDomains = b0.subDomains)
    (hu : ∀ u, b.union = some u → unionShape occ (o.subDomains.filterMap b0.subDomains) eps = .val u) :
    b.getSubDomainUnion occ o eps = unionShape occ (o.subDomains.filterMap b0.subDomains) eps := by
  unfold Builder.getSubDomainUnion
  cases hb : b.union with
  | some u => exact (hu u hb).symm
  | none =>
    simp only
    rw [hs]
    unfold unionShape
    rcases o.subDomains.filterMap b0.subDomains with _ | ⟨a, _ | ⟨c, t⟩⟩ <;> rfl

theorem confineOne_inv {b0 : Builder Sh} {o : Orders} {eps : ℝ} {b b' : Builder Sh} {i : ℕ}
    {todo : List ℕ} (hi : i ∉ todo) (hn : b0.networks i ≠ none)
    (hb : ∀ j, b0.bounds j = none ↔ b0.subDomains j = none)
    (inv : ConfineInv key occ b0 (o.subDomains.filterMap b0.subDomains) eps b (i :: todo))
    (h : Builder.confineOne key occ o eps b i = (.val (), b')) :
    ConfineInv key occ b0 (o.subDomains.filterMap b0.subDomains) eps b' todo := by
  obtain ⟨hl, hm⟩ := inv.todo i (by simp)
  -- the state is unchanged and the network is not confined
  have hsame : confinesTo occ b0 (o.subDomains.filterMap b0.subDomains) eps i = none →
      ConfineInv key occ b0 (o.subDomains.filterMap b0.subDomains) eps b todo := by
    intro hc
    refine ⟨inv.data, inv.union, fun j hj => ?_, fun j hj => inv.todo j (by simp [hj]), inv.some, inv.sd⟩
    by_cases hji : j = i
    · subst hji
      rw [hl, hm]
      exact CI_unconfined key occ hc
    · exact inv.done j (by simp [hji, hj])
  unfold Builder.confineOne at h
  simp only [inv.data.networks, inv.data.subDomains, inv.data.bounds, inv.data.confineUnion] at h
  cases hsd : b0.subDomains i with
  | none =>
    rw [hsd] at h
    simp only [Prod.mk.injEq, true_and] at h
    subst h
    exact hsame (by simp [confinesTo, hsd])
  | some sd =>
    rw [hsd] at h
    simp only at h
    cases hbd : b0.bounds i with
    | none => rw [(hb i).1 hbd] at hsd; cases hsd
    | some bounding =>
      rw [hbd] at h
      simp only at h
      by_cases hno : bounding = false ∧ b0.confineUnion = false
      · rw [if_pos hno] at h
        simp only [Prod.mk.injEq, true_and] at h
        subst h
        exact hsame (by simp [confinesTo, hsd, hbd, hno.1, hno.2])
      rw [if_neg hno, getSubDomainUnion_eq occ inv.data.subDomains inv.union] at h
      have hct : confinesTo occ b0 (o.subDomains.filterMap b0.subDomains) eps i
          = some (if bounding = true then .val sd else
            unionShape occ (o.subDomains.filterMap b0.subDomains) eps) := by
        unfold confinesTo
        rw [hsd, hbd]
        cases bounding with
        | true => rfl
        | false =>
          have : b0.confineUnion = true := by
            by_contra hne
            exact hno ⟨rfl, by simpa using hne⟩
          simp [this]
      cases htool : (if bounding = true then Outcome.val sd else
            unionShape occ (o.subDomains.filterMap b0.subDomains) eps) with
      | thrown e => rw [htool] at h; simp at h
      | nan => rw [htool] at h; simp at h
      | ub => rw [htool] at h; simp at h
      | val tool =>
        rw [htool] at h hct
        simp only at h
        cases hcom : occ.common ((b0.networks i).getD []) [tool] eps with
        | thrown e => rw [hcom] at h; simp at h
        | nan => rw [hcom] at h; simp at h
        | ub => rw [hcom] at h; simp at h
        | val hist =>
          rw [hcom] at h
          simp only at h
          obtain ⟨acc, hacc, hCI⟩ := CI_confined key occ hct hcom
          have key1 : ∀ b1 : Builder Sh, SameData b0 b1 → b1.fragLists = b.fragLists →
              b1.fragMaps = b.fragMaps → b1.sdFragments = b.sdFragments →
              (∀ u, b1.union = some u →
                unionShape occ (o.subDomains.filterMap b0.subDomains) eps = .val u) →
              ConfineInv key occ b0 (o.subDomains.filterMap b0.subDomains) eps
                { b1 with fragLists := Function.update b1.fragLists i (some acc.1)
                          fragMaps := Function.update b1.fragMaps i (some acc.2) } todo := by
            intro b1 hd2 hfl hfm' hsdf hun
            refine ⟨⟨hd2.1, hd2.2, hd2.3, hd2.4, hd2.5, hd2.6⟩, hun, ?_, ?_, ?_, hsdf.trans inv.sd⟩
            · intro j hj
              by_cases hji : j = i
              · subst hji
                simpa using hCI
              · simp only [Function.update_of_ne hji, hfl, hfm']
                exact inv.done j (by simp [hji, hj])
            · intro j hj
              have hji : j ≠ i := fun e => hi (e ▸ hj)
              simp only [Function.update_of_ne hji, hfl, hfm']
              exact inv.todo j (by simp [hj])
            · intro j
              by_cases hji : j = i
              · subst hji
                simp [hn]
              · simp only [Function.update_of_ne hji, hfl, hfm']
                exact inv.some j
          cases bounding with
          | true =>
            simp only [if_true, hm, hacc, Prod.mk.injEq, true_and] at h
            subst h
            exact key1 b inv.data rfl rfl rfl inv.union
          | false =>
            simp only [Bool.false_eq_true, if_false, hm, hacc, Prod.mk.injEq, true_and] at h
            subst h
            refine key1 ⟨b0.subDomains, b0.bounds, b0.networks, b.domainDim, b.entityDim, some tool, b.eps,
              b.epsIsSet, b.built, b0.confineUnion, b.sdFragments, b.fragLists, b.fragMaps⟩ ?_ rfl rfl rfl ?_
            · exact ⟨rfl, rfl, rfl, inv.data.domainDim, inv.data.entityDim, rfl⟩
            · intro u hu
              simp only [Option.some.injEq] at hu
              rw [← hu]; simpa using htool

theorem confine_inv {b0 : Builder Sh} {o : Orders} {eps : ℝ}
    (hb : ∀ j, b0.bounds j = none ↔ b0.subDomains j = none) (todo : List ℕ) :
    ∀ b b' : Builder Sh, todo.Nodup → (∀ i ∈ todo, b0.networks i ≠ none) →
    ConfineInv key occ b0 (o.subDomains.filterMap b0.subDomains) eps b todo →
    Builder.confine key occ o eps b todo = (.val (), b') →
    ConfineInv key occ b0 (o.subDomains.filterMap b0.subDomains) eps b' [] := by
  induction todo with
  | nil =>
    intro b b' _ _ inv h
    simp only [Builder.confine, Prod.mk.injEq, true_and] at h
    subst h
    exact inv
  | cons i t ih =>
    intro b b' hnd hn inv h
    simp only [Builder.confine] at h
    cases hc : Builder.confineOne key occ o eps b i with
    | mk r b1 =>
      rw [hc] at h
      cases r with
      | val u =>
        have := confineOne_inv key occ (List.nodup_cons.1 hnd).1 (hn i (by simp)) hb inv hc
        exact ih b1 b' (List.nodup_cons.1 hnd).2 (fun j hj => hn j (by simp [hj])) this h
      | thrown e => simp at h
      | nan => simp at h
      | ub => simp at h

theorem initializeBuild_inv (b : Builder Sh) (doms : List Sh) (eps : ℝ) (ids : List ℕ)
    (hids : ∀ i, i ∈ ids ↔ b.networks i ≠ none) :
    ConfineInv key occ b doms eps (Builder.initializeBuild key b.clearBuild) ids := by
  refine ⟨⟨rfl, rfl, rfl, rfl, rfl, rfl⟩, by simp [Builder.initializeBuild, Builder.clearBuild], ?_, ?_, ?_,
    rfl⟩
  · intro i hi
    have hn : b.networks i = none := by
      by_contra hne; exact hi ((hids i).2 hne)
    have hl : ((Builder.initializeBuild key b.clearBuild).fragLists i).getD [] = [] := by
      by_cases hs : (b.subDomains i).isSome <;>
        simp [Builder.initializeBuild, Builder.clearBuild, hn, hs]
    have hm : ((Builder.initializeBuild key b.clearBuild).fragMaps i).getD [] = [] := by
      by_cases hs : (b.subDomains i).isSome <;>
        simp [Builder.initializeBuild, Builder.clearBuild, hn, hs]
    rw [hl, hm]
    refine ⟨by simp [hn], by simp, by simp⟩
  · intro i hi
    obtain ⟨l, hl⟩ := Option.ne_none_iff_exists'.1 ((hids i).1 hi)
    by_cases hs : (b.subDomains i).isSome <;>
      simp [Builder.initializeBuild, Builder.clearBuild, hl, Builder.initialMap, hs]
  · intro i
    by_cases hn : b.networks i = none
    · by_cases hs : b.subDomains i = none
      · simp [Builder.initializeBuild, Builder.clearBuild, hn, hs]
      · have hs' : (b.subDomains i).isSome := Option.isSome_iff_ne_none.2 hs
        simp [Builder.initializeBuild, Builder.clearBuild, hn, hs, hs']
    · obtain ⟨l, hl⟩ := Option.ne_none_iff_exists'.1 hn
      simp [Builder.initializeBuild, Builder.clearBuild, hl]

/-! ## Fragmentation -/

omit [DecidableEq Sh] in
theorem bindAll_spec (l : List (Sh × ℕ)) : ∀ m : DMap Sh,
    (∀ t i, DMap.find key (l.foldl (fun m p => DMap.bind key m p.1 p.2) m) t = some i →
      DMap.find key m t = some i ∨ ∃ p ∈ l, key p.1 = key t ∧ p.2 = i) ∧
    (∀ t, (DMap.find key m t).isSome ∨ (∃ p ∈ l, key p.1 = key t) →
      (DMap.find key (l.foldl (fun m p => DMap.bind key m p.1 p.2) m) t).isSome) := by
  induction l with
  | nil => intro m; exact ⟨fun t i h => Or.inl h, fun t h => by simpa using h⟩
  | cons p l ih =>
    intro m
    obtain ⟨h1, h2⟩ := ih (DMap.bind key m p.1 p.2)
    refine ⟨fun t i h => ?_, fun t h => h2 t ?_⟩
    · rcases h1 t i h with h | ⟨q, hq, hk, hi⟩
      · rw [dfind_bind] at h
        split at h
        · rename_i he; cases h; exact Or.inr ⟨p, by simp, he.symm, rfl⟩
        · exact Or.inl h
      · exact Or.inr ⟨q, by simp [hq], hk, hi⟩
    · rw [dfind_bind]
      rcases h with h | ⟨q, hq, hk⟩
      · left; split
        · rfl
        · exact h
      · rcases List.mem_cons.1 hq with rfl | hq
        · left; rw [if_pos hk.symm]; rfl
        · exact Or.inr ⟨q, hq, hk⟩

theorem fragmentLoop_spec (h : Hist Sh) (sdOf : DMap Sh) (maps : ℕ → Option (DMap Sh)) (l : List Sh) :
    ∀ acc, (∀ g ∈ l, ∃ i m idx, DMap.find key sdOf g = some i ∧ maps i = some m ∧
      DMap.find key m g = some idx) →
    ∃ acc', Builder.fragmentLoop key h sdOf maps l acc = .val acc' ∧ ∀ i,
      (∀ f, f ∈ ((acc' i).getD ([], [])).1 ↔ f ∈ ((acc i).getD ([], [])).1 ∨
        ∃ g ∈ l, DMap.find key sdOf g = some i ∧ Piece h g f) ∧
      (∀ R : ℕ → K → Prop, Good key R ((acc i).getD ([], [])) →
        (∀ g ∈ l, DMap.find key sdOf g = some i → ∀ m idx, maps i = some m →
          DMap.find key m g = some idx → ∀ f, Piece h g f → R idx (key f)) →
        Good key R ((acc' i).getD ([], []))) ∧
      (acc' i = none ↔ acc i = none ∧ ∀ g ∈ l, DMap.find key sdOf g ≠ some i) := by
  induction l with
  | nil =>
    intro acc _
    exact ⟨acc, rfl, fun i => ⟨by simp, fun R hg _ => hg, by simp⟩⟩
  | cons g l ih =>
    intro acc hall
    obtain ⟨j, m, idx, e1, e2, e3⟩ := hall g (by simp)
    obtain ⟨c1, c2⟩ := collect_spec key h g idx ((acc j).getD ([], []))
    obtain ⟨acc', e, hi⟩ := ih (Function.update acc j (some (Builder.collect key h g idx
      ((acc j).getD ([], []))))) (fun x hx => hall x (by simp [hx]))
    refine ⟨acc', ?_, fun i => ?_⟩
    · simp only [Builder.fragmentLoop, e1, e2, e3]; exact e
    · obtain ⟨h1, h2, h3⟩ := hi i
      by_cases hij : i = j
      · subst hij
        simp only [Function.update_self, Option.getD_some] at h1 h2 h3
        refine ⟨fun f => ?_, fun R hg hR => ?_, ?_⟩
        · rw [h1, c1]
          simp only [List.mem_cons, exists_eq_or_imp, e1, true_and, or_assoc]
        · exact h2 R (c2 R hg (fun f hp => hR g (by simp) e1 m idx e2 e3 f hp))
            (fun x hx => hR x (by simp [hx]))
        · rw [h3]
          simp [e1]
      · simp only [Function.update_of_ne hij] at h1 h2 h3
        have hne : DMap.find key sdOf g ≠ some i := by
          rw [e1]; intro h; cases h; exact hij rfl
        refine ⟨fun f => ?_, fun R hg hR => ?_, ?_⟩
        · rw [h1]
          simp [hne]
        · exact h2 R hg (fun x hx => hR x (by simp [hx]))
        · rw [h3]
          simp [hne]

/-- Pieces appended to a list. -/
theorem foldl_append_mem (l : List Sh) : ∀ acc : List Sh, ∀ f,
    f ∈ l.foldl (fun l f => if f ∈ l then l else l ++ [f]) acc ↔ f ∈ acc ∨ f ∈ l := by
  induction l with
  | nil => intro acc f; simp
  | cons x l ih =>
    intro acc f
    rw [List.foldl_cons, ih, List.mem_cons, ← or_assoc]
    split
    · rename_i hx
      constructor
      · rintro (h | h)
        · exact Or.inl (Or.inl h)
        · exact Or.inr h
      · rintro ((h | rfl) | h)
        · exact Or.inl h
        · exact Or.inl hx
        · exact Or.inr h
    · simp

theorem domainLoop_spec (h : Hist Sh) (sdOf : DMap Sh) (l : List Sh) :
    ∀ acc, (∀ g ∈ l, (DMap.find key sdOf g).isSome) →
    ∃ acc', Builder.domainLoop key h sdOf l acc = .val acc' ∧ ∀ i,
      ∀ f, f ∈ (acc' i).getD [] ↔ f ∈ (acc i).getD [] ∨
        ∃ g ∈ l, DMap.find key sdOf g = some i ∧ Piece h g f := by
  induction l with
  | nil =>
    intro acc _
    exact ⟨acc, rfl, fun i => by simp⟩
  | cons g l ih =>
    intro acc hall
    obtain ⟨j, e1⟩ := Option.isSome_iff_exists.1 (hall g (by simp))
    simp only [Builder.domainLoop, e1]
    set newl := (h.modified g).foldl (fun l f => if f ∈ l then l else l ++ [f])
      ((h.generated g).foldl (fun l f => if f ∈ l then l else l ++ [f])
        (if (!h.isDeleted g && (h.generated g).isEmpty && (h.modified g).isEmpty) = true then
          (acc j).getD [] ++ [g] else (acc j).getD [])) with hnewl
    have hmem : ∀ f, f ∈ newl ↔ f ∈ (acc j).getD [] ∨ Piece h g f := by
      intro f
      rw [hnewl, foldl_append_mem, foldl_append_mem]
      have hcond : (!h.isDeleted g && (h.generated g).isEmpty && (h.modified g).isEmpty) = true ↔
          h.isDeleted g = false ∧ h.generated g = [] ∧ h.modified g = [] := by
        simp [and_assoc]
      by_cases hc : h.isDeleted g = false ∧ h.generated g = [] ∧ h.modified g = []
      · rw [if_pos (hcond.2 hc)]
        obtain ⟨a1, a2, a3⟩ := hc
        simp [Piece, a1, a2, a3]
      · rw [if_neg (fun h' => hc (hcond.1 h'))]
        unfold Piece
        constructor
        · rintro ((h' | h') | h')
          · exact Or.inl h'
          · exact Or.inr (Or.inr (Or.inl h'))
          · exact Or.inr (Or.inr (Or.inr h'))
        · rintro (h' | (h' | h' | h'))
          · exact Or.inl (Or.inl h')
          · exact absurd ⟨h'.1, h'.2.1, h'.2.2.1⟩ hc
          · exact Or.inl (Or.inr h')
          · exact Or.inr h'
    obtain ⟨acc', e, hi⟩ := ih (Function.update acc j (some newl)) (fun x hx => hall x (by simp [hx]))
    refine ⟨acc', e, fun i f => ?_⟩
    rw [hi i f]
    by_cases hij : i = j
    · subst hij
      simp only [Function.update_self, Option.getD_some, hmem]
      simp only [List.mem_cons, exists_eq_or_imp, e1, true_and, or_assoc]
    · simp only [Function.update_of_ne hij]
      have hne : DMap.find key sdOf g ≠ some i := by
        rw [e1]; intro h; cases h; exact hij rfl
      simp [hne]

/-- The entity shapes passed to the fragmentation, with the id of their network. -/
def IsConfinedPart (b0 : Builder Sh) (doms : List Sh) (eps : ℝ) (g : Sh) : Prop :=
  ∃ i, ∃ s ∈ (b0.networks i).getD [], Confined occ b0 doms eps i s g

theorem allEntities_mem {b0 b : Builder Sh} {o : Orders} {eps : ℝ} {doms : List Sh}
    (inv : ConfineInv key occ b0 doms eps b []) (ho : ∀ i, i ∈ o.lists ↔ b0.subDomains i ≠ none ∨ b0.networks i ≠ none)
    (x : Sh × ℕ) :
    x ∈ b.allEntities o ↔ ∃ s ∈ (b0.networks x.2).getD [], Confined occ b0 doms eps x.2 s x.1 := by
  obtain ⟨g, i⟩ := x
  simp only [Builder.allEntities, List.mem_flatMap, List.mem_map, Prod.mk.injEq]
  rw [← (inv.done i (by simp)).1]
  constructor
  · rintro ⟨j, _, s, hs, rfl, rfl⟩
    exact hs
  · intro hg
    refine ⟨i, ?_, g, hg, rfl, rfl⟩
    rw [ho]
    exact ((inv.some i).1).1 (fun hn => by rw [hn] at hg; simp at hg)

/-- The fragmentation succeeds if the CAD operation does, and registers the fragments. -/
theorem fragment_spec {b0 b : Builder Sh} {o : Orders} {eps : ℝ} {only : Bool}
    (inv : ConfineInv key occ b0 (o.subDomains.filterMap b0.subDomains) eps b []) (hv : ValidOrders o b0) {h : Hist Sh}
    (hgen : occ.general ((b.allEntities o).map (·.1) ++
      (if only then [] else o.subDomains.filterMap b0.subDomains)) eps = .val h) :
    ∃ b', Builder.fragment key occ o eps only b = (.val (), b') ∧
      (NoSharedShapes key occ b0 (o.subDomains.filterMap b0.subDomains) eps → ∀ i,
        (∀ f, f ∈ (b'.fragLists i).getD [] ↔ ∃ s ∈ (b0.networks i).getD [], ∃ g,
          Confined occ b0 (o.subDomains.filterMap b0.subDomains) eps i s g ∧ Piece h g f) ∧
        (∀ f ∈ (b'.fragLists i).getD [], ∃ p, DMap.find key ((b'.fragMaps i).getD []) f = some (p + 1) ∧
          StemsFrom key occ b0 (o.subDomains.filterMap b0.subDomains) eps h i p f) ∧
        (∀ x ∈ (b'.fragMaps i).getD [], ∃ p, x.2 = p + 1 ∧
          StemsFrom key occ b0 (o.subDomains.filterMap b0.subDomains) eps h i p x.1)) ∧
      (DistinctDomains key b0 → ∀ i f, f ∈ (b'.sdFragments i).getD [] ↔
        only = false ∧ ∃ sd, b0.subDomains i = some sd ∧ Piece h sd f) := by
  set doms := o.subDomains.filterMap b0.subDomains with hdoms
  have hmem := allEntities_mem key occ inv hv.lists.2
  obtain ⟨s1, s2⟩ := bindAll_spec key (b.allEntities o) []
  have hfound : ∀ g ∈ (b.allEntities o).map (·.1), ∃ i m idx,
      DMap.find key (Builder.bindAll key (b.allEntities o)) g = some i ∧ b.fragMaps i = some m ∧
      DMap.find key m g = some idx := by
    intro g hg
    obtain ⟨x, hx, rfl⟩ := List.mem_map.1 hg
    obtain ⟨i, hi⟩ := Option.isSome_iff_exists.1 (s2 x.1 (Or.inr ⟨x, hx, rfl⟩))
    rcases s1 x.1 i hi with hh | ⟨q, hq, hk, rfl⟩
    · simp [DMap.find] at hh
    · obtain ⟨ci1, ci2⟩ := inv.done q.2 (by simp)
      have hql : q.1 ∈ (b.fragLists q.2).getD [] := (ci1 q.1).2 ((hmem q).1 hq)
      have hbound := ci2.1 q.1 hql
      have hsome : b.fragMaps q.2 ≠ none := by
        rw [(inv.some q.2).2, ← (inv.some q.2).1]
        intro hn; rw [hn] at hql; simp at hql
      obtain ⟨m, hm⟩ := Option.ne_none_iff_exists'.1 hsome
      simp only [hm, Option.getD_some] at hbound
      obtain ⟨idx, hidx⟩ := Option.isSome_iff_exists.1 hbound
      refine ⟨q.2, m, idx, hi, hm, ?_⟩
      rw [← hidx]
      exact dfind_congr key m hk.symm
  obtain ⟨acc, hacc, hspec⟩ := fragmentLoop_spec key h (Builder.bindAll key (b.allEntities o)) b.fragMaps
    ((b.allEntities o).map (·.1)) (fun _ => none) hfound
  -- the sub-domains
  set dl : List (Sh × ℕ) := if only = true then [] else
    o.subDomains.filterMap (fun i => (b.subDomains i).map (fun s => (s, i))) with hdl
  have hdl1 : dl.map (·.1) = if only = true then [] else doms := by
    rw [hdl, hdoms, inv.data.subDomains]
    split
    · rfl
    · rw [List.map_filterMap]
      congr 1
      funext i
      cases b0.subDomains i <;> rfl
  have hdlmem : ∀ x : Sh × ℕ, x ∈ dl ↔ only = false ∧ b0.subDomains x.2 = some x.1 := by
    rintro ⟨s, i⟩
    rw [hdl, inv.data.subDomains]
    cases only with
    | true => simp
    | false =>
      simp only [Bool.false_eq_true, if_false, List.mem_filterMap, true_and]
      constructor
      · rintro ⟨j, _, hj⟩
        cases hs : b0.subDomains j with
        | none => rw [hs] at hj; simp at hj
        | some t =>
          rw [hs] at hj
          simp only [Option.map_some, Option.some.injEq, Prod.mk.injEq] at hj
          obtain ⟨rfl, rfl⟩ := hj
          exact hs
      · intro hs
        refine ⟨i, ?_, by rw [hs]; rfl⟩
        rw [hv.subDomains.2, hs]; simp
  obtain ⟨d1, d2⟩ := bindAll_spec key dl []
  obtain ⟨sd, hsd, hsdspec⟩ := domainLoop_spec key h (Builder.bindAll key dl) (dl.map (·.1)) b.sdFragments
    (fun g hg => by
      obtain ⟨x, hx, rfl⟩ := List.mem_map.1 hg
      exact d2 x.1 (Or.inr ⟨x, hx, rfl⟩))
  refine ⟨{ b with
      fragLists := fun i => match acc i with | some a => some a.1 | none => b.fragLists i
      fragMaps := fun i => match acc i with | some a => some a.2 | none => b.fragMaps i
      sdFragments := sd }, ?_, ?_, ?_⟩
  · unfold Builder.fragment
    simp only
    rw [← hdl, hdl1, hgen]
    simp only
    rw [hacc]
    simp only
    rw [hdl1] at hsd
    rw [hsd]
    rfl
  · intro hns i
    obtain ⟨f1, f2, f3⟩ := hspec i
    obtain ⟨ci1, ci2⟩ := inv.done i (by simp)
    have hsdof : ∀ g, (∃ s ∈ (b0.networks i).getD [], Confined occ b0 doms eps i s g) →
        g ∈ (b.allEntities o).map (·.1) ∧
          DMap.find key (Builder.bindAll key (b.allEntities o)) g = some i := by
      rintro g ⟨s, hs, hc⟩
      have hin : (g, i) ∈ b.allEntities o := (hmem (g, i)).2 ⟨s, hs, hc⟩
      refine ⟨List.mem_map.2 ⟨_, hin, rfl⟩, ?_⟩
      obtain ⟨j, hj⟩ := Option.isSome_iff_exists.1 (s2 g (Or.inr ⟨_, hin, rfl⟩))
      rcases s1 g j hj with hh | ⟨q, hq, hk, rfl⟩
      · simp [DMap.find] at hh
      · obtain ⟨t, ht, hct⟩ := (hmem q).1 hq
        by_cases hij : i = q.2
        · rw [hij]; exact hj
        · exact absurd hk.symm (hns i q.2 hij s hs t ht g q.1 hc hct)
    have hback : ∀ g ∈ (b.allEntities o).map (·.1),
        DMap.find key (Builder.bindAll key (b.allEntities o)) g = some i →
        ∃ s ∈ (b0.networks i).getD [], Confined occ b0 doms eps i s g := by
      intro g hg hi
      obtain ⟨⟨g', j⟩, hx, rfl⟩ := List.mem_map.1 hg
      obtain ⟨s, hs, hc⟩ := (hmem (g', j)).1 hx
      rcases s1 g' i hi with hh | ⟨q, hq, hk, rfl⟩
      · simp [DMap.find] at hh
      · obtain ⟨t, ht, hct⟩ := (hmem q).1 hq
        by_cases hij : j = q.2
        · subst hij; exact ⟨s, hs, hc⟩
        · exact absurd hk.symm (hns j q.2 hij s hs t ht g' q.1 hc hct)
    have hlist : ∀ f, f ∈ ((acc i).getD ([], [])).1 ↔ ∃ s ∈ (b0.networks i).getD [], ∃ g,
        Confined occ b0 doms eps i s g ∧ Piece h g f := by
      intro f
      rw [f1]
      simp only [Option.getD_none, List.not_mem_nil, false_or]
      constructor
      · rintro ⟨g, hg, hi, hp⟩
        obtain ⟨s, hs, hc⟩ := hback g hg hi
        exact ⟨s, hs, g, hc, hp⟩
      · rintro ⟨s, hs, g, hc, hp⟩
        obtain ⟨h1, h2⟩ := hsdof g ⟨s, hs, hc⟩
        exact ⟨g, h1, h2, hp⟩
    have hgood : Good key (fun idx k => ∃ p, idx = p + 1 ∧ ∃ f, key f = k ∧
        StemsFrom key occ b0 doms eps h i p f) ((acc i).getD ([], [])) := by
      apply f2
      · exact ⟨by simp, by simp⟩
      · intro g hg hgi m idx hm hidx f hp
        have := ci2.find key (t := g) (idx := idx) (by simp only [hm, Option.getD_some]; exact hidx)
        obtain ⟨p, s, s', g0, e1, e2, e3, e4, e5, rfl⟩ := this
        exact ⟨p, rfl, f, rfl, s, s', g0, g, f, e1, e2, e3, e4, e5.symm, hback g hg hgi, hp, rfl⟩
    have hstem : ∀ p f f', key f = key f' → StemsFrom key occ b0 doms eps h i p f →
        StemsFrom key occ b0 doms eps h i p f' := by
      rintro p f f' hk ⟨s, s', g, g', f0, a1, a2, a3, a4, a5, a6, a7, a8⟩
      exact ⟨s, s', g, g', f0, a1, a2, a3, a4, a5, a6, a7, a8.trans hk⟩
    cases ha : acc i with
    | none =>
      rw [ha] at hlist
      have hempty : ∀ g, ¬ ∃ s ∈ (b0.networks i).getD [], Confined occ b0 doms eps i s g := by
        intro g hg
        obtain ⟨h1, h2⟩ := hsdof g hg
        exact (f3.1 ha).2 g h1 h2
      have hl0 : (b.fragLists i).getD [] = [] := by
        apply List.eq_nil_iff_forall_not_mem.2
        intro g hg
        exact hempty g ((ci1 g).1 hg)
      simp only [ha]
      rw [hl0]
      refine ⟨hlist, by simp, ?_⟩
      intro x hx
      obtain ⟨p, s, s', g, e1, e2, e3, e4, e5, _⟩ := ci2.2 x hx
      exact absurd ⟨s', e2, e4⟩ (hempty g)
    | some a =>
      rw [ha] at hlist hgood
      simp only [ha, Option.getD_some] at *
      refine ⟨hlist, ?_, ?_⟩
      · intro f hf
        obtain ⟨idx, hidx⟩ := Option.isSome_iff_exists.1 (hgood.1 f hf)
        obtain ⟨p, rfl, f', hk, hst⟩ := hgood.find key hidx
        exact ⟨p, hidx, hstem p f' f hk hst⟩
      · intro x hx
        obtain ⟨p, e, f', hk, hst⟩ := hgood.2 x hx
        exact ⟨p, e, hstem p f' x.1 hk hst⟩
  · intro hdd i f
    simp only
    rw [hsdspec i f, inv.sd]
    simp only [Option.getD_none, List.not_mem_nil, false_or]
    constructor
    · rintro ⟨g, hg, hi, hp⟩
      obtain ⟨x, hx, rfl⟩ := List.mem_map.1 hg
      rcases d1 x.1 i hi with hh | ⟨q, hq, hk, rfl⟩
      · simp [DMap.find] at hh
      · obtain ⟨o1, hx'⟩ := (hdlmem x).1 hx
        obtain ⟨_, hq'⟩ := (hdlmem q).1 hq
        have := hdd q.2 x.2 q.1 x.1 hq' hx' hk
        exact ⟨o1, x.1, by rw [this]; exact hx', hp⟩
    · rintro ⟨ho, g, hg, hp⟩
      have hin : (g, i) ∈ dl := (hdlmem (g, i)).2 ⟨ho, hg⟩
      refine ⟨g, List.mem_map.2 ⟨_, hin, rfl⟩, ?_, hp⟩
      obtain ⟨j, hj⟩ := Option.isSome_iff_exists.1 (d2 g (Or.inr ⟨_, hin, rfl⟩))
      rcases d1 g j hj with hh | ⟨q, hq, hk, rfl⟩
      · simp [DMap.find] at hh
      · obtain ⟨_, hq'⟩ := (hdlmem q).1 hq
        have := hdd q.2 i q.1 g hq' hg hk
        rw [← this]; exact hj


/-! ## The whole build -/

theorem getEpsilon_eps (big : ℝ) (o : Orders) (b : Builder Sh) :
    ((Builder.initializeBuild key b.clearBuild).getEpsilon occ big o).eps.getD 0 = tolerance occ big o b := by
  unfold Builder.getEpsilon tolerance
  by_cases he : b.epsIsSet
  · have : (Builder.initializeBuild key b.clearBuild).epsIsSet = true := he
    rw [if_pos this, if_pos he]; rfl
  · have : ¬ (Builder.initializeBuild key b.clearBuild).epsIsSet = true := he
    rw [if_neg this, if_neg he]; rfl

theorem getEpsilon_inv {b0 b : Builder Sh} {doms : List Sh} {eps : ℝ} {ids : List ℕ} (big : ℝ) (o : Orders)
    (inv : ConfineInv key occ b0 doms eps b ids) :
    ConfineInv key occ b0 doms eps (b.getEpsilon occ big o) ids := by
  unfold Builder.getEpsilon
  split
  · exact inv
  · obtain ⟨⟨a1, a2, a3, a4, a5, a6⟩, h2, h3, h4, h5, h6⟩ := inv
    exact ⟨⟨a1, a2, a3, a4, a5, a6⟩, h2, h3, h4, h5, h6⟩

/-- What a successful build has registered. -/
structure BuildSpec (b0 : Builder Sh) (o : Orders) (eps : ℝ) (only : Bool) (b' : Builder Sh) (h : Hist Sh) :
    Prop where
  args : ∃ l, occ.general l eps = .val h ∧ ∀ g, g ∈ l ↔
    (∃ i, ∃ s ∈ (b0.networks i).getD [],
      Confined occ b0 (o.subDomains.filterMap b0.subDomains) eps i s g) ∨
    (only = false ∧ ∃ i, b0.subDomains i = some g)
  frags : NoSharedShapes key occ b0 (o.subDomains.filterMap b0.subDomains) eps → ∀ i,
    (∀ f, f ∈ (b'.fragLists i).getD [] ↔ ∃ s ∈ (b0.networks i).getD [], ∃ g,
      Confined occ b0 (o.subDomains.filterMap b0.subDomains) eps i s g ∧ Piece h g f) ∧
    (∀ f ∈ (b'.fragLists i).getD [], ∃ p, DMap.find key ((b'.fragMaps i).getD []) f = some (p + 1) ∧
      StemsFrom key occ b0 (o.subDomains.filterMap b0.subDomains) eps h i p f) ∧
    (∀ x ∈ (b'.fragMaps i).getD [], ∃ p, x.2 = p + 1 ∧
      StemsFrom key occ b0 (o.subDomains.filterMap b0.subDomains) eps h i p x.1)
  doms : DistinctDomains key b0 → ∀ i f, f ∈ (b'.sdFragments i).getD [] ↔
    only = false ∧ ∃ sd, b0.subDomains i = some sd ∧ Piece h sd f

theorem prepare_spec (big : ℝ) {b0 b' : Builder Sh} {o : Orders} {only : Bool} (hv : ValidOrders o b0)
    (hb : ∀ j, b0.bounds j = none ↔ b0.subDomains j = none)
    (h : Builder.prepare key occ big o only b0 = (.val (), b')) :
    ∃ hist, BuildSpec key occ b0 o (tolerance occ big o b0) only b' hist := by
  have inv0 := getEpsilon_inv key occ big o (initializeBuild_inv key occ b0
    (o.subDomains.filterMap b0.subDomains) (tolerance occ big o b0) o.networks hv.networks.2)
  unfold Builder.prepare at h
  simp only at h
  rw [getEpsilon_eps] at h
  generalize (Builder.initializeBuild key b0.clearBuild).getEpsilon occ big o = b1 at *
  generalize tolerance occ big o b0 = eps at *
  cases hc : Builder.confine key occ o eps b1 o.networks with
  | mk r b2 =>
    rw [hc] at h
    cases r with
    | thrown e => simp at h
    | nan => simp at h
    | ub => simp at h
    | val u =>
      have inv := confine_inv key occ hb o.networks b1 b2 hv.networks.1 (fun i hi => (hv.networks.2 i).1 hi)
        inv0 hc
      simp only at h
      have hdl : ((if only = true then [] else
          o.subDomains.filterMap (fun i => (b2.subDomains i).map (fun s => (s, i)))) : List (Sh × ℕ)).map (·.1)
          = if only = true then [] else o.subDomains.filterMap b0.subDomains := by
        rw [inv.data.subDomains]
        split
        · rfl
        · rw [List.map_filterMap]
          congr 1
          funext i
          cases b0.subDomains i <;> rfl
      cases hg : occ.general ((b2.allEntities o).map (·.1) ++
          (if only then [] else o.subDomains.filterMap b0.subDomains)) eps with
      | val hist =>
        obtain ⟨b3, e, s1, s2⟩ := fragment_spec key occ inv hv hg
        rw [e] at h
        simp only [Prod.mk.injEq, true_and] at h
        subst h
        refine ⟨hist, ⟨_, hg, fun g => ?_⟩, s1, s2⟩
        have hmem := allEntities_mem key occ inv hv.lists.2
        rw [List.mem_append]
        refine or_congr ?_ ?_
        · constructor
          · intro hg'
            obtain ⟨x, hx, rfl⟩ := List.mem_map.1 hg'
            exact ⟨x.2, (hmem x).1 hx⟩
          · rintro ⟨i, hi⟩
            exact List.mem_map.2 ⟨(g, i), (hmem (g, i)).2 hi, rfl⟩
        · cases only with
          | true => simp
          | false =>
            simp only [Bool.false_eq_true, if_false, List.mem_filterMap, true_and]
            constructor
            · rintro ⟨i, _, hi⟩; exact ⟨i, hi⟩
            · rintro ⟨i, hi⟩
              exact ⟨i, (hv.subDomains.2 i).2 (by rw [hi]; simp), hi⟩
      | thrown e =>
        unfold Builder.fragment at h
        simp only at h
        rw [hdl, hg] at h
        simp at h
      | nan =>
        unfold Builder.fragment at h
        simp only at h
        rw [hdl, hg] at h
        simp at h
      | ub =>
        unfold Builder.fragment at h
        simp only at h
        rw [hdl, hg] at h
        simp at h

theorem confineOne_succeeds {b0 : Builder Sh} {o : Orders} {eps : ℝ} {b : Builder Sh} {i : ℕ}
    {todo : List ℕ} (hv : ValidOrders o b0) (hk : KernelOk occ eps)
    (hb : ∀ j, b0.bounds j = none ↔ b0.subDomains j = none)
    (inv : ConfineInv key occ b0 (o.subDomains.filterMap b0.subDomains) eps b (i :: todo)) :
    ∃ b', Builder.confineOne key occ o eps b i = (.val (), b') := by
  obtain ⟨hl, hm⟩ := inv.todo i (by simp)
  unfold Builder.confineOne
  simp only [inv.data.networks, inv.data.subDomains, inv.data.bounds, inv.data.confineUnion]
  cases hsd : b0.subDomains i with
  | none => exact ⟨b, rfl⟩
  | some sd =>
    simp only
    cases hbd : b0.bounds i with
    | none => rw [(hb i).1 hbd] at hsd; cases hsd
    | some bounding =>
      simp only
      by_cases hno : bounding = false ∧ b0.confineUnion = false
      · rw [if_pos hno]; exact ⟨b, rfl⟩
      rw [if_neg hno, getSubDomainUnion_eq occ inv.data.subDomains inv.union]
      have hne : o.subDomains.filterMap b0.subDomains ≠ [] := by
        intro h0
        have : sd ∈ o.subDomains.filterMap b0.subDomains :=
          List.mem_filterMap.2 ⟨i, (hv.subDomains.2 i).2 (by rw [hsd]; simp), hsd⟩
        rw [h0] at this
        cases this
      have hun : (unionShape occ (o.subDomains.filterMap b0.subDomains) eps).isVal := by
        generalize o.subDomains.filterMap b0.subDomains = l at hne
        rcases l with _ | ⟨a, _ | ⟨c, t⟩⟩
        · exact absurd rfl hne
        · trivial
        · exact hk.2.2 _
      obtain ⟨tool, htool⟩ : ∃ tool, (if bounding = true then Outcome.val sd else
            unionShape occ (o.subDomains.filterMap b0.subDomains) eps) = .val tool := by
        cases bounding with
        | true => exact ⟨sd, rfl⟩
        | false =>
          cases hu : unionShape occ (o.subDomains.filterMap b0.subDomains) eps with
          | val t => exact ⟨t, rfl⟩
          | thrown e => rw [hu] at hun; exact hun.elim
          | nan => rw [hu] at hun; exact hun.elim
          | ub => rw [hu] at hun; exact hun.elim
      have hct : confinesTo occ b0 (o.subDomains.filterMap b0.subDomains) eps i = some (.val tool) := by
        rw [← htool]
        unfold confinesTo
        rw [hsd, hbd]
        cases bounding with
        | true => rfl
        | false =>
          have : b0.confineUnion = true := by
            by_contra hne
            exact hno ⟨rfl, by simpa using hne⟩
          simp [this]
      rw [htool]
      simp only
      cases hcom : occ.common ((b0.networks i).getD []) [tool] eps with
      | thrown e => have := hk.1 ((b0.networks i).getD []) [tool]; rw [hcom] at this; exact this.elim
      | nan => have := hk.1 ((b0.networks i).getD []) [tool]; rw [hcom] at this; exact this.elim
      | ub => have := hk.1 ((b0.networks i).getD []) [tool]; rw [hcom] at this; exact this.elim
      | val hist =>
        obtain ⟨acc, hacc, _⟩ := CI_confined key occ hct hcom
        cases bounding with
        | true => exact ⟨_, by simp only [if_true, hm, hacc]; rfl⟩
        | false => exact ⟨_, by simp only [Bool.false_eq_true, if_false, hm, hacc]; rfl⟩

theorem confine_succeeds {b0 : Builder Sh} {o : Orders} {eps : ℝ} (hv : ValidOrders o b0)
    (hk : KernelOk occ eps) (hb : ∀ j, b0.bounds j = none ↔ b0.subDomains j = none) (todo : List ℕ) :
    ∀ b : Builder Sh, todo.Nodup → (∀ i ∈ todo, b0.networks i ≠ none) →
    ConfineInv key occ b0 (o.subDomains.filterMap b0.subDomains) eps b todo →
    ∃ b', Builder.confine key occ o eps b todo = (.val (), b') := by
  induction todo with
  | nil => intro b _ _ _; exact ⟨b, rfl⟩
  | cons i t ih =>
    intro b hnd hn inv
    obtain ⟨b1, h1⟩ := confineOne_succeeds key occ hv hk hb inv
    have inv' := confineOne_inv key occ (List.nodup_cons.1 hnd).1 (hn i (by simp)) hb inv h1
    obtain ⟨b2, h2⟩ := ih b1 (List.nodup_cons.1 hnd).2 (fun j hj => hn j (by simp [hj])) inv'
    exact ⟨b2, by simp only [Builder.confine, h1, h2]⟩

theorem prepare_succeeds (big : ℝ) {b0 : Builder Sh} {o : Orders} {only : Bool} (hv : ValidOrders o b0)
    (hb : ∀ j, b0.bounds j = none ↔ b0.subDomains j = none)
    (hk : KernelOk occ (tolerance occ big o b0)) :
    ∃ b', Builder.prepare key occ big o only b0 = (.val (), b') := by
  have inv0 := getEpsilon_inv key occ big o (initializeBuild_inv key occ b0
    (o.subDomains.filterMap b0.subDomains) (tolerance occ big o b0) o.networks hv.networks.2)
  unfold Builder.prepare
  simp only
  rw [getEpsilon_eps]
  generalize (Builder.initializeBuild key b0.clearBuild).getEpsilon occ big o = b1 at *
  generalize tolerance occ big o b0 = eps at *
  obtain ⟨b2, h2⟩ := confine_succeeds key occ hv hk hb o.networks b1 hv.networks.1
    (fun i hi => (hv.networks.2 i).1 hi) inv0
  have inv := confine_inv key occ hb o.networks b1 b2 hv.networks.1 (fun i hi => (hv.networks.2 i).1 hi)
    inv0 h2
  rw [h2]
  simp only
  cases hg : occ.general ((b2.allEntities o).map (·.1) ++
      (if only then [] else o.subDomains.filterMap b0.subDomains)) eps with
  | val hist =>
    obtain ⟨b3, e, _⟩ := fragment_spec key occ inv hv hg
    exact ⟨b3, e⟩
  | thrown e => have := hk.2.1 ((b2.allEntities o).map (·.1) ++
      (if only then [] else o.subDomains.filterMap b0.subDomains)); rw [hg] at this; exact this.elim
  | nan => have := hk.2.1 ((b2.allEntities o).map (·.1) ++
      (if only then [] else o.subDomains.filterMap b0.subDomains)); rw [hg] at this; exact this.elim
  | ub => have := hk.2.1 ((b2.allEntities o).map (·.1) ++
      (if only then [] else o.subDomains.filterMap b0.subDomains)); rw [hg] at this; exact this.elim

end

variable {Sh K : Type} [DecidableEq Sh] [DecidableEq K] (key : Sh → K) (occ : Occ Sh) (big : ℝ)

/-! ## C44 Fragments map to the entity they stem from -/

/-- The claim for a network that has been built from a state: fragmentation was applied to the confined
parts of the entities and the sub-domains; the fragments of a network are the parts of the confined parts
of its entities, each is mapped to the position (from one) of an entity it stems from, and the fragments
of a sub-domain are its parts. -/
def FragmentsFromEntities (b : Builder Sh) (o : Orders) (eps : ℝ) (n : Builder.ContainedNetwork Sh) : Prop :=
  ∃ h : Hist Sh,
    (∃ l, occ.general l eps = .val h ∧ ∀ g, g ∈ l ↔
      (∃ i, ∃ s ∈ (b.networks i).getD [],
        Confined occ b (o.subDomains.filterMap b.subDomains) eps i s g) ∨
      (∃ i, b.subDomains i = some g)) ∧
    (∀ i f, f ∈ (n.entityFragments i).getD [] ↔ ∃ s ∈ (b.networks i).getD [], ∃ g,
      Confined occ b (o.subDomains.filterMap b.subDomains) eps i s g ∧ Piece h g f) ∧
    (∀ i, ∀ f ∈ (n.entityFragments i).getD [], ∃ p,
      DMap.find key ((n.indexMaps i).getD []) f = some (p + 1) ∧
      StemsFrom key occ b (o.subDomains.filterMap b.subDomains) eps h i p f) ∧
    (∀ i f, f ∈ (n.subDomainFragments i).getD [] ↔
      ∃ sd, b.subDomains i = some sd ∧ Piece h sd f)

/-- The full claim: for every history and every behaviour of the CAD kernel. -/
def C44_full : Prop :=
  ∀ (Sh K : Type) [DecidableEq Sh] [DecidableEq K] (key : Sh → K) (occ : Occ Sh) (big : ℝ)
    (ops : List (Op Sh)) (o : Orders) (n : Builder.ContainedNetwork Sh),
    ValidOrders o (runReg key occ big ops).1 →
    (Builder.buildContained key occ big o (runReg key occ big ops).1).1 = .val n →
    FragmentsFromEntities key occ (runReg key occ big ops).1 o
      (tolerance occ big o (runReg key occ big ops).1) n

/-- The claim holds for every history, every order of traversal and every behaviour of the CAD kernel, if
no shape object is registered for two sub-domains (missing: shared shape objects, for which the claim does
not hold, see `C44_disproof`). -/
theorem C44_contained_partial (ops : List (Op Sh)) (o : Orders) (n : Builder.ContainedNetwork Sh)
    (hv : ValidOrders o (runReg key occ big ops).1)
    (hns : NoSharedShapes key occ (runReg key occ big ops).1
      (o.subDomains.filterMap (runReg key occ big ops).1.subDomains)
      (tolerance occ big o (runReg key occ big ops).1))
    (hdd : DistinctDomains key (runReg key occ big ops).1)
    (hn : (Builder.buildContained key occ big o (runReg key occ big ops).1).1 = .val n) :
    FragmentsFromEntities key occ (runReg key occ big ops).1 o
      (tolerance occ big o (runReg key occ big ops).1) n := by
  have hinv := runReg_inv key occ big ops
  generalize (runReg key occ big ops).1 = b at *
  unfold Builder.buildContained at hn
  cases hp : Builder.prepare key occ big o false b with
  | mk r b' =>
    rw [hp] at hn
    cases r with
    | thrown e => simp at hn
    | nan => simp at hn
    | ub => simp at hn
    | val u =>
      obtain ⟨h, a, f, d⟩ := prepare_spec key occ big hv hinv.bounds hp
      simp only at hn
      cases he : b'.entityDim with
      | none => rw [he] at hn; simp at hn
      | some e =>
        cases hd : b'.domainDim with
        | none => rw [he, hd] at hn; simp at hn
        | some dd =>
          rw [he, hd] at hn
          simp only [Outcome.val.injEq] at hn
          subst hn
          refine ⟨h, ?_, fun i => (f hns i).1, fun i => (f hns i).2.1, ?_⟩
          · simpa using a
          · simpa using d hdd

/-- The same for networks without sub-domain fragments. -/
theorem C44_network_partial (ops : List (Op Sh)) (o : Orders) (n : Builder.Network Sh)
    (hv : ValidOrders o (runReg key occ big ops).1)
    (hns : NoSharedShapes key occ (runReg key occ big ops).1
      (o.subDomains.filterMap (runReg key occ big ops).1.subDomains)
      (tolerance occ big o (runReg key occ big ops).1))
    (hn : (Builder.buildNetwork key occ big o (runReg key occ big ops).1).1 = .val n) :
    ∃ h : Hist Sh,
      (∃ l, occ.general l (tolerance occ big o (runReg key occ big ops).1) = .val h ∧ ∀ g, g ∈ l ↔
        ∃ i, ∃ s ∈ ((runReg key occ big ops).1.networks i).getD [],
          Confined occ (runReg key occ big ops).1 (o.subDomains.filterMap (runReg key occ big ops).1.subDomains)
            (tolerance occ big o (runReg key occ big ops).1) i s g) ∧
      ∀ f, f ∈ n.fragments ↔ ∃ i, ∃ s ∈ ((runReg key occ big ops).1.networks i).getD [], ∃ g,
        Confined occ (runReg key occ big ops).1 (o.subDomains.filterMap (runReg key occ big ops).1.subDomains)
          (tolerance occ big o (runReg key occ big ops).1) i s g ∧ Piece h g f := by
  have hinv := runReg_inv key occ big ops
  generalize (runReg key occ big ops).1 = b at *
  unfold Builder.buildNetwork at hn
  cases hp : Builder.prepare key occ big o true b with
  | mk r b' =>
    rw [hp] at hn
    cases r with
    | thrown e => simp at hn
    | nan => simp at hn
    | ub => simp at hn
    | val u =>
      obtain ⟨h, a, f, d⟩ := prepare_spec key occ big hv hinv.bounds hp
      simp only at hn
      cases he : b'.entityDim with
      | none => rw [he] at hn; simp at hn
      | some e =>
        rw [he] at hn
        simp only [Outcome.val.injEq] at hn
        subst hn
        refine ⟨h, ?_, ?_⟩
        · simpa using a
        · intro x
          simp only [List.mem_flatMap]
          constructor
          · rintro ⟨i, _, hx⟩
            exact ⟨i, ((f hns i).1 x).1 hx⟩
          · rintro ⟨i, s, hs, hrest⟩
            refine ⟨i, ?_, ((f hns i).1 x).2 ⟨s, hs, hrest⟩⟩
            rw [hv.lists.2]
            right
            intro hnone
            rw [hnone] at hs
            simp at hs

/-- If no operation of the CAD kernel fails, the build succeeds: the internal errors (index not found)
never occur. -/
theorem C44_build_succeeds (ops : List (Op Sh)) (o : Orders)
    (hv : ValidOrders o (runReg key occ big ops).1)
    (hk : KernelOk occ (tolerance occ big o (runReg key occ big ops).1))
    (he : (runReg key occ big ops).2.entities ≠ []) :
    (Builder.buildNetwork key occ big o (runReg key occ big ops).1).1.isVal ∧
    ((runReg key occ big ops).2.domains ≠ [] →
      (Builder.buildContained key occ big o (runReg key occ big ops).1).1.isVal) := by
  have hinv := runReg_inv key occ big ops
  obtain ⟨e, hed, _⟩ := hinv.entDim (nonempty_net hinv he)
  have hdd : (runReg key occ big ops).2.domains ≠ [] →
      ∃ d, (runReg key occ big ops).1.domainDim = some d := by
    intro hne
    obtain ⟨x, hx⟩ := List.exists_mem_of_ne_nil _ hne
    exact ⟨_, hinv.domDim x hx⟩
  generalize (runReg key occ big ops).1 = b at *
  constructor
  · obtain ⟨b', hp⟩ := prepare_succeeds key occ big (only := true) hv hinv.bounds hk
    have hd := prepare_data key occ big o true b
    rw [hp] at hd
    unfold Builder.buildNetwork
    rw [hp]
    simp only
    rw [hd.entityDim, hed]
    trivial
  · intro hne
    obtain ⟨d, hd'⟩ := hdd hne
    obtain ⟨b', hp⟩ := prepare_succeeds key occ big (only := false) hv hinv.bounds hk
    have hd := prepare_data key occ big o false b
    rw [hp] at hd
    unfold Builder.buildContained
    rw [hp]
    simp only
    rw [hd.entityDim, hed, hd.domainDim, hd']
    trivial

/-- Confinement: if the CAD kernel keeps parts of common operations inside of the tool and parts of
fragmentations inside of what they are part of, then all fragments of a confined sub-domain lie inside the
shape it is confined to. -/
theorem C44_confined_partial (Inside : Sh → Sh → Prop) (ops : List (Op Sh)) (o : Orders)
    (n : Builder.ContainedNetwork Sh)
    (hcommon : ∀ l t eps h, occ.common l [t] eps = .val h → ∀ s ∈ l, ∀ g, Piece h s g → Inside g t)
    (hgeneral : ∀ l eps h, occ.general l eps = .val h → ∀ g ∈ l, ∀ f t, Piece h g f → Inside g t → Inside f t)
    (hv : ValidOrders o (runReg key occ big ops).1)
    (hns : NoSharedShapes key occ (runReg key occ big ops).1
      (o.subDomains.filterMap (runReg key occ big ops).1.subDomains)
      (tolerance occ big o (runReg key occ big ops).1))
    (hdd : DistinctDomains key (runReg key occ big ops).1)
    (hn : (Builder.buildContained key occ big o (runReg key occ big ops).1).1 = .val n)
    (i : ℕ) (tool : Sh)
    (ht : confinesTo occ (runReg key occ big ops).1
      (o.subDomains.filterMap (runReg key occ big ops).1.subDomains)
      (tolerance occ big o (runReg key occ big ops).1) i = some (.val tool)) :
    ∀ f ∈ (n.entityFragments i).getD [], Inside f tool := by
  obtain ⟨h, ⟨l, hl, hmem⟩, hfr, _, _⟩ := C44_contained_partial key occ big ops o n hv hns hdd hn
  intro f hf
  obtain ⟨s, hs, g, hc, hp⟩ := (hfr i f).1 hf
  have hg : g ∈ l := (hmem g).2 (Or.inl ⟨i, s, hs, hc⟩)
  refine hgeneral l _ h hl g hg f tool hp ?_
  simp only [Confined, ht] at hc
  obtain ⟨tool', h', e, hcom, hpc⟩ := hc
  cases e
  exact hcommon _ _ _ h' hcom s hs g hpc

/-! ### A shape object registered for two sub-domains -/

/-- Fragmentation splits shape 1 into 2 and 3. -/
def splitOcc : Occ ℕ :=
  ⟨fun _ _ _ => .val ⟨fun _ => false, fun _ => [], fun _ => []⟩,
    fun _ _ => .val ⟨fun _ => false, fun _ => [], fun s => if s = 1 then [2, 3] else []⟩,
    fun _ _ => .val 0, fun _ => 1⟩

/-- Two sub-domains without confinement, and the same face added to both. -/
def sharedOps : List (Op ℕ) :=
  [.setEpsilon 1, .setConfineToSubDomainUnion false, .addSubDomain (.val 3) (.val 10) 0,
    .addSubDomain (.val 3) (.val 20) 1, .addEntity (.val 2) (.val 1) 0, .addEntity (.val 2) (.val 1) 1]

/-- State after `sharedOps`. -/
noncomputable def sharedState : Builder ℕ :=
  { (Builder.init : Builder ℕ) with
    eps := some 1, epsIsSet := true, confineUnion := false, domainDim := some 3, entityDim := some 2
    subDomains := fun i => if i = 0 then some 10 else if i = 1 then some 20 else none
    bounds := fun i => if i = 0 then some false else if i = 1 then some false else none
    networks := fun i => if i = 0 then some [1] else if i = 1 then some [1] else none }

theorem shared_run : (runReg id splitOcc 1 sharedOps).1 = sharedState := by
  have e1 : ∀ s : ℕ, Function.update (Function.update (fun _ => none) 0 (some 10)) 1 (some s)
      = fun i => if i = 0 then some 10 else if i = 1 then some s else none := by
    intro s; funext i
    by_cases h0 : i = 0
    · subst h0; simp
    · by_cases h1 : i = 1
      · subst h1; simp
      · simp [h0, h1]
  have n0 : ¬ Builder.IsEmpty (Function.update (fun _ => none) 0 (some 10) : ℕ → Option ℕ) :=
    fun h => by have := h 0; simp at this
  have n1 : ¬ Builder.IsEmpty (Function.update (Function.update (fun _ => none) 0 (some 10)) 1 (some 20)
      : ℕ → Option ℕ) := fun h => by have := h 0; simp at this
  have n2 : ¬ Builder.IsEmpty (Function.update (fun _ => none) 0 (some [1]) : ℕ → Option (List ℕ)) :=
    fun h => by have := h 0; simp at this
  have em1 : Builder.IsEmpty (fun _ => none : ℕ → Option ℕ) := fun _ => rfl
  have em2 : Builder.IsEmpty (fun _ => none : ℕ → Option (List ℕ)) := fun _ => rfl
  simp [runReg, sharedOps, Builder.step, Builder.setEpsilon, Builder.setConfineToSubDomainUnion,
    Builder.addSubDomain, Builder.addSubDomainEntity, Builder.init, em1, em2, n0, n1, n2, sharedState]
  refine ⟨?_, ?_, ?_⟩
  all_goals
    funext i
    by_cases h0 : i = 0
    · subst h0; simp
    · by_cases h1 : i = 1
      · subst h1; simp
      · simp [h0, h1]

/-- The orders of traversal in the example. -/
def twoOrders : Orders := ⟨[0, 1], [0, 1], [0, 1], [0, 1]⟩

theorem shared_orders : ValidOrders twoOrders sharedState := by
  have hmem : ∀ i, i ∈ [0, 1] ↔ i = 0 ∨ i = 1 := by intro i; simp
  refine ⟨⟨by decide, fun i => ?_⟩, ⟨by decide, fun i => ?_⟩, ⟨by decide, fun i => ?_⟩,
    ⟨by decide, fun i => ?_⟩⟩
  all_goals
    simp only [twoOrders, hmem, sharedState]
    by_cases h0 : i = 0
    · simp [h0]
    · by_cases h1 : i = 1
      · simp [h1]
      · simp [h0, h1]

/-- The first sub-domain keeps the unfragmented face, all fragments are assigned to the other one. -/
theorem shared_build : ∃ n, (Builder.buildContained id splitOcc 1 twoOrders sharedState).1 = .val n ∧
    (n.entityFragments 0).getD [] = [1] ∧ (n.entityFragments 1).getD [] = [2, 3] := by
  refine ⟨_, rfl, ?_, ?_⟩ <;> rfl

theorem C44_disproof : ¬ C44_full := by
  intro H
  obtain ⟨n, hn, h0, _⟩ := shared_build
  have := H ℕ ℕ id splitOcc 1 sharedOps twoOrders n (by rw [shared_run]; exact shared_orders)
    (by rw [shared_run]; exact hn)
  rw [shared_run] at this
  obtain ⟨h, ⟨l, hl, _⟩, hfr, _⟩ := this
  have h1 := (hfr 0 1).1 (by rw [h0]; simp)
  obtain ⟨s, hs, g, hc, hp⟩ := h1
  simp only [splitOcc, Outcome.val.injEq] at hl
  subst hl
  have hs1 : s = 1 := by simpa [sharedState] using hs
  subst hs1
  have hg : g = 1 := by
    simpa [Confined, confinesTo, sharedState] using hc
  subst hg
  simp [Piece] at hp

/-! ### Non-trivial instance -/

/-- Two faces in one confining volume; confinement removes the part 3 of face 1, fragmentation splits the
rest. -/
def cutOcc : Occ ℕ :=
  ⟨fun _ _ _ => .val ⟨fun _ => false, fun _ => [], fun s => if s = 1 then [4] else []⟩,
    fun _ _ => .val ⟨fun _ => false, fun _ => [], fun s => if s = 4 then [5, 6] else []⟩,
    fun _ _ => .val 0, fun _ => 1⟩

/-- State with a confining sub-domain and two faces. -/
noncomputable def cutState : Builder ℕ :=
  { (Builder.init : Builder ℕ) with
    eps := some 1, epsIsSet := true, domainDim := some 3, entityDim := some 2
    subDomains := fun i => if i = 0 then some 10 else none
    bounds := fun i => if i = 0 then some true else none
    networks := fun i => if i = 0 then some [1, 2] else none }

example : ∃ n, (Builder.buildContained id cutOcc 1 ⟨[0], [0], [0], [0]⟩ cutState).1 = .val n ∧
    n.entityFragments 0 = some [5, 6, 2] ∧ n.indexMaps 0 = some [(5, 1), (6, 1), (2, 2)] ∧
    n.subDomainFragments 0 = some [10] := by
  refine ⟨_, rfl, ?_, ?_, ?_⟩ <;> rfl

example : NoSharedShapes id cutOcc cutState [10] 1 ∧ DistinctDomains id cutState ∧
    ValidOrders ⟨[0], [0], [0], [0]⟩ cutState ∧ KernelOk cutOcc 1 := by
  refine ⟨?_, ?_, ⟨⟨by decide, fun i => ?_⟩, ⟨by decide, fun i => ?_⟩, ⟨by decide, fun i => ?_⟩,
    ⟨by decide, fun i => ?_⟩⟩, ⟨fun _ _ => trivial, fun _ => trivial, fun _ => trivial⟩⟩
  · intro i j hij s hs t ht
    by_cases h0 : i = 0
    · have h1 : j ≠ 0 := fun e => hij (h0.trans e.symm)
      simp [cutState, h1] at ht
    · simp [cutState, h0] at hs
  · intro i j s t hs ht _
    by_cases h0 : i = 0
    · by_cases h1 : j = 0
      · rw [h0, h1]
      · simp [cutState, h1] at ht
    · simp [cutState, h0] at hs
  all_goals
    by_cases h0 : i = 0
    · simp [cutState, h0]
    · simp [cutState, h0]

end Props
