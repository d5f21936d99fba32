import Verif.Props.GeoText
import Verif.Props.Fragments
import Verif.Props.BuildLifecycle

/-!
# Tags in Gmsh files
-/

namespace Props
open Verif Frackit Spec.BRep
open Frackit.Builder (Network ContainedNetwork)

section
variable {Sh K : Type} [DecidableEq Sh] [DecidableEq K] (key : Sh → K) (occ : Occ Sh) (big : ℝ)

/-- All values of a map are positive. -/
def PositiveMap (m : DMap Sh) : Prop := ∀ p ∈ m, 0 < p.2

omit [DecidableEq Sh] in
theorem positive_bind {m : DMap Sh} (h : PositiveMap m) (s : Sh) {i : ℕ} (hi : 0 < i) : PositiveMap (DMap.bind key m s i) := by
  intro p hp
  unfold DMap.bind at hp
  split at hp
  · obtain ⟨q, hq, rfl⟩ := List.mem_map.1 hp
    split
    · exact hi
    · exact h q hq
  · rcases List.mem_append.1 hp with hp | hp
    · exact h p hp
    · rw [List.mem_singleton.1 hp]; exact hi

omit [DecidableEq Sh] in
theorem positive_find {m : DMap Sh} (h : PositiveMap m) {s : Sh} {i : ℕ} (hf : DMap.find key m s = some i) : 0 < i := by
  unfold DMap.find at hf
  obtain ⟨p, hp, rfl⟩ := Option.map_eq_some_iff.1 hf
  exact h p (List.mem_of_find?_eq_some hp)

omit [DecidableEq Sh] in
theorem positive_init (l : List Sh) (a : DMap Sh × ℕ) (ha : PositiveMap a.1 ∧ 0 < a.2) :
    PositiveMap (l.foldl (fun (a : DMap Sh × ℕ) s => (DMap.bind key a.1 s a.2, a.2 + 1)) a).1 := by
  induction l generalizing a with
  | nil => exact ha.1
  | cons s t ih => exact ih _ ⟨positive_bind key ha.1 s ha.2, Nat.succ_pos _⟩

theorem positive_addFragments (idx : ℕ) (hi : 0 < idx) (l : List Sh) (acc : List Sh × DMap Sh) (h : PositiveMap acc.2) :
    PositiveMap (l.foldl (Builder.addFragment key idx) acc).2 := by
  induction l generalizing acc with
  | nil => exact h
  | cons f t ih =>
    refine ih _ ?_
    unfold Builder.addFragment
    simp only
    split
    · exact h
    · exact positive_bind key h f hi

theorem positive_collect (h : Hist Sh) (s : Sh) (idx : ℕ) (hi : 0 < idx) (acc : List Sh × DMap Sh)
    (ha : PositiveMap acc.2) : PositiveMap (Builder.collect key h s idx acc).2 := by
  unfold Builder.collect
  simp only
  refine positive_addFragments key idx hi _ _ (positive_addFragments key idx hi _ _ ?_)
  split
  · exact positive_bind key ha s hi
  · exact ha

theorem positive_confineLoop (h : Hist Sh) (m : DMap Sh) (hm : PositiveMap m) (l : List Sh) (acc r : List Sh × DMap Sh)
    (ha : PositiveMap acc.2) (hr : Builder.confineLoop key h m l acc = .val r) : PositiveMap r.2 := by
  induction l generalizing acc with
  | nil => cases hr; exact ha
  | cons s t ih =>
    simp only [Builder.confineLoop] at hr
    cases hf : DMap.find key m s with
    | none => rw [hf] at hr; cases hr
    | some idx =>
      rw [hf] at hr
      exact ih _ (positive_collect key h s idx (positive_find key hm hf) acc ha) hr

/-- All index maps of a builder have positive values. -/
def PositiveMaps (maps : ℕ → Option (DMap Sh)) : Prop := ∀ i m, maps i = some m → PositiveMap m

omit [DecidableEq Sh] in
theorem positive_getD {maps : ℕ → Option (DMap Sh)} (h : PositiveMaps maps) (i : ℕ) : PositiveMap ((maps i).getD []) := by
  cases hm : maps i with
  | none => intro p hp; cases hp
  | some m => exact h i m hm

theorem positive_confineOne (o : Orders) (eps : ℝ) (b : Builder Sh) (i : ℕ) (h : PositiveMaps b.fragMaps) :
    PositiveMaps (Builder.confineOne key occ o eps b i).2.fragMaps := by
  unfold Builder.confineOne
  simp only
  split
  · exact h
  · split
    · exact h
    · split
      · exact h
      · split
        · exact h
        · exact h
        · exact h
        · rename_i tool _
          have hb : ∀ c : Bool, PositiveMaps (if c then b else { b with union := some tool }).fragMaps := by
            intro c; cases c <;> exact h
          split
          · exact hb _
          · exact hb _
          · exact hb _
          · split
            · rename_i acc hacc
              intro j m hm
              simp only at hm
              by_cases hj : j = i
              · subst hj
                rw [Function.update_self] at hm
                cases hm
                exact positive_confineLoop key _ _ (positive_getD (hb _) j) _ ([], []) acc (by intro p hp; cases hp) hacc
              · rw [Function.update_of_ne hj] at hm
                exact hb _ j m hm
            · exact hb _
            · exact hb _
            · exact hb _

theorem positive_confine (o : Orders) (eps : ℝ) (ids : List ℕ) (b : Builder Sh) (h : PositiveMaps b.fragMaps) :
    PositiveMaps (Builder.confine key occ o eps b ids).2.fragMaps := by
  induction ids generalizing b with
  | nil => exact h
  | cons i t ih =>
    have h1 := positive_confineOne key occ o eps b i h
    unfold Builder.confine
    split
    · rename_i b' hb'
      rw [hb'] at h1
      exact ih b' h1
    · exact h1

theorem positive_fragmentLoop (h : Hist Sh) (sdOf : DMap Sh) (maps : ℕ → Option (DMap Sh)) (hm : PositiveMaps maps)
    (l : List Sh) (acc r : ℕ → Option (List Sh × DMap Sh)) (ha : ∀ i a, acc i = some a → PositiveMap a.2)
    (hr : Builder.fragmentLoop key h sdOf maps l acc = .val r) : ∀ i a, r i = some a → PositiveMap a.2 := by
  induction l generalizing acc with
  | nil => cases hr; exact ha
  | cons s t ih =>
    simp only [Builder.fragmentLoop] at hr
    split at hr
    · cases hr
    · rename_i i _
      split at hr
      · cases hr
      · rename_i m hmi
        split at hr
        · cases hr
        · rename_i idx hidx
          refine ih _ ?_ hr
          intro j a hj
          by_cases hji : j = i
          · subst hji
            rw [Function.update_self] at hj
            cases hj
            refine positive_collect key h s idx (positive_find key (hm _ _ hmi) hidx) _ ?_
            cases haj : acc j with
            | none => intro p hp; cases hp
            | some a' => exact ha j a' haj
          · rw [Function.update_of_ne hji] at hj
            exact ha j a hj

omit [DecidableEq Sh] in
theorem positive_initializeBuild (b : Builder Sh) (h : ∀ i, b.fragMaps i = none) :
    PositiveMaps (Builder.initializeBuild key b).fragMaps := by
  intro i m hm
  simp only [Builder.initializeBuild] at hm
  rw [h] at hm
  cases hs : b.subDomains i with
  | none =>
    rw [hs] at hm
    cases hn : b.networks i with
    | none => rw [hn] at hm; cases hm
    | some l =>
      rw [hn] at hm
      cases hm
      exact positive_init key _ _ ⟨(by intro p hp; cases hp), Nat.one_pos⟩
  | some d =>
    rw [hs] at hm
    cases hn : b.networks i with
    | none => rw [hn] at hm; cases hm; intro p hp; cases hp
    | some l =>
      rw [hn] at hm
      cases hm
      exact positive_init key _ _ ⟨(by intro p hp; cases hp), Nat.one_pos⟩

theorem positive_prepare (o : Orders) (only : Bool) (b b' : Builder Sh)
    (h : Builder.prepare key occ big o only b = (.val (), b')) : PositiveMaps b'.fragMaps := by
  unfold Builder.prepare at h
  simp only at h
  have h0 : PositiveMaps ((Builder.initializeBuild key b.clearBuild).getEpsilon occ big o).fragMaps := by
    have e : ((Builder.initializeBuild key b.clearBuild).getEpsilon occ big o).fragMaps =
        (Builder.initializeBuild key b.clearBuild).fragMaps := by
      unfold Builder.getEpsilon Builder.setDefaultEpsilon
      split <;> rfl
    rw [e]
    exact positive_initializeBuild key _ fun _ => rfl
  have h1 := positive_confine key occ o
    (((Builder.initializeBuild key b.clearBuild).getEpsilon occ big o).eps.getD 0) o.networks _ h0
  split at h
  · rename_i b1 hb1
    rw [hb1] at h1
    unfold Builder.fragment at h
    simp only at h
    split at h
    · cases h
    · cases h
    · cases h
    · split at h
      · cases h
      · cases h
      · cases h
      · rename_i acc hacc
        split at h
        · cases h
          intro i m hm
          simp only at hm
          split at hm
          · rename_i a ha
            cases hm
            exact positive_fragmentLoop key _ _ _ h1 _ _ acc (by intro i a h; cases h) hacc i a ha
          · exact h1 i m hm
        · cases h
        · cases h
        · cases h
  · rename_i hne
    exact absurd h (hne _ _)

/-- The index maps of a contained network that is built have positive values. -/
theorem positive_buildContained {o : Orders} {b : Builder Sh} {n : ContainedNetwork Sh}
    (h : (Builder.buildContained key occ big o b).1 = .val n) : PositiveMaps n.indexMaps := by
  unfold Builder.buildContained at h
  split at h
  · rename_i b' hb
    have hp := positive_prepare key occ big o false b b' hb
    split at h
    · cases h; exact hp
    · cases h
  · cases h
  · cases h
  · cases h

omit [DecidableEq Sh] in
theorem positive_foldl_bind (f : ℕ → ℕ) (hf : ∀ i, 0 < i → 0 < f i) (l : DMap Sh) (hl : PositiveMap l) (a : DMap Sh)
    (ha : PositiveMap a) : PositiveMap (l.foldl (fun a p => DMap.bind key a p.1 (f p.2)) a) := by
  induction l generalizing a with
  | nil => exact ha
  | cons q t ih =>
    exact ih (fun p hp => hl p (List.mem_cons_of_mem _ hp)) _
      (positive_bind key ha _ (hf _ (hl q List.mem_cons_self)))

omit [DecidableEq Sh] in
theorem positive_mergeMaps (maps : ℕ → Option (DMap Sh)) (h : PositiveMaps maps) (ids : List ℕ) (off : ℕ) (a : DMap Sh)
    (ha : PositiveMap a) : PositiveMap (Builder.mergeMaps key maps ids off a) := by
  induction ids generalizing off a with
  | nil => exact ha
  | cons i t ih =>
    refine ih _ _ (positive_foldl_bind key (fun v => v + off) (fun v hv => Nat.add_pos_left hv _) _ ?_ _ ha)
    cases hm : maps i with
    | none => intro p hp; cases hp
    | some m => exact h i m hm

/-- The index map of a network that is built has positive values. -/
theorem positive_buildNetwork {o : Orders} {b : Builder Sh} {n : Network Sh}
    (h : (Builder.buildNetwork key occ big o b).1 = .val n) : PositiveMap n.indexMap := by
  unfold Builder.buildNetwork at h
  split at h
  · rename_i b' hb
    have hp := positive_prepare key occ big o true b b' hb
    split at h
    · cases h
      exact positive_mergeMaps key _ hp _ _ _ (by intro p hp; cases hp)
    · cases h
  · cases h
  · cases h
  · cases h

/-! ## C103 Tags of physical groups are strictly positive -/

variable (T : Topo Sh)

/-- All tags of physical groups, and all items, are positive. -/
def PositiveTags (cs : List Spec.Geo.Command) : Prop :=
  ∀ k tag l, Spec.Geo.Command.physical k tag l ∈ cs → 0 < tag ∧ ∀ i ∈ l, 0 < i

/-- What Gmsh requires: the tags of the physical groups in the files written for contained networks are positive, for all
networks that are built, whatever the ids of the sub-domains. -/
def C103_full : Prop :=
  ∀ (Sh K : Type) [DecidableEq Sh] [DecidableEq K] (key : Sh → K) (occ : Occ Sh) (big : ℝ) (T : Topo Sh),
    Laws key T → ∀ (ops : List (Builder.Op Sh)) (o : Orders) (n : ContainedNetwork Sh),
    (Builder.buildContained key occ big o (runFrom key occ big Builder.init ops)).1 = .val n →
    ∀ (ids : List ℕ) (w : BRepWriter Sh), BRepWriter.ofContained key T ids n = .val w →
    ∀ (dOrd eOrd iOrd : List ℕ), IsTraversal w.domainToFragments dOrd → IsTraversal w.entityToFragments eOrd →
    IsTraversal w.intersectionsToFragments iOrd → ∀ (name : List Char), (∀ c ∈ name, c ≠ '"') → ∀ (h1 h2 : ℝ)
    (text : List Char) (cs : List Spec.Geo.Command), GmshWriter.text name h1 h2 dOrd eOrd iOrd w = .val text →
    Spec.Geo.read text = some cs → PositiveTags cs

/-- Networks that are not contained in domains: all tags and all items are positive. -/
theorem C103_network (ops : List (Builder.Op Sh)) (o : Orders) (n : Network Sh)
    (hb : (Builder.buildNetwork key occ big o (runFrom key occ big Builder.init ops)).1 = .val n)
    (w : BRepWriter Sh) (h : BRepWriter.ofNetwork key T n = .val w) {dOrd eOrd iOrd : List ℕ}
    (hd : IsTraversal w.domainToFragments dOrd) (he : IsTraversal w.entityToFragments eOrd)
    (hi : IsTraversal w.intersectionsToFragments iOrd) (name : List Char) (hq : ∀ c ∈ name, c ≠ '"') (h1 h2 : ℝ)
    (text : List Char) (cs : List Spec.Geo.Command) (ht : GmshWriter.text name h1 h2 dOrd eOrd iOrd w = .val text)
    (hr : Spec.Geo.read text = some cs) : PositiveTags cs := by
  obtain ⟨text', cs', t1, t2, g1, g2, g3, -⟩ := C99_groups name hq h1 h2 w hd he hi
  rw [t1] at ht; cases ht
  rw [t2] at hr; cases hr
  have hpos := positive_buildNetwork key occ big hb
  obtain ⟨-, hw, hix, -⟩ := ofNetwork_val key T h
  have hpos' : PositiveMap w.indexMap := by
    rw [hix]
    exact positive_foldl_bind key (fun v => v) (fun v hv => hv) _ hpos _ (by intro p hp; cases hp)
  have hex := C48_network_partial key T n w h
  intro k tag l hm
  cases k with
  | volume =>
    have hl := (g1 tag l).1 hm
    obtain ⟨o', -, o2, o3⟩ := hw.owners
    obtain ⟨i, hil⟩ := List.exists_mem_of_ne_nil _ hl.1
    rw [hl.2, o3, mem_indicesOf] at hil
    obtain ⟨p, -, h2, -⟩ := hil
    exact (o2 p (List.mem_of_getElem? h2)).elim
  | surface =>
    have hl := (g2 tag l).1 hm
    have hx : ∀ i ∈ l, 0 < i ∧ 0 < tag := by
      intro i hil
      rw [hl.2] at hil
      obtain ⟨x, hx, e⟩ := (listed_entities key T hw.face tag i).1 hil
      exact ⟨hx.1, positive_find key hpos' e⟩
    obtain ⟨i, hil⟩ := List.exists_mem_of_ne_nil _ hl.1
    exact ⟨(hx i hil).2, fun i hi => (hx i hi).1⟩
  | line =>
    have hl := (g3 tag l).1 hm
    refine ⟨Nat.pos_of_ne_zero ?_, fun i hil => ?_⟩
    · rintro rfl
      rw [hw.face.wire.edge.isZero] at hl
      exact hl.1 hl.2
    · rw [hl.2] at hil
      obtain ⟨x, hx, -⟩ := hex.sound tag i hil
      exact hx.1

/-- Contained networks: all tags and all items are positive, except for the tag 0 of the volumes of a sub-domain with
the id 0.  Missing: volumes of a sub-domain with the id 0, see `C103_disproof`. -/
theorem C103_partial (laws : Laws key T) (ops : List (Builder.Op Sh)) (o : Orders) (n : ContainedNetwork Sh)
    (hb : (Builder.buildContained key occ big o (runFrom key occ big Builder.init ops)).1 = .val n)
    (ids : List ℕ) (w : BRepWriter Sh) (h : BRepWriter.ofContained key T ids n = .val w) {dOrd eOrd iOrd : List ℕ}
    (hd : IsTraversal w.domainToFragments dOrd) (he : IsTraversal w.entityToFragments eOrd)
    (hi : IsTraversal w.intersectionsToFragments iOrd) (name : List Char) (hq : ∀ c ∈ name, c ≠ '"') (h1 h2 : ℝ)
    (text : List Char) (cs : List Spec.Geo.Command) (ht : GmshWriter.text name h1 h2 dOrd eOrd iOrd w = .val text)
    (hr : Spec.Geo.read text = some cs) :
    (∀ k tag l, Spec.Geo.Command.physical k tag l ∈ cs → 0 < tag ∨ (k = .volume ∧ tag = 0 ∧ 0 ∈ ids)) ∧
    (∀ k tag l, Spec.Geo.Command.physical k tag l ∈ cs → ∀ i ∈ l, 0 < i) ∧ (0 ∉ ids → PositiveTags cs) := by
  obtain ⟨text', cs', t1, t2, g1, g2, g3, -⟩ := C99_groups name hq h1 h2 w hd he hi
  rw [t1] at ht; cases ht
  rw [t2] at hr; cases hr
  obtain ⟨vs, es, ws, fs, shs, sos, file, -, -, f1, -, -, f2, -, f3, -, f4, -, -, -⟩ :=
    C49_contained key T laws ids n w h hd he hi
  obtain ⟨file', e1, -, e2, e3, e4, -, -⟩ := write_val w hd he hi
  rw [e1] at f1; cases f1
  have hpos := positive_buildContained key occ big hb
  obtain ⟨-, -, frags, -, hs, -⟩ := ofContained_val key T h
  have hT : ∀ k tag l, Spec.Geo.Command.physical k tag l ∈ cs →
      (0 < tag ∨ (k = .volume ∧ tag = 0 ∧ 0 ∈ ids)) ∧ ∀ i ∈ l, 0 < i := by
    intro k tag l hm
    cases k with
    | volume =>
      have hl := (g1 tag l).1 hm
      have hdef := (e2 tag l).2 hl
      refine ⟨?_, fun i hil => ?_⟩
      · obtain ⟨i, hil⟩ := List.exists_mem_of_ne_nil _ hl.1
        obtain ⟨x, -, f, hf, -⟩ := f2 tag l hdef i hil
        rcases Nat.eq_zero_or_pos tag with rfl | h0
        · exact Or.inr ⟨rfl, rfl, hf.1⟩
        · exact Or.inl h0
      · obtain ⟨x, hx, -⟩ := f2 tag l hdef i hil
        exact hx.1
    | surface =>
      have hl := (g2 tag l).1 hm
      have hdef := (e3 tag l).2 hl
      refine ⟨Or.inl ?_, fun i hil => ?_⟩
      · obtain ⟨i, hil⟩ := List.exists_mem_of_ne_nil _ hl.1
        obtain ⟨x, -, pre, d, post, -, v, ⟨p, hp, -, rfl⟩, rfl⟩ := f3 tag l hdef i hil
        refine Nat.add_pos_left ?_ _
        cases hm' : n.indexMaps d with
        | none => rw [hm'] at hp; cases hp
        | some m => rw [hm'] at hp; exact hpos d m hm' p hp
      · obtain ⟨x, hx, -⟩ := f3 tag l hdef i hil
        exact hx.1
    | line =>
      have hl := (g3 tag l).1 hm
      have hdef := (e4 tag l).2 hl
      refine ⟨Or.inl (Nat.pos_of_ne_zero ?_), fun i hil => ?_⟩
      · rintro rfl
        rw [hs.face.wire.edge.isZero] at hl
        exact hl.1 hl.2
      · obtain ⟨x, hx, -⟩ := f4 tag l hdef i hil
        exact hx.1
  refine ⟨fun k tag l hm => (hT k tag l hm).1, fun k tag l hm => (hT k tag l hm).2, fun h0 k tag l hm =>
    ⟨(hT k tag l hm).1.resolve_right fun hv => h0 hv.2.2, (hT k tag l hm).2⟩⟩

end

/-- A kernel in which nothing intersects. -/
noncomputable def quietOcc : Occ (ℕ × Bool) :=
  ⟨fun _ _ _ => .val ⟨fun _ => false, fun _ => [], fun _ => []⟩,
    fun _ _ => .val ⟨fun _ => false, fun _ => [], fun _ => []⟩,
    fun _ _ => .val (0, true), fun _ => 1⟩

/-- The network of a domain and a face, with the given id. -/
noncomputable def faceNetwork (id : ℕ) : ContainedNetwork (ℕ × Bool) where
  entityDim := 2
  domainDim := 3
  subDomainFragments := Function.update (fun _ => none) id (some [(1, true)])
  entityFragments := Function.update (fun _ => none) id (some [(5, true)])
  indexMaps := Function.update (fun _ => none) id (some [((5, true), 1)])

theorem faceNetwork_built (id : ℕ) : (Builder.buildContained Prod.fst quietOcc 10 ⟨[id], [id], [id], [id]⟩
    (runFrom Prod.fst quietOcc 10 Builder.init
      [.addSubDomain (.val 3) (.val (1, true)) id, .addEntity (.val 2) (.val (5, true)) id])).1 =
    .val (faceNetwork id) := by
  have em1 : Builder.IsEmpty (fun _ => none : ℕ → Option (ℕ × Bool)) := fun _ => rfl
  have em2 : Builder.IsEmpty (fun _ => none : ℕ → Option (List (ℕ × Bool))) := fun _ => rfl
  have n1 : ∀ i s (m : ℕ → Option (ℕ × Bool)), ¬ Builder.IsEmpty (Function.update m i (some s)) :=
    fun i s m h => by have := h i; simp at this
  have n2 : ∀ i s (m : ℕ → Option (List (ℕ × Bool))), ¬ Builder.IsEmpty (Function.update m i (some s)) :=
    fun i s m h => by have := h i; simp at this
  simp [runFrom, Builder.step, Builder.addSubDomainEntity, Builder.addSubDomain, Builder.init, em1, em2,
      Builder.buildContained, Builder.prepare, Builder.initializeBuild, Builder.clearBuild, Builder.getEpsilon,
      Builder.setDefaultEpsilon, Builder.defaultEpsilon, n1, n2, Builder.confine, Builder.confineOne,
      Builder.fragment, Builder.allEntities, quietOcc, Builder.bindAll, Builder.fragmentLoop, DMap.bind, DMap.find,
      Builder.collect, Builder.domainLoop, faceNetwork, Builder.getSubDomainUnion, Builder.confineLoop]
  constructor <;> funext i <;> by_cases hi : i = id
  · subst hi; simp
  · simp [Function.update_of_ne hi]
  · subst hi; simp
  · simp [Function.update_of_ne hi]

/-- What the writer takes from the network. -/
theorem faceNetwork_writer (id : ℕ) : ∃ w, BRepWriter.ofContained Prod.fst cornerTopo [id] (faceNetwork id) = .val w ∧
    w.domainToFragments = (fun k => if k = id then [1] else []) ∧
    w.entityToFragments = (fun k => if k = 1 then [2] else []) ∧ ∀ k, w.intersectionsToFragments k = [] := by
  have e : BRepWriter.ofContained Prod.fst cornerTopo [id] (faceNetwork id) = .val (BRepWriter.addNetwork Prod.fst cornerTopo
      (BRepWriter.addDomains Prod.fst cornerTopo (BRepWriter.start [(5, true)] [((5, true), 1)]
        (BRepWriter.findIntersections Prod.fst cornerTopo [(5, true)])) [(id, [(1, true)])]) [(5, true)]) := by
    simp [BRepWriter.ofContained, BRepWriter.lookupAll, Builder.mergeMaps, faceNetwork, DMap.bind, DMap.find]
  obtain ⟨-, -, frags, -, hs, -⟩ := ofContained_val Prod.fst cornerTopo e
  refine ⟨_, e, ?_, ?_, ?_⟩
  · rfl
  · funext k
    rw [hs.face.entities k]
    by_cases h1 : k = 1
    · subst h1; rfl
    · rw [if_neg h1]
      have h1' : ¬ 1 = k := fun h => h1 h.symm
      have hf : (BRepWriter.addNetwork Prod.fst cornerTopo
        (BRepWriter.addDomains Prod.fst cornerTopo (BRepWriter.start [(5, true)] [((5, true), 1)]
        (BRepWriter.findIntersections Prod.fst cornerTopo [(5, true)])) [(id, [(1, true)])]) [(5, true)]).fmap =
        [(3, true), (5, true)] := rfl
      have hm : (BRepWriter.addNetwork Prod.fst cornerTopo
        (BRepWriter.addDomains Prod.fst cornerTopo (BRepWriter.start [(5, true)] [((5, true), 1)]
        (BRepWriter.findIntersections Prod.fst cornerTopo [(5, true)])) [(id, [(1, true)])]) [(5, true)]).indexMap =
        [((5, true), 1)] := rfl
      rw [hf, hm]
      simp [indicesOf, DMap.find, h1']
  · intro k
    cases k with
    | zero => exact hs.face.wire.edge.isZero
    | succ k =>
      rw [hs.face.wire.edge.isLists k]
      have hm : (BRepWriter.addNetwork Prod.fst cornerTopo
        (BRepWriter.addDomains Prod.fst cornerTopo (BRepWriter.start [(5, true)] [((5, true), 1)]
        (BRepWriter.findIntersections Prod.fst cornerTopo [(5, true)])) [(id, [(1, true)])]) [(5, true)]).intersections =
        [] := rfl
      rw [hm]
      simp [indicesOf]

theorem C103_disproof : ¬ C103_full := by
  intro H
  obtain ⟨w, hw, hd, he, hi⟩ := faceNetwork_writer 0
  have td : IsTraversal w.domainToFragments [0] := ⟨by decide, fun k => by rw [hd]; simp⟩
  have te : IsTraversal w.entityToFragments [1] := ⟨by decide, fun k => by rw [he]; simp⟩
  have ti : IsTraversal w.intersectionsToFragments [] := ⟨by decide, fun k => by rw [hi]; simp⟩
  obtain ⟨text, cs, t1, t2, g1, -⟩ := C99_groups "network".toList (by decide) 1 1 w td te ti
  have := H _ _ Prod.fst quietOcc 10 cornerTopo (tableTopo_laws _ _ _ _ _ _) _ _ _ (faceNetwork_built 0) [0] w hw _ _ _
    td te ti "network".toList (by decide) 1 1 text cs t1 t2 .volume 0 [1] ((g1 0 [1]).2 ⟨by decide, by rw [hd]; rfl⟩)
  exact absurd this.1 (lt_irrefl 0)

/-- The hypotheses of `C103_partial` are met with the positive id 7, and there are two groups in the file. -/
example : ∃ n w text cs,
    (Builder.buildContained Prod.fst quietOcc 10 ⟨[7], [7], [7], [7]⟩ (runFrom Prod.fst quietOcc 10 Builder.init
      [.addSubDomain (.val 3) (.val (1, true)) 7, .addEntity (.val 2) (.val (5, true)) 7])).1 = .val n ∧
    BRepWriter.ofContained Prod.fst cornerTopo [7] n = .val w ∧
    IsTraversal w.domainToFragments [7] ∧ IsTraversal w.entityToFragments [1] ∧
    IsTraversal w.intersectionsToFragments [] ∧ GmshWriter.text "network".toList 1 1 [7] [1] [] w = .val text ∧
    Spec.Geo.read text = some cs ∧ Spec.Geo.Command.physical .volume 7 [1] ∈ cs ∧
    Spec.Geo.Command.physical .surface 1 [2] ∈ cs := by
  obtain ⟨w, hw, hd, he, hi⟩ := faceNetwork_writer 7
  have td : IsTraversal w.domainToFragments [7] := ⟨by decide, fun k => by rw [hd]; simp⟩
  have te : IsTraversal w.entityToFragments [1] := ⟨by decide, fun k => by rw [he]; simp⟩
  have ti : IsTraversal w.intersectionsToFragments [] := ⟨by decide, fun k => by rw [hi]; simp⟩
  obtain ⟨text, cs, t1, t2, g1, g2, -⟩ := C99_groups "network".toList (by decide) 1 1 w td te ti
  exact ⟨_, w, text, cs, faceNetwork_built 7, hw, td, te, ti, t1, t2,
    (g1 7 [1]).2 ⟨by decide, by rw [hd]; rfl⟩, (g2 1 [2]).2 ⟨by decide, by rw [he]; rfl⟩⟩

end Props
