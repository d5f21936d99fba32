import Verif.Model.Occ.Compounds
import Verif.Props.SubShapes

/-!
# C94 Compounds of shapes
-/

namespace Props
open Verif Frackit Compounds

/-- States that are reached by adding shapes to compounds. -/
def ReachableCompounds (st : Compounds) : Prop := ∃ ops, st = run ops init

/-- Constituents are not free, and those of objects which are not free have been frozen before them. -/
def FreezeOrder (st : Compounds) (f : ℕ → ℕ) : Prop :=
  ∀ p d l, CompItem.comp d l ∈ st.subs p → st.free d = false ∧ (st.free p = false → f d < f p)

theorem exists_bound (f : ℕ → ℕ) (l : List CompItem) :
    ∃ N, ∀ d l', CompItem.comp d l' ∈ l → f d < N := by
  induction l with
  | nil => exact ⟨0, by simp⟩
  | cons a l ih =>
    obtain ⟨N, hN⟩ := ih
    cases a with
    | leaf s =>
      refine ⟨N, fun d l' h => ?_⟩
      simp only [List.mem_cons, reduceCtorEq, false_or] at h
      exact hN d l' h
    | comp i l0 =>
      refine ⟨max N (f i + 1), fun d l' h => ?_⟩
      simp only [List.mem_cons, CompItem.comp.injEq] at h
      rcases h with ⟨rfl, _⟩ | h
      · exact lt_of_lt_of_le (Nat.lt_succ_self _) (le_max_right _ _)
      · exact lt_of_lt_of_le (hN d l' h) (le_max_left _ _)

theorem freeze_order {st : Compounds} {f : ℕ → ℕ} (h : FreezeOrder st f) (it : CompItem) :
    ∃ f', FreezeOrder (st.freeze it) f' := by
  cases it with
  | leaf s => exact ⟨f, h⟩
  | comp i l0 =>
    by_cases hi : st.free i = true
    · obtain ⟨N, hN⟩ := exists_bound f (st.subs i)
      refine ⟨fun j => if j = i then N else f j, ?_⟩
      intro p d l hd
      obtain ⟨h1, h2⟩ := h p d l hd
      have hdi : d ≠ i := by
        rintro rfl
        rw [hi] at h1
        exact absurd h1 (by decide)
      refine ⟨?_, ?_⟩
      · show (if d = i then false else st.free d) = false
        rw [if_neg hdi]; exact h1
      · intro hp
        have hp' : (if p = i then false else st.free p) = false := hp
        show (if d = i then N else f d) < (if p = i then N else f p)
        rw [if_neg hdi]
        by_cases hpi : p = i
        · rw [if_pos hpi]
          subst hpi
          exact hN d l hd
        · rw [if_neg hpi]
          rw [if_neg hpi] at hp'
          exact h2 hp'
    · refine ⟨f, ?_⟩
      have hfree : (st.freeze (.comp i l0)).free = st.free := by
        funext j
        show (if j = i then false else st.free j) = st.free j
        split
        · next hj => rw [hj]; simpa using (Bool.not_eq_true _ ▸ hi : st.free i = false).symm
        · rfl
      intro p d l hd
      rw [hfree]
      exact h p d l hd

theorem freeze_comp (st : Compounds) (i : ℕ) (l : V3) : (st.freeze (.comp i l)).free i = false := by
  simp [freeze]

theorem freeze_subs (st : Compounds) (it : CompItem) : (st.freeze it).subs = st.subs := by
  cases it <;> rfl

theorem add_order {st : Compounds} {f : ℕ → ℕ} (h : FreezeOrder st f) (c : ℕ) (it : CompItem) :
    ∃ f', FreezeOrder (add c it st).2 f' := by
  obtain ⟨f', hf⟩ := freeze_order h it
  refine ⟨f', ?_⟩
  unfold add
  by_cases hc : (st.freeze it).free c = true
  · rw [if_pos hc]
    intro p d l hd
    have hd' : CompItem.comp d l ∈ (if p = c then (st.freeze it).subs c ++ [it] else (st.freeze it).subs p) := hd
    by_cases hp : p = c
    · subst hp
      rw [if_pos rfl] at hd'
      show (st.freeze it).free d = false ∧ ((st.freeze it).free p = false → f' d < f' p)
      refine ⟨?_, fun h => absurd hc (by rw [h]; decide)⟩
      rcases List.mem_append.1 hd' with h' | h'
      · exact (hf p d l h').1
      · rw [List.mem_singleton] at h'
        subst h'
        exact freeze_comp st d l
    · rw [if_neg hp] at hd'
      exact hf p d l hd'
  · rw [if_neg hc]
    exact hf

theorem run_order (ops : List (ℕ × CompItem)) : ∀ (st : Compounds) (f : ℕ → ℕ), FreezeOrder st f →
    ∃ f', FreezeOrder (run ops st) f' := by
  induction ops with
  | nil => exact fun st f h => ⟨f, h⟩
  | cons op ops ih =>
    intro st f h
    obtain ⟨f', hf⟩ := add_order h op.1 op.2
    exact ih _ f' hf

theorem reachable_order {st : Compounds} (h : ReachableCompounds st) : ∃ f, FreezeOrder st f := by
  obtain ⟨ops, rfl⟩ := h
  exact run_order ops init (fun _ => 0) (by intro p d l h; simp [init] at h)

/-! ## Search -/

theorem mapM_some {α β : Type} (g : α → Option β) : ∀ l : List α, (∀ a ∈ l, ∃ b, g a = some b) →
    ∃ L, l.mapM g = some L
  | [], _ => ⟨[], rfl⟩
  | a :: l, h => by
    obtain ⟨b, hb⟩ := h a List.mem_cons_self
    obtain ⟨L, hL⟩ := mapM_some g l fun x hx => h x (List.mem_cons_of_mem _ hx)
    exact ⟨b :: L, by rw [List.mapM_cons, hb, hL]; rfl⟩

theorem mapM_congr {α β : Type} (g g' : α → Option β) : ∀ l : List α, (∀ a ∈ l, g a = g' a) →
    l.mapM g = l.mapM g'
  | [], _ => rfl
  | a :: l, h => by
    rw [List.mapM_cons, List.mapM_cons, h a List.mem_cons_self,
      mapM_congr g g' l fun x hx => h x (List.mem_cons_of_mem _ hx)]

/-- Shapes below which the search does not get deeper than the number of objects frozen before. -/
theorem explore_frozen {st : Compounds} {f : ℕ → ℕ} (h : FreezeOrder st f) (k : TopAbs) :
    ∀ (n : ℕ) (l : V3) (i : ℕ) (l' : V3), st.free i = false → f i < n →
      ∃ L, st.explore k n l (.comp i l') = some L := by
  intro n
  induction n with
  | zero => intro l i l' _ h; exact absurd h (Nat.not_lt_zero _)
  | succ n ih =>
    intro l i l' hi hn
    rw [Compounds.explore]
    obtain ⟨L, hL⟩ := mapM_some (fun c => st.explore k n (l + l') c) (st.subs i) (by
      intro c hc
      cases c with
      | leaf s => exact ⟨_, by rw [Compounds.explore]⟩
      | comp d ld =>
        obtain ⟨h1, h2⟩ := h i d ld hc
        exact ih _ d ld h1 (by have := h2 hi; omega))
    exact ⟨L.flatten, by rw [hL]; rfl⟩

/-- Every search ends: there is a depth it does not exceed. -/
theorem C94_terminates (st : Compounds) (h : ReachableCompounds st) (k : TopAbs) (it : CompItem) :
    ∃ N, ∀ n, N ≤ n → ∀ l, ∃ L, st.explore k n l it = some L := by
  obtain ⟨f, hf⟩ := reachable_order h
  cases it with
  | leaf s => exact ⟨0, fun n _ l => ⟨_, by rw [Compounds.explore]⟩⟩
  | comp i l' =>
    obtain ⟨N, hN⟩ := exists_bound f (st.subs i)
    refine ⟨N + 1, fun n hn l => ?_⟩
    obtain ⟨m, rfl⟩ : ∃ m, n = m + 1 := ⟨n - 1, by omega⟩
    rw [Compounds.explore]
    obtain ⟨L, hL⟩ := mapM_some (fun c => st.explore k m (l + l') c) (st.subs i) (by
      intro c hc
      cases c with
      | leaf s => exact ⟨_, by rw [Compounds.explore]⟩
      | comp d ld =>
        have := hN d ld hc
        exact explore_frozen hf k m _ d ld (hf i d ld hc).1 (by omega))
    exact ⟨L.flatten, by rw [hL]; rfl⟩

/-- The shape can not be edited. -/
def Frozen (st : Compounds) : CompItem → Prop
  | .leaf _ => True
  | .comp i _ => st.free i = false

/-- The search only depends on the constituents of objects that are not free. -/
theorem explore_congr {st st' : Compounds} {f : ℕ → ℕ} (h : FreezeOrder st f)
    (hs : ∀ i, st.free i = false → st'.subs i = st.subs i) (k : TopAbs) :
    ∀ (n : ℕ) (l : V3) (it : CompItem), Frozen st it → st'.explore k n l it = st.explore k n l it := by
  intro n
  induction n with
  | zero =>
    intro l it _
    cases it <;> simp [Compounds.explore]
  | succ n ih =>
    intro l it hit
    cases it with
    | leaf s => simp [Compounds.explore]
    | comp i l' =>
      rw [Compounds.explore, Compounds.explore, hs i hit]
      congr 1
      refine mapM_congr _ _ _ fun c hc => ih _ c ?_
      cases c with
      | leaf s => trivial
      | comp d ld => exact (h i d ld hc).1

/-- `add` does not change the constituents of other objects. -/
theorem add_subs (c : ℕ) (it : CompItem) (st : Compounds) (j : ℕ) (h : j ≠ c ∨ st.free j = false) :
    (add c it st).2.subs j = st.subs j := by
  unfold add
  by_cases hc : (st.freeze it).free c = true
  · rw [if_pos hc]
    show (if j = c then (st.freeze it).subs c ++ [it] else (st.freeze it).subs j) = st.subs j
    rw [freeze_subs]
    refine if_neg ?_
    rintro rfl
    rcases h with h | h
    · exact h rfl
    · cases it with
      | leaf s =>
        rw [show (st.freeze (.leaf s)).free j = st.free j from rfl, h] at hc
        exact absurd hc (by decide)
      | comp i l =>
        have : (if j = i then false else st.free j) = true := hc
        rw [h] at this
        simp at this
  · rw [if_neg hc, freeze_subs]

theorem add_free (c : ℕ) (it : CompItem) (st : Compounds) (j : ℕ) (h : st.free j = false) :
    (add c it st).2.free j = false := by
  have h1 : (st.freeze it).free j = false := by
    cases it with
    | leaf s => exact h
    | comp i l =>
      show (if j = i then false else st.free j) = false
      rw [h]; simp
  unfold add
  by_cases hc : (st.freeze it).free c = true
  · rw [if_pos hc]; exact h1
  · rw [if_neg hc]; exact h1

theorem run_frozen (ops : List (ℕ × CompItem)) : ∀ (st : Compounds) (j : ℕ), st.free j = false →
    (run ops st).free j = false ∧ (run ops st).subs j = st.subs j := by
  induction ops with
  | nil => exact fun st j h => ⟨h, rfl⟩
  | cons op ops ih =>
    intro st j h
    obtain ⟨h1, h2⟩ := ih (add op.1 op.2 st).2 j (add_free _ _ _ _ h)
    exact ⟨h1, h2.trans (add_subs _ _ _ _ (.inr h))⟩

/-- After a successful call, the getters list what was listed before, followed by what they list for the
added shape. -/
theorem C94_add (st st' : Compounds) (h : ReachableCompounds st) (c : ℕ) (it : CompItem)
    (hadd : add c it st = (.val (), st')) (k : TopAbs) (n : ℕ) (l l' : V3) (A B : List TopoShape)
    (hA : st.explore k (n + 1) l (.comp c l') = some A) (hB : st.explore k n (l + l') it = some B) :
    st'.explore k (n + 1) l (.comp c l') = some (A ++ B) := by
  obtain ⟨f, hf⟩ := reachable_order h
  obtain ⟨f1, hf1⟩ := freeze_order hf it
  unfold add at hadd
  by_cases hc : (st.freeze it).free c = true
  · rw [if_pos hc] at hadd
    have hst : st' = { st.freeze it with
        subs := fun j => if j = c then (st.freeze it).subs c ++ [it] else (st.freeze it).subs j } :=
      (Prod.mk.inj hadd).2.symm
    have hsame : ∀ (n : ℕ) (l : V3) (x : CompItem), (st.freeze it).explore k n l x = st.explore k n l x := by
      intro n
      induction n with
      | zero => intro l x; cases x <;> simp [Compounds.explore]
      | succ n ih =>
        intro l x
        cases x with
        | leaf s => simp [Compounds.explore]
        | comp i l0 =>
          rw [Compounds.explore, Compounds.explore, freeze_subs]
          congr 1
          exact mapM_congr _ _ _ fun c _ => ih _ c
    have hcong : ∀ (n : ℕ) (l : V3) (x : CompItem), Frozen (st.freeze it) x →
        st'.explore k n l x = st.explore k n l x := by
      intro n l x hx
      rw [explore_congr hf1 ?_ k n l x hx, hsame]
      intro i hi
      rw [hst]
      refine if_neg ?_
      rintro rfl
      rw [hi] at hc
      exact absurd hc (by decide)
    have hsub : st'.subs c = st.subs c ++ [it] := by
      rw [hst]
      show (if c = c then (st.freeze it).subs c ++ [it] else _) = _
      rw [if_pos rfl, freeze_subs]
    rw [Compounds.explore] at hA ⊢
    obtain ⟨L, hL, rfl⟩ := Option.map_eq_some_iff.1 hA
    rw [hsub, List.mapM_append, mapM_congr (fun c => st'.explore k n (l + l') c)
      (fun c => st.explore k n (l + l') c) (st.subs c), hL]
    · have hit : st'.explore k n (l + l') it = some B := by
        rw [hcong, hB]
        cases it with
        | leaf s => trivial
        | comp i l0 => exact freeze_comp st i l0
      simp [hit]
    · intro x hx
      refine hcong _ _ _ ?_
      cases x with
      | leaf s => trivial
      | comp d ld =>
        refine (hf1 c d ld ?_).1
        rw [freeze_subs]
        exact hx
  · rw [if_neg hc] at hadd
    exact absurd (Prod.mk.inj hadd).1 (by simp)

/-- A new compound is empty. -/
theorem C94_new (k : TopAbs) (n : ℕ) (l l' : V3) (c : ℕ) :
    init.explore k (n + 1) l (.comp c l') = some [] := by
  rw [Compounds.explore]
  rfl

/-- A call is refused if and only if the compound has been part of an earlier call of `add` as argument, or
is added to itself; what is listed for any shape does not change then. -/
theorem C94_refused (st : Compounds) (c : ℕ) (it : CompItem) :
    ((add c it st).1 = .val () ↔ st.free c = true ∧ ∀ l, it ≠ .comp c l) ∧
    ((add c it st).1 ≠ .val () → (add c it st).1 = .thrown "TopoDS_FrozenShape" ∧
      (add c it st).2.subs = st.subs) := by
  have hfree : (st.freeze it).free c = true ↔ st.free c = true ∧ ∀ l, it ≠ .comp c l := by
    cases it with
    | leaf s => simp [freeze]
    | comp i l =>
      show (if c = i then false else st.free c) = true ↔ _
      by_cases h : c = i
      · subst h
        simp
      · rw [if_neg h]
        refine ⟨fun hc => ⟨hc, fun l' h' => ?_⟩, fun h => h.1⟩
        rw [CompItem.comp.injEq] at h'
        exact h h'.1.symm
  unfold add
  by_cases hc : (st.freeze it).free c = true
  · rw [if_pos hc]
    exact ⟨⟨fun _ => hfree.1 hc, fun _ => rfl⟩, fun h => absurd rfl h⟩
  · rw [if_neg hc]
    refine ⟨⟨fun h => by simp at h, fun h => absurd (hfree.2 h) hc⟩, fun _ => ⟨rfl, freeze_subs st it⟩⟩

theorem explore_shift (st : Compounds) (k : TopAbs) : ∀ (n : ℕ) (v l : V3) (it : CompItem),
    st.explore k n (v + l) it = (st.explore k n l it).map (List.map (·.translate v)) := by
  intro n
  induction n with
  | zero =>
    intro v l it
    cases it with
    | leaf s =>
      rw [Compounds.explore, Compounds.explore, Option.map_some, exploreIn_within, exploreIn_within, ← C93_getters]
      congr 2
      unfold TopoShape.translate TopoShape.moved
      rw [within_within]
      rfl
    | comp i l' => simp [Compounds.explore]
  | succ n ih =>
    intro v l it
    cases it with
    | leaf s =>
      rw [Compounds.explore, Compounds.explore, Option.map_some, exploreIn_within, exploreIn_within, ← C93_getters]
      congr 2
      unfold TopoShape.translate TopoShape.moved
      rw [within_within]
      rfl
    | comp i l' =>
      rw [Compounds.explore, Compounds.explore]
      have h : ∀ cs : List CompItem,
          (cs.mapM fun c => Compounds.explore st k n (v + l + l') c).map List.flatten =
          ((cs.mapM fun c => Compounds.explore st k n (l + l') c).map List.flatten).map
            (List.map (·.translate v)) := by
        intro cs
        induction cs with
        | nil => rfl
        | cons c cs ihc =>
          rw [List.mapM_cons, List.mapM_cons, add_assoc, ih]
          rw [add_assoc] at ihc
          cases h1 : Compounds.explore st k n (l + l') c with
          | none => rfl
          | some a =>
            cases h2 : List.mapM (fun c => Compounds.explore st k n (l + l') c) cs with
            | none =>
              rw [h2] at ihc
              cases h3 : List.mapM (fun c => Compounds.explore st k n (v + (l + l')) c) cs with
              | none => simp
              | some b => rw [h3] at ihc; simp at ihc
            | some b =>
              rw [h2] at ihc
              cases h3 : List.mapM (fun c => Compounds.explore st k n (v + (l + l')) c) cs with
              | none => rw [h3] at ihc; simp at ihc
              | some b' =>
                rw [h3] at ihc
                simp only [Option.map_some, Option.some.injEq] at ihc
                simp [ihc]
      exact h _

/-- The shapes listed for a translated shape or compound are those of the original, translated, in the same order; and
translating back restores what is listed. -/
theorem C94_translate (st : Compounds) (k : TopAbs) (n : ℕ) (v : V3) (it : CompItem) :
    st.explore k n 0 (translate v it) = (st.explore k n 0 it).map (List.map (·.translate v)) ∧
    st.explore k n 0 (translate (-v) (translate v it)) = st.explore k n 0 it := by
  have h : ∀ (v : V3) (it : CompItem),
      st.explore k n 0 (translate v it) = (st.explore k n 0 it).map (List.map (·.translate v)) := by
    intro v it
    rw [← explore_shift]
    cases it with
    | leaf s =>
      rw [Compounds.translate, add_zero]
      cases n <;> rw [Compounds.explore, Compounds.explore, exploreIn_within, exploreIn_within] <;>
      · unfold TopoShape.translate TopoShape.moved
        rw [within_zero]
    | comp i l =>
      cases n with
      | zero => rfl
      | succ n => rw [Compounds.translate, Compounds.explore, Compounds.explore, add_zero, zero_add]
  refine ⟨h v it, ?_⟩
  rw [h, h, Option.map_map]
  have e : (List.map (fun s : TopoShape => s.translate (-v)) ∘ List.map (fun s => s.translate v)) = id := by
    funext l
    simp only [Function.comp_apply, List.map_map, id]
    conv_rhs => rw [← List.map_id l]
    refine List.map_congr_left fun s _ => ?_
    exact (C93_compose s v v).2.2
  rw [e, Option.map_id, id]

/-- The claim that a shape made from a compound does not change later. -/
def C94_snapshot_full : Prop :=
  ∀ (st : Compounds) (c : ℕ) (it : CompItem) (k : TopAbs) (n : ℕ), ReachableCompounds st →
    (add c it st).2.explore k n 0 (wrap c) = st.explore k n 0 (wrap c)

/-- It fails: the wrapper refers to the compound, shapes that are added later become part of it. -/
theorem C94_snapshot_disproof : ¬ C94_snapshot_full := by
  intro H
  have h := H init 0 (.leaf (TopoShape.mkVertex 7 0)) .vertex 1 ⟨[], rfl⟩
  simp [Compounds.explore, add, freeze, init, wrap, TopoShape.mkVertex, TopoShape.exploreIn] at h

/-- What holds: a compound that has been added to another one never changes again. -/
theorem C94_snapshot_partial (st : Compounds) (h : ReachableCompounds st) (i : ℕ) (hi : st.free i = false)
    (ops : List (ℕ × CompItem)) (k : TopAbs) (n : ℕ) (l l' : V3) :
    (run ops st).explore k n l (.comp i l') = st.explore k n l (.comp i l') := by
  obtain ⟨f, hf⟩ := reachable_order h
  exact explore_congr hf (fun j hj => (run_frozen ops st j hj).2) k n l _ hi

/-- The claim that a refused call has no effect on later calls. -/
def C94_no_effect_full : Prop :=
  ∀ (st : Compounds) (c d : ℕ) (it x : CompItem), ReachableCompounds st → (add c it st).1 ≠ .val () →
    (add d x (add c it st).2).1 = (add d x st).1

/-- It fails: after the attempt to add a compound to itself, nothing can be added to it any more. -/
theorem C94_no_effect_disproof : ¬ C94_no_effect_full := by
  intro H
  have h := H init 0 0 (wrap 0) (.leaf (TopoShape.mkVertex 7 0)) ⟨[], rfl⟩
    (by simp [add, freeze, init, wrap])
  simp [add, freeze, init, wrap] at h

/-- A compound in a compound, translated: the hypotheses of `C94_add` hold. -/
example : ∃ st st', ReachableCompounds st ∧ add 1 (translate ⟨1, 0, 0⟩ (wrap 0)) st = (.val (), st') ∧
    st.explore .vertex 2 0 (wrap 1) = some [] ∧
    (st'.explore .vertex 2 0 (wrap 1)).map (List.map TopoShape.point) = some [⟨3, 0, 0⟩] := by
  refine ⟨run [(0, .leaf (TopoShape.mkVertex 7 ⟨2, 0, 0⟩))] init, _, ⟨_, rfl⟩, rfl, ?_, ?_⟩
  · simp [run, add, freeze, init, wrap, Compounds.explore]
  · simp [run, add, freeze, init, wrap, Compounds.explore, Compounds.translate, TopoShape.mkVertex,
      TopoShape.exploreIn, TopoShape.point]
    ext <;> norm_num

end Props
