import Verif.Model.Common.Headers
import Mathlib.Logic.Relation
import Mathlib.Data.List.Nodup
import Mathlib.Data.List.Perm.Subperm
import Mathlib.Tactic.Common

/-!
# C145 Programs of several source files
-/

namespace Spec
open Frackit

/-- A source file that includes the headers `unit` reads the header `h`, directly or because a header it reads includes
it. -/
def ReadsHeader (unit : List ℕ) (h : ℕ) : Prop := ∃ k ∈ unit, Relation.ReflTransGen (fun a b => b ∈ includesOf a) k h

/-- A source file defines a function. -/
def DefinesFunction (unit : List ℕ) (s : String) : Prop := ∃ h, ReadsHeader unit h ∧ s ∈ definitionsOf h

/-- No function is defined in two of the source files. -/
def OneDefinition (units : List (List ℕ)) : Prop := units.Pairwise fun u v => ∀ s, ¬ (DefinesFunction u s ∧ DefinesFunction v s)

end Spec

namespace Props
open Verif Frackit

/-! ## The preprocessor -/

/-- The headers that have not been read. -/
def unseen (N : ℕ) (seen : List ℕ) : List ℕ := (List.range N).filter (· ∉ seen)

theorem unseen_cons {N h : ℕ} {seen : List ℕ} (hh : h < N) (hs : h ∉ seen) :
    (unseen N (h :: seen)).length < (unseen N seen).length := by
  have hsub : List.Subperm (h :: unseen N (h :: seen)) (unseen N seen) := by
    refine List.subperm_of_subset ?_ ?_
    · refine List.nodup_cons.2 ⟨by simp [unseen], (List.nodup_range).filter _⟩
    · intro x hx
      rcases List.mem_cons.1 hx with rfl | hx
      · simp [unseen, hh, hs]
      · simp only [unseen, List.mem_filter, List.mem_range, decide_eq_true_eq, List.mem_cons, not_or] at hx ⊢
        exact ⟨hx.1, hx.2.2⟩
  exact hsub.length_le

theorem unseen_mono {N : ℕ} {seen seen' : List ℕ} (h : ∀ x ∈ seen, x ∈ seen') :
    (unseen N seen').length ≤ (unseen N seen).length := by
  have hsub : List.Subperm (unseen N seen') (unseen N seen) := by
    refine List.subperm_of_subset ((List.nodup_range).filter _) ?_
    intro x hx
    simp only [unseen, List.mem_filter, List.mem_range, decide_eq_true_eq] at hx ⊢
    exact ⟨hx.1, fun hs => hx.2 (h x hs)⟩
  exact hsub.length_le

/-- What the preprocessor does: it reads each header that is reachable and has not been read before exactly once. -/
theorem expand_spec (inc : ℕ → List ℕ) (N : ℕ) (hinc : ∀ h, ∀ k ∈ inc h, k < N) (n : ℕ) (seen l : List ℕ)
    (hl : ∀ h ∈ l, h < N) (hn : (unseen N seen).length < n) :
    (∀ x, x ∈ (expand inc n seen l).1 ↔ x ∈ seen ∨ x ∈ (expand inc n seen l).2) ∧
    (∀ x ∈ (expand inc n seen l).2, x ∉ seen) ∧
    (expand inc n seen l).2.Nodup ∧
    (∀ x ∈ l, x ∈ (expand inc n seen l).1) ∧
    (∀ x ∈ (expand inc n seen l).2, ∀ y ∈ inc x, y ∈ (expand inc n seen l).1) ∧
    (∀ x ∈ (expand inc n seen l).2, ∃ k ∈ l, Relation.ReflTransGen (fun a b => b ∈ inc a) k x) := by
  fun_induction expand inc n seen l with
  | case1 => simp
  | case2 => omega
  | case3 n seen h t hs ih =>
    obtain ⟨i1, i2, i3, i4, i5, i6⟩ := ih (fun x hx => hl x (by simp [hx])) hn
    refine ⟨i1, i2, i3, ?_, i5, ?_⟩
    · intro x hx
      rcases List.mem_cons.1 hx with rfl | hx
      · exact (i1 x).2 (.inl hs)
      · exact i4 x hx
    · intro x hx
      obtain ⟨k, hk, hr⟩ := i6 x hx
      exact ⟨k, by simp [hk], hr⟩
  | case4 n seen h t hs inner rest ih1 ih2 =>
    have hh : h < N := hl h (by simp)
    obtain ⟨a1, a2, a3, a4, a5, a6⟩ := ih1 (hinc h) (by have := unseen_cons hh hs; omega)
    obtain ⟨b1, b2, b3, b4, b5, b6⟩ := ih2 (fun x hx => hl x (by simp [hx]))
      (Nat.lt_of_le_of_lt (unseen_mono (fun x hx => (a1 x).2 (.inl (by simp [hx])))) hn)
    change (∀ x, x ∈ rest.1 ↔ x ∈ inner.1 ∨ x ∈ rest.2) at b1
    change (∀ x, x ∈ inner.1 ↔ x ∈ h :: seen ∨ x ∈ inner.2) at a1
    have a1' : ∀ x, x ∈ inner.1 ↔ (x = h ∨ x ∈ seen) ∨ x ∈ inner.2 := fun x => by rw [a1 x, List.mem_cons]
    refine ⟨?_, ?_, ?_, ?_, ?_, ?_⟩
    · intro x
      simp only [b1, a1', List.mem_append, List.mem_cons]
      tauto
    · intro x hx
      simp only [List.mem_append, List.mem_cons] at hx
      rcases hx with hx | rfl | hx
      · exact fun hc => a2 x hx (by simp [hc])
      · exact hs
      · exact fun hc => b2 x hx ((a1' x).2 (.inl (.inr hc)))
    · refine List.nodup_append.2 ⟨a3, List.nodup_cons.2 ⟨fun hc => b2 h hc ((a1' h).2 (.inl (.inl rfl))), b3⟩, ?_⟩
      intro x hx y hy hxy
      subst hxy
      rcases List.mem_cons.1 hy with rfl | hy
      · exact a2 x hx (by simp)
      · exact b2 x hy ((a1' x).2 (.inr hx))
    · intro x hx
      rcases List.mem_cons.1 hx with rfl | hx
      · exact (b1 x).2 (.inl ((a1' x).2 (.inl (.inl rfl))))
      · exact b4 x hx
    · intro x hx y hy
      simp only [List.mem_append, List.mem_cons] at hx
      rcases hx with hx | rfl | hx
      · exact (b1 y).2 (.inl (a5 x hx y hy))
      · exact (b1 y).2 (.inl (a4 y hy))
      · exact b5 x hx y hy
    · intro x hx
      simp only [List.mem_append, List.mem_cons] at hx
      rcases hx with hx | rfl | hx
      · obtain ⟨k, hk, hr⟩ := a6 x hx
        exact ⟨h, by simp, .head hk hr⟩
      · exact ⟨x, by simp, .refl⟩
      · obtain ⟨k, hk, hr⟩ := b6 x hx
        exact ⟨k, by simp [hk], hr⟩

theorem includes_lt : ∀ h, ∀ k ∈ includesOf h, k < headers.length := by
  have key : ∀ x ∈ headers, ∀ k ∈ x.includes, k < headers.length := by decide
  intro h k hk
  unfold includesOf at hk
  cases e : headers[h]? with
  | none => simp [e] at hk
  | some x => rw [e] at hk; exact key x (List.mem_of_getElem? e) k hk

/-- **C145** A source file reads each header it includes, directly or indirectly, exactly once, in whatever order they are
included and although some headers include each other. -/
theorem C145_once (unit : List ℕ) (hu : ∀ h ∈ unit, h < headers.length) :
    (preprocess unit).Nodup ∧ ∀ h, h ∈ preprocess unit ↔ Spec.ReadsHeader unit h := by
  obtain ⟨h1, -, h3, h4, h5, h6⟩ := expand_spec includesOf headers.length includes_lt (headers.length + 1) [] unit hu
    (by
      have : (unseen headers.length []).length ≤ (List.range headers.length).length := List.length_filter_le _ _
      rw [List.length_range] at this
      omega)
  refine ⟨h3, fun h => ⟨h6 h, ?_⟩⟩
  rintro ⟨k, hk, hr⟩
  have key : h ∈ (expand includesOf (headers.length + 1) [] unit).1 := by
    induction hr with
    | refl => exact h4 k hk
    | tail _ hb ih => exact h5 _ (by simpa using (h1 _).1 ih) _ hb
  have := (h1 h).1 key
  simpa [preprocess] using this

/-! ## Linking -/

theorem definitions_disjoint (i j : ℕ) (hij : i ≠ j) : List.Disjoint (definitionsOf i) (definitionsOf j) := by
  have key : (headers.flatMap Header.definitions).Nodup := by decide
  have hp := List.pairwise_iff_getElem.1 (List.nodup_flatMap.1 key).2
  unfold definitionsOf
  cases hi : headers[i]? with
  | none => simp
  | some x =>
    cases hj : headers[j]? with
    | none => simp
    | some y =>
      obtain ⟨li, rfl⟩ := List.getElem?_eq_some_iff.1 hi
      obtain ⟨lj, rfl⟩ := List.getElem?_eq_some_iff.1 hj
      simp only [Option.map_some, Option.getD_some]
      rcases Nat.lt_or_gt_of_ne hij with h | h
      · exact hp i j li lj h
      · exact fun a h1 h2 => hp j i lj li h h2 h1

theorem definitions_nodup (i : ℕ) : (definitionsOf i).Nodup := by
  have key : (headers.flatMap Header.definitions).Nodup := by decide
  unfold definitionsOf
  cases hi : headers[i]? with
  | none => simp
  | some x => exact (List.nodup_flatMap.1 key).1 x (List.mem_of_getElem? hi)

theorem unitDefinitions_iff (u : List ℕ) (hu : ∀ h ∈ u, h < headers.length) (s : String) :
    s ∈ unitDefinitions u ↔ Spec.DefinesFunction u s := by
  unfold unitDefinitions Spec.DefinesFunction
  simp only [List.mem_flatMap, (C145_once u hu).2]

theorem unitDefinitions_nodup (u : List ℕ) (hu : ∀ h ∈ u, h < headers.length) : (unitDefinitions u).Nodup := by
  refine List.nodup_flatMap.2 ⟨fun h _ => definitions_nodup h, ?_⟩
  exact (C145_once u hu).1.imp fun h => definitions_disjoint _ _ h

theorem link_iff (defined : List String) (units : List (List ℕ)) :
    linkUnits defined units = .val () ↔
      (∀ u ∈ units, ∀ s ∈ unitDefinitions u, s ∉ defined) ∧
      units.Pairwise fun u v => ∀ s, ¬ (s ∈ unitDefinitions u ∧ s ∈ unitDefinitions v) := by
  induction units generalizing defined with
  | nil => simp [linkUnits]
  | cons u us ih =>
    unfold linkUnits
    by_cases h : ∃ s ∈ unitDefinitions u, s ∈ defined
    · rw [if_pos h]
      obtain ⟨s, h1, h2⟩ := h
      exact ⟨nofun, fun hc => absurd h2 (hc.1 u (by simp) s h1)⟩
    · rw [if_neg h, ih]
      push Not at h
      simp only [List.mem_append, not_or, List.pairwise_cons, List.mem_cons, forall_eq_or_imp]
      constructor
      · rintro ⟨h1, h2⟩
        exact ⟨⟨h, fun v hv s hs => (h1 v hv s hs).1⟩, fun v hv s hs => (h1 v hv s hs.2).2 hs.1, h2⟩
      · rintro ⟨⟨h1, h2⟩, h3, h4⟩
        exact ⟨fun v hv s hs => ⟨h2 v hv s hs, fun hc => h3 v hv s ⟨hc, hs⟩⟩, h4⟩

/-- **C145** The full claim: whatever headers the source files of a program include, the program can be built. -/
def C145_full : Prop :=
  ∀ units : List (List ℕ), (∀ u ∈ units, ∀ h ∈ u, h < headers.length) → buildProgram units = .val ()

/-- **C145** A program can be built exactly if no function is defined in two of its source files; in particular a program
with one source file can always be built. -/
theorem C145_links_partial (units : List (List ℕ)) (hu : ∀ u ∈ units, ∀ h ∈ u, h < headers.length) :
    buildProgram units = .val () ↔ Spec.OneDefinition units := by
  unfold buildProgram Spec.OneDefinition
  rw [if_neg (by push Not; exact fun u h => unitDefinitions_nodup u (hu u h)), link_iff]
  simp only [List.not_mem_nil, not_false_eq_true, implies_true, true_and]
  constructor <;> intro h
  · refine h.imp_of_mem fun {u v} h1 h2 h3 s => ?_
    rw [← unitDefinitions_iff u (hu u h1), ← unitDefinitions_iff v (hu v h2)]
    exact h3 s
  · refine h.imp_of_mem fun {u v} h1 h2 h3 s => ?_
    rw [unitDefinitions_iff u (hu u h1), unitDefinitions_iff v (hu v h2)]
    exact h3 s

open Classical in
theorem link_thrown (defined : List String) (units : List (List ℕ)) (h : linkUnits defined units ≠ .val ()) :
    (linkUnits defined units).isThrown := by
  induction units generalizing defined with
  | nil => exact absurd rfl h
  | cons u us ih =>
    unfold linkUnits at h ⊢
    by_cases hx : ∃ s ∈ unitDefinitions u, s ∈ defined
    · rw [if_pos hx]
      exact Outcome.isThrown_thrown _
    · rw [if_neg hx] at h ⊢
      exact ih _ h

/-- **C145** Any program that cannot be built is rejected with a message (also if it includes files that do not exist). -/
theorem C145_rejects (units : List (List ℕ)) : buildProgram units = .val () ∨ (buildProgram units).isThrown := by
  by_cases h : buildProgram units = .val ()
  · exact .inl h
  · right
    unfold buildProgram at h ⊢
    by_cases hx : ∃ u ∈ units, ¬ (unitDefinitions u).Nodup
    · rw [if_pos hx]
      exact Outcome.isThrown_thrown _
    · rw [if_neg hx] at h ⊢
      exact link_thrown _ _ h

/-- A program with one source file. -/
theorem C145_single (unit : List ℕ) (hu : ∀ h ∈ unit, h < headers.length) : buildProgram [unit] = .val () :=
  (C145_links_partial [unit] (by simpa using hu)).2 (List.pairwise_singleton _ _)

/-! ## Which headers can be included in several source files -/

/-- The headers that can be included in several source files. -/
def shareable : List ℕ := [
    0, 1, 2, 3, 4, 10, 13, 14, 15, 16, 17, 20, 21, 22, 23, 24, 25, 26, 27, 28, 29, 30, 31, 32, 33, 34, 35,
    36, 37, 38, 39, 40, 41, 42, 43, 47, 68, 71, 78, 83, 84, 85, 86, 87, 88, 89, 90, 91, 92, 93, 94, 95, 96,
    97]

/-- The number of steps from a header that cannot be included in several source files to one with definitions. -/
def stepsToDefinition : List ℕ := [
    0, 0, 0, 0, 0, 1, 1, 1, 2, 2, 0, 3, 1, 0, 0, 0, 0, 0, 1, 1, 0, 0, 0, 0, 0, 0, 0, 0, 0, 0, 0, 0, 0, 0, 0,
    0, 0, 0, 0, 0, 0, 0, 0, 0, 1, 1, 1, 0, 0, 2, 1, 1, 2, 2, 3, 2, 0, 1, 2, 1, 1, 3, 3, 3, 2, 3, 1, 2, 0, 1,
    1, 0, 1, 2, 1, 1, 1, 2, 0, 0, 0, 0, 1, 0, 0, 0, 0, 0, 0, 0, 0, 0, 0, 0, 0, 0, 0, 0]

theorem shareable_spec : ∀ h ∈ shareable, definitionsOf h = [] ∧ ∀ k ∈ includesOf h, k ∈ shareable := by decide

theorem not_shareable_spec : ∀ h < headers.length, h ∉ shareable →
    (definitionsOf h ≠ [] ∨ ∃ k ∈ includesOf h, k ∉ shareable ∧
      stepsToDefinition.getD k 0 < stepsToDefinition.getD h 0) := by decide

theorem shareable_reads {h k : ℕ} (hh : h ∈ shareable) (hr : Relation.ReflTransGen (fun a b => b ∈ includesOf a) h k) :
    k ∈ shareable := by
  induction hr with
  | refl => exact hh
  | tail _ hb ih => exact (shareable_spec _ ih).2 _ hb

theorem not_shareable_defines (n h : ℕ) (hn : stepsToDefinition.getD h 0 = n) (hl : h < headers.length)
    (hh : h ∉ shareable) : ∃ s, Spec.DefinesFunction [h] s := by
  induction n using Nat.strongRecOn generalizing h with
  | _ n ih =>
    rcases not_shareable_spec h hl hh with hd | ⟨k, hk, hks, hlt⟩
    · obtain ⟨s, hs⟩ := List.exists_mem_of_ne_nil _ hd
      exact ⟨s, h, ⟨h, by simp, .refl⟩, hs⟩
    · obtain ⟨s, m, ⟨k', hk', hr⟩, hs⟩ := ih _ (hn ▸ hlt) k rfl (includes_lt h k hk) hks
      obtain rfl := List.mem_singleton.1 hk'
      exact ⟨s, m, ⟨h, by simp, .head hk hr⟩, hs⟩

/-- **C145** A header can be included in several source files of a program exactly if it is one of the list; all but one of
the source files of a program may include headers of the list only. -/
theorem C145_shareable_partial :
    (∀ h < headers.length, (buildProgram [[h], [h]] = .val () ↔ h ∈ shareable)) ∧
    ∀ (unit : List ℕ) (units : List (List ℕ)), (∀ h ∈ unit, h < headers.length) →
      (∀ u ∈ units, ∀ h ∈ u, h ∈ shareable) → buildProgram (unit :: units) = .val () := by
  have hlt : ∀ h ∈ shareable, h < headers.length := by decide
  have hno : ∀ u : List ℕ, (∀ h ∈ u, h ∈ shareable) → ∀ s, ¬ Spec.DefinesFunction u s := by
    rintro u hu s ⟨h, ⟨k, hk, hr⟩, hs⟩
    rw [(shareable_spec h (shareable_reads (hu k hk) hr)).1] at hs
    cases hs
  constructor
  · intro h hh
    rw [C145_links_partial _ (by simpa using hh)]
    unfold Spec.OneDefinition
    constructor
    · intro hp
      by_contra hc
      obtain ⟨s, hs⟩ := not_shareable_defines _ h rfl hh hc
      simp only [List.pairwise_cons, List.mem_singleton, forall_eq] at hp
      exact hp.1 s ⟨hs, hs⟩
    · intro hs
      simp only [List.pairwise_cons, List.mem_singleton, forall_eq, List.not_mem_nil, List.Pairwise.nil, and_true,
        false_implies, implies_true]
      exact fun s h1 => hno [h] (by simpa using hs) s h1.1
  · intro unit units hu hus
    rw [C145_links_partial _ (by
      intro u h1
      rcases List.mem_cons.1 h1 with rfl | h1
      · exact hu
      · exact fun h h2 => hlt h (hus u h1 h h2))]
    refine List.pairwise_cons.2 ⟨fun v hv s hs => hno v (hus v hv) s hs.2, ?_⟩
    have : ∀ l : List (List ℕ), (∀ u ∈ l, ∀ h ∈ u, h ∈ shareable) → Spec.OneDefinition l := fun l hl => by
      refine List.Pairwise.imp_of_mem (R := fun _ _ => True) (fun {u v} h1 _ _ s hs => hno u (hl u h1) s hs.1) ?_
      exact List.pairwise_of_forall (fun _ _ => trivial)
    exact this units hus

/-- The function for the intersection of geometries is declared in a header that cannot be included in two source files,
the geometry classes and the samplers can. -/
example : (headers[69]?).map Header.name = some "frackit/intersection/intersect.hh" ∧ 69 ∉ shareable ∧
    (headers[28]?).map Header.name = some "frackit/geometry/disk.hh" ∧ 28 ∈ shareable ∧
    (headers[86]?).map Header.name = some "frackit/sampling/disksampler.hh" ∧ 86 ∈ shareable := by decide

/-- **C145** The claim is wrong: two source files that both include the header for intersections cannot be linked. -/
theorem C145_disproof : ¬ C145_full := by
  intro h
  have := h [[69], [69]] (by decide)
  exact absurd ((C145_shareable_partial.1 69 (by decide)).1 this) (by decide)

end Props
