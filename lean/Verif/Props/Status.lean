import Verif.Spec.Status
import Mathlib.Tactic.Linarith
import Mathlib.Tactic.Ring
import Mathlib.Data.Int.ModEq
import Mathlib.Algebra.BigOperators.Group.List.Basic
import Mathlib.Algebra.BigOperators.Group.Finset.Basic

/-!
# Sampling status (C30, C31, C32)
-/

namespace Props
open Verif Frackit
open Frackit.SamplingStatus (Op run step init assocTouch finishedOn finishedId getCount toInt32 toSizeT
  getTotalCountOn)
open Spec.Status (accepted rejected target known Disciplined Done)

/-! ## Association lists -/

theorem find_set (m : List (ℕ × ℕ)) (k v j : ℕ) :
    assocFind (assocSet m k v) j = if j = k then some v else assocFind m j := by
  induction m with
  | nil => simp [assocSet, assocFind, eq_comm]
  | cons p t ih =>
    obtain ⟨a, b⟩ := p
    by_cases h : a = k
    · subst h
      by_cases h2 : j = a
      · subst h2; simp [assocSet, assocFind]
      · have h2' : a ≠ j := fun e => h2 e.symm
        simp [assocSet, assocFind, h2, h2']
    · by_cases h2 : a = j
      · subst h2; simp [assocSet, assocFind, h]
      · simp [assocSet, assocFind, h, h2, ih]

theorem find_touch (m : List (ℕ × ℕ)) (k j : ℕ) :
    assocFind (assocTouch m k) j = if j = k then some ((assocFind m k).getD 0) else assocFind m j := by
  unfold assocTouch
  cases h : assocFind m k with
  | none => simp only [Option.getD_none]; rw [find_set]
  | some v =>
    by_cases h2 : j = k
    · subst h2; simp [h]
    · simp [h2]

theorem find_mapZero (m : List (ℕ × ℕ)) (j : ℕ) :
    assocFind (m.map fun p => (p.1, 0)) j = (assocFind m j).map fun _ => 0 := by
  induction m with
  | nil => rfl
  | cons p t ih =>
    obtain ⟨a, b⟩ := p
    by_cases h : a = j <;> simp [assocFind, h, ih]

/-- Keys of an association list. -/
def keys (m : List (ℕ × ℕ)) : List ℕ := m.map Prod.fst

theorem find_none_iff (m : List (ℕ × ℕ)) (k : ℕ) : assocFind m k = none ↔ k ∉ keys m := by
  induction m with
  | nil => simp [assocFind, keys]
  | cons p t ih =>
    obtain ⟨a, b⟩ := p
    by_cases h : a = k
    · simp [assocFind, keys, h]
    · have h' : k ≠ a := fun e => h e.symm
      simp only [assocFind, keys, h, h', if_false, List.map_cons, List.mem_cons, false_or]
      exact ih

theorem find_mem {m : List (ℕ × ℕ)} (hn : (keys m).Nodup) {k v : ℕ} :
    (k, v) ∈ m ↔ assocFind m k = some v := by
  induction m with
  | nil => simp [assocFind]
  | cons p t ih =>
    obtain ⟨a, b⟩ := p
    have hn' : a ∉ keys t ∧ (keys t).Nodup := List.nodup_cons.1 hn
    by_cases h : a = k
    · subst h
      simp only [List.mem_cons, Prod.mk.injEq, true_and, assocFind, if_true, Option.some.injEq]
      constructor
      · rintro (h1 | h1)
        · exact h1.symm
        · exact absurd (List.mem_map_of_mem (f := Prod.fst) h1) hn'.1
      · intro h1; exact Or.inl h1.symm
    · have h' : k ≠ a := fun e => h e.symm
      simp only [List.mem_cons, Prod.mk.injEq, h', false_and, false_or, assocFind, h, if_false]
      exact ih hn'.2

theorem keys_set (m : List (ℕ × ℕ)) (k v : ℕ) :
    keys (assocSet m k v) = if k ∈ keys m then keys m else keys m ++ [k] := by
  induction m with
  | nil => simp [assocSet, keys]
  | cons p t ih =>
    obtain ⟨a, b⟩ := p
    by_cases h : a = k
    · subst h; simp [assocSet, keys]
    · have h' : k ≠ a := fun e => h e.symm
      have : keys (assocSet ((a, b) :: t) k v) = a :: keys (assocSet t k v) := by
        simp [assocSet, h, keys]
      rw [this, ih]
      have hk : keys ((a, b) :: t) = a :: keys t := rfl
      rw [hk]
      by_cases h2 : k ∈ keys t <;> simp [h2, h']

theorem nodup_set {m : List (ℕ × ℕ)} (hn : (keys m).Nodup) (k v : ℕ) :
    (keys (assocSet m k v)).Nodup := by
  rw [keys_set]
  split_ifs with h
  · exact hn
  · rw [List.nodup_append]
    refine ⟨hn, by simp, ?_⟩
    rintro a ha b hb rfl
    rw [List.mem_singleton] at hb
    subst hb; exact h ha

theorem nodup_touch {m : List (ℕ × ℕ)} (hn : (keys m).Nodup) (k : ℕ) :
    (keys (assocTouch m k)).Nodup := by
  unfold assocTouch
  split
  · exact nodup_set hn k 0
  · exact hn

theorem keys_mapZero (m : List (ℕ × ℕ)) : keys (m.map fun p => (p.1, 0)) = keys m := by
  unfold keys; rw [List.map_map]; rfl

/-! ## Invariant over histories -/

/-- Relation of the state after the calls `h` (most recent first) with the history. -/
structure StatusInv (s : SamplingStatus) (h : List Op) : Prop where
  nodup : (keys s.count).Nodup
  count : ∀ id, (assocFind s.count id).getD 0 = accepted id h
  rej : s.rejected = rejected h
  target_some : ∀ id n, target id h = some n → assocFind s.target id = some n
  target_none : ∀ id, target id h = none → (assocFind s.target id).getD 0 = 0
  count_of_target : ∀ id, (assocFind s.target id).isSome → (assocFind s.count id).isSome
  known_iff : ∀ id, (assocFind s.target id).isSome ↔ known id h
  disc : Disciplined h → ∀ id, (assocFind s.count id).isSome → (assocFind s.target id).isSome

theorem inv_init : StatusInv init [] :=
  ⟨by simp [init, keys], fun id => rfl, rfl, (fun id n h => by cases h), fun id _ => rfl,
    fun id h => by simp [init, assocFind] at h, fun id => by simp [init, assocFind, known],
    fun _ id h => by simp [init, assocFind] at h⟩

theorem inv_step {s : SamplingStatus} {h : List Op} (H : StatusInv s h) (o : Op) :
    StatusInv (step s o) (o :: h) := by
  obtain ⟨hn, hc, hr, ht, ht0, hct, hk, hd⟩ := H
  cases o with
  | setTargetCount i n =>
    have hcount : ∀ id, assocFind (step s (.setTargetCount i n)).count id
        = if id = i then some ((assocFind s.count i).getD 0) else assocFind s.count id := by
      intro id
      have := find_touch s.count i id
      unfold assocTouch at this
      exact this
    have htgt : ∀ id, assocFind (step s (.setTargetCount i n)).target id
        = if id = i then some n else assocFind s.target id := fun id => find_set _ _ _ _
    refine ⟨?_, ?_, hr, ?_, ?_, ?_, ?_, ?_⟩
    · exact nodup_touch hn i
    · intro id
      rw [hcount]
      by_cases h1 : id = i
      · subst h1; simp only [if_true, Option.getD_some]; exact hc id
      · simp only [h1, if_false]; exact hc id
    · intro id m hm
      rw [htgt]
      simp only [target] at hm
      by_cases h1 : id = i
      · subst h1; simpa using hm
      · have h1' : i ≠ id := fun e => h1 e.symm
        simp only [h1', if_false] at hm
        simp only [h1, if_false]; exact ht id m hm
    · intro id hm
      rw [htgt]
      simp only [target] at hm
      by_cases h1 : id = i
      · subst h1; simp at hm
      · have h1' : i ≠ id := fun e => h1 e.symm
        simp only [h1', if_false] at hm
        simp only [h1, if_false]; exact ht0 id hm
    · intro id
      rw [hcount, htgt]
      by_cases h1 : id = i
      · simp [h1]
      · simp only [h1, if_false]; exact hct id
    · intro id
      rw [htgt]
      by_cases h1 : id = i
      · simp [h1, known]
      · have h1' : i ≠ id := fun e => h1 e.symm
        simp only [h1, if_false, known, h1', false_or]; exact hk id
    · intro hD id
      rw [hcount, htgt]
      by_cases h1 : id = i
      · simp [h1]
      · simp only [h1, if_false]; exact hd hD id
  | reset =>
    refine ⟨by simp [step, SamplingStatus.reset, keys], fun id => rfl, rfl,
      (fun id n h => by cases h), fun id _ => rfl, ?_, ?_, ?_⟩
    · intro id h; simp [step, SamplingStatus.reset, assocFind] at h
    · intro id; simp [step, SamplingStatus.reset, assocFind, known]
    · intro _ id h; simp [step, SamplingStatus.reset, assocFind] at h
  | resetCounters =>
    have hcount : ∀ id, assocFind (step s .resetCounters).count id
        = (assocFind s.count id).map fun _ => 0 := fun id => find_mapZero _ _
    refine ⟨?_, ?_, hr, ht, ht0, ?_, hk, ?_⟩
    · show (keys (s.count.map fun p => (p.1, 0))).Nodup
      rw [keys_mapZero]; exact hn
    · intro id; rw [hcount]; cases assocFind s.count id <;> rfl
    · intro id h; rw [hcount, Option.isSome_map]; exact hct id h
    · intro hD id h
      rw [hcount, Option.isSome_map] at h
      exact hd hD id h
  | resetCounter i =>
    have hcount : ∀ id, assocFind (step s (.resetCounter i)).count id
        = if id = i then some 0 else assocFind s.count id := fun id => find_set _ _ _ _
    refine ⟨nodup_set hn _ _, ?_, hr, ht, ht0, ?_, hk, ?_⟩
    · intro id
      rw [hcount]
      by_cases h1 : id = i
      · simp [h1, accepted]
      · have h1' : i ≠ id := fun e => h1 e.symm
        simp only [h1, h1', if_false, accepted]; exact hc id
    · intro id h
      rw [hcount]
      by_cases h1 : id = i
      · simp [h1]
      · simp only [h1, if_false]; exact hct id h
    · intro hD id h
      obtain ⟨hki, hD'⟩ := hD
      rw [hcount] at h
      by_cases h1 : id = i
      · subst h1; exact (hk id).2 hki
      · simp only [h1, if_false] at h; exact hd hD' id h
  | increaseCounter i =>
    have hcount : ∀ id, assocFind (step s (.increaseCounter i)).count id
        = if id = i then some ((assocFind s.count i).getD 0 + 1) else assocFind s.count id :=
      fun id => find_set _ _ _ _
    have htgt : ∀ id, assocFind (step s (.increaseCounter i)).target id
        = if id = i then some ((assocFind s.target i).getD 0) else assocFind s.target id :=
      fun id => find_touch _ _ _
    refine ⟨nodup_set hn _ _, ?_, hr, ?_, ?_, ?_, ?_, ?_⟩
    · intro id
      rw [hcount]
      by_cases h1 : id = i
      · subst h1
        simp only [if_true, Option.getD_some, accepted]
        rw [hc id]; omega
      · have h1' : i ≠ id := fun e => h1 e.symm
        simp only [h1, h1', if_false, accepted]; rw [hc id]; omega
    · intro id n hm
      rw [htgt]
      have := ht id n hm
      by_cases h1 : id = i
      · subst h1; simp [this]
      · simp only [h1, if_false]; exact this
    · intro id hm
      rw [htgt]
      have := ht0 id hm
      by_cases h1 : id = i
      · subst h1; simp [this]
      · simp only [h1, if_false]; exact this
    · intro id
      rw [hcount, htgt]
      by_cases h1 : id = i
      · simp [h1]
      · simp only [h1, if_false]; exact hct id
    · intro id
      rw [htgt]
      by_cases h1 : id = i
      · simp [h1, known]
      · have h1' : i ≠ id := fun e => h1 e.symm
        simp only [h1, if_false, known, h1', false_or]; exact hk id
    · intro hD id
      rw [hcount, htgt]
      by_cases h1 : id = i
      · simp [h1]
      · simp only [h1, if_false]; exact hd hD id
  | increaseRejectedCounter =>
    refine ⟨hn, hc, ?_, ht, ht0, hct, hk, hd⟩
    show s.rejected + 1 = _
    rw [hr]; rfl
  | queryCount i =>
    have hcount : ∀ id, assocFind (step s (.queryCount i)).count id
        = if id = i then some ((assocFind s.count i).getD 0) else assocFind s.count id :=
      fun id => find_touch _ _ _
    refine ⟨nodup_touch hn _, ?_, hr, ht, ht0, ?_, hk, ?_⟩
    · intro id
      rw [hcount]
      by_cases h1 : id = i
      · subst h1; simp only [if_true, Option.getD_some]; exact hc id
      · simp only [h1, if_false]; exact hc id
    · intro id h
      rw [hcount]
      by_cases h1 : id = i
      · simp [h1]
      · simp only [h1, if_false]; exact hct id h
    · intro hD id h
      obtain ⟨hki, hD'⟩ := hD
      rw [hcount] at h
      by_cases h1 : id = i
      · subst h1; exact (hk id).2 hki
      · simp only [h1, if_false] at h; exact hd hD' id h

theorem inv_run (ops : List Op) : StatusInv (run ops) ops.reverse := by
  have gen : ∀ (ops h : List Op) (s : SamplingStatus), StatusInv s h →
      StatusInv (ops.foldl step s) (ops.reverse ++ h) := by
    intro ops
    induction ops with
    | nil => intro h s H; exact H
    | cons o t ih =>
      intro h s H
      have := ih (o :: h) (step s o) (inv_step H o)
      simpa using this
  have := gen ops [] init inv_init
  rw [List.append_nil] at this
  exact this

/-! ## C30 Sampling status counters reflect the history -/

/-- After any history of calls, the count reported for an id is the number of accepted samples since
its last reset, and the number of rejections is the number registered since the last full reset. -/
theorem C30_counters (ops : List Op) (id : ℕ) :
    ((run ops).getCount id).1 = accepted id ops.reverse ∧
    (run ops).rejected = rejected ops.reverse :=
  ⟨(inv_run ops).count id, (inv_run ops).rej⟩

theorem finishedOn_val (s : SamplingStatus) : ∀ (order : List (ℕ × ℕ)) (b : Bool),
    s.finishedOn order = .val b →
    (b = true → ∀ p ∈ order, ∃ n, assocFind s.target p.1 = some n ∧ n ≤ p.2) ∧
    (b = false → ∃ p ∈ order, ∃ n, assocFind s.target p.1 = some n ∧ p.2 < n) := by
  intro order
  induction order with
  | nil =>
    intro b h
    cases h
    exact ⟨fun _ p hp => (List.not_mem_nil hp).elim, fun h => by cases h⟩
  | cons q t ih =>
    intro b h
    obtain ⟨id, c⟩ := q
    unfold finishedOn at h
    cases hf : assocFind s.target id with
    | none => rw [hf] at h; cases h
    | some n =>
      rw [hf] at h
      simp only at h
      by_cases hlt : c < n
      · rw [if_pos hlt] at h
        cases h
        exact ⟨(fun h => by cases h), fun _ => ⟨(id, c), List.mem_cons_self, n, hf, hlt⟩⟩
      · rw [if_neg hlt] at h
        obtain ⟨h1, h2⟩ := ih b h
        constructor
        · intro hb p hp
          rcases List.mem_cons.1 hp with rfl | hp
          · exact ⟨n, hf, not_lt.1 hlt⟩
          · exact h1 hb p hp
        · intro hb
          obtain ⟨p, hp, r⟩ := h2 hb
          exact ⟨p, List.mem_cons_of_mem _ hp, r⟩

theorem finishedOn_isVal (s : SamplingStatus) (order : List (ℕ × ℕ))
    (h : ∀ p ∈ order, (assocFind s.target p.1).isSome) : ∃ b, s.finishedOn order = .val b := by
  induction order with
  | nil => exact ⟨true, rfl⟩
  | cons q t ih =>
    obtain ⟨id, c⟩ := q
    have h1 := h (id, c) List.mem_cons_self
    obtain ⟨n, hn⟩ := Option.isSome_iff_exists.1 h1
    obtain ⟨b, hb⟩ := ih fun p hp => h p (List.mem_cons_of_mem _ hp)
    unfold finishedOn
    simp only at hn
    rw [hn]
    simp only
    by_cases hlt : c < n
    · exact ⟨false, by rw [if_pos hlt]⟩
    · exact ⟨b, by rw [if_neg hlt]; exact hb⟩

/-- `finished()` gives no wrong answer: whatever the history and the iteration order, if it returns a
value, the value is true exactly if all targets are reached. -/
theorem C30_finished_sound (ops : List Op) (order : List (ℕ × ℕ)) (b : Bool)
    (ho : order.Perm (run ops).count) (hb : (run ops).finishedOn order = .val b) :
    b = true ↔ Done ops.reverse := by
  have H := inv_run ops
  obtain ⟨h1, h2⟩ := finishedOn_val _ _ _ hb
  constructor
  · intro hbt id n hn
    have ht := H.target_some id n hn
    have hcs := H.count_of_target id (by rw [ht]; rfl)
    obtain ⟨c, hc⟩ := Option.isSome_iff_exists.1 hcs
    have hmem : (id, c) ∈ order := ho.mem_iff.2 ((find_mem H.nodup).2 hc)
    obtain ⟨m, hm, hle⟩ := h1 hbt _ hmem
    simp only at hm hle
    rw [ht] at hm
    cases hm
    have := H.count id
    rw [hc] at this
    simp only [Option.getD_some] at this
    omega
  · intro hD
    cases b with
    | true => rfl
    | false =>
      obtain ⟨⟨id, c⟩, hp, n, hn, hlt⟩ := h2 rfl
      simp only at hn hlt
      have hc := (find_mem H.nodup).1 (ho.mem_iff.1 hp)
      have hcnt := H.count id
      rw [hc] at hcnt
      simp only [Option.getD_some] at hcnt
      cases ht : target id ops.reverse with
      | none =>
        have := H.target_none id ht
        rw [hn] at this
        simp only [Option.getD_some] at this
        omega
      | some m =>
        have := H.target_some id m ht
        rw [hn] at this
        cases this
        have := hD id n ht
        omega

/-- `finished()` returns a value for every history in which single counters are reset and queried for
known ids only; it is then true exactly if all targets are reached. -/
theorem C30_finished (ops : List Op) (order : List (ℕ × ℕ)) (ho : order.Perm (run ops).count)
    (hd : Disciplined ops.reverse) :
    ∃ b, (run ops).finishedOn order = .val b ∧ (b = true ↔ Done ops.reverse) := by
  have H := inv_run ops
  obtain ⟨b, hb⟩ := finishedOn_isVal (run ops) order (by
    rintro ⟨id, c⟩ hp
    apply H.disc hd
    rw [(find_mem H.nodup).1 (ho.mem_iff.1 hp)]; rfl)
  exact ⟨b, hb, C30_finished_sound ops order b ho hb⟩

/-- `finished(id)` for an id with a target: true exactly if the target is reached.  For an id that has
not been mentioned since the last full reset it throws. -/
theorem C30_finished_id (ops : List Op) (id : ℕ) :
    (∀ n, target id ops.reverse = some n →
      (run ops).finishedId id = .val (decide (n ≤ accepted id ops.reverse))) ∧
    (¬ known id ops.reverse → ((run ops).finishedId id).isThrown) := by
  have H := inv_run ops
  constructor
  · intro n hn
    have ht := H.target_some id n hn
    obtain ⟨c, hc⟩ := Option.isSome_iff_exists.1 (H.count_of_target id (by rw [ht]; rfl))
    have := H.count id
    rw [hc, Option.getD_some] at this
    unfold finishedId
    rw [hc, ht]
    simp [this]
  · intro hk
    unfold finishedId
    have : assocFind (run ops).target id = none := by
      cases h : assocFind (run ops).target id with
      | none => rfl
      | some n => exact absurd ((H.known_iff id).1 (by rw [h]; rfl)) hk
    rw [this]
    cases assocFind (run ops).count id <;> trivial

/-- Non-trivial instance: a history with two ids, a rejection and a reset. -/
example : Disciplined ([.setTargetCount 1 2, .increaseCounter 1, .increaseRejectedCounter,
    .resetCounter 1, .increaseCounter 1, .setTargetCount 7 1, .increaseCounter 1,
    .queryCount 7] : List Op).reverse ∧
    accepted 1 ([.setTargetCount 1 2, .increaseCounter 1, .increaseRejectedCounter,
    .resetCounter 1, .increaseCounter 1, .setTargetCount 7 1, .increaseCounter 1,
    .queryCount 7] : List Op).reverse = 2 := by
  simp [Disciplined, known, accepted]

/-! ## C31 Querying the sampling status has no side effects and does not fail -/

/-- Full claim: `finished()` never throws. -/
def C31_full : Prop :=
  ∀ (ops : List Op) (order : List (ℕ × ℕ)), order.Perm (run ops).count →
    ¬ ((run ops).finishedOn order).isThrown

/-- The claim fails: querying the count of an unknown id on a fresh status makes `finished()` throw,
although it returned true before. -/
theorem C31_disproof : ¬ C31_full ∧
    ((run []).finishedOn (run []).count = .val true ∧
      ((run [.queryCount 0]).finishedOn (run [.queryCount 0]).count).isThrown) := by
  have h : ((run [.queryCount 0]).finishedOn (run [.queryCount 0]).count).isThrown := by
    show (finishedOn _ [(0, 0)]).isThrown
    trivial
  exact ⟨fun H => H _ _ (List.Perm.refl _) h, rfl, h⟩

/-- `resetCounter` for an unknown id has the same effect. -/
theorem C31_reset_disproof :
    ((run [.resetCounter 3]).finishedOn (run [.resetCounter 3]).count).isThrown := trivial

/-- What does hold: a query for an id that is known changes nothing, the value returned by a query is
the count whatever has been queried before, and queries of known ids never make `finished()` throw
(missing: queries of unknown ids; see `C31_disproof`). -/
theorem C31_queries_partial (ops : List Op) (id : ℕ) :
    (known id ops.reverse → ((run ops).getCount id).2 = run ops) ∧
    (∀ j, (((run ops).getCount id).2.getCount j).1 = ((run ops).getCount j).1) ∧
    (Disciplined ops.reverse → known id ops.reverse → ∀ order : List (ℕ × ℕ),
      order.Perm ((run ops).getCount id).2.count →
      ¬ (((run ops).getCount id).2.finishedOn order).isThrown) := by
  have H := inv_run ops
  have h1 : known id ops.reverse → ((run ops).getCount id).2 = run ops := by
    intro hk
    obtain ⟨c, hc⟩ := Option.isSome_iff_exists.1 (H.count_of_target id ((H.known_iff id).2 hk))
    unfold getCount assocTouch
    rw [hc]
  refine ⟨h1, ?_, ?_⟩
  · intro j
    show (assocFind (assocTouch (run ops).count id) j).getD 0 = (assocFind (run ops).count j).getD 0
    rw [find_touch]
    by_cases hj : j = id
    · subst hj; simp
    · simp [hj]
  · intro hd hk order ho
    rw [h1 hk] at ho ⊢
    obtain ⟨b, hb, _⟩ := C30_finished ops order ho hd
    rw [hb]; exact fun h => h

/-- Non-trivial instance of the hypotheses. -/
example : known 1 ([.setTargetCount 1 5] : List Op).reverse ∧
    Disciplined ([.setTargetCount 1 5] : List Op).reverse := by simp [known, Disciplined]

/-! ## C32 Overall sample count is the sum of the counts -/

/-- Sum of the counts. -/
def countSum (m : List (ℕ × ℕ)) : ℕ := (m.map Prod.snd).sum

theorem toInt32_congr {a b : ℤ} (h : a % 2 ^ 32 = b % 2 ^ 32) : toInt32 a = toInt32 b := by
  unfold toInt32 Int.bmod
  have h' : a % ((2 ^ 32 : ℕ) : ℤ) = b % ((2 ^ 32 : ℕ) : ℤ) := by exact_mod_cast h
  rw [h']

theorem total_fold (order : List (ℕ × ℕ)) (acc : ℤ) (h : toInt32 acc = acc) :
    order.foldl (fun acc p => toInt32 ((toSizeT acc + p.2 : ℕ) : ℤ)) acc
      = toInt32 (acc + countSum order) := by
  induction order generalizing acc with
  | nil => simp [countSum, h]
  | cons p t ih =>
    rw [List.foldl_cons, ih _ (by unfold toInt32; exact Int.bmod_bmod)]
    have e1 : ((toSizeT acc + p.2 : ℕ) : ℤ) = acc % 2 ^ 64 + p.2 := by
      unfold toSizeT
      push_cast
      rw [Int.toNat_of_nonneg (Int.emod_nonneg _ (by norm_num))]
    have e2 : countSum (p :: t) = p.2 + countSum t := by simp [countSum]
    rw [e1, e2]
    apply toInt32_congr
    have h3 : toInt32 (acc % 2 ^ 64 + p.2) % 2 ^ 32 = (acc % 2 ^ 64 + p.2) % 2 ^ 32 := by
      have := Int.bmod_emod (x := acc % 2 ^ 64 + p.2) (m := 2 ^ 32)
      exact_mod_cast this
    rw [Int.add_emod, h3, ← Int.add_emod]
    push_cast
    omega

theorem countSum_keys {m : List (ℕ × ℕ)} (hn : (keys m).Nodup) :
    countSum m = ∑ k ∈ (keys m).toFinset, (assocFind m k).getD 0 := by
  rw [List.sum_toFinset _ hn]
  unfold countSum keys
  rw [List.map_map]
  congr 1
  apply List.map_congr_left
  rintro ⟨k, v⟩ hp
  have := (find_mem hn).1 hp
  simp [this]

/-- The sum of the stored counts is the number of accepted samples. -/
theorem countSum_run (ops : List Op) (S : Finset ℕ)
    (hS : ∀ id, accepted id ops.reverse ≠ 0 → id ∈ S) :
    countSum (run ops).count = ∑ id ∈ S, accepted id ops.reverse := by
  have H := inv_run ops
  rw [countSum_keys H.nodup]
  have e : ∀ id, (assocFind (run ops).count id).getD 0 = accepted id ops.reverse := H.count
  simp only [e]
  have h1 : ∑ x ∈ (keys (run ops).count).toFinset, accepted x ops.reverse
      = ∑ x ∈ (keys (run ops).count).toFinset ∪ S, accepted x ops.reverse := by
    apply Finset.sum_subset Finset.subset_union_left
    intro id _ h
    rw [List.mem_toFinset, ← find_none_iff] at h
    rw [← e id, h]; rfl
  rw [h1]
  symm
  apply Finset.sum_subset Finset.subset_union_right
  intro id _ h
  by_contra h0
  exact h (hS id h0)

theorem countSum_perm {a b : List (ℕ × ℕ)} (h : a.Perm b) : countSum a = countSum b :=
  (h.map Prod.snd).sum_eq

/-- Full claim: whatever the history and the iteration order of the map, the overall count is the sum
over all ids of the accepted samples. -/
def C32_full : Prop :=
  ∀ (ops : List Op) (order : List (ℕ × ℕ)) (S : Finset ℕ), order.Perm (run ops).count →
    (∀ id, accepted id ops.reverse ≠ 0 → id ∈ S) →
    getTotalCountOn order = ∑ id ∈ S, accepted id ops.reverse

/-- Exact value of the overall count: the sum of the counts converted to a 32 bit `int` and back; in
particular it does not depend on the iteration order. -/
theorem C32_value (ops : List Op) (order : List (ℕ × ℕ)) (S : Finset ℕ)
    (ho : order.Perm (run ops).count) (hS : ∀ id, accepted id ops.reverse ≠ 0 → id ∈ S) :
    (getTotalCountOn order : ℤ)
      = Int.bmod (∑ id ∈ S, accepted id ops.reverse : ℕ) (2 ^ 32) % 2 ^ 64 := by
  unfold getTotalCountOn
  rw [total_fold order 0 (by decide), countSum_perm ho, countSum_run ops S hS]
  unfold toSizeT toInt32
  rw [Int.toNat_of_nonneg (Int.emod_nonneg _ (by norm_num)), zero_add]

/-- The overall count is right as long as fewer than `2^31` samples have been accepted (missing:
larger counts, for which it is wrong; see `C32_disproof`). -/
theorem C32_total_partial (ops : List Op) (order : List (ℕ × ℕ)) (S : Finset ℕ)
    (ho : order.Perm (run ops).count) (hS : ∀ id, accepted id ops.reverse ≠ 0 → id ∈ S)
    (hlt : ∑ id ∈ S, accepted id ops.reverse < 2 ^ 31) :
    getTotalCountOn order = ∑ id ∈ S, accepted id ops.reverse := by
  have h := C32_value ops order S ho hS
  rw [Int.bmod_eq_of_le_mul_two (by push_cast; omega) (by push_cast; omega)] at h
  omega

theorem run_append (a b : List Op) : run (a ++ b) = b.foldl step (run a) := by
  unfold run; rw [List.foldl_append]

theorem accepted_replicate (n id : ℕ) :
    accepted id (List.replicate n (Op.increaseCounter 0)) = if id = 0 then n else 0 := by
  induction n with
  | zero => simp [accepted]
  | succ n ih =>
    rw [List.replicate_succ, accepted, ih]
    by_cases h : id = 0
    · simp [h]; omega
    · have : (0 : ℕ) ≠ id := fun e => h e.symm
      simp [h, this]

/-- After `2^31` accepted samples of a single id the reported overall count is `2^64 - 2^31`. -/
theorem C32_disproof : ¬ C32_full ∧
    ∃ ops order, List.Perm order (run ops).count ∧ getTotalCountOn order = 2 ^ 64 - 2 ^ 31 := by
  have hS : ∀ id, accepted id (List.replicate (2 ^ 31) (Op.increaseCounter 0)).reverse ≠ 0 →
      id ∈ ({0} : Finset ℕ) := by
    intro id h
    rw [List.reverse_replicate, accepted_replicate] at h
    by_contra h0
    rw [Finset.mem_singleton] at h0
    simp [h0] at h
  have hv := C32_value (List.replicate (2 ^ 31) (Op.increaseCounter 0)) _ {0} (List.Perm.refl _) hS
  have hs : ∑ id ∈ ({0} : Finset ℕ),
      accepted id (List.replicate (2 ^ 31) (Op.increaseCounter 0)).reverse = 2 ^ 31 := by
    rw [Finset.sum_singleton, List.reverse_replicate, accepted_replicate, if_pos rfl]
  rw [hs] at hv
  have hb : Int.bmod ((2 ^ 31 : ℕ) : ℤ) (2 ^ 32) % 2 ^ 64 = 2 ^ 64 - 2 ^ 31 := by decide
  rw [hb] at hv
  refine ⟨fun H => ?_, List.replicate (2 ^ 31) (Op.increaseCounter 0), _, List.Perm.refl _, by omega⟩
  have h1 := H _ _ {0} (List.Perm.refl _) hS
  rw [hs] at h1
  omega

/-- Non-trivial instance of the hypotheses of `C32_total_partial`. -/
example : ∃ (ops : List Op) (S : Finset ℕ), (∀ id, accepted id ops.reverse ≠ 0 → id ∈ S) ∧
    ∑ id ∈ S, accepted id ops.reverse = 3 := by
  refine ⟨[.increaseCounter 1, .increaseCounter 2, .increaseCounter 1], {1, 2}, ?_, by decide⟩
  intro id h
  by_contra h0
  simp only [Finset.mem_insert, Finset.mem_singleton, not_or] at h0
  have h1 : 1 ≠ id := fun e => h0.1 e.symm
  have h2 : 2 ≠ id := fun e => h0.2 e.symm
  simp [accepted, h1, h2] at h

end Props
