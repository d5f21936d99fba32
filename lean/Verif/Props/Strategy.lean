import Verif.Spec.Strategy
import Mathlib.Data.List.Dedup
import Mathlib.Data.List.Count
import Mathlib.Data.List.Rotate
import Mathlib.Data.List.Nodup
import Mathlib.Tactic.Linarith
import Mathlib.Tactic.Ring

/-!
# Sequential sampling strategy (C33)
-/

namespace Props
open Verif Frackit Frackit.Strategy
open Spec.Strategy (registered)

theorem registered_add (ops : List Op) (id : ℕ) :
    registered (ops ++ [.addId id])
      = if id ∈ registered ops then registered ops else registered ops ++ [id] := by
  unfold registered
  rw [List.filterMap_append, List.reverse_append]
  simp only [List.filterMap_cons, List.filterMap_nil, List.reverse_singleton, List.singleton_append,
    List.mem_reverse, List.mem_dedup]
  split_ifs with h
  · rw [List.dedup_cons_of_mem (List.mem_reverse.2 h)]
  · rw [List.dedup_cons_of_notMem (fun h' => h (List.mem_reverse.1 h')), List.reverse_cons]

theorem registered_next (ops : List Op) : registered (ops ++ [.getNextId]) = registered ops := by
  unfold registered
  rw [List.filterMap_append]
  simp

theorem registered_nodup (ops : List Op) : (registered ops).Nodup :=
  List.nodup_reverse.2 (List.nodup_dedup _)

/-- The index of the strategy is in range. -/
def InRange (s : Strategy ℕ) : Prop := s.st < s.ids.length ∨ (s.ids = [] ∧ s.st = 0)

theorem next_step (s : Strategy ℕ) (h : s.st < s.ids.length) :
    step s .getNextId = (.val (some s.ids[s.st]), ⟨s.ids, (s.st + 1) % s.ids.length⟩) := by
  have hne : s.ids ≠ [] := by intro h0; rw [h0] at h; simp at h
  have e : nextSequential s.ids s.st = .val (s.ids[s.st], (s.st + 1) % s.ids.length) := by
    unfold nextSequential
    rw [if_neg (by simpa using hne), List.getElem?_eq_getElem h]
    simp only
    congr 2
    by_cases h1 : s.st = s.ids.length - 1
    · have : s.st + 1 = s.ids.length := by omega
      rw [if_neg (not_not.2 h1), this, Nat.mod_self]
    · rw [if_pos h1, Nat.mod_eq_of_lt (by omega)]
  unfold step
  rw [e]

theorem inv_seq (ops : List Op) :
    (run sequential ops).ids = registered ops ∧ InRange (run sequential ops) := by
  induction ops using List.reverseRecOn with
  | nil => exact ⟨rfl, Or.inr ⟨rfl, rfl⟩⟩
  | append_singleton t o ih =>
    obtain ⟨h1, h2⟩ := ih
    have hr : run sequential (t ++ [o]) = (step (run sequential t) o).2 := by
      unfold run; rw [List.foldl_append]; rfl
    rw [hr]
    cases o with
    | addId id =>
      rw [registered_add, ← h1]
      show ((run sequential t).addId id).ids = _ ∧ InRange ((run sequential t).addId id)
      unfold addId
      by_cases h : id ∈ (run sequential t).ids
      · have : List.count id (run sequential t).ids ≠ 0 := List.count_pos_iff.2 h |>.ne'
        rw [if_neg this, if_pos h]
        exact ⟨rfl, h2⟩
      · rw [if_pos (List.count_eq_zero.2 h), if_neg h]
        refine ⟨rfl, Or.inl ?_⟩
        rcases h2 with h2 | ⟨h2, h3⟩
        · simp only [List.length_append, List.length_singleton]; omega
        · simp only [List.length_append, List.length_singleton]; omega
    | getNextId =>
      rw [registered_next]
      rcases h2 with h2 | ⟨h2, h3⟩
      · rw [next_step _ h2]
        exact ⟨h1, Or.inl (Nat.mod_lt _ (by omega))⟩
      · have : (step (run sequential t) .getNextId).2 = run sequential t := by
          unfold step nextSequential; rw [h2]; rfl
        rw [this]
        exact ⟨h1, Or.inr ⟨h2, h3⟩⟩

theorem calls_append (s : Strategy ℕ) (a b : ℕ) :
    calls s (a + b) = calls s a ++ calls (run s (List.replicate a .getNextId)) b := by
  induction a generalizing s with
  | zero => simp [calls, run]
  | succ a ih =>
    rw [show a + 1 + b = (a + b) + 1 from by omega]
    show (step s .getNextId).1 :: calls (step s .getNextId).2 (a + b) = _
    rw [ih]
    rfl

theorem calls_length (s : Strategy ℕ) (n : ℕ) : (calls s n).length = n := by
  induction n generalizing s with
  | zero => rfl
  | succ n ih => simp [calls, ih]

theorem run_next (s : Strategy ℕ) (h : s.st < s.ids.length) (a : ℕ) :
    run s (List.replicate a .getNextId) = ⟨s.ids, (s.st + a) % s.ids.length⟩ := by
  induction a generalizing s with
  | zero =>
    show s = _
    rw [Nat.add_zero, Nat.mod_eq_of_lt h]
  | succ a ih =>
    show run (step s .getNextId).2 (List.replicate a .getNextId) = _
    rw [next_step s h, ih _ (Nat.mod_lt _ (by omega))]
    simp only
    rw [Nat.mod_add_mod]
    congr 2
    omega

theorem calls_get (s : Strategy ℕ) (h : s.st < s.ids.length) (n i : ℕ) (hi : i < n) :
    (calls s n)[i]? = some (.val (s.ids[(s.st + i) % s.ids.length]?)) := by
  induction n generalizing s i with
  | zero => omega
  | succ n ih =>
    cases i with
    | zero =>
      show some (step s .getNextId).1 = _
      rw [next_step s h]
      simp only [Nat.add_zero, Nat.mod_eq_of_lt h, List.getElem?_eq_getElem h]
    | succ i =>
      show (calls (step s .getNextId).2 n)[i]? = _
      rw [next_step s h, ih _ (Nat.mod_lt _ (by omega)) i (by omega)]
      simp only
      rw [Nat.mod_add_mod]
      congr 4
      omega

theorem calls_round (s : Strategy ℕ) (h : s.st < s.ids.length) :
    calls s s.ids.length = (s.ids.rotate s.st).map fun id => .val (some id) := by
  apply List.ext_getElem?
  intro i
  by_cases hi : i < s.ids.length
  · rw [calls_get s h _ i hi, List.getElem?_map, List.getElem?_rotate hi, Nat.add_comm i]
    have hlt : (s.st + i) % s.ids.length < s.ids.length := Nat.mod_lt _ (by omega)
    rw [List.getElem?_eq_getElem hlt]
    rfl
  · rw [List.getElem?_eq_none (by rw [calls_length]; omega),
      List.getElem?_eq_none (by rw [List.length_map, List.length_rotate]; omega)]

/-! ## C33 Sequential strategy is a fair round robin -/

/-- Starting with a new strategy, after registering any ids (with repetitions), the `i`-th of any
number of calls returns the id at position `i` modulo the number of distinct ids, in the order of
first registration. -/
theorem C33_order (adds : List ℕ) (hne : adds ≠ []) (n i : ℕ) (hi : i < n) :
    (calls (run sequential (adds.map .addId)) n)[i]?
      = some (.val ((registered (adds.map .addId))[i % (registered (adds.map .addId)).length]?)) := by
  obtain ⟨h1, h2⟩ := inv_seq (adds.map .addId)
  have hst : ∀ (l : List ℕ) (s : Strategy ℕ), (run s (l.map .addId)).st = s.st := by
    intro l
    induction l with
    | nil => intro s; rfl
    | cons a t ih =>
      intro s
      show (run (s.addId a) (t.map .addId)).st = _
      rw [ih]; unfold addId; split_ifs <;> rfl
  have h0 : (run sequential (adds.map .addId)).st = 0 := hst adds sequential
  have hlen : 0 < (run sequential (adds.map .addId)).ids.length := by
    rw [h1]
    obtain ⟨a, ha⟩ := List.exists_mem_of_ne_nil _ hne
    apply List.length_pos_of_mem (a := a)
    unfold registered
    rw [List.mem_reverse, List.mem_dedup, List.mem_reverse, List.mem_filterMap]
    exact ⟨.addId a, List.mem_map_of_mem ha, rfl⟩
  rw [calls_get _ (by rw [h0]; exact hlen) n i hi, h0, Nat.zero_add, h1]

/-- After any history of registrations and calls that registered at least one id, `k` rounds of calls
return each registered id exactly `k` times and nothing else. -/
theorem C33_fair (ops : List Op) (k : ℕ) (hne : registered ops ≠ []) :
    (∀ id ∈ registered ops,
      (calls (run sequential ops) (k * (registered ops).length)).count (.val (some id)) = k) ∧
    (∀ r ∈ calls (run sequential ops) (k * (registered ops).length),
      ∃ id ∈ registered ops, r = .val (some id)) := by
  obtain ⟨h1, h2⟩ := inv_seq ops
  have hlt : (run sequential ops).st < (run sequential ops).ids.length := by
    rcases h2 with h2 | ⟨h2, _⟩
    · exact h2
    · rw [h1] at h2; exact absurd h2 hne
  have hnd : (run sequential ops).ids.Nodup := by rw [h1]; exact registered_nodup ops
  rw [← h1]
  generalize run sequential ops = s at hlt hnd
  induction k with
  | zero => simp [calls]
  | succ k ih =>
    have e : calls s ((k + 1) * s.ids.length)
        = (s.ids.rotate s.st).map (fun id => Outcome.val (some id)) ++ calls s (k * s.ids.length) := by
      rw [show (k + 1) * s.ids.length = s.ids.length + k * s.ids.length from by ring, calls_append,
        calls_round s hlt, run_next s hlt, Nat.add_mod_right, Nat.mod_eq_of_lt hlt]
    rw [e]
    constructor
    · intro id hid
      have hinj : Function.Injective (fun id : ℕ => Outcome.val (some id)) := by
        intro a b hab
        injection hab with h
        injection h
      have hc := List.count_map_of_injective (s.ids.rotate s.st) _ hinj id
      rw [List.count_append, ih.1 id hid, hc]
      rw [List.count_eq_one_of_mem (List.nodup_rotate.2 hnd) (List.mem_rotate.2 hid)]
      omega
    · intro r hr
      rcases List.mem_append.1 hr with hr | hr
      · obtain ⟨id, hid, rfl⟩ := List.mem_map.1 hr
        exact ⟨id, List.mem_rotate.1 hid, rfl⟩
      · exact ih.2 r hr

/-- A second registration of an id changes nothing. -/
theorem C33_register_twice (ops : List Op) (id : ℕ) (h : .addId id ∈ ops) :
    run sequential (ops ++ [.addId id]) = run sequential ops := by
  have hr : run sequential (ops ++ [.addId id]) = (run sequential ops).addId id := by
    unfold run; rw [List.foldl_append]; rfl
  have hmem : id ∈ (run sequential ops).ids := by
    rw [(inv_seq ops).1]
    unfold registered
    rw [List.mem_reverse, List.mem_dedup, List.mem_reverse, List.mem_filterMap]
    exact ⟨_, h, rfl⟩
  rw [hr]
  unfold addId
  rw [if_neg (List.count_pos_iff.2 hmem).ne']

/-- Registering an id never fails, and the id is registered afterwards. -/
theorem C33_register_succeeds (ops : List Op) (id : ℕ) :
    (step (run sequential ops) (.addId id)).1 = .val none ∧
      id ∈ (step (run sequential ops) (.addId id)).2.ids := by
  refine ⟨rfl, ?_⟩
  change id ∈ ((run sequential ops).addId id).ids
  unfold addId
  by_cases h : (run sequential ops).ids.count id = 0
  · rw [if_pos h]
    simp
  · rw [if_neg h]
    exact List.count_pos_iff.1 (Nat.pos_of_ne_zero h)

/-- A call throws exactly if no id has been registered, and never has undefined behaviour. -/
theorem C33_throws_iff (ops : List Op) :
    ((step (run sequential ops) .getNextId).1.isThrown ↔ ∀ id, .addId id ∉ ops) ∧
    (step (run sequential ops) .getNextId).1 ≠ .ub := by
  obtain ⟨h1, h2⟩ := inv_seq ops
  have hmem : ∀ id, .addId id ∈ ops ↔ id ∈ (run sequential ops).ids := by
    intro id
    rw [h1]
    unfold registered
    rw [List.mem_reverse, List.mem_dedup, List.mem_reverse, List.mem_filterMap]
    constructor
    · intro h; exact ⟨_, h, rfl⟩
    · rintro ⟨o, ho, he⟩
      cases o with
      | addId j => cases he; exact ho
      | getNextId => cases he
  simp only [hmem]
  generalize run sequential ops = s at h2
  rcases h2 with h2 | ⟨h2, h3⟩
  · rw [next_step s h2]
    refine ⟨⟨fun h => h.elim, fun h => absurd (List.getElem_mem h2) (h _)⟩, by simp⟩
  · have : step s .getNextId = (.thrown "Id list is empty!", s) := by
      unfold step nextSequential; rw [h2]; rfl
    rw [this, h2]
    exact ⟨⟨fun _ id h => (List.not_mem_nil h), fun _ => trivial⟩, by simp⟩

/-- Non-trivial instance: ids 4, 2, 4, 9 with a call in between. -/
example : registered [.addId 4, .addId 2, .getNextId, .addId 4, .addId 9] = [4, 2, 9] ∧
    calls (run sequential [.addId 4, .addId 2, .getNextId, .addId 4, .addId 9]) 3
      = [.val (some 2), .val (some 9), .val (some 4)] := by decide

end Props
