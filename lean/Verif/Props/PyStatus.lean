import Verif.Spec.PyStatus
import Verif.Props.StatusOutput

/-!
# Ids and the sampling status in Python (C130)
-/

namespace Props
open Verif Frackit Frackit.PyStatus
open Spec.PyStatus (IsCount HasTruth Means Query History)
open Spec.Status (accepted rejected target known Disciplined Done)
open Spec.StatusOutput (statusOps)

theorem castSize_iff (v : PyVal) (n : ℕ) : castSize v = some n ↔ IsCount v n := by
  constructor
  · intro h
    cases v with
    | int z =>
      change (if 0 ≤ z ∧ z < 2 ^ 64 then some z.toNat else none) = some n at h
      split_ifs at h with hz
      obtain ⟨m, rfl⟩ := Int.eq_ofNat_of_zero_le hz.1
      obtain rfl := Option.some.inj h
      exact .int m (by have := hz.2; norm_cast at this)
    | bool b =>
      cases b
      · obtain rfl := Option.some.inj h; exact .false
      · obtain rfl := Option.some.inj h; exact .true
    | _ => cases h
  · rintro (⟨n, hn⟩ | _ | _)
    · have e : ∀ z : ℤ, castSize (.int z) = if 0 ≤ z ∧ z < 2 ^ 64 then some z.toNat else none := fun z => rfl
      rw [e, if_pos ⟨Int.natCast_nonneg n, by norm_cast⟩, Int.toNat_natCast]
    · rfl
    · rfl

theorem castBool_iff (v : PyVal) (b : Bool) : castBool v = some b ↔ HasTruth v b := by
  constructor
  · intro h
    cases v with
    | int z =>
      obtain rfl := Option.some.inj h
      by_cases hz : z = 0
      · subst hz; simpa using HasTruth.zero
      · simpa [hz] using HasTruth.int z hz
    | bool b => obtain rfl := Option.some.inj h; exact .bool b
    | float x =>
      obtain rfl := Option.some.inj h
      by_cases hz : x = 0
      · subst hz; simpa using HasTruth.fzero
      · simpa [hz] using HasTruth.float x hz
    | none => obtain rfl := Option.some.inj h; exact .none
    | _ => cases h
  · rintro (⟨b⟩ | _ | ⟨z, hz⟩ | _ | ⟨x, hx⟩ | _) <;> simp [castBool, *]

/-- A documented call that stands for an operation does what the operation does. -/
theorem call_means {k : Call} {o : Console.Op} (hm : Means k o) (order : List (ℕ × ℕ) → List (ℕ × ℕ)) (c : Console) :
    (call order c k).2 = (c.step o).2 ∧
    (call order c k).1 = translated (fun _ => match k.method, o with
      | .getCount, .status (.queryCount i) => .int (c.status.getCount i).1
      | _, _ => .none) (c.step o).1 := by
  cases hm with
  | setTargetCount i v n h => simp [call, castId, (castSize_iff v n).2 h, Console.step, translated]
  | increaseCounter i => exact ⟨rfl, rfl⟩
  | resetCounters => exact ⟨rfl, rfl⟩
  | resetCounter i => exact ⟨rfl, rfl⟩
  | reset => exact ⟨rfl, rfl⟩
  | increaseRejectedCounter => exact ⟨rfl, rfl⟩
  | getCount i => exact ⟨rfl, rfl⟩
  | print => exact ⟨rfl, rfl⟩
  | printValue v b h => simp [call, printArgument, (castBool_iff v b).2 h, Console.step]
  | printKeyword v b h => simp [call, printArgument, (castBool_iff v b).2 h, Console.step]

theorem castId_eq {v : PyVal} {i : ℕ} (h : castId v = some i) : v = .id i := by
  cases v <;> first | (obtain rfl := Option.some.inj h; rfl) | cases h

/-- Every call is a documented one, or raises a `TypeError` and changes nothing. -/
theorem call_cases (order : List (ℕ × ℕ) → List (ℕ × ℕ)) (c : Console) (k : Call) :
    (∃ o, Means k o) ∨ (Query k ∧ (call order c k).2 = c) ∨ call order c k = (.thrown "TypeError", c) := by
  obtain ⟨m, args, kw⟩ := k
  cases m with
  | setTargetCount =>
    match args, kw with
    | [a, b], [] =>
      cases ha : castId a with
      | none => right; right; simp [call, ha, typeError]
      | some i =>
        cases hb : castSize b with
        | none => right; right; simp [call, ha, hb, typeError]
        | some n => obtain rfl := castId_eq ha; exact Or.inl ⟨_, .setTargetCount i b n ((castSize_iff b n).1 hb)⟩
    | [], _ => exact Or.inr (Or.inr rfl)
    | [_], _ => exact Or.inr (Or.inr rfl)
    | _ :: _ :: _ :: _, _ => exact Or.inr (Or.inr rfl)
    | [_, _], _ :: _ => exact Or.inr (Or.inr rfl)
  | finished =>
    match args, kw with
    | [], [] => exact Or.inr (Or.inl ⟨.finished, rfl⟩)
    | [a], [] =>
      cases ha : castId a with
      | none => right; right; simp [call, ha, typeError]
      | some i => obtain rfl := castId_eq ha; exact Or.inr (Or.inl ⟨.finishedId i, rfl⟩)
    | [], _ :: _ => exact Or.inr (Or.inr rfl)
    | [_], _ :: _ => exact Or.inr (Or.inr rfl)
    | _ :: _ :: _, _ => exact Or.inr (Or.inr rfl)
  | increaseCounter =>
    match args, kw with
    | [a], [] =>
      cases ha : castId a with
      | none => right; right; simp [call, ha, typeError]
      | some i => obtain rfl := castId_eq ha; exact Or.inl ⟨_, .increaseCounter i⟩
    | [], _ => exact Or.inr (Or.inr rfl)
    | [_], _ :: _ => exact Or.inr (Or.inr rfl)
    | _ :: _ :: _, _ => exact Or.inr (Or.inr rfl)
  | resetCounters =>
    match args, kw with
    | [], [] => exact Or.inl ⟨_, .resetCounters⟩
    | [], _ :: _ => exact Or.inr (Or.inr rfl)
    | _ :: _, _ => exact Or.inr (Or.inr rfl)
  | resetCounter =>
    match args, kw with
    | [a], [] =>
      cases ha : castId a with
      | none => right; right; simp [call, ha, typeError]
      | some i => obtain rfl := castId_eq ha; exact Or.inl ⟨_, .resetCounter i⟩
    | [], _ => exact Or.inr (Or.inr rfl)
    | [_], _ :: _ => exact Or.inr (Or.inr rfl)
    | _ :: _ :: _, _ => exact Or.inr (Or.inr rfl)
  | reset =>
    match args, kw with
    | [], [] => exact Or.inl ⟨_, .reset⟩
    | [], _ :: _ => exact Or.inr (Or.inr rfl)
    | _ :: _, _ => exact Or.inr (Or.inr rfl)
  | increaseRejectedCounter =>
    match args, kw with
    | [], [] => exact Or.inl ⟨_, .increaseRejectedCounter⟩
    | [], _ :: _ => exact Or.inr (Or.inr rfl)
    | _ :: _, _ => exact Or.inr (Or.inr rfl)
  | getCount =>
    match args, kw with
    | [], [] => exact Or.inr (Or.inl ⟨.getCount, rfl⟩)
    | [a], [] =>
      cases ha : castId a with
      | none => right; right; simp [call, ha, typeError]
      | some i => obtain rfl := castId_eq ha; exact Or.inl ⟨_, .getCount i⟩
    | [], _ :: _ => exact Or.inr (Or.inr rfl)
    | [_], _ :: _ => exact Or.inr (Or.inr rfl)
    | _ :: _ :: _, _ => exact Or.inr (Or.inr rfl)
  | print =>
    cases hp : printArgument args kw with
    | none => right; right; simp [call, hp, typeError]
    | some b =>
      left
      unfold printArgument at hp
      split at hp
      · obtain rfl := Option.some.inj hp; exact ⟨_, .print⟩
      · exact ⟨_, .printValue _ b ((castBool_iff _ b).1 hp)⟩
      · exact ⟨_, .printKeyword _ b ((castBool_iff _ b).1 hp)⟩
      · cases hp

theorem means_unique {k : Call} {o o' : Console.Op} (h : Means k o) (h' : Means k o') : o = o' := by
  have u1 : ∀ {v n m}, IsCount v n → IsCount v m → n = m := fun h1 h2 =>
    Option.some.inj (((castSize_iff _ _).2 h1).symm.trans ((castSize_iff _ _).2 h2))
  have u2 : ∀ {v n m}, HasTruth v n → HasTruth v m → n = m := fun h1 h2 =>
    Option.some.inj (((castBool_iff _ _).2 h1).symm.trans ((castBool_iff _ _).2 h2))
  cases h with
  | setTargetCount i v n h1 => cases h' with | setTargetCount _ _ m h2 => rw [u1 h1 h2]
  | printValue v b h1 => cases h' with | printValue _ b' h2 => rw [u2 h1 h2]
  | printKeyword v b h1 => cases h' with | printKeyword _ b' h2 => rw [u2 h1 h2]
  | _ => cases h'; rfl

theorem translated_ub {α : Type} (f : α → Result) (x : Outcome α) : translated f x = .ub ↔ x = .ub := by
  cases x <;> simp [translated]

/-- No query is undefined. -/
theorem query_ne_ub {k : Call} (hq : Query k) (order : List (ℕ × ℕ) → List (ℕ × ℕ)) (c : Console) :
    (call order c k).1 ≠ .ub := by
  cases hq with
  | finished =>
    show translated _ _ ≠ _
    rw [Ne, translated_ub]
    generalize order c.status.count = l
    induction l with
    | nil => simp [SamplingStatus.finishedOn]
    | cons p t ih =>
      obtain ⟨i, n⟩ := p
      unfold SamplingStatus.finishedOn
      split
      · simp
      · split_ifs
        · simp
        · exact ih
  | finishedId i =>
    show translated _ _ ≠ _
    rw [Ne, translated_ub]
    unfold SamplingStatus.finishedId
    split
    · simp
    · split <;> simp
  | getCount => exact fun h => by cases h

theorem py_run_cons (order : List (ℕ × ℕ) → List (ℕ × ℕ)) (k : Call) (h : List Call) (hub : (run order h).1 ≠ .ub) :
    run order (k :: h) = call order (run order h).2 k := by
  rw [run]
  split
  · next e => exact absurd e hub
  · rfl

theorem py_no_ub {order : List (ℕ × ℕ) → List (ℕ × ℕ)} {k : Call} {h : List Call}
    (hub : (run order (k :: h)).1 ≠ .ub) : (run order h).1 ≠ .ub := by
  intro e
  apply hub
  rw [run, e]

theorem query_not_means {k : Call} (hq : Query k) (o : Console.Op) : ¬ Means k o := by
  intro hm
  cases hq <;> cases hm

/-! ## C130 Ids and the sampling status in Python -/

/-- The state of a Python status is that of the C++ status after the operations that the documented calls stand for;
calls that raise a `TypeError` and queries leave no trace.  The history is undefined only if that of the C++ status is. -/
theorem C130_refines (order : List (ℕ × ℕ) → List (ℕ × ℕ)) (h : List Call) (ops : List Console.Op)
    (hh : History h ops) (hub : (run order h).1 ≠ .ub) :
    (run order h).2 = (Console.run ops).2 ∧ (Console.run ops).1 ≠ .ub := by
  induction hh with
  | nil => exact ⟨rfl, fun e => by cases e⟩
  | @means k h o ops hm hh ih =>
    have hu := py_no_ub hub
    obtain ⟨h1, h2⟩ := ih hu
    rw [py_run_cons order k h hu] at hub ⊢
    rw [console_run_cons o ops h2, ← h1]
    obtain ⟨e1, e2⟩ := call_means hm order (run order h).2
    refine ⟨e1, fun e => hub ?_⟩
    rw [e2, translated_ub]
    exact e
  | @skip k h ops hn hh ih =>
    have hu := py_no_ub hub
    obtain ⟨h1, h2⟩ := ih hu
    rw [py_run_cons order k h hu] at hub ⊢
    rcases call_cases order (run order h).2 k with ⟨o, ho⟩ | ⟨_, e⟩ | e
    · exact absurd ho (hn o)
    · exact ⟨e.trans h1, h2⟩
    · rw [e]; exact ⟨h1, h2⟩

/-- Every history of calls stands for exactly one history of operations. -/
theorem history_exists (h : List Call) : ∃! ops, History h ops := by
  induction h with
  | nil => exact ⟨[], .nil, fun o ho => by cases ho; rfl⟩
  | cons k h ih =>
    obtain ⟨ops, ho, hu⟩ := ih
    by_cases hk : ∃ o, Means k o
    · obtain ⟨o, hm⟩ := hk
      refine ⟨o :: ops, .means hm ho, ?_⟩
      rintro _ (_ | ⟨hm', ho'⟩ | ⟨hn, _⟩)
      · rw [means_unique hm hm', hu _ ho']
      · exact absurd hm (hn o)
    · refine ⟨ops, .skip (fun o hm => hk ⟨o, hm⟩) ho, ?_⟩
      rintro _ (_ | ⟨hm', ho'⟩ | ⟨hn, ho'⟩)
      · exact absurd ⟨_, hm'⟩ hk
      · exact hu _ ho'

/-- Whatever has been called before, a call either is one of the documented calls, or raises a `TypeError` without any
effect, in particular if a number is passed instead of an `Id`, a negative or a floating point number as a count, or
arguments by keyword. -/
theorem C130_type_error (order : List (ℕ × ℕ) → List (ℕ × ℕ)) (h : List Call) (k : Call)
    (hub : (run order h).1 ≠ .ub) (hm : ∀ o, ¬ Means k o) (hq : ¬ Query k) :
    run order (k :: h) = (.thrown "TypeError", (run order h).2) := by
  rw [py_run_cons order k h hub]
  rcases call_cases order (run order h).2 k with ⟨o, ho⟩ | ⟨e, _⟩ | e
  · exact absurd ho (hm o)
  · exact absurd e hq
  · exact e

/-- No documented call raises a `TypeError`. -/
theorem C130_no_type_error (order : List (ℕ × ℕ) → List (ℕ × ℕ)) (h : List Call) (k : Call)
    (hub : (run order h).1 ≠ .ub) (hk : (∃ o, Means k o) ∨ Query k) :
    (run order (k :: h)).1 ≠ .thrown "TypeError" := by
  have ht : ∀ {α : Type} (f : α → Result) (x : Outcome α), translated f x ≠ .thrown "TypeError" := by
    intro α f x
    cases x <;> simp [translated]
    unfold translate
    split_ifs <;> simp
  rw [py_run_cons order k h hub]
  rcases hk with ⟨o, ho⟩ | hq
  · rw [(call_means ho order _).2]
    exact ht _ _
  · cases hq with
    | finished => exact ht _ _
    | finishedId i => exact ht _ _
    | getCount => exact fun e => by cases e

/-- `getCount(Id(i))` returns the number of samples accepted for `i` since its last reset, and `getCount()` returns their
sum while it is below `2^31` (missing: larger sums, for which the result is wrong, see `C32_disproof`). -/
theorem C130_counts_partial (order : List (ℕ × ℕ) → List (ℕ × ℕ)) (h : List Call) (ops : List Console.Op)
    (hh : History h ops) (hub : (run order h).1 ≠ .ub) :
    (∀ i, (run order (⟨.getCount, [.id i], []⟩ :: h)).1 = .val (.int (accepted i (statusOps ops)))) ∧
    (∀ S : Finset ℕ, (∀ m, (order m).Perm m) → (∀ i, accepted i (statusOps ops) ≠ 0 → i ∈ S) →
      ∑ i ∈ S, accepted i (statusOps ops) < 2 ^ 31 →
      (run order (⟨.getCount, [], []⟩ :: h)).1 = .val (.int (∑ i ∈ S, accepted i (statusOps ops)))) := by
  obtain ⟨h1, h2⟩ := C130_refines order h ops hh hub
  obtain ⟨h3, -⟩ := console_state ops h2
  have hr : (statusOps ops).reverse.reverse = statusOps ops := List.reverse_reverse _
  refine ⟨fun i => ?_, fun S hp hS hlt => ?_⟩
  · rw [py_run_cons order _ h hub]
    show Outcome.val (Result.int (SamplingStatus.getCount _ i).1) = _
    rw [h1, h3, (C30_counters _ i).1, hr]
  · rw [py_run_cons order _ h hub]
    show Outcome.val (Result.int (SamplingStatus.getTotalCountOn (order _))) = _
    rw [h1, h3, C32_total_partial (statusOps ops).reverse _ S (hp _) (by rwa [hr]) (by rwa [hr]), hr]

/-- `finished()` returns `True` exactly if all targets are reached, provided that single counters have been reset and
queried for known ids only; `finished(Id(i))` returns `True` exactly if the target of `i` is reached, and raises an
exception if `i` is not known. -/
theorem C130_finished_partial (order : List (ℕ × ℕ) → List (ℕ × ℕ)) (hp : ∀ m, (order m).Perm m) (h : List Call)
    (ops : List Console.Op) (hh : History h ops) (hub : (run order h).1 ≠ .ub) :
    (Disciplined (statusOps ops) → ∃ b, (run order (⟨.finished, [], []⟩ :: h)).1 = .val (.bool b) ∧
      (b = true ↔ Done (statusOps ops))) ∧
    (∀ i n, target i (statusOps ops) = some n → (run order (⟨.finished, [.id i], []⟩ :: h)).1
      = .val (.bool (decide (n ≤ accepted i (statusOps ops))))) ∧
    (∀ i, ¬ known i (statusOps ops) → ((run order (⟨.finished, [.id i], []⟩ :: h)).1).isThrown) := by
  obtain ⟨h1, h2⟩ := C130_refines order h ops hh hub
  obtain ⟨h3, -⟩ := console_state ops h2
  have hr : (statusOps ops).reverse.reverse = statusOps ops := List.reverse_reverse _
  have H := C30_finished_id (statusOps ops).reverse
  rw [hr] at H
  refine ⟨fun hd => ?_, fun i n hn => ?_, fun i hk => ?_⟩
  · obtain ⟨b, hb, hiff⟩ := C30_finished (statusOps ops).reverse (order _) (hp _) (by rwa [hr])
    rw [hr] at hiff
    refine ⟨b, ?_, hiff⟩
    rw [py_run_cons order _ h hub]
    show translated _ _ = _
    rw [h1, h3, hb]
    rfl
  · rw [py_run_cons order _ h hub]
    show translated _ _ = _
    rw [h1, h3, (H i).1 n hn]
    rfl
  · rw [py_run_cons order _ h hub]
    show (translated _ _).isThrown
    rw [h1, h3]
    have := (H i).2 hk
    cases e : SamplingStatus.finishedId (SamplingStatus.run (statusOps ops).reverse) i with
    | thrown s => trivial
    | val _ => rw [e] at this; cases this
    | nan => rw [e] at this; cases this
    | ub => rw [e] at this; cases this

/-- `finished(Id(i))` raises `RuntimeError` for an id that is not known, or `IndexError` if it has been queried or reset
before; on a new status it is `RuntimeError`. -/
theorem C130_finished_unknown (order : List (ℕ × ℕ) → List (ℕ × ℕ)) (h : List Call) (ops : List Console.Op)
    (hh : History h ops) (hub : (run order h).1 ≠ .ub) (i : ℕ) :
    (¬ known i (statusOps ops) → (run order (⟨.finished, [.id i], []⟩ :: h)).1 = .thrown "RuntimeError" ∨
      (run order (⟨.finished, [.id i], []⟩ :: h)).1 = .thrown "IndexError") ∧
    (run order [⟨.finished, [.id i], []⟩]).1 = .thrown "RuntimeError" := by
  have hRuntime : translate "Target count not set for given id" = "RuntimeError" := by decide
  have hIndex : translate "std::out_of_range" = "IndexError" := by decide
  constructor
  · intro hk
    obtain ⟨h1, h2⟩ := C130_refines order h ops hh hub
    obtain ⟨h3, -⟩ := console_state ops h2
    rw [py_run_cons order _ h hub]
    have hr : (statusOps ops).reverse.reverse = statusOps ops := List.reverse_reverse _
    have H := (C30_finished_id (statusOps ops).reverse i).2 (by rwa [hr])
    show translated _ _ = _ ∨ translated _ _ = _
    rw [h1, h3]
    unfold SamplingStatus.finishedId at H ⊢
    cases hc : assocFind (SamplingStatus.run (statusOps ops).reverse).count i with
    | none => exact .inl (congrArg Outcome.thrown hRuntime)
    | some c =>
      rw [hc] at H
      cases ht : assocFind (SamplingStatus.run (statusOps ops).reverse).target i with
      | none => exact .inr (congrArg Outcome.thrown hIndex)
      | some n => rw [ht] at H; cases H
  · rw [py_run_cons order _ [] (by nofun)]
    exact congrArg Outcome.thrown hRuntime

/-- Full claim: `finished()` never raises an exception. -/
def C130_full : Prop :=
  ∀ (order : List (ℕ × ℕ) → List (ℕ × ℕ)) (h : List Call), (∀ m, (order m).Perm m) → (run order h).1 ≠ .ub →
    ¬ ((run order (⟨.finished, [], []⟩ :: h)).1).isThrown

/-- The claim fails: after `status.getCount(Id(0))` on a new status, `status.finished()` raises an `IndexError`. -/
theorem C130_disproof : ¬ C130_full ∧
    (run id [⟨.finished, [], []⟩, ⟨.getCount, [.id 0], []⟩]).1 = .thrown "IndexError" := by
  have e : (run id [⟨.finished, [], []⟩, ⟨.getCount, [.id 0], []⟩]).1 = .thrown "IndexError" := by
    rw [py_run_cons _ _ _ (by rw [py_run_cons _ _ _ (fun e => by cases e)]; exact fun e => by cases e),
      py_run_cons _ _ _ (fun e => by cases e)]
    show Outcome.thrown (translate "std::out_of_range") = _
    rw [translate, if_pos rfl]
  refine ⟨fun H => ?_, e⟩
  have := H id [⟨.getCount, [.id 0], []⟩] (fun m => List.Perm.refl m)
    (by rw [py_run_cons _ _ _ (fun e => by cases e)]; exact fun e => by cases e)
  rw [e] at this
  exact this trivial

/-- `Id(x)` succeeds exactly for the integers from 0 to 2^64 - 1 and truth values, `get()` returns the number, ids are
equal exactly if their numbers are, and an id is different from any other object, such as its number. -/
theorem C130_id (v : PyVal) :
    (∀ i, newId [v] [] = .val (.id i) ↔ IsCount v i) ∧
    ((¬ ∃ i, IsCount v i) → newId [v] [] = .thrown "TypeError") ∧
    (∀ i, newId [v] [] = .val (.id i) → getId (.id i) = .val i ∧ IsCount (.int i) i) ∧
    (∀ i j, (eqId (.id i) (.id j) = true ↔ i = j) ∧ (eqId (.id i) v = true ↔ v = .id i) ∧
      (eqId v (.id i) = true ↔ v = .id i)) := by
  refine ⟨fun i => ?_, fun h => ?_, fun i h => ⟨rfl, ?_⟩, fun i j => ⟨?_, ?_, ?_⟩⟩
  · rw [← castSize_iff]
    unfold newId
    cases e : castSize v with
    | none => simp [e]
    | some n => simp [e]
  · unfold newId
    cases e : castSize v with
    | none => simp [e]
    | some n => exact absurd ⟨n, (castSize_iff v n).1 e⟩ h
  · have : castSize v = some i := by
      unfold newId at h
      cases e : castSize v with
      | none => simp [e] at h
      | some n => simp [e] at h; rw [h]
    rcases (castSize_iff v i).1 this with ⟨_, hn⟩ | _ | _
    · exact .int i hn
    · exact .int 1 (by norm_num)
    · exact .int 0 (by norm_num)
  · simp [eqId]
  · cases v <;> simp [eqId, eq_comm]
  · cases v <;> simp [eqId]

/-- The constructor of ids takes one argument by position; other objects have no number to get. -/
theorem C130_id_errors (args : List PyVal) (kw : Kw) (v : PyVal) :
    (args.length ≠ 1 ∨ kw ≠ [] → newId args kw = .thrown "TypeError") ∧
    ((∀ i, v ≠ .id i) → getId v = .thrown "AttributeError") := by
  constructor
  · intro h
    unfold newId
    split
    · simp at h
    · rfl
  · intro h
    cases v with
    | id i => exact absurd rfl (h i)
    | _ => rfl

/-- Hash values of equal ids are equal; the value of every id is one that Python accepts. -/
theorem C130_hash (v : PyVal) (i j : ℕ) (hv : newId [v] [] = .val (.id i)) :
    (eqId (.id i) (.id j) = true → hashId i = hashId j) ∧ 0 ≤ hashId i ∧ hashId i < 2 ^ 63 := by
  refine ⟨fun h => ?_, ?_, ?_⟩
  · rw [((C130_id v).2.2.2 i j).1.1 h]
  all_goals
    unfold hashId
    split_ifs <;> omega

/-- Non-trivial instances: a history with ids, a truth value as count, a call with a wrong argument and queries. -/
example : ∃ ops, History [⟨.getCount, [], []⟩, ⟨.increaseCounter, [.int 3], []⟩, ⟨.increaseCounter, [.id 3], []⟩,
      ⟨.setTargetCount, [.id 3, .bool true], []⟩] ops ∧
    statusOps ops = [.increaseCounter 3, .setTargetCount 3 1] := by
  refine ⟨[.status (.increaseCounter 3), .status (.setTargetCount 3 1)],
    .skip (query_not_means .getCount) (.skip (fun o h => by cases h) (.means (.increaseCounter 3)
      (.means (.setTargetCount 3 _ 1 .true) .nil))), rfl⟩

/-- Calls that raise a `TypeError`. -/
example : (∀ o, ¬ Means ⟨.setTargetCount, [.id 1, .int (-1)], []⟩ o) ∧
    ¬ Query ⟨.setTargetCount, [.id 1, .int (-1)], []⟩ := by
  refine ⟨fun o h => ?_, fun h => by cases h⟩
  cases h with
  | setTargetCount i v n h => cases h

/-- Ids that can and cannot be constructed. -/
example : newId [.int 7] [] = .val (.id 7) ∧ newId [.float 7] [] = .thrown "TypeError" ∧
    newId [.int (2 ^ 64)] [] = .thrown "TypeError" := by
  refine ⟨((C130_id _).1 7).2 (.int 7 (by norm_num)), rfl, (C130_id _).2.1 ?_⟩
  rintro ⟨i, h⟩
  generalize hz : (2 ^ 64 : ℤ) = z at h
  cases h with
  | int n hn => omega

end Props
