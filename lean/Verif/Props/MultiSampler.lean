import Verif.Props.Strategy

/-!
# Sampler for several geometry types (C34)
-/

namespace Props
open Verif Frackit
open Spec.Strategy (samplers KeepsStrategy)

variable {κ S τ Geo ω : Type} [DecidableEq κ]
variable (next : List ℕ → τ → Outcome (ℕ × τ)) (draw : κ → S → ω → Outcome Geo × ω) (types : List κ)

/-- Relation of the state with the registered samplers. -/
structure MultiInv (m : MultiSampler κ S τ) (reg : List (κ × S × ℕ)) : Prop where
  ids : m.strategy.ids = reg.map fun x => x.2.2
  nodup : (reg.map fun x => x.2.2).Nodup
  store : ∀ k, m.samplers k = (reg.filter fun x => x.1 = k).map fun x => (x.2.1, x.2.2)

theorem call_ids (m : MultiSampler κ S τ) (w : ω) :
    (MultiSampler.call next draw types m w).2.1.samplers = m.samplers ∧
    (MultiSampler.call next draw types m w).2.1.strategy.ids = m.strategy.ids := by
  unfold MultiSampler.call
  split
  · exact ⟨rfl, rfl⟩
  · exact ⟨rfl, rfl⟩
  · exact ⟨rfl, rfl⟩
  · simp only
    split
    · exact ⟨rfl, rfl⟩
    · split <;> exact ⟨rfl, rfl⟩

theorem multi_inv_run (ops : List (MultiSampler.Op κ S τ)) (hk : KeepsStrategy ops) :
    ∀ (x : MultiSampler κ S τ × ω) (reg : List (κ × S × ℕ)), MultiInv x.1 reg →
      MultiInv (MultiSampler.run next draw types x ops).1 (samplers reg ops) := by
  induction ops with
  | nil => intro x reg H; exact H
  | cons o t ih =>
    intro x reg H
    have hk' : KeepsStrategy t := fun o' ho' => hk o' (List.mem_cons_of_mem _ ho')
    show MultiInv (MultiSampler.run next draw types (MultiSampler.step next draw types x o) t).1 _
    cases o with
    | add k s id =>
      simp only [MultiSampler.step, MultiSampler.addGeometrySampler, samplers]
      by_cases h : id ∈ reg.map (fun x => x.2.2)
      · have hh : x.1.strategy.hasId id = true := by
          unfold Strategy.hasId
          rw [H.ids]
          exact decide_eq_true (List.count_pos_iff.2 h).ne'
        rw [if_pos hh, if_pos h]
        exact ih hk' _ _ H
      · have hc : List.count id x.1.strategy.ids = 0 := by rw [H.ids]; exact List.count_eq_zero.2 h
        have hh : ¬ x.1.strategy.hasId id = true := by
          unfold Strategy.hasId
          rw [hc]; simp
        rw [if_neg hh, if_neg h]
        apply ih hk'
        refine ⟨?_, ?_, ?_⟩
        · show (x.1.strategy.addId id).ids = _
          unfold Strategy.addId
          rw [if_pos hc, List.map_append, H.ids]; rfl
        · rw [List.map_append, List.nodup_append]
          refine ⟨H.nodup, by simp, ?_⟩
          rintro a ha b hb rfl
          simp only [List.map_cons, List.map_nil, List.mem_singleton] at hb
          exact h (hb ▸ ha)
        · intro k'
          by_cases hk2 : k' = k
          · subst hk2
            simp [H.store]
          · have hk3 : k ≠ k' := fun e => hk2 e.symm
            simp [H.store, hk2, hk3]
    | call =>
      obtain ⟨h1, h2⟩ := call_ids next draw types x.1 x.2
      apply ih hk'
      refine ⟨?_, H.nodup, ?_⟩
      · show (MultiSampler.call next draw types x.1 x.2).2.1.strategy.ids = _
        rw [h2]; exact H.ids
      · intro k
        show (MultiSampler.call next draw types x.1 x.2).2.1.samplers k = _
        rw [h1]; exact H.store k
    | setStrategy st => exact absurd rfl (hk (.setStrategy st) List.mem_cons_self st)

omit [DecidableEq κ] in
theorem multi_unique {reg : List (κ × S × ℕ)} (hn : (reg.map fun x => x.2.2).Nodup)
    {k k' : κ} {s s' : S} {id : ℕ} (h : (k, s, id) ∈ reg) (h' : (k', s', id) ∈ reg) :
    k = k' ∧ s = s' := by
  have := List.inj_on_of_nodup_map hn h h' rfl
  simpa using this

/-- The search finds the registered sampler. -/
theorem search_iff {m : MultiSampler κ S τ} {reg : List (κ × S × ℕ)} (H : MultiInv m reg)
    (hall : ∀ k, k ∈ types) (id : ℕ) (k : κ) (s : S) :
    m.search types id = some (k, s) ↔ (k, s, id) ∈ reg := by
  have hmem : ∀ k' s', (s', id) ∈ m.samplers k' ↔ (k', s', id) ∈ reg := by
    intro k' s'
    rw [H.store, List.mem_map]
    constructor
    · rintro ⟨⟨a, b, c⟩, hx, he⟩
      simp only [Prod.mk.injEq] at he
      rw [List.mem_filter] at hx
      obtain ⟨h1, h2⟩ := hx
      simp only [decide_eq_true_eq] at h2
      obtain ⟨rfl, rfl⟩ := he
      subst h2
      exact h1
    · intro h
      exact ⟨(k', s', id), List.mem_filter.2 ⟨h, by simp⟩, rfl⟩
  have hsound : ∀ (ts : List κ) k' s', m.search ts id = some (k', s') → (k', s', id) ∈ reg := by
    intro ts
    induction ts with
    | nil => intro k' s' h; cases h
    | cons a t ih =>
      intro k' s' h
      simp only [MultiSampler.search] at h
      cases hf : (m.samplers a).find? (fun p => p.2 = id) with
      | none => rw [hf] at h; exact ih k' s' h
      | some p =>
        rw [hf] at h
        cases h
        have h1 := List.mem_of_find?_eq_some hf
        have h2 := List.find?_some hf
        simp only [decide_eq_true_eq] at h2
        apply (hmem a p.1).1
        rw [← h2]; exact h1
  have hcomp : ∀ (ts : List κ), k ∈ ts → (k, s, id) ∈ reg → (m.search ts id).isSome := by
    intro ts
    induction ts with
    | nil => intro h; cases h
    | cons a t ih =>
      intro h hr
      simp only [MultiSampler.search]
      cases hf : (m.samplers a).find? (fun p => p.2 = id) with
      | some p => rfl
      | none =>
        rcases List.mem_cons.1 h with rfl | h
        · have := List.find?_eq_none.1 hf (s, id) ((hmem k s).2 hr)
          simp at this
        · exact ih h hr
  constructor
  · exact hsound types k s
  · intro h
    obtain ⟨⟨k', s'⟩, h2⟩ := Option.isSome_iff_exists.1 (hcomp types (hall k) h)
    obtain ⟨rfl, rfl⟩ := multi_unique H.nodup h (hsound _ _ _ h2)
    exact h2

/-! ## C34 Multi-geometry sampler reports the id of the sampler it used -/

/-- Whatever the strategy, the samplers and the history of registrations and calls: if the sampler
returns a geometry, then there is exactly one sampler registered for the id written to the argument,
and the geometry is the one this sampler produces. -/
theorem C34_sound (st : Strategy τ) (hst : st.ids = []) (w : ω) (ops : List (MultiSampler.Op κ S τ))
    (hk : KeepsStrategy ops) (hall : ∀ k, k ∈ types) (id : ℕ) (g : Geo)
    (h : (MultiSampler.call next draw types
        (MultiSampler.run next draw types (MultiSampler.init st, w) ops).1
        (MultiSampler.run next draw types (MultiSampler.init st, w) ops).2).1 = .val (id, g)) :
    ∃ k s, (k, s, id) ∈ samplers [] ops ∧
      (draw k s (MultiSampler.run next draw types (MultiSampler.init st, w) ops).2).1 = .val g ∧
      ∀ k' s', (k', s', id) ∈ samplers [] ops → k' = k ∧ s' = s := by
  have H := multi_inv_run next draw types ops hk (MultiSampler.init st, w) []
    ⟨by simp [MultiSampler.init, hst], by simp, fun k => by simp [MultiSampler.init]⟩
  generalize MultiSampler.run next draw types (MultiSampler.init st, w) ops = x at h H
  unfold MultiSampler.call at h
  split at h
  · cases h
  · cases h
  · cases h
  · rename_i i st' hn
    simp only at h
    cases hs : x.1.search types i with
    | none => rw [hs] at h; cases h
    | some p =>
      obtain ⟨k, s⟩ := p
      rw [hs] at h
      simp only at h
      have hid : i = id ∧ (draw k s x.2).1 = .val g := by
        revert h
        generalize draw k s x.2 = r
        obtain ⟨r1, r2⟩ := r
        cases r1 <;> intro h <;> simp_all
      obtain ⟨rfl, hg⟩ := hid
      have hm := (search_iff types H hall i k s).1 hs
      exact ⟨k, s, hm, hg, fun k' s' h' => multi_unique H.nodup h' hm⟩

/-- If the strategy chooses an id for which no sampler has been registered, the call throws and no sampler is called. -/
theorem C34_unknown (st : Strategy τ) (hst : st.ids = []) (w : ω) (ops : List (MultiSampler.Op κ S τ))
    (hk : KeepsStrategy ops) (hall : ∀ k, k ∈ types) (id : ℕ) (t : τ)
    (hn : next (MultiSampler.run next draw types (MultiSampler.init st, w) ops).1.strategy.ids
      (MultiSampler.run next draw types (MultiSampler.init st, w) ops).1.strategy.st = .val (id, t))
    (hid : ∀ k s, (k, s, id) ∉ samplers [] ops) :
    (MultiSampler.call next draw types
        (MultiSampler.run next draw types (MultiSampler.init st, w) ops).1
        (MultiSampler.run next draw types (MultiSampler.init st, w) ops).2).1.isThrown ∧
    (MultiSampler.call next draw types
        (MultiSampler.run next draw types (MultiSampler.init st, w) ops).1
        (MultiSampler.run next draw types (MultiSampler.init st, w) ops).2).2.2 =
      (MultiSampler.run next draw types (MultiSampler.init st, w) ops).2 := by
  have H := multi_inv_run next draw types ops hk (MultiSampler.init st, w) []
    ⟨by simp [MultiSampler.init, hst], by simp, fun k => by simp [MultiSampler.init]⟩
  generalize MultiSampler.run next draw types (MultiSampler.init st, w) ops = x at hn H
  have hs : x.1.search types id = none := by
    rw [Option.eq_none_iff_forall_ne_some]
    rintro ⟨k, s⟩ h
    exact hid k s ((search_iff types H hall id k s).1 h)
  unfold MultiSampler.call
  rw [hn]
  simp [hs, Outcome.isThrown]

/-- A strategy that chooses the id 7 although only a sampler for the id 3 has been registered. -/
example : (MultiSampler.call (κ := Unit) (S := Unit) (Geo := Unit) (fun _ (t : Unit) => .val (7, t))
    (fun _ _ (w : ℕ) => (.val (), w + 1)) [()]
    (MultiSampler.run (Geo := Unit) (fun _ (t : Unit) => .val (7, t)) (fun _ _ (w : ℕ) => (.val (), w + 1)) [()]
      (MultiSampler.init ⟨[], ()⟩, 0) [.add () () 3]).1 0).1.isThrown :=
  (C34_unknown (κ := Unit) (S := Unit) (Geo := Unit) (fun _ (t : Unit) => .val (7, t))
    (fun _ _ (w : ℕ) => (.val (), w + 1)) [()] ⟨[], ()⟩ rfl 0 [.add () () 3] (by simp [KeepsStrategy]) (by simp) 7 () rfl
    (by simp [samplers])).1

/-- An id can be registered exactly if it has not been registered before, for whatever geometry type;
otherwise the call throws and changes nothing. -/
theorem C34_register (st : Strategy τ) (hst : st.ids = []) (w : ω)
    (ops : List (MultiSampler.Op κ S τ)) (hk : KeepsStrategy ops) (k : κ) (s : S) (id : ℕ) :
    let m := (MultiSampler.run next draw types (MultiSampler.init st, w) ops).1
    ((∃ k' s', MultiSampler.Op.add k' s' id ∈ ops) →
      (m.addGeometrySampler k s id).1.isThrown ∧ (m.addGeometrySampler k s id).2 = m) ∧
    ((∀ k' s', MultiSampler.Op.add k' s' id ∉ ops) → (m.addGeometrySampler k s id).1 = .val ()) := by
  intro m
  have H := multi_inv_run next draw types ops hk (MultiSampler.init st, w) []
    ⟨by simp [MultiSampler.init, hst], by simp, fun k => by simp [MultiSampler.init]⟩
  have hreg : ∀ (ops : List (MultiSampler.Op κ S τ)) (reg : List (κ × S × ℕ)),
      id ∈ (samplers reg ops).map (fun x => x.2.2) ↔
        id ∈ reg.map (fun x => x.2.2) ∨ ∃ k' s', MultiSampler.Op.add k' s' id ∈ ops := by
    intro ops
    induction ops with
    | nil => intro reg; simp [samplers]
    | cons o t ih =>
      intro reg
      cases o with
      | add a b c =>
        simp only [samplers]
        by_cases hc : c ∈ reg.map (fun x => x.2.2)
        · rw [if_pos hc, ih]
          constructor
          · rintro (h | ⟨k', s', h⟩)
            · exact Or.inl h
            · exact Or.inr ⟨k', s', List.mem_cons_of_mem _ h⟩
          · rintro (h | ⟨k', s', h⟩)
            · exact Or.inl h
            · rcases List.mem_cons.1 h with h | h
              · cases h; exact Or.inl hc
              · exact Or.inr ⟨k', s', h⟩
        · rw [if_neg hc, ih]
          simp only [List.map_append, List.map_cons, List.map_nil, List.mem_append,
            List.mem_singleton]
          constructor
          · rintro ((h | h) | ⟨k', s', h⟩)
            · exact Or.inl h
            · subst h; exact Or.inr ⟨a, b, List.mem_cons_self⟩
            · exact Or.inr ⟨k', s', List.mem_cons_of_mem _ h⟩
          · rintro (h | ⟨k', s', h⟩)
            · exact Or.inl (Or.inl h)
            · rcases List.mem_cons.1 h with h | h
              · cases h; exact Or.inl (Or.inr rfl)
              · exact Or.inr ⟨k', s', h⟩
      | call => simp only [samplers]; rw [ih]; simp
      | setStrategy st => simp only [samplers]; rw [ih]; simp
  have hcount : (∃ k' s', MultiSampler.Op.add k' s' id ∈ ops) ↔ id ∈ m.strategy.ids := by
    rw [H.ids, hreg ops []]; simp
  constructor
  · intro h
    have hh : m.strategy.hasId id = true :=
      decide_eq_true (List.count_pos_iff.2 (hcount.1 h)).ne'
    unfold MultiSampler.addGeometrySampler
    rw [if_pos hh]
    exact ⟨trivial, rfl⟩
  · intro h
    have hh : ¬ m.strategy.hasId id = true := by
      unfold Strategy.hasId
      rw [List.count_eq_zero.2 fun h' => by
        obtain ⟨k', s', h''⟩ := hcount.2 h'; exact h k' s' h'']
      simp
    unfold MultiSampler.addGeometrySampler
    rw [if_neg hh]

/-- Calls on the strategy caused by calls on the sampler. -/
def strategyOps (ops : List (MultiSampler.Op κ S ℕ)) : List Strategy.Op :=
  ops.filterMap fun o => match o with
    | .add _ _ id => some (.addId id)
    | .call => some .getNextId
    | .setStrategy _ => none

theorem call_strategy (draw : κ → S → ω → Outcome Geo × ω) (m : MultiSampler κ S ℕ) (w : ω) :
    (MultiSampler.call Strategy.nextSequential draw types m w).2.1.strategy
      = (Strategy.step m.strategy .getNextId).2 := by
  unfold MultiSampler.call Strategy.step
  cases h : Strategy.nextSequential m.strategy.ids m.strategy.st with
  | thrown e => rfl
  | nan => rfl
  | ub => rfl
  | val p =>
    obtain ⟨id, st⟩ := p
    simp only
    split
    · rfl
    · split <;> rfl

theorem multi_strategy (draw : κ → S → ω → Outcome Geo × ω) (ops : List (MultiSampler.Op κ S ℕ))
    (hk : KeepsStrategy ops) : ∀ (x : MultiSampler κ S ℕ × ω),
      (MultiSampler.run Strategy.nextSequential draw types x ops).1.strategy
        = Strategy.run x.1.strategy (strategyOps ops) := by
  induction ops with
  | nil => intro x; rfl
  | cons o t ih =>
    intro x
    have hk' : KeepsStrategy t := fun o' ho' => hk o' (List.mem_cons_of_mem _ ho')
    show (MultiSampler.run _ draw types (MultiSampler.step _ draw types x o) t).1.strategy = _
    rw [ih hk']
    cases o with
    | add k s id =>
      show _ = Strategy.run (x.1.strategy.addId id) (strategyOps t)
      congr 1
      simp only [MultiSampler.step, MultiSampler.addGeometrySampler]
      by_cases h : List.count id x.1.strategy.ids = 0
      · have : ¬ x.1.strategy.hasId id = true := by unfold Strategy.hasId; rw [h]; simp
        rw [if_neg this]
      · have : x.1.strategy.hasId id = true := decide_eq_true h
        rw [if_pos this]
        unfold Strategy.addId
        rw [if_neg h]
    | call =>
      show _ = Strategy.run (Strategy.step x.1.strategy .getNextId).2 (strategyOps t)
      congr 1
      exact call_strategy types draw x.1 x.2
    | setStrategy st => exact absurd rfl (hk (.setStrategy st) List.mem_cons_self st)

/-- Ids reported by consecutive calls. -/
theorem multi_calls (draw : κ → S → ω → Outcome Geo × ω) (hall : ∀ k, k ∈ types)
    (hdraw : ∀ k s w, ∃ g, (draw k s w).1 = .val g) (reg : List (κ × S × ℕ)) (n : ℕ) :
    ∀ (x : MultiSampler κ S ℕ × ω), MultiInv x.1 reg →
      x.1.strategy.st < x.1.strategy.ids.length →
      (MultiSampler.calls Strategy.nextSequential draw types x n).map (fun o => o >>= fun r => .val (some r.1))
        = Strategy.calls x.1.strategy n := by
  induction n with
  | zero => intro x _ _; rfl
  | succ n ih =>
    intro x H hlt
    show (MultiSampler.call _ draw types x.1 x.2).1.bind _ ::
        (MultiSampler.calls _ draw types (MultiSampler.call _ draw types x.1 x.2).2 n).map _ = _
    obtain ⟨hs1, hs2⟩ := call_ids Strategy.nextSequential draw types x.1 x.2
    have hst := call_strategy types draw x.1 x.2
    have hn := next_step _ hlt
    rw [ih _ ⟨by rw [hs2]; exact H.ids, H.nodup, fun k => by rw [hs1]; exact H.store k⟩
      (by rw [hst, hn]; exact Nat.mod_lt _ (by omega)), hst]
    show _ :: _ = (Strategy.step x.1.strategy .getNextId).1 :: _
    congr 1
    rw [hn]
    have hnx : ∃ st', Strategy.nextSequential x.1.strategy.ids x.1.strategy.st
        = .val (x.1.strategy.ids[x.1.strategy.st], st') := by
      unfold Strategy.step at hn
      revert hn
      cases Strategy.nextSequential x.1.strategy.ids x.1.strategy.st with
      | val p =>
        obtain ⟨a, b⟩ := p
        intro hn
        simp only [Prod.mk.injEq, Outcome.val.injEq, Option.some.injEq] at hn
        exact ⟨b, by rw [← hn.1]⟩
      | thrown e => intro hn; simp at hn
      | nan => intro hn; simp at hn
      | ub => intro hn; simp at hn
    obtain ⟨st', hnx⟩ := hnx
    have hmem : x.1.strategy.ids[x.1.strategy.st] ∈ reg.map (fun x => x.2.2) := by
      rw [← H.ids]; exact List.getElem_mem hlt
    generalize x.1.strategy.ids[x.1.strategy.st] = id at hnx hmem
    obtain ⟨⟨k, s, id'⟩, hr, he⟩ := List.mem_map.1 hmem
    simp only at he
    subst he
    have hsr := (search_iff types H hall id' k s).2 hr
    obtain ⟨g, hg⟩ := hdraw k s x.2
    unfold MultiSampler.call
    rw [hnx]
    simp only
    rw [hsr]
    simp only
    revert hg
    generalize draw k s x.2 = r
    obtain ⟨r1, r2⟩ := r
    intro hg
    simp only at hg
    subst hg
    rfl

/-- With the default strategy, each registered id is served: after any history of registrations and
calls, `k` rounds of calls report each registered id exactly `k` times and no other ids, provided
that the samplers themselves do not fail. -/
theorem C34_served (draw : κ → S → ω → Outcome Geo × ω) (hall : ∀ k, k ∈ types)
    (hdraw : ∀ k s w, ∃ g, (draw k s w).1 = .val g) (w : ω) (ops : List (MultiSampler.Op κ S ℕ))
    (hk : KeepsStrategy ops) (hne : samplers [] ops ≠ []) (r : ℕ) :
    let results := (MultiSampler.calls Strategy.nextSequential draw types
      (MultiSampler.run Strategy.nextSequential draw types
        (MultiSampler.init Strategy.sequential, w) ops) (r * (samplers [] ops).length)).map
        (fun o => o >>= fun p => .val (some p.1))
    (∀ x ∈ samplers [] ops, results.count (.val (some x.2.2)) = r) ∧
    (∀ o ∈ results, ∃ x ∈ samplers [] ops, o = .val (some x.2.2)) := by
  intro results
  have H := multi_inv_run Strategy.nextSequential draw types ops hk
    (MultiSampler.init Strategy.sequential, w) []
    ⟨by simp [MultiSampler.init, Strategy.sequential], by simp, fun k => by simp [MultiSampler.init]⟩
  have hs := multi_strategy types draw ops hk (MultiSampler.init Strategy.sequential, w)
  have hs' : (MultiSampler.run Strategy.nextSequential draw types
      (MultiSampler.init Strategy.sequential, w) ops).1.strategy
      = Strategy.run Strategy.sequential (strategyOps ops) := hs
  obtain ⟨h1, h2⟩ := inv_seq (strategyOps ops)
  have hids : Spec.Strategy.registered (strategyOps ops) = (samplers [] ops).map fun x => x.2.2 := by
    rw [← h1, ← hs', H.ids]
  have hne' : Spec.Strategy.registered (strategyOps ops) ≠ [] := by
    rw [hids]; simpa using hne
  have hlen : (samplers [] ops).length = (Spec.Strategy.registered (strategyOps ops)).length := by
    rw [hids, List.length_map]
  have hlt : (Strategy.run Strategy.sequential (strategyOps ops)).st
      < (Strategy.run Strategy.sequential (strategyOps ops)).ids.length := by
    rcases h2 with h2 | ⟨h2, _⟩
    · exact h2
    · rw [h1] at h2; exact absurd h2 hne'
  have hres : results = Strategy.calls (Strategy.run Strategy.sequential (strategyOps ops))
      (r * (Spec.Strategy.registered (strategyOps ops)).length) := by
    rw [← hs', ← hlen]
    exact multi_calls types draw hall hdraw _ _ _ H (by rw [hs']; exact hlt)
  obtain ⟨f1, f2⟩ := C33_fair (strategyOps ops) r hne'
  rw [hres]
  constructor
  · intro x hx
    apply f1
    rw [hids]; exact List.mem_map_of_mem hx
  · intro o ho
    obtain ⟨id, hid, rfl⟩ := f2 o ho
    rw [hids, List.mem_map] at hid
    obtain ⟨x, hx, rfl⟩ := hid
    exact ⟨x, hx, rfl⟩

/-- Exchanging the strategy after registrations loses them: an id can then be registered a second time,
and the sampler registered first is used for it. -/
theorem C34_exchange_loses_ids :
    let m0 : MultiSampler Bool String ℕ := MultiSampler.init Strategy.sequential
    let m1 := (m0.addGeometrySampler true "first" 7).2
    let m2 := m1.setSamplingStrategy Strategy.sequential
    (MultiSampler.call (ω := Unit) Strategy.nextSequential (fun _ s w => (.val s, w)) [true, false]
      m2 ()).1.isThrown ∧
    (m2.addGeometrySampler true "second" 7).1 = .val () ∧
    (MultiSampler.call (ω := Unit) Strategy.nextSequential (fun _ s w => (.val s, w)) [true, false]
      (m2.addGeometrySampler true "second" 7).2 ()).1 = .val (7, "first") := by
  refine ⟨trivial, rfl, rfl⟩

/-- Non-trivial instance of the hypotheses of `C34_served`: two types, three registrations (one of
them void) and a call. -/
example : KeepsStrategy ([.add true "disk" 1, .call, .add false "quad" 5, .add true "other" 5] :
      List (MultiSampler.Op Bool String ℕ)) ∧
    samplers [] ([.add true "disk" 1, .call, .add false "quad" 5, .add true "other" 5] :
      List (MultiSampler.Op Bool String ℕ)) = [(true, "disk", 1), (false, "quad", 5)] := by
  refine ⟨?_, by simp [samplers]⟩
  intro o ho st h
  subst h
  simp at ho

end Props
