import Verif.Spec.EntitySet
import Mathlib.Data.List.Perm.Basic
import Mathlib.Data.List.Induction
import Mathlib.Data.List.Nodup
import Mathlib.Algebra.BigOperators.Group.List.Basic

/-!
# C42: sets of entities of several geometry types
-/

namespace Props
open Verif Frackit
open Frackit.EntitySets (Call pushFirst)
open Spec.EntitySet (types stored entities)

section
variable {κ E : Type} [DecidableEq κ]

theorem types_snoc (h : List (Call κ E)) (c : Call κ E) :
    types (h ++ [c]) = if c.id ∈ (types h).map (·.1) then types h else types h ++ [(c.id, c.kind)] := by
  unfold types
  rw [List.foldl_append]
  rfl

theorem types_nodup (h : List (Call κ E)) : ((types h).map (·.1)).Nodup := by
  induction h using List.reverseRecOn with
  | nil => simp [types]
  | append_singleton h c ih =>
    rw [types_snoc]
    split_ifs with hc
    · exact ih
    · rw [List.map_append]
      refine List.Nodup.append ih (by simp) ?_
      intro x hx hx'
      simp only [List.map_cons, List.map_nil, List.mem_singleton] at hx'
      exact hc (hx' ▸ hx)

theorem types_snoc_sub (h : List (Call κ E)) (c : Call κ E) {r : ℕ × κ} (hr : r ∈ types h) :
    r ∈ types (h ++ [c]) := by
  rw [types_snoc]
  split_ifs
  · exact hr
  · exact List.mem_append_left _ hr

theorem types_keys (h : List (Call κ E)) {c : Call κ E} (hc : c ∈ h) : c.id ∈ (types h).map (·.1) := by
  induction h using List.reverseRecOn with
  | nil => cases hc
  | append_singleton h c' ih =>
    rcases List.mem_append.1 hc with hc | hc
    · obtain ⟨r, hr, e⟩ := List.mem_map.1 (ih hc)
      exact List.mem_map.2 ⟨r, types_snoc_sub h c' hr, e⟩
    · simp only [List.mem_singleton] at hc
      subst hc
      rw [types_snoc]
      split_ifs with hk
      · exact hk
      · simp

theorem types_unique {l : List (ℕ × κ)} (hn : (l.map (·.1)).Nodup) {id : ℕ} {k k' : κ}
    (h1 : (id, k) ∈ l) (h2 : (id, k') ∈ l) : k = k' := by
  have := List.inj_on_of_nodup_map hn h1 h2 rfl
  exact (Prod.mk.inj this).2

theorem mem_types_snoc (h : List (Call κ E)) (c : Call κ E) {id : ℕ} {k : κ}
    (hk : id ∈ (types h).map (·.1)) : (id, k) ∈ types (h ++ [c]) ↔ (id, k) ∈ types h := by
  refine ⟨fun hm => ?_, types_snoc_sub h c⟩
  obtain ⟨⟨i, k'⟩, hr, e⟩ := List.mem_map.1 hk
  simp only at e
  subst e
  have := types_unique (types_nodup _) hm (types_snoc_sub h c hr)
  rw [this]
  exact hr

theorem stored_snoc (h : List (Call κ E)) (c : Call κ E) :
    stored (h ++ [c]) = stored h ++ (if (c.id, c.kind) ∈ types (h ++ [c]) then [c] else []) := by
  unfold stored
  rw [List.filter_append]
  congr 1
  · refine List.filter_congr fun c' hc' => ?_
    simp only [decide_eq_decide]
    exact mem_types_snoc h c (types_keys h hc')
  · by_cases hm : (c.id, c.kind) ∈ types (h ++ [c]) <;> simp [hm]

theorem entities_snoc (h : List (Call κ E)) (c : Call κ E) (id : ℕ) :
    entities (h ++ [c]) id = entities h id ++
      (if c.id = id ∧ (c.id, c.kind) ∈ types (h ++ [c]) then [c.entity] else []) := by
  unfold entities
  rw [stored_snoc, List.filter_append, List.map_append]
  congr 1
  by_cases hm : (c.id, c.kind) ∈ types (h ++ [c])
  · by_cases hid : c.id = id
    · rw [if_pos hm, if_pos ⟨hid, hm⟩]; simp [hid]
    · rw [if_pos hm, if_neg (fun hh => hid hh.1)]; simp [hid]
  · rw [if_neg hm, if_neg (fun hh => hm hh.2)]; rfl

theorem pushFirst_map (l : List (ℕ × κ)) (f : ℕ → List E) (e : E) (id : ℕ)
    (hn : (l.map (·.1)).Nodup) :
    pushFirst (l.map (fun r => (f r.1, r.1))) e id
      = if id ∈ l.map (·.1) then
          some (l.map (fun r => (f r.1 ++ (if r.1 = id then [e] else []), r.1))) else none := by
  induction l with
  | nil => simp [pushFirst]
  | cons r t ih =>
    simp only [List.map_cons, List.nodup_cons] at hn
    simp only [List.map_cons, pushFirst]
    by_cases hr : r.1 = id
    · have hcong : t.map (fun r => (f r.1, r.1))
          = t.map (fun r => (f r.1 ++ (if r.1 = id then [e] else []), r.1)) := by
        refine List.map_congr_left fun x hx => ?_
        have : x.1 ≠ id := fun hx' => hn.1 (List.mem_map.2 ⟨x, hx, by rw [hx', hr]⟩)
        simp [this]
      simp [hr, hcong]
    · rw [if_neg hr, ih hn.2]
      by_cases hm : id ∈ t.map (·.1)
      · simp [hm, hr]
      · rw [if_neg hm, if_neg]
        · rfl
        · intro hh
          rcases List.mem_cons.1 hh with hh | hh
          · exact hr hh.symm
          · exact hm hh

/-- The data of the object represents the history. -/
structure SetsInv (name : κ → String) (s : EntitySets κ E) (h : List (Call κ E)) : Prop where
  sets : ∀ k, s.sets k = ((types h).filter (fun r => r.2 = k)).map (fun r => (entities h r.1, r.1))
  geoms : s.geoms = (types h).map (fun r => (r.1, name r.2))

theorem find_geoms (name : κ → String) (l : List (ℕ × κ)) (id : ℕ) :
    (l.map (fun r => (r.1, name r.2))).find? (fun p => p.1 = id)
      = (l.find? (fun r => r.1 = id)).map (fun r => (r.1, name r.2)) := by
  rw [List.find?_map]
  rfl

theorem filter_nodup {l : List (ℕ × κ)} (hn : (l.map (·.1)).Nodup) (p : ℕ × κ → Bool) :
    ((l.filter p).map (·.1)).Nodup :=
  hn.sublist ((List.filter_sublist).map _)

theorem step_inv (name : κ → String) (s : EntitySets κ E) (h : List (Call κ E)) (c : Call κ E)
    (H : SetsInv name s h) :
    SetsInv name (s.addEntity name c.kind c.entity c.id).2 (h ++ [c]) ∧
    (((c.id, c.kind) ∈ types (h ++ [c]) ∧ (s.addEntity name c.kind c.entity c.id).1 = .val ()) ∨
      ((c.id, c.kind) ∉ types (h ++ [c]) ∧ (s.addEntity name c.kind c.entity c.id).1.isThrown ∧
        (s.addEntity name c.kind c.entity c.id).2 = s)) := by
  have hn := types_nodup h
  have hg := find_geoms name (types h) c.id
  rw [← H.geoms] at hg
  unfold EntitySets.addEntity
  cases hf : (types h).find? (fun r => r.1 = c.id) with
  | none =>
    have hno : c.id ∉ (types h).map (·.1) := by
      intro hm
      obtain ⟨r, hr, e⟩ := List.mem_map.1 hm
      have := List.find?_eq_none.1 hf r hr
      simp [e] at this
    rw [hf] at hg
    simp only [Option.map_none] at hg
    simp only [hg]
    have ht : types (h ++ [c]) = types h ++ [(c.id, c.kind)] := by rw [types_snoc, if_neg hno]
    refine ⟨⟨fun k => ?_, ?_⟩, Or.inl ⟨by rw [ht]; simp, trivial⟩⟩
    · simp only [ht, List.filter_append, List.map_append]
      have hold : ((types h).filter (fun r => r.2 = k)).map (fun r => (entities (h ++ [c]) r.1, r.1))
          = ((types h).filter (fun r => r.2 = k)).map (fun r => (entities h r.1, r.1)) := by
        refine List.map_congr_left fun r hr => ?_
        have : ¬ c.id = r.1 := fun e => hno (e ▸ List.mem_map.2 ⟨r, (List.mem_filter.1 hr).1, rfl⟩)
        rw [entities_snoc, if_neg (fun hh => this hh.1), List.append_nil]
      rw [hold, ← H.sets]
      by_cases hk : k = c.kind
      · subst hk
        have hnew : entities h c.id = [] := by
          unfold entities
          have : (stored h).filter (fun x => x.id = c.id) = [] := by
            rw [List.filter_eq_nil_iff]
            intro x hx
            have hx' : x ∈ h := (List.mem_filter.1 hx).1
            simp only [decide_eq_true_eq]
            intro e
            exact hno (e ▸ types_keys h hx')
          rw [this]; rfl
        rw [Function.update_self]
        simp [entities_snoc, hnew, ht]
      · rw [Function.update_of_ne hk]
        have : ¬ c.kind = k := fun e => hk e.symm
        simp [this]
    · rw [ht, H.geoms]; simp
  | some r =>
    have hr : r ∈ types h := List.mem_of_find?_eq_some hf
    have hid : r.1 = c.id := by simpa using List.find?_some hf
    have hkey : c.id ∈ (types h).map (·.1) := List.mem_map.2 ⟨r, hr, hid⟩
    have ht : types (h ++ [c]) = types h := by rw [types_snoc, if_pos hkey]
    rw [hf] at hg
    simp only [Option.map_some] at hg
    simp only [hg]
    have hpush : pushFirst (s.sets c.kind) c.entity c.id
        = if c.id ∈ ((types h).filter (fun r => r.2 = c.kind)).map (·.1) then
            some (((types h).filter (fun r => r.2 = c.kind)).map
              (fun r => (entities h r.1 ++ (if r.1 = c.id then [c.entity] else []), r.1)))
          else none := by
      rw [H.sets]
      exact pushFirst_map _ _ _ _ (filter_nodup hn _)
    by_cases hk : r.2 = c.kind
    · have hin : (c.id, c.kind) ∈ types h := by
        rw [← hid, ← hk]; exact hr
      have hm : c.id ∈ ((types h).filter (fun r => r.2 = c.kind)).map (·.1) :=
        List.mem_map.2 ⟨r, List.mem_filter.2 ⟨hr, by simpa using hk⟩, hid⟩
      rw [if_pos hm] at hpush
      rw [if_neg (by simp [hk]), hpush]
      simp only
      refine ⟨⟨fun k => ?_, ?_⟩, Or.inl ⟨by rw [ht]; exact hin, trivial⟩⟩
      · rw [ht]
        by_cases hk' : k = c.kind
        · subst hk'
          simp only [Function.update_self]
          refine List.map_congr_left fun x _ => ?_
          rw [entities_snoc, ht]
          by_cases hx : x.1 = c.id
          · simp [hx, hin]
          · have : ¬ c.id = x.1 := fun e => hx e.symm
            simp [hx, this]
        · simp only [Function.update_of_ne hk']
          rw [H.sets]
          refine List.map_congr_left fun x hx => ?_
          rw [entities_snoc]
          have : ¬ c.id = x.1 := by
            intro e
            obtain ⟨hx1, hx2⟩ := List.mem_filter.1 hx
            have hxk : x.2 = k := by simpa using hx2
            have hx' : (c.id, k) ∈ types h := by rw [e, ← hxk]; exact hx1
            exact hk' (types_unique hn hx' hin)
          simp [this]
      · rw [ht]; exact H.geoms
    · have hnin : (c.id, c.kind) ∉ types h := by
        intro hin
        have h2 : (c.id, r.2) ∈ types h := by rw [← hid]; exact hr
        exact hk (types_unique hn h2 hin)
      have hm : c.id ∉ ((types h).filter (fun r => r.2 = c.kind)).map (·.1) := by
        intro hm
        obtain ⟨x, hx, e⟩ := List.mem_map.1 hm
        obtain ⟨hx1, hx2⟩ := List.mem_filter.1 hx
        have hxk : x.2 = c.kind := by simpa using hx2
        apply hnin
        rw [← e, ← hxk]; exact hx1
      rw [if_neg hm] at hpush
      have hI : SetsInv name s (h ++ [c]) := by
        refine ⟨fun k => ?_, by rw [ht]; exact H.geoms⟩
        rw [ht, H.sets]
        refine List.map_congr_left fun x _ => ?_
        rw [entities_snoc, ht]
        simp [hnin]
      rw [hpush]
      split_ifs with hname
      · exact ⟨hI, Or.inr ⟨by rw [ht]; exact hnin, trivial, rfl⟩⟩
      · exact ⟨hI, Or.inr ⟨by rw [ht]; exact hnin, trivial, rfl⟩⟩

theorem run_snoc (name : κ → String) (h : List (Call κ E)) (c : Call κ E) :
    EntitySets.run name (h ++ [c]) = ((EntitySets.run name h).addEntity name c.kind c.entity c.id).2 := by
  simp [EntitySets.run]

theorem run_inv (name : κ → String) (h : List (Call κ E)) : SetsInv name (EntitySets.run name h) h := by
  induction h using List.reverseRecOn with
  | nil => exact ⟨fun k => rfl, rfl⟩
  | append_singleton h c ih =>
    rw [run_snoc]
    exact (step_inv name _ h c ih).1

theorem find_mapped (l : List (ℕ × κ)) (f : ℕ → List E) (id : ℕ) :
    (l.map (fun r => (f r.1, r.1))).find? (fun p => p.2 = id)
      = if id ∈ l.map (·.1) then some (f id, id) else none := by
  induction l with
  | nil => simp
  | cons r t ih =>
    simp only [List.map_cons, List.find?_cons]
    by_cases hr : r.1 = id
    · simp [hr]
    · have hr' : ¬ id = r.1 := fun e => hr e.symm
      simp only [hr, decide_false, List.mem_cons, hr', false_or]
      exact ih

theorem findSet_eq (name : κ → String) (s : EntitySets κ E) (h : List (Call κ E))
    (H : SetsInv name s h) (id : ℕ) (ts : List κ) :
    s.findSet id ts = if ∃ k ∈ ts, (id, k) ∈ types h then some (entities h id) else none := by
  induction ts with
  | nil => simp [EntitySets.findSet]
  | cons k t ih =>
    simp only [EntitySets.findSet]
    rw [H.sets, find_mapped]
    have hiff : id ∈ ((types h).filter (fun r => r.2 = k)).map (·.1) ↔ (id, k) ∈ types h := by
      simp only [List.mem_map, List.mem_filter, decide_eq_true_eq]
      constructor
      · rintro ⟨⟨i, k'⟩, ⟨h1, h2⟩, h3⟩
        simp only at h2 h3
        subst h2 h3
        exact h1
      · intro hm; exact ⟨_, ⟨hm, rfl⟩, rfl⟩
    by_cases hm : (id, k) ∈ types h
    · rw [if_pos (hiff.2 hm), if_pos ⟨k, List.mem_cons_self, hm⟩]
    · rw [if_neg (fun hh => hm (hiff.1 hh))]
      simp only
      rw [ih]
      have : (∃ k' ∈ k :: t, (id, k') ∈ types h) ↔ ∃ k' ∈ t, (id, k') ∈ types h := by
        simp [hm]
      simp only [this]

theorem flatMap_insert {α β : Type} [DecidableEq α] (ts : List α) (hn : ts.Nodup) (k0 : α) (x : β)
    (f : α → List β) (hk : k0 ∈ ts) :
    (ts.flatMap (fun k => if k0 = k then x :: f k else f k)).Perm (x :: ts.flatMap f) := by
  induction ts with
  | nil => cases hk
  | cons a t ih =>
    simp only [List.flatMap_cons]
    obtain ⟨hn1, hn2⟩ := List.nodup_cons.1 hn
    by_cases ha : k0 = a
    · subst ha
      have hcong : t.flatMap (fun k => if k0 = k then x :: f k else f k) = t.flatMap f := by
        refine List.flatMap_congr fun k hk => ?_
        have : ¬ k0 = k := fun e => hn1 (e ▸ hk)
        simp [this]
      rw [if_pos rfl, hcong]
      rfl
    · rw [if_neg ha]
      have hk' : k0 ∈ t := by
        rcases List.mem_cons.1 hk with hk | hk
        · exact absurd hk ha
        · exact hk
      exact ((ih hn2 hk').append_left (f a)).trans List.perm_middle

/-- Sorting a list into groups keeps all elements. -/
theorem group_perm {α β : Type} [DecidableEq α] (ts : List α) (hn : ts.Nodup) (g : β → α) (l : List β)
    (hg : ∀ b ∈ l, g b ∈ ts) : (ts.flatMap (fun k => l.filter (fun b => g b = k))).Perm l := by
  induction l with
  | nil => simp
  | cons b t ih =>
    have e : (fun k => (b :: t).filter (fun b => g b = k))
        = (fun k => if g b = k then b :: t.filter (fun b => g b = k) else t.filter (fun b => g b = k)) := by
      funext k
      by_cases hk : g b = k <;> simp [hk]
    rw [e]
    exact (flatMap_insert ts hn (g b) b _ (hg b List.mem_cons_self)).trans
      ((ih fun b' hb' => hg b' (List.mem_cons_of_mem _ hb')).cons b)

end

variable {κ E : Type} [DecidableEq κ] (name : κ → String) (ts : List κ)

/-! ## C42 Entity sets keep what was added -/

/-- A call succeeds exactly if the type of the entity is that of the id (or the id is not in use);
otherwise it throws and changes nothing. -/
theorem C42_add (h : List (Call κ E)) (c : Call κ E) :
    (((EntitySets.run name h).addEntity name c.kind c.entity c.id).1 = .val () ∧
        ∀ k, (c.id, k) ∈ types h → k = c.kind) ∨
      (((EntitySets.run name h).addEntity name c.kind c.entity c.id).1.isThrown ∧
        ((EntitySets.run name h).addEntity name c.kind c.entity c.id).2 = EntitySets.run name h ∧
        ∃ k, (c.id, k) ∈ types h ∧ k ≠ c.kind) := by
  rcases (step_inv name _ h c (run_inv name h)).2 with ⟨h1, h2⟩ | ⟨h1, h2, h3⟩
  · left
    exact ⟨h2, fun k hk => types_unique (types_nodup _) (types_snoc_sub h c hk) h1⟩
  · right
    refine ⟨h2, h3, ?_⟩
    rw [types_snoc] at h1
    split_ifs at h1 with hm
    · obtain ⟨⟨i, k⟩, hr, e⟩ := List.mem_map.1 hm
      simp only at e
      subst e
      exact ⟨k, hr, fun hk => h1 (hk ▸ hr)⟩
    · simp at h1

/-- The set of an id that has been used contains the entities added successfully, in the order of
addition; there is no set for other ids.  `ts` is the list of all geometry types. -/
theorem C42_sets (hts : ∀ k, k ∈ ts) (h : List (Call κ E)) (id : ℕ) :
    (EntitySets.run name h).applyOnSet ts id
      = if ∃ c ∈ h, c.id = id then some (entities h id) else none := by
  have H := run_inv name h
  have hg := find_geoms name (types h) id
  rw [← H.geoms] at hg
  have hiff : (∃ c ∈ h, c.id = id) ↔ id ∈ (types h).map (·.1) := by
    constructor
    · rintro ⟨c, hc, rfl⟩; exact types_keys h hc
    · clear hg H
      induction h using List.reverseRecOn with
      | nil => intro hm; simp [types] at hm
      | append_singleton h c ih =>
        intro hm
        rw [types_snoc] at hm
        split_ifs at hm with hk
        · obtain ⟨c', hc', e⟩ := ih hm
          exact ⟨c', List.mem_append_left _ hc', e⟩
        · rw [List.map_append, List.mem_append] at hm
          rcases hm with hm | hm
          · obtain ⟨c', hc', e⟩ := ih hm
            exact ⟨c', List.mem_append_left _ hc', e⟩
          · simp only [List.map_cons, List.map_nil, List.mem_singleton] at hm
            exact ⟨c, by simp, hm.symm⟩
  unfold EntitySets.applyOnSet
  rw [hg]
  cases hf : (types h).find? (fun r => r.1 = id) with
  | none =>
    have hno : id ∉ (types h).map (·.1) := by
      intro hm
      obtain ⟨r, hr, e⟩ := List.mem_map.1 hm
      have := List.find?_eq_none.1 hf r hr
      simp [e] at this
    rw [if_neg (fun hh => hno (hiff.1 hh))]
    rfl
  | some r =>
    have hr : r ∈ types h := List.mem_of_find?_eq_some hf
    have hid : r.1 = id := by simpa using List.find?_some hf
    rw [if_pos (hiff.2 (List.mem_map.2 ⟨r, hr, hid⟩))]
    simp only [Option.map_some]
    rw [findSet_eq name _ h H, if_pos]
    exact ⟨r.2, hts _, by rw [← hid]; exact hr⟩

/-- The number of entities of an id is the number of successful additions to it. -/
theorem C42_num_of_id (hts : ∀ k, k ∈ ts) (h : List (Call κ E)) (id : ℕ) :
    (EntitySets.run name h).numEntitiesOf ts id = ((stored h).filter (fun c => c.id = id)).length := by
  unfold EntitySets.numEntitiesOf
  rw [C42_sets name ts hts]
  by_cases hc : ∃ c ∈ h, c.id = id
  · rw [if_pos hc]; simp [entities]
  · rw [if_neg hc]
    symm
    rw [List.length_eq_zero_iff, List.filter_eq_nil_iff]
    intro c hc' he
    exact hc ⟨c, (List.mem_filter.1 hc').1, by simpa using he⟩

/-- The overall number of entities is the number of successful additions, for each order in which the
map is traversed. -/
theorem C42_num (hts : ∀ k, k ∈ ts) (h : List (Call κ E)) (order : List (ℕ × String))
    (ho : order.Perm (EntitySets.run name h).geoms) :
    (EntitySets.run name h).numEntities ts order = (stored h).length := by
  have hsum : (EntitySets.run name h).numEntities ts order
      = (order.map (fun p => (EntitySets.run name h).numEntitiesOf ts p.1)).sum := by
    unfold EntitySets.numEntities
    rw [← List.foldl_map (f := fun p : ℕ × String => (EntitySets.run name h).numEntitiesOf ts p.1)
      (g := fun n m => n + m), List.sum_eq_foldl]
  rw [hsum, (ho.map _).sum_eq, (run_inv name h).geoms, List.map_map]
  have e : (types h).map ((fun p : ℕ × String => (EntitySets.run name h).numEntitiesOf ts p.1) ∘
        fun r => (r.1, name r.2))
      = ((types h).map (·.1)).map (fun id => ((stored h).filter (fun c => c.id = id)).length) := by
    rw [List.map_map]
    refine List.map_congr_left fun r _ => ?_
    exact C42_num_of_id name ts hts h r.1
  rw [e]
  have hp := (group_perm ((types h).map (·.1)) (types_nodup h) (fun c : Call κ E => c.id) (stored h)
    (fun c hc => types_keys h (List.mem_filter.1 hc).1)).length_eq
  rw [List.length_flatMap] at hp
  exact hp

/-- Exporting passes on each stored entity exactly once: the exported list is a reordering of the
entities of all successful calls, in which the entities of an id stay in the order of addition. -/
theorem C42_export (hts : ∀ k, k ∈ ts) (hn : ts.Nodup) (h : List (Call κ E)) :
    ((EntitySets.run name h).exportAll ts).Perm ((stored h).map (fun c => c.entity)) ∧
    (EntitySets.run name h).exportAll ts
      = ts.flatMap (fun k => ((types h).filter (fun r => r.2 = k)).flatMap (fun r => entities h r.1)) := by
  have e : (EntitySets.run name h).exportAll ts
      = ts.flatMap (fun k => ((types h).filter (fun r => r.2 = k)).flatMap (fun r => entities h r.1)) := by
    unfold EntitySets.exportAll
    refine List.flatMap_congr fun k _ => ?_
    rw [(run_inv name h).sets, List.flatMap_map]
  refine ⟨?_, e⟩
  rw [e]
  have h1 : (ts.flatMap (fun k => ((types h).filter (fun r => r.2 = k)).flatMap
      (fun r => entities h r.1))).Perm ((types h).flatMap (fun r => entities h r.1)) := by
    rw [← List.flatMap_assoc]
    exact (group_perm ts hn (fun r : ℕ × κ => r.2) (types h) (fun r _ => hts _)).flatMap_right _
  refine h1.trans ?_
  have h2 : (types h).flatMap (fun r => entities h r.1)
      = (((types h).map (·.1)).flatMap (fun id => (stored h).filter (fun c => c.id = id))).map
          (fun c => c.entity) := by
    rw [List.map_flatMap, List.flatMap_map]
    rfl
  rw [h2]
  exact (group_perm ((types h).map (·.1)) (types_nodup h) (fun c : Call κ E => c.id) (stored h)
    (fun c hc => types_keys h (List.mem_filter.1 hc).1)).map _

/-- Exporting a selection of ids passes on exactly the entities of these ids, each once, even if an id
is given several times. -/
theorem C42_export_ids (hts : ∀ k, k ∈ ts) (hn : ts.Nodup) (h : List (Call κ E)) (ids : List ℕ) :
    ((EntitySets.run name h).exportIds ts ids).Perm
      (((stored h).filter (fun c => c.id ∈ ids)).map (fun c => c.entity)) := by
  have e : (EntitySets.run name h).exportIds ts ids
      = ts.flatMap (fun k => ((types h).filter (fun r => r.2 = k)).flatMap
          (fun r => if r.1 ∈ ids then entities h r.1 else [])) := by
    unfold EntitySets.exportIds
    refine List.flatMap_congr fun k _ => ?_
    rw [(run_inv name h).sets, List.flatMap_map]
    refine List.flatMap_congr fun r _ => ?_
    have : ids.count r.1 ≠ 0 ↔ r.1 ∈ ids := by
      rw [← Nat.pos_iff_ne_zero, List.count_pos_iff]
    simp only [this]
  rw [e]
  have h1 : (ts.flatMap (fun k => ((types h).filter (fun r => r.2 = k)).flatMap
      (fun r => if r.1 ∈ ids then entities h r.1 else []))).Perm
      ((types h).flatMap (fun r => if r.1 ∈ ids then entities h r.1 else [])) := by
    rw [← List.flatMap_assoc]
    exact (group_perm ts hn (fun r : ℕ × κ => r.2) (types h) (fun r _ => hts _)).flatMap_right _
  refine h1.trans ?_
  have h2 : (types h).flatMap (fun r => if r.1 ∈ ids then entities h r.1 else [])
      = (((types h).map (·.1)).flatMap (fun id => ((stored h).filter (fun c => c.id ∈ ids)).filter
          (fun c => c.id = id))).map (fun c => c.entity) := by
    rw [List.map_flatMap, List.flatMap_map]
    refine List.flatMap_congr fun r _ => ?_
    rw [List.filter_filter]
    by_cases hr : r.1 ∈ ids
    · rw [if_pos hr]
      unfold entities
      congr 1
      refine List.filter_congr fun c _ => ?_
      by_cases hc : c.id = r.1 <;> simp [hc, hr]
    · rw [if_neg hr]
      symm
      rw [List.map_eq_nil_iff, List.filter_eq_nil_iff]
      intro c _ hh
      simp only [Bool.and_eq_true, decide_eq_true_eq] at hh
      exact hr (hh.1 ▸ hh.2)
  rw [h2]
  exact (group_perm ((types h).map (·.1)) (types_nodup h) (fun c : Call κ E => c.id) _
    (fun c hc => types_keys h (List.mem_filter.1 (List.mem_filter.1 hc).1).1)).map _

/-- Adding through a pointer to the geometry interface is the same as adding the entity directly, if
the names of the geometry types are distinct. -/
theorem C42_pointer (hts : ∀ k, k ∈ ts) (hname : Function.Injective name) (s : EntitySets κ E)
    (c : Call κ E) :
    s.addPointer name ts c.kind c.entity c.id = s.addEntity name c.kind c.entity c.id := by
  unfold EntitySets.addPointer
  cases hf : ts.find? (fun k' => name k' = name c.kind) with
  | none =>
    have := List.find?_eq_none.1 hf c.kind (hts _)
    simp at this
  | some k' =>
    have : name k' = name c.kind := by simpa using List.find?_some hf
    simp [hname this]

/-- An entity whose type is none of those of the set is refused and the set is left as it is. -/
theorem C42_pointer_unknown (s : EntitySets κ E) (types : List κ) (c : Call κ E)
    (h : ∀ k ∈ types, name k ≠ name c.kind) :
    (s.addPointer name types c.kind c.entity c.id).1.isThrown ∧ (s.addPointer name types c.kind c.entity c.id).2 = s := by
  have hf : types.find? (fun k' => name k' = name c.kind) = none :=
    List.find?_eq_none.2 fun k hk => by simpa using h k hk
  unfold EntitySets.addPointer
  rw [hf]
  exact ⟨trivial, rfl⟩

/-- Non-trivial instance: two geometry types, three ids, one rejected addition. -/
def sampleCalls : List (Call Bool ℕ) :=
  [⟨true, 10, 1⟩, ⟨false, 20, 2⟩, ⟨false, 30, 1⟩, ⟨true, 40, 3⟩, ⟨true, 50, 1⟩]

example : (∀ k : Bool, k ∈ [false, true]) ∧ [false, true].Nodup ∧
    types sampleCalls = [(1, true), (2, false), (3, true)] ∧ entities sampleCalls 1 = [10, 50] ∧
    (stored sampleCalls).length = 4 ∧
    (EntitySets.run (fun b => toString b) sampleCalls).exportAll [false, true] = [20, 10, 50, 40] := by
  refine ⟨by decide, by decide, by decide, by decide, by decide, by decide⟩

end Props
