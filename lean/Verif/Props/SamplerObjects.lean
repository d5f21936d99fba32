import Verif.Model.Python.SamplerObjects
import Verif.Model.Sampling.PointSampler
import Verif.Model.Sampling.DiskSampler
import Verif.Model.Sampling.DeprecatedQuadSampler
import Verif.Props.PyObjects
import Verif.Props.DiskSampler
import Verif.Props.DeprecatedQuadSampler
import Verif.Props.PolygonSamplerPy

/-!
# C144 Samplers and the objects of a Python program
-/

namespace Spec
open Verif Frackit

/-- `H'` are the objects after a call, `H` those before, `results` the objects that are returned, with their values: they
are new, modifying one of them changes no other one and none of those that existed before, and these have not been changed
and can be modified without changing the results. -/
structure FreshResults (H H' : PyHeap) (results : List (ℕ × PyVal)) : Prop where
  value : ∀ r ∈ results, H'.read r.1 = some r.2
  new : ∀ r ∈ results, H.read r.1 = none
  kept : ∀ k v, H.read k = some v → H'.read k = some v
  apart : ∀ r ∈ results, ∀ m H'', H'.step (.change r.1 m) = .val H'' → ∀ k v, H.read k = some v → H''.read k = some v
  robust : ∀ k v, H.read k = some v → ∀ m H'', H'.step (.change k m) = .val H'' →
    ∀ r ∈ results, H''.read r.1 = some r.2
  separate : ∀ r ∈ results, ∀ s ∈ results, r.1 ≠ s.1 → ∀ m H'', H'.step (.change r.1 m) = .val H'' →
    H''.read s.1 = some s.2

end Spec

namespace Props
open Verif Frackit

/-! ## Calls only concern their own objects -/

def refShift (N : ℕ) : PyRef → PyRef
  | .own i => .own (N + i)
  | .member i f => .member (N + i) f

/-- The objects of `H` followed by those of `K`. -/
def joined (H K : PyHeap) : PyHeap := ⟨H.objs ++ K.objs, H.refs ++ K.refs.map (refShift H.objs.length)⟩

/-- Python objects have a C++ object. -/
def Based (H : PyHeap) : Prop := ∀ r ∈ H.refs, r.owner < H.objs.length

theorem get_right {α : Type} (l L : List α) (i : ℕ) : (l ++ L)[l.length + i]? = L[i]? := by
  rw [List.getElem?_append_right (by omega)]; simp

theorem set_right {α : Type} (l L : List α) (i : ℕ) (v : α) : (l ++ L).set (l.length + i) v = l ++ L.set i v := by
  rw [List.set_append_right _ _ (by omega)]; simp

theorem modify_right {α : Type} (l L : List α) (i : ℕ) (f : α → α) :
    (l ++ L).modify (l.length + i) f = l ++ L.modify i f := by
  induction l with
  | nil => simp
  | cons a l ih => simpa [Nat.add_right_comm] using ih

variable {H K : PyHeap}

theorem joined_ref (k : ℕ) : (joined H K).refs[H.refs.length + k]? = (K.refs[k]?).map (refShift H.objs.length) := by
  rw [joined, get_right, List.getElem?_map]

theorem joined_load (r : PyRef) : (joined H K).load (refShift H.objs.length r) = K.load r := by
  cases r <;> simp [PyHeap.load, refShift, joined, get_right]

theorem joined_read (k : ℕ) : (joined H K).read (H.refs.length + k) = K.read k := by
  unfold PyHeap.read
  rw [joined_ref]
  cases K.refs[k]? with
  | none => rfl
  | some r => simp [joined_load]

theorem joined_store (r : PyRef) (v : PyVal) :
    (joined H K).store (refShift H.objs.length r) v = joined H (K.store r v) := by
  cases r <;> simp [PyHeap.store, refShift, joined, set_right, modify_right]

theorem joined_new (v : PyVal) : (joined H K).new v = joined H (K.new v) := by
  simp [PyHeap.new, joined, refShift]

theorem joined_changed (m : Change) (x : PyVal) :
    changed (joined H K).read (m.shift H.refs.length) x = changed K.read m x := by
  cases m <;> cases x <;> simp only [Change.shift, changed, joined_read]

theorem joined_readAll (args : List ℕ) :
    readAll (joined H K).read (args.map (H.refs.length + ·)) = readAll K.read args := by
  induction args with
  | nil => rfl
  | cons a t ih => simp only [List.map_cons, readAll, joined_read, ih]

theorem joined_step (hH : Based H) (s : PyStep) :
    (joined H K).step (s.shift H.refs.length) = K.step s >>= fun K' => .val (joined H K') := by
  cases s with
  | make v => simp [PyStep.shift, PyHeap.step, joined_new, Outcome.val_bind]
  | query f args =>
    simp only [PyStep.shift, PyHeap.step, joined_readAll]
    cases readAll K.read args with
    | none => rfl
    | some vs =>
      simp only
      cases f vs <;> simp [joined_new, Outcome.val_bind, Outcome.pure_eq] <;> rfl
  | get h f =>
    simp only [PyStep.shift, PyHeap.step, joined_ref, joined_read]
    cases K.refs[h]? with
    | none => rfl
    | some r =>
      cases K.read h with
      | none => cases r <;> rfl
      | some v =>
        cases r with
        | member i g => rfl
        | own i =>
          simp only [Option.map_some, refShift]
          cases v.member f with
          | none => rfl
          | some x => simp [joined, refShift, Outcome.val_bind]
  | base h second shared =>
    simp only [PyStep.shift, PyHeap.step, joined_ref, joined_read]
    cases K.refs[h]? with
    | none => rfl
    | some r =>
      cases K.read h with
      | none => cases r <;> rfl
      | some v =>
        cases r with
        | member i g => rfl
        | own i =>
          cases v with
          | elliptical k e =>
            cases k with
            | circle =>
              simp only [Option.map_some, refShift]
              generalize (if second = true then EllField.minorAxis else EllField.majorAxis) = g
              have hm : PyRef.member (H.objs.length + i) g ∈ (joined H K).refs ↔ PyRef.member i g ∈ K.refs := by
                simp only [joined, List.mem_append, List.mem_map]
                constructor
                · rintro (h1 | ⟨r, h1, h2⟩)
                  · have := hH _ h1
                    simp [PyRef.owner] at this
                  · cases r with
                    | own j => simp [refShift] at h2
                    | member j g' =>
                      simp only [refShift, PyRef.member.injEq, Nat.add_left_cancel_iff] at h2
                      obtain ⟨rfl, rfl⟩ := h2
                      exact h1
                · exact fun h1 => .inr ⟨_, h1, rfl⟩
              by_cases c : shared = true ∧ PyRef.member i g ∈ K.refs
              · rw [if_pos c, if_pos (by rw [hm]; exact c), Outcome.val_bind]
                simp [joined, refShift]
              · rw [if_neg c, if_neg (by rw [hm]; exact c), Outcome.val_bind, joined_new]
            | _ => rfl
          | _ => rfl
  | supportingEllipse h =>
    simp only [PyStep.shift, PyHeap.step, joined_ref, joined_read]
    cases K.refs[h]? with
    | none => rfl
    | some r =>
      cases K.read h with
      | none => rfl
      | some v =>
        cases v with
        | arc a => simp [joined, Outcome.val_bind]
        | _ => rfl
  | change h m =>
    simp only [PyStep.shift, PyHeap.step, joined_ref, joined_read]
    cases K.refs[h]? with
    | none => rfl
    | some r =>
      cases K.read h with
      | none => rfl
      | some v =>
        simp only [Option.map_some, joined_changed]
        cases changed K.read m v <;> simp only [Outcome.val_bind, Outcome.pure_eq, joined_store] <;> rfl

theorem joined_run (hH : Based H) (body : List PyStep) :
    (joined H K).run (body.map (PyStep.shift H.refs.length)) = K.run body >>= fun K' => .val (joined H K') := by
  induction body generalizing K with
  | nil => rfl
  | cons s t ih =>
    simp only [List.map_cons, PyHeap.run, joined_step hH]
    cases K.step s with
    | val K1 => simp only [Outcome.val_bind]; exact ih
    | _ => rfl

theorem joined_nil : joined H {} = H := by simp [joined]

/-- A call does the same in every state: its objects are added to those there are. -/
theorem call_eq (hH : Based H) (body : List PyStep) :
    H.call body = PyHeap.run {} body >>= fun K => .val (joined H K) := by
  have := joined_run (K := {}) hH body
  rwa [joined_nil] at this

theorem joined_old (hH : Based H) (k : ℕ) (hk : k < H.refs.length) : (joined H K).read k = H.read k := by
  unfold PyHeap.read joined
  simp only
  rw [List.getElem?_append_left hk]
  cases e : H.refs[k]? with
  | none => rfl
  | some r =>
    have := hH r (List.mem_of_getElem? e)
    cases r <;> simp only [Option.bind_some, PyHeap.load, PyRef.owner] at * <;> rw [List.getElem?_append_left this]

theorem based_run {prog : List PyStep} (h : PyHeap.run {} prog = .val H) : Based H := by
  obtain ⟨g, L⟩ := Linked.run (H := {}) (os := []) (g := fun _ => 0)
    ⟨fun k => by simp, fun k r h => by simp at h⟩ h
  intro r hr
  obtain ⟨k, hk⟩ := List.mem_iff_getElem?.1 hr
  exact L.bound k r hk

theorem change_other {H'' : PyHeap} {h k : ℕ} {m : Change} {a b : PyRef} (hs : H.step (.change h m) = .val H'')
    (ha : H.refs[h]? = some a) (hb : H.refs[k]? = some b) (hab : b.owner ≠ a.owner) : H''.read k = H.read k := by
  simp only [PyHeap.step, ha] at hs
  split at hs
  · rename_i r x e1 e2
    cases e1
    obtain ⟨y, _, h2⟩ := Outcome.bind_eq_val.1 hs
    cases h2
    have hrefs : (H.store a y).refs = H.refs := by cases a <;> rfl
    unfold PyHeap.read
    rw [hrefs, hb]
    exact store_other H a b y hab
  · cases hs

theorem read_lt {k : ℕ} {v : PyVal} (h : H.read k = some v) : ∃ r, H.refs[k]? = some r ∧ k < H.refs.length := by
  unfold PyHeap.read at h
  cases e : H.refs[k]? with
  | none => rw [e] at h; cases h
  | some r => exact ⟨r, rfl, (List.getElem?_eq_some_iff.1 e).1⟩

/-- The results of a function body are new objects in every state. -/
theorem fresh_call (hH : Based H) {body : List PyStep} (hK : PyHeap.run {} body = .val K) (results : List (ℕ × PyVal))
    (hv : ∀ r ∈ results, K.read r.1 = some r.2)
    (hsep : ∀ r ∈ results, ∀ s ∈ results, r.1 ≠ s.1 → ∀ a b, K.refs[r.1]? = some a → K.refs[s.1]? = some b →
      b.owner ≠ a.owner) :
    ∃ H', H.call body = .val H' ∧
      Spec.FreshResults H H' (results.map fun r => (H.refs.length + r.1, r.2)) := by
  refine ⟨joined H K, by rw [call_eq hH, hK]; rfl, ?_⟩
  have hnew : ∀ r ∈ results, ∃ a, (joined H K).refs[H.refs.length + r.1]? = some a ∧ H.objs.length ≤ a.owner := by
    intro r hr
    obtain ⟨b, hb, -⟩ := read_lt (hv r hr)
    refine ⟨refShift H.objs.length b, by rw [joined_ref, hb]; rfl, ?_⟩
    cases b <;> simp [refShift, PyRef.owner]
  have hold : ∀ k v, H.read k = some v → ∃ a, (joined H K).refs[k]? = some a ∧ a.owner < H.objs.length := by
    intro k v h
    obtain ⟨a, ha, hk⟩ := read_lt h
    exact ⟨a, by rw [joined]; simp only; rw [List.getElem?_append_left hk, ha], hH a (List.mem_of_getElem? ha)⟩
  have hkept : ∀ k v, H.read k = some v → (joined H K).read k = some v := fun k v h => by
    rw [joined_old hH k (read_lt h).choose_spec.2, h]
  refine ⟨?_, ?_, hkept, ?_, ?_, ?_⟩
  · rintro _ hr
    obtain ⟨r, hr', rfl⟩ := List.mem_map.1 hr
    rw [joined_read, hv r hr']
  · rintro _ hr
    obtain ⟨r, hr', rfl⟩ := List.mem_map.1 hr
    unfold PyHeap.read
    rw [List.getElem?_eq_none (by simp)]
    rfl
  · rintro _ hr m H'' hs k v hk
    obtain ⟨r, hr', rfl⟩ := List.mem_map.1 hr
    obtain ⟨a, ha, ha'⟩ := hnew r hr'
    obtain ⟨b, hb, hb'⟩ := hold k v hk
    rw [change_other hs ha hb (by omega), hkept k v hk]
  · rintro k v hk m H'' hs _ hr
    obtain ⟨r, hr', rfl⟩ := List.mem_map.1 hr
    obtain ⟨a, ha, ha'⟩ := hnew r hr'
    obtain ⟨b, hb, hb'⟩ := hold k v hk
    rw [change_other hs hb ha (by omega), joined_read, hv r hr']
  · rintro _ hr _ hs hne m H'' hst
    obtain ⟨r, hr', rfl⟩ := List.mem_map.1 hr
    obtain ⟨s, hs', rfl⟩ := List.mem_map.1 hs
    obtain ⟨a, ha, -⟩ := read_lt (hv r hr')
    obtain ⟨b, hb, -⟩ := read_lt (hv s hs')
    have hab := hsep r hr' s hs' (fun e => hne (by simp [e])) a b ha hb
    rw [change_other hst (a := refShift H.objs.length a) (b := refShift H.objs.length b)
      (by rw [joined_ref, ha]; rfl) (by rw [joined_ref, hb]; rfl) ?_, joined_read, hv s hs']
    cases a <;> cases b <;> simp [refShift, PyRef.owner] at * <;> omega

/-! ## Functions that only construct, compute and modify objects -/

/-- The call makes an object of its own or modifies one. -/
def Plain : PyStep → Prop
  | .make _ | .query _ _ | .change _ _ => True
  | _ => False

/-- Every object has a C++ object of its own. -/
def plain (vs : List PyVal) : PyHeap := ⟨vs, (List.range vs.length).map .own⟩

theorem plain_ref (vs : List PyVal) (k : ℕ) : (plain vs).refs[k]? = if k < vs.length then some (.own k) else none := by
  unfold plain
  simp only [List.getElem?_map]
  split_ifs with h
  · rw [List.getElem?_range h]; rfl
  · rw [List.getElem?_eq_none (by simpa using h)]; rfl

theorem plain_read (vs : List PyVal) (k : ℕ) : (plain vs).read k = vs[k]? := by
  unfold PyHeap.read
  rw [plain_ref]
  split_ifs with h
  · rfl
  · rw [List.getElem?_eq_none (by omega)]; rfl

theorem plain_new (vs : List PyVal) (v : PyVal) : (plain vs).new v = plain (vs ++ [v]) := by
  simp [PyHeap.new, plain, List.range_succ]

theorem plain_step (vs : List PyVal) (s : PyStep) (hs : Plain s) :
    (plain vs).step s = Spec.valueStep vs s >>= fun vs' => .val (plain vs') := by
  have hr : (plain vs).read = fun k => vs[k]? := funext (plain_read vs)
  cases s with
  | make v => simp [PyHeap.step, Spec.valueStep, plain_new, Outcome.val_bind]
  | query f args =>
    simp only [PyHeap.step, Spec.valueStep, hr]
    cases readAll (fun k => vs[k]?) args with
    | none => rfl
    | some l =>
      simp only
      cases f l <;> simp [plain_new, Outcome.val_bind, Outcome.pure_eq] <;> rfl
  | change h m =>
    simp only [PyHeap.step, Spec.valueStep, hr, plain_ref]
    by_cases c : h < vs.length
    · rw [if_pos c, List.getElem?_eq_getElem c]
      simp only
      cases changed (fun k => vs[k]?) m vs[h] <;>
        simp [Outcome.val_bind, Outcome.pure_eq, PyHeap.store, plain] <;> rfl
    · rw [if_neg c, List.getElem?_eq_none (by omega)]
      rfl
  | _ => exact hs.elim

theorem plain_run (body : List PyStep) (hb : ∀ s ∈ body, Plain s) (vs : List PyVal) :
    (plain vs).run body = Spec.values vs body >>= fun vs' => .val (plain vs') := by
  induction body generalizing vs with
  | nil => rfl
  | cons s t ih =>
    simp only [PyHeap.run, Spec.values, plain_step vs s (hb s (by simp))]
    cases Spec.valueStep vs s with
    | val vs1 => simp only [Outcome.val_bind]; exact ih (fun s h => hb s (by simp [h])) vs1
    | _ => rfl

/-- The results have the values that the sequence of calls computes. -/
theorem fresh_plain (hH : Based H) {body : List PyStep} (hb : ∀ s ∈ body, Plain s) {vs : List PyVal}
    (hvs : Spec.values [] body = .val vs) (results : List (ℕ × PyVal)) (hv : ∀ r ∈ results, vs[r.1]? = some r.2) :
    ∃ H', H.call body = .val H' ∧
      Spec.FreshResults H H' (results.map fun r => (H.refs.length + r.1, r.2)) := by
  have hK : PyHeap.run {} body = .val (plain vs) := by
    have := plain_run body hb []
    rw [hvs] at this
    exact this
  refine fresh_call hH hK results (fun r hr => by rw [plain_read, hv r hr]) ?_
  intro r hr s hs hne a b ha hb
  rw [plain_ref] at ha hb
  split_ifs at ha hb
  obtain rfl := Option.some.inj ha
  obtain rfl := Option.some.inj hb
  exact fun e => hne e.symm

/-- A call fails in the same way in every state. -/
theorem fail_plain (hH : Based H) {body : List PyStep} (hb : ∀ s ∈ body, Plain s) :
    H.call body = Spec.values [] body >>= fun vs => .val (joined H (plain vs)) := by
  have := plain_run body hb []
  change PyHeap.run {} body = _ at this
  rw [call_eq hH, this]
  cases Spec.values [] body <;> rfl

/-! ## Cylinders -/

/-- **C144** A point sampler for a cylinder makes a new point at the drawn coordinates; no object is changed. -/
theorem C144_cylinder (prog : List PyStep) (hH : PyHeap.run {} prog = .val H) (bottom : Elliptical) (r phi z : ℝ) :
    ∃ H', H.call (cylinderSamplerCall bottom r phi z) = .val H' ∧
      Spec.FreshResults H H' [(H.refs.length + 10, .point (bottom.center + (r * Real.cos phi) • bottom.major
        + (r * Real.sin phi) • bottom.minor + z • bottom.normal))] := by
  refine fresh_call (based_run hH) (K := _) rfl [(10, _)] ?_ ?_
  · intro r hr
    obtain rfl := List.mem_singleton.1 hr
    rfl
  · intro r hr s hs hne
    rw [List.mem_singleton.1 hr, List.mem_singleton.1 hs] at hne
    exact absurd rfl hne

/-- **C144** The point is the one of the model of the sampler, for the squared radius that has been drawn. -/
theorem C144_cylinder_value (prog : List PyStep) (hH : PyHeap.run {} prog = .val H) (s : CylinderPointSampler)
    (phi z r2 : ℝ) (p : V3) (hp : s.sample phi z r2 = .val p) :
    ∃ H', H.call (cylinderSamplerCall s.bottom (Real.sqrt r2) phi z) = .val H' ∧
      Spec.FreshResults H H' [(H.refs.length + 10, .point p)] := by
  unfold CylinderPointSampler.sample at hp
  split_ifs at hp with h
  obtain rfl := Outcome.val.inj hp
  exact C144_cylinder prog hH s.bottom (Real.sqrt r2) phi z

/-! ## Disks -/

theorem mkDirection_axis (v : V3) (h : v.sqLen = 1) : mkDirection v = .val v := by
  have : v.len = 1 := by rw [V3.len, h, Real.sqrt_one]
  unfold mkDirection
  rw [if_neg (by rw [this]; norm_num), this]
  congr 1
  simp [V3.sdiv]

theorem fresh_disk (prog : List PyStep) (hH : PyHeap.run {} prog = .val H) (a b alpha beta gamma : ℝ) (c : V3)
    (maj min : V3) (e : Elliptical) (h1 : mkDirection (diskAxes alpha beta gamma).1 = .val maj)
    (h2 : mkDirection (diskAxes alpha beta gamma).2 = .val min) (he : Elliptical.make c maj min a b = .val e) :
    ∃ H', H.call (diskSamplerCall a b alpha beta gamma c) = .val H' ∧
      Spec.FreshResults H H' [(H.refs.length + 10, .elliptical .disk e)] := by
  have d1 : mkDirection ⟨1, 0, 0⟩ = .val ⟨1, 0, 0⟩ := mkDirection_axis _ (by simp [V3.sqLen])
  have d2 : mkDirection ⟨0, 1, 0⟩ = .val ⟨0, 1, 0⟩ := mkDirection_axis _ (by simp [V3.sqLen])
  have d3 : mkDirection ⟨0, 0, 1⟩ = .val ⟨0, 0, 1⟩ := mkDirection_axis _ (by simp [V3.sqLen])
  simp only [diskAxes] at h1 h2
  have key : ∃ vs, Spec.values [] (diskSamplerCall a b alpha beta gamma c) = .val vs ∧
      vs[10]? = some (.elliptical .disk e) := by
    simp [diskSamplerCall, Spec.values, Spec.valueStep, readAll, directionOfVector, ellipseOf, diskOfEllipse, d1, d2, d3,
      changed, Outcome.val_bind, Outcome.pure_eq, h1, h2, he]
  obtain ⟨vs, hvs, hv⟩ := key
  refine fresh_plain (based_run hH) ?_ hvs [(10, .elliptical .disk e)] ?_
  · intro s hs
    simp only [diskSamplerCall, List.mem_cons, List.not_mem_nil, or_false] at hs
    rcases hs with rfl | rfl | rfl | rfl | rfl | rfl | rfl | rfl | rfl | rfl | rfl | rfl | rfl | rfl | rfl | rfl <;>
      trivial
  · intro r hr
    obtain rfl := List.mem_singleton.1 hr
    exact hv

/-- **C144** A disk sampler makes a new disk with the given centre and lengths, and with the turned coordinate axes as
directions; no object is changed. -/
theorem C144_disk (prog : List PyStep) (hH : PyHeap.run {} prog = .val H) (a b alpha beta gamma : ℝ) (c : V3) :
    ∃ H', H.call (diskSamplerCall a b alpha beta gamma c) = .val H' ∧
      Spec.FreshResults H H' [(H.refs.length + 10, .elliptical .disk
        ⟨c, Spec.rotZ gamma (Spec.rotY beta (Spec.rotX alpha ⟨1, 0, 0⟩)),
          Spec.rotZ gamma (Spec.rotY beta (Spec.rotX alpha ⟨0, 1, 0⟩)),
          Spec.rotZ gamma (Spec.rotY beta (Spec.rotX alpha ⟨0, 0, 1⟩)), a, b⟩)] := by
  have hfr := rot_frame alpha beta gamma
  refine fresh_disk prog hH a b alpha beta gamma c _ _ _ (by rw [diskAxes_eq]; exact mkDirection_of_unit hfr.1)
    (by rw [diskAxes_eq]; exact mkDirection_of_unit hfr.2.1) ?_
  unfold Elliptical.make
  rw [← frame_third hfr, mkDirection_of_unit hfr.2.2.1]
  rfl

/-- A program that has made a disk, asked for its centre and shifted it. -/
example : ∃ H, PyHeap.run {} [.make (.elliptical .disk unitCircle), .make (.vector ⟨1, 0, 0⟩), .get 0 .center,
    .change 2 (.add 1)] = .val H ∧ H.refs.length = 3 := ⟨_, rfl, rfl⟩

/-! ## Quadrilaterals -/

theorem values_append (vs : List PyVal) (a b : List PyStep) :
    Spec.values vs (a ++ b) = Spec.values vs a >>= fun vs' => Spec.values vs' b := by
  induction a generalizing vs with
  | nil => rfl
  | cons s t ih =>
    simp only [List.cons_append, Spec.values]
    cases Spec.valueStep vs s with
    | val vs1 => simp only [Outcome.val_bind]; exact ih vs1
    | _ => rfl

theorem quadFrom_corners (axes : V3 × V3) (c : V3) (dx1 dx2 dy1 dy2 : ℝ) (Q : Quadrilateral)
    (hQ : quadFrom axes c dx1 dx2 dy1 dy2 = Q) :
    Q.p0 = c - (dx1 / 2) • axes.1 - (dy1 / 2) • axes.2 ∧ Q.p1 = c + (dx2 / 2) • axes.1 - (dy2 / 2) • axes.2 ∧
    Q.p2 = c - (dx1 / 2) • axes.1 + (dy1 / 2) • axes.2 ∧ Q.p3 = c + (dx2 / 2) • axes.1 + (dy2 / 2) • axes.2 := by
  subst hQ
  exact ⟨rfl, rfl, rfl, rfl⟩

theorem fresh_quadrilateral (prog : List PyStep) (hH : PyHeap.run {} prog = .val H) (strike dip dx1 dx2 dy1 dy2 : ℝ) (c : V3)
    (axes : V3 × V3) (ha : quadAxes strike dip = .val axes) :
    ∃ H', H.call (quadSamplerCall strike dip dx1 dx2 dy1 dy2 c) = .val H' ∧
      Spec.FreshResults H H' [(H.refs.length + 12, .point (quadFrom axes c dx1 dx2 dy1 dy2).p0),
        (H.refs.length + 13, .point (quadFrom axes c dx1 dx2 dy1 dy2).p1),
        (H.refs.length + 14, .point (quadFrom axes c dx1 dx2 dy1 dy2).p2),
        (H.refs.length + 15, .point (quadFrom axes c dx1 dx2 dy1 dy2).p3)] := by
  have d3 : mkDirection ⟨0, 0, 1⟩ = .val ⟨0, 0, 1⟩ := mkDirection_axis _ (by simp [V3.sqLen])
  simp only [quadAxes] at ha
  obtain ⟨d, hd, ha⟩ := Outcome.bind_eq_val.1 ha
  obtain rfl := Outcome.val.inj ha
  generalize hQ : quadFrom (rotate (rotate ⟨1, 0, 0⟩ ⟨0, 0, 1⟩ strike) d dip, rotate ⟨0, 1, 0⟩ ⟨0, 0, 1⟩ strike) c dx1 dx2
    dy1 dy2 = Q
  obtain ⟨q0, q1, q2, q3⟩ := quadFrom_corners _ _ _ _ _ _ _ hQ
  have key : ∃ vs, Spec.values [] (quadSamplerCall strike dip dx1 dx2 dy1 dy2 c) = .val vs ∧
      vs[12]? = some (.point Q.p0) ∧ vs[13]? = some (.point Q.p1) ∧ vs[14]? = some (.point Q.p2) ∧
      vs[15]? = some (.point Q.p3) := by
    generalize h0 : rotate ⟨1, 0, 0⟩ ⟨0, 0, 1⟩ strike = b0 at *
    generalize h1 : rotate ⟨0, 1, 0⟩ ⟨0, 0, 1⟩ strike = a1 at *
    generalize h2 : rotate b0 d dip = a0 at *
    have s1 : Spec.values [] [.make (.vector ⟨1, 0, 0⟩), .make (.vector ⟨0, 1, 0⟩), .make (.vector ⟨0, 0, 1⟩),
        .query directionOfVector [2], .change 0 (.rotate 3 strike), .make (.vector ⟨0, 0, 1⟩),
        .query directionOfVector [4], .change 1 (.rotate 5 strike), .query directionOfVector [1],
        .change 0 (.rotate 6 dip)] = .val [.vector a0, .vector a1, .vector ⟨0, 0, 1⟩, .direction ⟨0, 0, 1⟩,
          .vector ⟨0, 0, 1⟩, .direction ⟨0, 0, 1⟩, .direction d] := by
      simp [Spec.values, Spec.valueStep, readAll, directionOfVector, d3, hd, changed, Outcome.val_bind,
        Outcome.pure_eq, h0, h1, h2]
    have s2 : ∀ x1 x2 x3 x4 x5 : PyVal, Spec.values [.vector a0, .vector a1, x1, x2, x3, x4, x5]
        [.query copyOf [0], .change 7 (.scale (dx1 / 2)), .query copyOf [0], .change 8 (.scale (dx2 / 2)),
          .query copyOf [1], .change 9 (.scale (dy1 / 2)), .query copyOf [1], .change 10 (.scale (dy2 / 2)),
          .make (.point c)] = .val [.vector a0, .vector a1, x1, x2, x3, x4, x5, .vector ((dx1 / 2) • a0),
            .vector ((dx2 / 2) • a0), .vector ((dy1 / 2) • a1), .vector ((dy2 / 2) • a1), .point c] := by
      intro x1 x2 x3 x4 x5
      simp [Spec.values, Spec.valueStep, readAll, copyOf, changed, Outcome.val_bind, Outcome.pure_eq]
    have s3 : ∀ (y0 y1 y2 y3 y4 y5 y6 : PyVal) (v1 v2 w1 w2 : V3), Spec.values [y0, y1, y2, y3, y4, y5, y6, .vector v1,
        .vector v2, .vector w1, .vector w2, .point c]
        [.query copyOf [11], .change 12 (.subtract 7), .change 12 (.subtract 9),
          .query copyOf [11], .change 13 (.add 8), .change 13 (.subtract 10),
          .query copyOf [11], .change 14 (.subtract 7), .change 14 (.add 9),
          .query copyOf [11], .change 15 (.add 8), .change 15 (.add 10)] = .val [y0, y1, y2, y3, y4, y5, y6, .vector v1,
        .vector v2, .vector w1, .vector w2, .point c, .point (c - v1 - w1), .point (c + v2 - w2), .point (c - v1 + w1),
        .point (c + v2 + w2)] := by
      intro y0 y1 y2 y3 y4 y5 y6 v1 v2 w1 w2
      simp [Spec.values, Spec.valueStep, readAll, copyOf, changed, Outcome.val_bind, Outcome.pure_eq]
    have hp : quadSamplerCall strike dip dx1 dx2 dy1 dy2 c = [.make (.vector ⟨1, 0, 0⟩), .make (.vector ⟨0, 1, 0⟩),
        .make (.vector ⟨0, 0, 1⟩), .query directionOfVector [2], .change 0 (.rotate 3 strike), .make (.vector ⟨0, 0, 1⟩),
        .query directionOfVector [4], .change 1 (.rotate 5 strike), .query directionOfVector [1],
        .change 0 (.rotate 6 dip)] ++ ([.query copyOf [0], .change 7 (.scale (dx1 / 2)), .query copyOf [0],
          .change 8 (.scale (dx2 / 2)), .query copyOf [1], .change 9 (.scale (dy1 / 2)), .query copyOf [1],
          .change 10 (.scale (dy2 / 2)), .make (.point c)] ++ [.query copyOf [11], .change 12 (.subtract 7),
          .change 12 (.subtract 9), .query copyOf [11], .change 13 (.add 8), .change 13 (.subtract 10),
          .query copyOf [11], .change 14 (.subtract 7), .change 14 (.add 9),
          .query copyOf [11], .change 15 (.add 8), .change 15 (.add 10)]) := by
      simp only [quadSamplerCall, List.cons_append, List.nil_append]
    rw [hp, values_append, s1, Outcome.val_bind, values_append, s2, Outcome.val_bind, s3]
    exact ⟨_, rfl, by rw [q0]; rfl, by rw [q1]; rfl, by rw [q2]; rfl, by rw [q3]; rfl⟩
  obtain ⟨vs, hvs, h12, h13, h14, h15⟩ := key
  have := fresh_plain (based_run hH) (body := quadSamplerCall strike dip dx1 dx2 dy1 dy2 c) ?_ hvs
    [(12, .point Q.p0), (13, .point Q.p1), (14, .point Q.p2), (15, .point Q.p3)] ?_
  · simpa only [List.map_cons, List.map_nil] using this
  · intro s hs
    simp only [quadSamplerCall, List.mem_cons, List.not_mem_nil, or_false] at hs
    repeat' rcases hs with rfl | hs
    all_goals first | trivial | (subst hs; trivial)
  · intro r hr
    simp only [List.mem_cons, List.not_mem_nil, or_false] at hr
    rcases hr with rfl | rfl | rfl | rfl <;> assumption

/-- **C144** A quadrilateral sampler makes four new points, at half the given lengths from the given one along the
directions of dip and strike; no object is changed. -/
theorem C144_quadrilateral (prog : List PyStep) (hH : PyHeap.run {} prog = .val H) (s t dx1 dx2 dy1 dy2 : ℝ) (c : V3) :
    ∃ H', H.call (quadSamplerCall s t dx1 dx2 dy1 dy2 c) = .val H' ∧
      Spec.FreshResults H H'
        [(H.refs.length + 12, .point (c - (dx1 / 2) • Spec.dipDir s t - (dy1 / 2) • Spec.strikeDir s)),
        (H.refs.length + 13, .point (c + (dx2 / 2) • Spec.dipDir s t - (dy2 / 2) • Spec.strikeDir s)),
        (H.refs.length + 14, .point (c - (dx1 / 2) • Spec.dipDir s t + (dy1 / 2) • Spec.strikeDir s)),
        (H.refs.length + 15, .point (c + (dx2 / 2) • Spec.dipDir s t + (dy2 / 2) • Spec.strikeDir s))] := by
  have := fresh_quadrilateral prog hH s t dx1 dx2 dy1 dy2 c _ (quadAxes_eq s t)
  obtain ⟨q0, q1, q2, q3⟩ := quadFrom_corners (Spec.dipDir s t, Spec.strikeDir s) c dx1 dx2 dy1 dy2 _ rfl
  rwa [q0, q1, q2, q3] at this

/-! ## Polygons -/

theorem values_make (vs : List PyVal) (es : List V3) :
    Spec.values vs (es.map fun e => .make (.vector e)) = .val (vs ++ es.map .vector) := by
  induction es generalizing vs with
  | nil => simp [Spec.values]
  | cons e es ih => simp [Spec.values, Spec.valueStep, Outcome.val_bind, ih]

theorem get_mid {α : Type} (P : List α) (x : α) (l T : List α) : (P ++ x :: l ++ T)[P.length]? = some x := by
  rw [List.append_assoc, List.getElem?_append_right (le_refl _)]; simp

theorem set_mid {α : Type} (P : List α) (x y : α) (l T : List α) :
    (P ++ x :: l ++ T).set P.length y = (P ++ [y]) ++ l ++ T := by
  rw [List.append_assoc, List.set_append_right _ _ (le_refl _)]; simp

theorem get_tail {α : Type} (P l T : List α) (k : ℕ) (n : ℕ) (h : n = P.length + l.length + k) :
    (P ++ l ++ T)[n]? = T[k]? := by
  subst h
  rw [List.getElem?_append_right (by simp)]
  simp

/-- The same modification of consecutive objects, with arguments among the later ones. -/
theorem values_change (m : Change) (g : PyVal → PyVal) (T : List PyVal) (l P : List PyVal)
    (h : ∀ P' l' : List PyVal, P'.length + l'.length = P.length + l.length → ∀ x ∈ l,
      changed (fun k => (P' ++ l' ++ T)[k]?) m x = .val (g x)) :
    Spec.values (P ++ l ++ T) ((List.range' P.length l.length).map fun i => .change i m) = .val (P ++ l.map g ++ T) := by
  induction l generalizing P with
  | nil => simp [Spec.values]
  | cons x l ih =>
    simp only [List.length_cons, List.range'_succ, List.map_cons, Spec.values, Spec.valueStep, get_mid]
    rw [h P (x :: l) rfl x (by simp)]
    simp only [Outcome.val_bind, Outcome.pure_eq, set_mid]
    have := ih (P ++ [g x]) (fun P' l' e y hy => h P' l' (by simp at e ⊢; omega) y (by simp [hy]))
    simpa using this

theorem values_strike (strike : ℝ) (m : ℕ) (l : List V3) (P T : List PyVal) (hm : m = P.length + l.length)
    (hT : T.length = 2 + 2 * P.length) :
    ∃ T', T'.length = 2 * l.length ∧
      Spec.values (P ++ l.map .vector ++ T) ((List.range' P.length l.length).flatMap (strikeCalls m strike))
        = .val (P ++ (rotateList l ⟨0, 0, 1⟩ strike).map .vector ++ (T ++ T')) := by
  have d3 : mkDirection ⟨0, 0, 1⟩ = .val ⟨0, 0, 1⟩ := mkDirection_axis _ (by simp [V3.sqLen])
  induction l generalizing P T with
  | nil => exact ⟨[], rfl, by simp [Spec.values, rotateList]⟩
  | cons e l ih =>
    obtain ⟨T', hT', hv⟩ := ih (P ++ [.vector (rotate e ⟨0, 0, 1⟩ strike)])
      (T ++ [.vector ⟨0, 0, 1⟩, .direction ⟨0, 0, 1⟩]) (by simp at hm ⊢; omega) (by simp; omega)
    refine ⟨[.vector ⟨0, 0, 1⟩, .direction ⟨0, 0, 1⟩] ++ T', by simp; omega, ?_⟩
    simp only [List.length_cons, List.range'_succ, List.flatMap_cons, values_append]
    have hstep : Spec.values (P ++ (e :: l).map .vector ++ T) (strikeCalls m strike P.length)
        = .val ((P ++ [.vector (rotate e ⟨0, 0, 1⟩ strike)]) ++ l.map .vector
          ++ (T ++ [.vector ⟨0, 0, 1⟩, .direction ⟨0, 0, 1⟩])) := by
      simp only [strikeCalls, Spec.values, Spec.valueStep, Outcome.val_bind, readAll]
      simp only [List.length_cons] at hm
      rw [List.append_assoc (P ++ _) T _, get_tail P _ _ T.length (m + 2 + 2 * P.length) (by simp; omega),
        List.getElem?_append_right (le_refl _)]
      simp only [Nat.sub_self, List.getElem?_cons_zero, directionOfVector, d3, Outcome.val_bind, Outcome.pure_eq]
      rw [List.append_assoc (P ++ _) _ _, List.append_assoc T, List.map_cons, get_mid]
      simp only [changed]
      rw [get_tail P _ _ (T.length + 1) (m + 3 + 2 * P.length) (by simp; omega),
        List.getElem?_append_right (by omega)]
      simp only [List.cons_append, List.nil_append, Nat.add_sub_cancel_left, List.getElem?_cons_succ,
        List.getElem?_cons_zero, Outcome.val_bind, set_mid]
    rw [hstep, Outcome.val_bind]
    have e1 : (P ++ [PyVal.vector (rotate e ⟨0, 0, 1⟩ strike)]).length = P.length + 1 := by simp
    rw [e1] at hv
    rw [hv]
    congr 1
    simp [rotateList, rotate]

theorem values_vertices (b : ℕ) (es : List V3) (i : ℕ) (L : List PyVal) (p : V3)
    (he : ∀ j (hj : j < es.length), L[i + j]? = some (.vector es[j])) (hL : L.length = b + i + 1)
    (hp : L[b + i]? = some (.point p)) :
    Spec.values L ((List.range' i es.length).map fun i => .query pointPlusVector [b + i, i])
      = .val (L ++ (partialSums p es).tail.map .point) := by
  induction es generalizing i L p with
  | nil => simp [Spec.values, partialSums]
  | cons e es ih =>
    have h0 := he 0 (by simp)
    simp only [Nat.add_zero, List.getElem_cons_zero] at h0
    simp only [List.length_cons, List.range'_succ, List.map_cons, Spec.values, Spec.valueStep, readAll, hp, h0,
      pointPlusVector, Outcome.val_bind, Outcome.pure_eq]
    have := ih (i + 1) (L ++ [.point (p + e)]) (p + e)
      (fun j hj => by
        have h1 := he (j + 1) (by simpa using hj)
        rw [List.getElem?_append_left (by
          have := (List.getElem?_eq_some_iff.1 h1).1; omega)]
        rw [show i + 1 + j = i + (j + 1) by omega, h1]; simp)
      (by simp; omega) (by rw [List.getElem?_append_right (by omega)]; simp [hL, Nat.add_assoc])
    rw [this]
    congr 1
    cases es <;> simp [partialSums]

theorem readAll_mid (A l B : List PyVal) :
    readAll (fun k => (A ++ l ++ B)[k]?) (List.range' A.length l.length) = some l := by
  induction l generalizing A with
  | nil => rfl
  | cons x l ih =>
    simp only [List.length_cons, List.range'_succ, readAll, get_mid]
    have := ih (A ++ [x])
    simp only [List.append_assoc, List.cons_append, List.nil_append, List.length_append, List.length_cons,
      List.length_nil, Nat.zero_add] at this
    simp only [List.append_assoc, List.cons_append]
    rw [this]

theorem coordinates_points (ps : List V3) : coordinates (ps.map .point) = some ps := by
  induction ps with
  | nil => rfl
  | cons p ps ih => simp [coordinates, ih]

theorem partialSums_length (p : V3) (es : List V3) : (partialSums p es).length = es.length + 1 := by
  induction es generalizing p with
  | nil => rfl
  | cons e es ih => simp [partialSums, ih]

theorem plain_polygon (edges : List V3) (strike dip : ℝ) (c : V3) :
    ∀ s ∈ polygonSamplerCall edges strike dip c, Plain s := by
  intro s hs
  simp only [polygonSamplerCall, List.mem_append, List.mem_map, List.mem_flatMap, strikeCalls, List.mem_cons,
    List.not_mem_nil, or_false] at hs
  rcases hs with ((((((⟨_, _, rfl⟩ | rfl | rfl) | ⟨_, _, rfl | rfl | rfl⟩) | ⟨_, _, rfl⟩) | rfl) | ⟨_, _, rfl⟩) |
    rfl | rfl | rfl | rfl) | ⟨_, _, rfl⟩ <;> trivial

/-- The value of a turned vector. -/
noncomputable def turned (axis : V3) (angle : ℝ) : PyVal → PyVal
  | .vector v => .vector (rotate v axis angle)
  | x => x

/-- The value of a shifted point. -/
def shifted (d : V3) : PyVal → PyVal
  | .point p => .point (p + d)
  | x => x

open Classical in
/-- The values that the end of the polygon sampler computes. -/
theorem values_polygon (edges : List V3) (hne : edges ≠ []) (strike dip : ℝ) (c : V3) :
    ∃ A B : List PyVal, A.length = 3 * edges.length + 2 ∧
      Spec.values [] (polygonSamplerCall edges strike dip c)
        = placePolygonPy edges strike dip c >>= fun ps => .val (A ++ ps.map .point ++ B) := by
  generalize hsd : (⟨-Real.sin strike, Real.cos strike, 0⟩ : V3) = sd
  have hd : mkDirection sd = .val sd := mkDirection_axis _ (by
    rw [← hsd]; simp only [V3.sqLen]; nlinarith [Real.sin_sq_add_cos_sq strike])
  generalize hm : edges.length = m
  have hm0 : 0 < m := by rw [← hm]; exact List.length_pos_iff.2 hne
  obtain ⟨T', hT', h3⟩ := values_strike strike m edges [] [.vector sd, .direction sd] (by simp [hm]) rfl
  generalize hE1 : rotateList edges ⟨0, 0, 1⟩ strike = E1 at h3
  have l1 : E1.length = m := by rw [← hE1, rotateList, List.length_map, hm]
  generalize hE2 : rotateList E1 sd dip = E2
  have l2 : E2.length = m := by rw [← hE2, rotateList, List.length_map, l1]
  have h2 : Spec.values (edges.map .vector) [.make (.vector sd), .query directionOfVector [m]]
      = .val (edges.map .vector ++ [.vector sd, .direction sd]) := by
    simp [Spec.values, Spec.valueStep, Outcome.val_bind, Outcome.pure_eq, readAll, directionOfVector, hd, ← hm]
  have h4 : Spec.values (E1.map .vector ++ ([.vector sd, .direction sd] ++ T'))
      ((List.range m).map fun i => .change i (.rotate (m + 1) dip))
      = .val (E2.map .vector ++ ([.vector sd, .direction sd] ++ T')) := by
    have := values_change (.rotate (m + 1) dip) (turned sd dip) ([.vector sd, .direction sd] ++ T') (E1.map .vector) []
      (by
        intro P' l' e x hx
        obtain ⟨v, -, rfl⟩ := List.mem_map.1 hx
        simp only [List.length_nil, List.length_map, l1, Nat.zero_add] at e
        simp only [changed]
        rw [get_tail P' l' _ 1 (m + 1) (by omega)]
        rfl)
    rw [List.length_nil, List.length_map, l1, ← List.range_eq_range'] at this
    simp only [List.nil_append] at this
    rw [this, ← hE2]
    simp [rotateList, turned, rotate, Function.comp_def]
  generalize hA : E2.map PyVal.vector ++ ([.vector sd, .direction sd] ++ T') = A at h4
  have lA : A.length = 3 * m + 2 := by rw [← hA]; simp [l2, hT', hm]; omega
  generalize hV : partialSums 0 E2.dropLast = V
  have lV : V.length = m := by rw [← hV, partialSums_length, List.length_dropLast, l2]; omega
  have h6 : Spec.values (A ++ [.point ⟨0, 0, 0⟩])
      ((List.range (m - 1)).map fun i => .query pointPlusVector [3 * m + 2 + i, i]) = .val (A ++ V.map .point) := by
    have := values_vertices (3 * m + 2) E2.dropLast 0 (A ++ [.point ⟨0, 0, 0⟩]) 0
      (by
        intro j hj
        rw [List.length_dropLast, l2] at hj
        rw [Nat.zero_add, List.getElem?_append_left (by omega), ← hA, List.getElem?_append_left (by simp [l2]; omega)]
        simp [List.getElem?_eq_getElem (show j < E2.length by omega)])
      (by simp [lA]) (by rw [List.getElem?_append_right (by omega)]; simp [lA]; rfl)
    rw [List.length_dropLast, l2, ← List.range_eq_range'] at this
    rw [this, ← hV]
    cases E2.dropLast <;> simp [partialSums] <;> rfl
  have hVne : V ≠ [] := by rintro rfl; simp at lV; omega
  have hEne : E2 ≠ [] := by rintro rfl; simp at l2; omega
  generalize hlast : V.getLastD 0 = last
  generalize hedge : E2.getLastD 0 = edge
  have r1 : (A ++ V.map PyVal.point)[4 * m + 1]? = some (.point last) := by
    rw [List.getElem?_append_right (by omega), lA, show 4 * m + 1 - (3 * m + 2) = V.length - 1 by omega,
      List.getElem?_map, ← List.getLast?_eq_getElem?, List.getLast?_eq_some_getLast hVne, ← hlast]
    simp [List.getLastD_eq_getLast?, List.getLast?_eq_some_getLast hVne]
  have r2 : (A ++ V.map PyVal.point)[m - 1]? = some (.vector edge) := by
    rw [List.getElem?_append_left (by omega), ← hA, List.getElem?_append_left (by simp [l2]; omega),
      List.getElem?_map, ← l2, ← List.getLast?_eq_getElem?, List.getLast?_eq_some_getLast hEne, ← hedge]
    simp [List.getLastD_eq_getLast?, List.getLast?_eq_some_getLast hEne]
  have r3 : (A ++ V.map PyVal.point)[3 * m + 2]? = some (.point 0) := by
    rw [List.getElem?_append_right (by omega), lA, ← hV]
    cases E2.dropLast <;> simp [partialSums]
  have r4 : ∀ B : List PyVal, readAll (fun k => (A ++ V.map PyVal.point ++ B)[k]?) ((List.range m).map (3 * m + 2 + ·))
      = some (V.map .point) := by
    intro B
    have := readAll_mid A (V.map .point) B
    rwa [List.length_map, lV, lA, List.range'_eq_map_range] at this
  generalize hdisp : c - bboxCenter V = disp
  have h8 : Spec.values (A ++ V.map .point ++ [.point (last + edge), .point c, .point (bboxCenter V), .vector disp])
      ((List.range m).map fun i => .change (3 * m + 2 + i) (.add (4 * m + 5)))
      = .val (A ++ (V.map fun v => v + disp).map .point
        ++ [.point (last + edge), .point c, .point (bboxCenter V), .vector disp]) := by
    have := values_change (.add (4 * m + 5)) (shifted disp)
      [.point (last + edge), .point c, .point (bboxCenter V), .vector disp] (V.map .point) A
      (by
        intro P' l' e x hx
        obtain ⟨v, -, rfl⟩ := List.mem_map.1 hx
        rw [List.length_map, lV, lA] at e
        simp only [changed]
        rw [get_tail P' l' _ 3 (4 * m + 5) (by omega)]
        rfl)
    rw [List.length_map, lV, lA, List.range'_eq_map_range, List.map_map] at this
    simp only [Function.comp_def] at this
    rw [this]
    simp [shifted, Function.comp_def]
  refine ⟨A, [.point (last + edge), .point c, .point (bboxCenter V), .vector disp], by rw [lA], ?_⟩
  simp only [polygonSamplerCall, values_append, hm, hsd]
  rw [values_make, Outcome.val_bind, List.nil_append, h2, Outcome.val_bind]
  simp only [List.nil_append, List.length_nil, hm, ← List.range_eq_range'] at h3
  have h5 : Spec.values A [.make (.point ⟨0, 0, 0⟩)] = .val (A ++ [.point ⟨0, 0, 0⟩]) := rfl
  rw [h3, Outcome.val_bind, h4, Outcome.val_bind, h5, Outcome.val_bind, h6, Outcome.val_bind]
  have hplace : placePolygonPy edges strike dip c =
      if pointIsEqual (last + edge) 0 confusion then .val (V.map fun v => v + disp)
      else .thrown "Past last and first vertex of polygon are not equal!" := by
    simp only [placePolygonPy, hsd, hd, Outcome.val_bind, hE1, hE2, hV, hlast, hedge, hdisp, Outcome.pure_eq]
  rw [hplace]
  by_cases hcl : pointIsEqual (last + edge) 0 confusion
  · have h7 : Spec.values (A ++ V.map .point) [.query closingPoint [4 * m + 1, m - 1, 3 * m + 2], .make (.point c),
        .query bboxCenterOf ((List.range m).map (3 * m + 2 + ·)), .query vectorFromTo [4 * m + 4, 4 * m + 3]]
        = .val (A ++ V.map .point ++ [.point (last + edge), .point c, .point (bboxCenter V), .vector disp]) := by
      simp only [Spec.values, Spec.valueStep, readAll, r1, r2, r3, closingPoint, if_pos hcl, Outcome.val_bind,
        Outcome.pure_eq]
      rw [List.append_assoc (A ++ _), r4]
      simp only [bboxCenterOf, coordinates_points, Outcome.val_bind]
      rw [List.append_assoc (A ++ _), get_tail A (V.map .point) _ 2 (4 * m + 4) (by simp [lA, lV]; omega),
        get_tail A (V.map .point) _ 1 (4 * m + 3) (by simp [lA, lV]; omega)]
      simp only [List.cons_append, List.nil_append, List.getElem?_cons_succ, List.getElem?_cons_zero, vectorFromTo,
        Outcome.val_bind, hdisp]
      simp
    rw [h7, Outcome.val_bind, h8, if_pos hcl, Outcome.val_bind]
  · rw [if_neg hcl]
    simp only [Spec.values, Spec.valueStep, readAll, r1, r2, r3, closingPoint, if_neg hcl]
    rfl

/-- **C144** A polygon sampler makes new points, the corners of the polygon of the model of the sampler; no object is
changed. -/
theorem C144_polygon (prog : List PyStep) (hH : PyHeap.run {} prog = .val H) (edges : List V3) (hne : edges ≠ [])
    (strike dip : ℝ) (c : V3) (corners : List V3) (hc : placePolygonPy edges strike dip c = .val corners) :
    ∃ H', H.call (polygonSamplerCall edges strike dip c) = .val H' ∧
      Spec.FreshResults H H'
        (corners.zipIdx.map fun v => (H.refs.length + (3 * edges.length + 2) + v.2, .point v.1)) := by
  obtain ⟨A, B, lA, hv⟩ := values_polygon edges hne strike dip c
  rw [hc, Outcome.val_bind] at hv
  obtain ⟨H', h1, h2⟩ := fresh_plain (based_run hH) (plain_polygon edges strike dip c) hv
    (corners.zipIdx.map fun v => (3 * edges.length + 2 + v.2, .point v.1)) (by
      intro r hr
      obtain ⟨⟨v, i⟩, hi, rfl⟩ := List.mem_map.1 hr
      have hi' := List.mem_zipIdx_iff_getElem?.1 hi
      have := (List.getElem?_eq_some_iff.1 hi').1
      simp only at hi' ⊢
      rw [← lA, List.append_assoc, List.getElem?_append_right (by omega), List.getElem?_append_left (by simp; omega)]
      simp [hi'])
  refine ⟨H', h1, ?_⟩
  simpa [Function.comp_def, Nat.add_assoc] using h2

/-- The edges of a square. -/
example (strike dip : ℝ) (c : V3) : ∃ corners, corners.length = 4 ∧
    placePolygonPy [⟨1, 0, 0⟩, ⟨0, 1, 0⟩, ⟨-1, 0, 0⟩, ⟨0, -1, 0⟩] strike dip c = .val corners := by
  rw [placePolygonPy_eq _ (by simp) (by simp) (by simp) (by simp)]
  unfold placePolygon
  rw [show mkDirection ⟨-Real.sin strike, Real.cos strike, 0⟩ = .val (Spec.strikeDir strike) from
    mkDirection_of_unit (strikeDir_unit strike)]
  exact ⟨_, by simp [partialSums, rotateList], rfl⟩

/-- **C144** If the polygon is not closed, the call fails with the message of the sampler. -/
theorem C144_polygon_fails (prog : List PyStep) (hH : PyHeap.run {} prog = .val H) (edges : List V3) (hne : edges ≠ [])
    (strike dip : ℝ) (c : V3) (msg : String) (hc : placePolygonPy edges strike dip c = .thrown msg) :
    H.call (polygonSamplerCall edges strike dip c) = .thrown msg := by
  obtain ⟨A, B, lA, hv⟩ := values_polygon edges hne strike dip c
  rw [fail_plain (based_run hH) (plain_polygon edges strike dip c), hv, hc]
  rfl

/-- A single edge is not closed. -/
example (c : V3) : ∃ msg, placePolygonPy [⟨1, 0, 0⟩] 0 0 c = .thrown msg := by
  unfold placePolygonPy
  rw [show mkDirection ⟨-Real.sin 0, Real.cos 0, 0⟩ = .val (Spec.strikeDir 0) from
    mkDirection_of_unit (strikeDir_unit 0)]
  rw [Outcome.val_bind]
  simp only
  rw [if_neg]
  · exact ⟨_, rfl⟩
  · simp [rotateList, rotRx, rotRy, rotRz, partialSums, pointIsEqual, V3.dot, confusion, V3.sqLen, V3.len]
    norm_num

/-! ## Arguments of other types -/

/-- Constructors and operators used by the samplers raise `TypeError` for objects of other classes. -/
theorem C144_type_errors (l : List PyVal) (a b : ℝ) :
    ((∀ d, l ≠ [.direction d]) → vectorOfDirection l = .thrown "TypeError") ∧
    ((∀ v, l ≠ [.vector v]) → directionOfVector l = .thrown "TypeError") ∧
    ((∀ c x y, l ≠ [.point c, .direction x, .direction y]) → ellipseOf a b l = .thrown "TypeError") ∧
    ((∀ e, l ≠ [.elliptical .ellipse e]) → diskOfEllipse l = .thrown "TypeError") ∧
    ((∀ p v, l ≠ [.point p, .vector v]) → pointPlusVector l = .thrown "TypeError") ∧
    ((∀ p q, l ≠ [.point p, .point q]) → vectorFromTo l = .thrown "TypeError") ∧
    (l.length ≠ 1 → copyOf l = .thrown "TypeError") ∧
    ((∃ v ∈ l, ∀ p, v ≠ .point p) → bboxCenterOf l = .thrown "TypeError") ∧
    ((∀ p e q, l ≠ [.point p, .vector e, .point q]) → closingPoint l = .thrown "TypeError") := by
  have hc : ∀ l : List PyVal, (∃ v ∈ l, ∀ p, v ≠ .point p) → coordinates l = none := by
    intro l
    induction l with
    | nil => rintro ⟨v, hv, -⟩; simp at hv
    | cons x t ih =>
      rintro ⟨v, hv, hp⟩
      cases x with
      | point q =>
        rcases List.mem_cons.1 hv with rfl | hv
        · exact absurd rfl (hp q)
        · simp [coordinates, ih ⟨v, hv, hp⟩]
      | _ => rfl
  refine ⟨fun h => ?_, fun h => ?_, fun h => ?_, fun h => ?_, fun h => ?_, fun h => ?_, fun h => ?_, fun h => ?_, fun h => ?_⟩
  · unfold vectorOfDirection; split
    · exact absurd rfl (h _)
    · rfl
  · unfold directionOfVector; split
    · exact absurd rfl (h _)
    · rfl
  · unfold ellipseOf; split
    · exact absurd rfl (h _ _ _)
    · rfl
  · unfold diskOfEllipse; split
    · exact absurd rfl (h _)
    · rfl
  · unfold pointPlusVector; split
    · exact absurd rfl (h _ _)
    · rfl
  · unfold vectorFromTo; split
    · exact absurd rfl (h _ _)
    · rfl
  · unfold copyOf; split
    · simp at h
    · rfl
  · unfold bboxCenterOf
    rw [hc l h]
  · unfold closingPoint; split
    · exact absurd rfl (h _ _ _)
    · rfl

end Props
