import Verif.Model.Geometry.PyFactories
import Verif.Props.NDim
import Mathlib.Data.List.Perm.Basic
import Mathlib.Data.List.Nodup
import Mathlib.Tactic.FinCases
import Mathlib.Tactic.IntervalCases
import Mathlib.Tactic.NormNum

/-!
# Construction of points, vectors, directions and circles in Python
-/

namespace Spec
open Verif Frackit

/-- The call passes the values `vals` for the parameters `names`: the first ones by position, the others by keyword,
in any order. -/
def Passes {α : Type} (names : List String) (vals args : List α) (kw : KwOf α) : Prop :=
  vals.length = names.length ∧
    ∃ k ≤ names.length, args = vals.take k ∧ kw.Perm ((names.drop k).zip (vals.drop k))

/-- The call passes one, two or three coordinates, one by one. -/
def PassesCoordinates (c : List ℝ) (args : List PyObj) (kw : PyKw) : Prop :=
  1 ≤ c.length ∧ c.length ≤ 3 ∧ Passes (["x", "y", "z"].take c.length) (c.map .num) args kw

/-- The call passes a list of one, two or three coordinates. -/
def PassesList (c : List ℝ) (args : List PyObj) (kw : PyKw) : Prop :=
  1 ≤ c.length ∧ c.length ≤ 3 ∧ Passes ["coordinates"] [.list (c.map some)] args kw

/-- What `Point(...)` is meant to return. -/
inductive PointMeant (args : List PyObj) (kw : PyKw) : PyObj → Prop
  | coordinates (c : List ℝ) (h : PassesCoordinates c args kw) : PointMeant args kw (.point c)
  | list (c : List ℝ) (h : PassesList c args kw) : PointMeant args kw (.point c)

/-- What `Vector(...)` is meant to return. -/
inductive VectorMeant (args : List PyObj) (kw : PyKw) : PyObj → Prop
  | coordinates (c : List ℝ) (h : PassesCoordinates c args kw) : VectorMeant args kw (.vector c)
  | list (c : List ℝ) (h : PassesList c args kw) : VectorMeant args kw (.vector c)
  | points (p q c : List ℝ) (h1 : 1 ≤ p.length) (h3 : p.length ≤ 3) (hq : q.length = p.length)
      (hc : c.length = p.length) (hi : ∀ (i : ℕ) (h : i < p.length), c[i] = q[i] - p[i])
      (h : Passes ["source", "target"] [.point p, .point q] args kw) : VectorMeant args kw (.vector c)
  | direction (d : List ℝ) (h1 : 1 ≤ d.length) (h3 : d.length ≤ 3)
      (h : Passes ["direction"] [.direction d] args kw) : VectorMeant args kw (.vector d)

/-- What `Direction(...)` is meant to return for a vector that is not zero. -/
def DirectionMeant (args : List PyObj) (kw : PyKw) (o : PyObj) : Prop :=
  ∃ (v d : List ℝ) (s : ℝ), 1 ≤ v.length ∧ v.length ≤ 3 ∧ Passes ["vector"] [.vector v] args kw ∧ o = .direction d ∧
    0 < s ∧ v = d.map (s * ·) ∧ (d.map (· ^ 2)).sum = 1

/-- What `Circle(...)` is meant to return. -/
def CircleMeant (args : List PyObj) (kw : PyKw) (o : PyObj) : Prop :=
  ∃ (c d : List ℝ) (r : ℝ), c.length = 3 ∧ d.length = 3 ∧ o = .circle c d r ∧
    Passes ["center", "normal", "radius"] [.point c, .direction d, .num r] args kw

end Spec

namespace Verif
open Frackit

theorem perm_drop {α : Type} (kw : KwOf α) (n : String) (v : α) (hk : (kw.map (·.1)).Nodup) (h : kw.value n = some v) :
    kw.Perm ((n, v) :: kw.drop n) := by
  induction kw with
  | nil => simp [KwOf.value] at h
  | cons e r ih =>
    obtain ⟨m, w⟩ := e
    simp only [List.map_cons, List.nodup_cons] at hk
    by_cases hm : m = n
    · subst hm
      simp only [KwOf.value, List.find?_cons, beq_self_eq_true, Option.map_some, Option.some.injEq] at h
      subst h
      have hr : KwOf.drop ((m, w) :: r) m = r := by
        simp only [KwOf.drop, bne_self_eq_false, Bool.false_eq_true, not_false_eq_true, List.filter_cons_of_neg]
        rw [List.filter_eq_self]
        intro e he
        have : e.1 ≠ m := fun h => hk.1 (h ▸ List.mem_map_of_mem he)
        simpa using this
      rw [hr]
    · have hb : (m == n) = false := by simpa using hm
      have h' : KwOf.value r n = some v := by
        simpa [KwOf.value, List.find?_cons, hb] using h
      have hd : KwOf.drop ((m, w) :: r) n = (m, w) :: KwOf.drop r n := by
        simp [KwOf.drop, hm]
      rw [hd]
      exact ((ih hk.2 h').cons _).trans (List.Perm.swap _ _ _)

theorem drop_perm {α : Type} (kw : KwOf α) (n : String) (v : α) (r : KwOf α) (hk : (kw.map (·.1)).Nodup)
    (h : kw.Perm ((n, v) :: r)) : kw.value n = some v ∧ (kw.drop n).Perm r := by
  have hn : (((n, v) :: r).map (·.1)).Nodup := (h.map _).nodup_iff.1 hk
  simp only [List.map_cons, List.nodup_cons] at hn
  constructor
  · have hm : (n, v) ∈ kw := h.mem_iff.2 List.mem_cons_self
    cases hv : kw.value n with
    | none =>
      simp only [KwOf.value, Option.map_eq_none_iff, List.find?_eq_none] at hv
      exact absurd (hv _ hm) (by simp)
    | some w =>
      have h2 := (perm_drop kw n w hk hv).symm.trans h
      have h3 : (n, v) ∈ (n, w) :: kw.drop n := h2.mem_iff.2 List.mem_cons_self
      rcases List.mem_cons.1 h3 with h3 | h3
      · rw [(Prod.mk.inj h3).2]
      · simp [KwOf.drop] at h3
  · have h2 : (kw.drop n).Perm (KwOf.drop ((n, v) :: r) n) := h.filter _
    have hr : KwOf.drop ((n, v) :: r) n = r := by
      simp only [KwOf.drop, bne_self_eq_false, Bool.false_eq_true, not_false_eq_true, List.filter_cons_of_neg]
      rw [List.filter_eq_self]
      intro e he
      have : e.1 ≠ n := fun h => hn.1 (h ▸ List.mem_map_of_mem he)
      simpa using this
    rwa [hr] at h2

theorem drop_nodup {α : Type} {kw : KwOf α} {n : String} (hk : (kw.map (·.1)).Nodup) : ((kw.drop n).map (·.1)).Nodup :=
  (List.filter_sublist.map _).nodup hk

theorem bind_iff {α : Type} (names : List String) (hn : names.Nodup) (args : List α) (kw : KwOf α)
    (hk : (kw.map (·.1)).Nodup) (vals : List α) :
    bindArguments names args kw = some vals ↔ Spec.Passes names vals args kw := by
  induction names generalizing args kw vals with
  | nil =>
    constructor
    · intro h
      cases args <;> cases kw <;> simp [bindArguments] at h
      subst h
      exact ⟨rfl, 0, le_rfl, rfl, List.Perm.refl _⟩
    · rintro ⟨hl, k, hk0, ha, hp⟩
      have hv : vals = [] := List.length_eq_zero_iff.1 hl
      subst hv
      simp only [List.take_nil, List.drop_nil, List.zip_nil_right, List.perm_nil] at ha hp
      subst ha hp
      rfl
  | cons n ns ih =>
    have hns : ns.Nodup := (List.nodup_cons.1 hn).2
    cases args with
    | cons a as =>
      simp only [bindArguments, Option.map_eq_some_iff]
      constructor
      · rintro ⟨vs, hvs, rfl⟩
        obtain ⟨hl, k, hk1, ha, hp⟩ := (ih hns as kw hk vs).1 hvs
        exact ⟨by simp [hl], k + 1, by simpa using hk1, by simp [ha], by simpa using hp⟩
      · rintro ⟨hl, k, hk1, ha, hp⟩
        cases vals with
        | nil => simp at hl
        | cons v vs =>
          cases k with
          | zero => simp at ha
          | succ k =>
            simp only [List.take_succ_cons, List.cons.injEq] at ha
            refine ⟨vs, (ih hns as kw hk vs).2 ⟨by simpa using hl, k, by simpa using hk1, ha.2, by simpa using hp⟩, ?_⟩
            rw [ha.1]
    | nil =>
      constructor
      · intro h
        simp only [bindArguments] at h
        cases hv : kw.value n with
        | none => rw [hv] at h; simp at h
        | some v =>
          rw [hv] at h
          simp only [Option.map_eq_some_iff] at h
          obtain ⟨vs, hvs, rfl⟩ := h
          obtain ⟨hl, k, hk1, ha, hp⟩ := (ih hns [] _ (drop_nodup hk) vs).1 hvs
          have hp' : (kw.drop n).Perm (ns.zip vs) := by
            rcases Nat.eq_zero_or_pos k with rfl | hkp
            · simpa using hp
            · have : vs = [] := by
                have := congrArg List.length ha
                simp at this
                omega
              subst this
              simpa using hp
          refine ⟨by simp [hl], 0, Nat.zero_le _, rfl, ?_⟩
          exact (perm_drop kw n v hk hv).trans (hp'.cons _)
      · rintro ⟨hl, k, hk1, ha, hp⟩
        cases vals with
        | nil => simp at hl
        | cons v vs =>
          cases k with
          | succ k => simp at ha
          | zero =>
            simp only [List.drop_zero, List.zip_cons_cons] at hp
            obtain ⟨h1, h2⟩ := drop_perm kw n v _ hk hp
            simp only [bindArguments, h1, Option.map_eq_some_iff]
            exact ⟨vs, (ih hns [] _ (drop_nodup hk) vs).2
              ⟨by simpa using hl, 0, Nat.zero_le _, rfl, by simpa using h2⟩, rfl⟩

theorem passes_count {α : Type} {names : List String} {vals args : List α} {kw : KwOf α} (h : Spec.Passes names vals args kw) :
    args.length + kw.length = names.length := by
  obtain ⟨hl, k, hk, rfl, hp⟩ := h
  rw [hp.length_eq]
  simp
  omega

theorem bind_count {α : Type} {names : List String} (hn : names.Nodup) {vals args : List α} {kw : KwOf α}
    (hk : (kw.map (·.1)).Nodup) (h : bindArguments names args kw = some vals) :
    args.length + kw.length = names.length :=
  passes_count ((bind_iff names hn args kw hk vals).1 h)

theorem castNumbers_iff (vals : List PyObj) (c : List ℝ) : castNumbers vals = some c ↔ vals = c.map .num := by
  induction vals generalizing c with
  | nil => cases c <;> simp [castNumbers]
  | cons v vs ih =>
    cases v with
    | num x =>
      simp only [castNumbers, Option.map_eq_some_iff, ih]
      constructor
      · rintro ⟨r, rfl, rfl⟩
        rfl
      · intro h
        cases c with
        | nil => simp at h
        | cons y r =>
          simp only [List.map_cons, List.cons.injEq, PyObj.num.injEq] at h
          exact ⟨r, h.2, by rw [h.1]⟩
    | _ => cases c <;> simp [castNumbers]

theorem names_nodup (n : ℕ) : (coordinateNames n).Nodup :=
  ((List.take_sublist n _).nodup (by decide))

theorem names_length {n : ℕ} (h : n ≤ 3) : (coordinateNames n).length = n := by
  simp [coordinateNames, h]

theorem fromCoordinates_iff (n : ℕ) (h3 : n ≤ 3) (args : List PyObj) (kw : PyKw) (hk : (kw.map (·.1)).Nodup)
    (c : List ℝ) : fromCoordinates n args kw = some c ↔
      c.length = n ∧ Spec.Passes (["x", "y", "z"].take n) (c.map .num) args kw := by
  simp only [fromCoordinates, Option.bind_eq_some_iff, castNumbers_iff]
  constructor
  · rintro ⟨vals, hb, rfl⟩
    have := (bind_iff _ (names_nodup n) args kw hk _).1 hb
    refine ⟨?_, this⟩
    have hl := this.1
    rw [names_length h3] at hl
    simpa using hl
  · rintro ⟨hl, hp⟩
    exact ⟨_, (bind_iff _ (names_nodup n) args kw hk _).2 hp, rfl⟩

/-- Conversion of lists that have as many elements as there are dimensions. -/
theorem coordinatesFromList_iff (l : List (Option ℝ)) (c : List ℝ) :
    coordinatesFromList l.length l = .val c ↔ l = c.map some := by
  have key : ∀ (l : List (Option ℝ)) (c : List ℝ), l.mapM id = some c ↔ l = c.map some := by
    intro l
    induction l with
    | nil => intro c; cases c <;> simp
    | cons a r ih =>
      intro c
      cases a with
      | none => cases c <;> simp
      | some x =>
        cases c with
        | nil =>
          simp only [List.mapM_cons, id_eq, Option.bind_eq_bind, Option.bind_some, Option.pure_def]
          cases List.mapM id r <;> simp
        | cons y c =>
          simp only [List.mapM_cons, id_eq, Option.bind_eq_bind, Option.bind_some, Option.pure_def,
            Option.bind_eq_some_iff, Option.some.injEq, List.cons.injEq, List.map_cons]
          constructor
          · rintro ⟨a, ha, rfl, rfl⟩
            exact ⟨rfl, (ih _).1 ha⟩
          · rintro ⟨rfl, h⟩
            exact ⟨c, (ih _).2 h, rfl, rfl⟩
  rw [coordinatesFromList, List.take_length, Nat.sub_self]
  cases h : l.mapM id with
  | none =>
    simp only [reduceCtorEq, false_iff]
    intro hc
    rw [(key l c).2 hc] at h
    cases h
  | some d =>
    simp only [List.replicate_zero, List.append_nil, Outcome.val.injEq]
    rw [← key, h]
    simp

end Verif

namespace Props
open Verif Frackit

/-! ## C84 Construction of points, vectors, directions and circles in Python -/

/-- The functions return what is meant by the arguments, passed by position or by keyword, and raise an exception for
all other arguments. -/
def C84_full : Prop :=
  ∀ (args : List PyObj) (kw : PyKw), (kw.map (·.1)).Nodup →
    (∀ o, pyPoint args kw = .val o ↔ Spec.PointMeant args kw o) ∧
    (∀ o, pyVector args kw = .val o ↔ Spec.VectorMeant args kw o) ∧
    (∀ o, pyDirection args kw = .val o ↔ Spec.DirectionMeant args kw o) ∧
    (∀ o, pyCircle args kw = .val o ↔ Spec.CircleMeant args kw o)

theorem passes_single {n : String} {v : PyObj} {args : List PyObj} {kw : PyKw} (h : Spec.Passes [n] [v] args kw) :
    (args = [v] ∧ kw = []) ∨ (args = [] ∧ kw = [(n, v)]) := by
  obtain ⟨-, k, hk, rfl, hp⟩ := h
  have hk' : k ≤ 1 := hk
  interval_cases k
  · exact .inr ⟨rfl, by simpa using hp⟩
  · exact .inl ⟨rfl, by simpa using hp⟩

/-- The fourth coordinate is dropped silently. -/
theorem C84_dropped_coordinate (x y z w : ℝ) :
    pyPoint [.list [some x, some y, some z, some w]] [] = .val (.point [x, y, z]) ∧
    pyVector [.list [some x, some y, some z, some w]] [] = .val (.vector [x, y, z]) := by
  constructor <;> rfl

/-- An empty list yields the origin of the three-dimensional space. -/
theorem C84_empty_list :
    pyPoint [.list []] [] = .val (.point [0, 0, 0]) ∧ pyVector [.list []] [] = .val (.vector [0, 0, 0]) := by
  constructor <;> rfl

/-- The classes behind the functions, called without arguments, construct origin and null vector; the coordinates of a direction are
zero as well, so that it is no direction. -/
theorem C84_no_arguments : (∀ n, pointClass n [] [] = .val (.point (List.replicate n 0)) ∧
      vectorClass n [] [] = .val (.vector (List.replicate n 0)) ∧ directionClass n [] [] = .val (.direction (List.replicate n 0))) ∧
    pyPoint [] [] = .thrown "Exception" ∧ pyVector [] [] = .thrown "Exception" ∧ pyDirection [] [] = .thrown "RuntimeError" :=
  ⟨fun _ => ⟨rfl, rfl, rfl⟩, rfl, rfl, rfl⟩

/-- A single argument passed by keyword is not accepted by any of the functions, although the classes accept it. -/
theorem C84_single_keyword (n : String) (v : PyObj) :
    pyPoint [] [(n, v)] = .thrown "IndexError" ∧ pyVector [] [(n, v)] = .thrown "IndexError" ∧
      pyDirection [] [(n, v)] = .thrown "RuntimeError" :=
  ⟨rfl, rfl, rfl⟩

/-- Points of the three-dimensional space passed by keyword are not accepted. -/
theorem C84_points_by_keyword (x y z a b c : ℝ) :
    pyVector [] [("source", .point [x, y, z]), ("target", .point [a, b, c])] = .thrown "TypeError" := by
  rfl

/-- One number is a point but not a vector. -/
theorem C84_single_number (x : ℝ) :
    pyPoint [.num x] [] = .val (.point [x]) ∧ pyVector [.num x] [] = .thrown "RuntimeError" :=
  ⟨rfl, rfl⟩

theorem C84_disproof : ¬ C84_full := by
  intro h
  have h1 := ((h [.list [some 1, some 2, some 3, some 4]] [] List.nodup_nil).1 _).1 (C84_dropped_coordinate 1 2 3 4).1
  cases h1 with
  | coordinates _ h =>
    have hc := passes_count h.2.2
    have := h.2.2.1
    obtain ⟨_, _, _, k, hk, ha, hp⟩ := h
    simp at hc
  | list _ h =>
    rcases passes_single h.2.2 with ⟨h, -⟩ | ⟨h, -⟩ <;> simp at h

theorem bind_none {α : Type} {names : List String} (hn : names.Nodup) {args : List α} {kw : KwOf α}
    (hk : (kw.map (·.1)).Nodup) (h : args.length + kw.length ≠ names.length) : bindArguments names args kw = none := by
  cases hb : bindArguments names args kw with
  | none => rfl
  | some v => exact absurd (bind_count hn hk hb) h

theorem coordinatesFromList_settled (n : ℕ) (l : List (Option ℝ)) :
    (∃ c, coordinatesFromList n l = .val c) ∨ (coordinatesFromList n l).isThrown := by
  rw [coordinatesFromList]
  split
  · exact .inr trivial
  · exact .inl ⟨_, rfl⟩

theorem pointClass_settled (n : ℕ) (args : List PyObj) (kw : PyKw) :
    (∃ o, pointClass n args kw = .val o) ∨ (pointClass n args kw).isThrown := by
  rw [pointClass]
  split
  · exact .inl ⟨_, rfl⟩
  · split
    · rename_i l _
      rcases coordinatesFromList_settled n l with ⟨c, hc⟩ | h
      · exact .inl ⟨_, by rw [hc]; rfl⟩
      · cases hl : coordinatesFromList n l <;> rw [hl] at h <;> first | exact .inr trivial | exact h.elim
    · split
      · exact .inl ⟨_, rfl⟩
      · exact .inr trivial

theorem pyPoint_settled (args : List PyObj) (kw : PyKw) :
    (∃ o, pyPoint args kw = .val o) ∨ (pyPoint args kw).isThrown := by
  simp only [pyPoint]
  split
  · exact .inr trivial
  · split
    · split
      · exact .inr trivial
      · split
        · exact pointClass_settled _ _ _
        · split <;> exact pointClass_settled _ _ _
      · exact pointClass_settled _ _ _
    · split <;> exact pointClass_settled _ _ _

theorem pointClass_many (args : List PyObj) (kw : PyKw) (hk : (kw.map (·.1)).Nodup) (n : ℕ) (h3 : n ≤ 3)
    (hc : 2 ≤ args.length + kw.length) (o : PyObj) :
    pointClass n args kw = .val o ↔
      ∃ c, o = .point c ∧ c.length = n ∧ Spec.Passes (["x", "y", "z"].take n) (c.map .num) args kw := by
  have h0 : bindArguments [] args kw = none := bind_none List.nodup_nil hk (by simp only [List.length_nil]; omega)
  have h1 : bindArguments ["coordinates"] args kw = none :=
    bind_none (List.nodup_singleton _) hk (by simp only [List.length_singleton]; omega)
  simp only [pointClass, h0, h1]
  cases hf : fromCoordinates n args kw with
  | none =>
    simp only [reduceCtorEq, false_iff, not_exists, not_and]
    intro c _ hl hp
    rw [(fromCoordinates_iff n h3 args kw hk c).2 ⟨hl, hp⟩] at hf
    cases hf
  | some d =>
    simp only [Outcome.val.injEq]
    constructor
    · rintro rfl
      exact ⟨d, rfl, (fromCoordinates_iff n h3 args kw hk d).1 hf⟩
    · rintro ⟨c, rfl, hl, hp⟩
      have := (fromCoordinates_iff n h3 args kw hk c).2 ⟨hl, hp⟩
      rw [hf] at this
      rw [Option.some.inj this]

theorem passes_numbers_single {a : PyObj} {c : List ℝ} (h : Spec.PassesCoordinates c [a] []) :
    ∃ x, a = .num x ∧ c = [x] := by
  obtain ⟨h1, h3, hp⟩ := h
  have hc := passes_count hp
  have h1' : c.length = 1 := by
    simp only [List.length_singleton, List.length_nil, List.length_take, List.length_cons] at hc
    omega
  obtain ⟨x, rfl⟩ := List.length_eq_one_iff.1 h1'
  rcases passes_single hp with ⟨h, -⟩ | ⟨h, -⟩
  · exact ⟨x, by simpa using h, rfl⟩
  · simp at h

theorem passes_position (n : String) (v : PyObj) : Spec.Passes [n] [v] [v] [] :=
  ⟨rfl, 1, le_rfl, rfl, List.Perm.refl _⟩

theorem passesList_position {a : PyObj} {c : List ℝ} (h : Spec.PassesList c [a] []) : a = .list (c.map some) := by
  rcases passes_single h.2.2 with ⟨h, -⟩ | ⟨h, -⟩
  · simpa using h
  · simp at h

theorem passesCoordinates_count {args : List PyObj} {kw : PyKw} {c : List ℝ} (h : Spec.PassesCoordinates c args kw) :
    args.length + kw.length = c.length := by
  have := passes_count h.2.2
  have h3 := h.2.1
  simp only [List.length_take, List.length_cons, List.length_nil] at this
  omega

theorem passesList_count {args : List PyObj} {kw : PyKw} {c : List ℝ} (h : Spec.PassesList c args kw) :
    args.length + kw.length = 1 := by
  simpa using passes_count h.2.2

/-- `Point`: apart from single arguments passed by keyword and from lists without elements or with more than three
elements, a point is returned if and only if it is the one meant by the arguments, and an exception is raised
otherwise. -/
theorem C84_point_partial (args : List PyObj) (kw : PyKw) (hk : (kw.map (·.1)).Nodup)
    (h1 : ¬ (args = [] ∧ kw.length = 1)) (hl : ∀ l, args = [.list l] → 1 ≤ l.length ∧ l.length ≤ 3) :
    (∀ o, pyPoint args kw = .val o ↔ Spec.PointMeant args kw o) ∧
      ((¬ ∃ o, Spec.PointMeant args kw o) → (pyPoint args kw).isThrown) := by
  have key : ∀ o, pyPoint args kw = .val o ↔ Spec.PointMeant args kw o := by
    intro o
    have many : ∀ n, n ≤ 3 → 2 ≤ args.length + kw.length → (args.length + kw.length = n ∨ n = 3 ∧ 3 ≤ args.length + kw.length) →
        (pointClass n args kw = .val o ↔ Spec.PointMeant args kw o) := by
      intro n h3 h2 hn
      rw [pointClass_many args kw hk n h3 h2 o]
      constructor
      · rintro ⟨c, rfl, hlen, hp⟩
        exact .coordinates c ⟨by
          have := passes_count hp
          simp only [List.length_take, List.length_cons, List.length_nil] at this
          omega, by omega, by rw [hlen]; exact hp⟩
      · intro hm
        cases hm with
        | coordinates c h =>
          have := passesCoordinates_count h
          have h3' := h.2.1
          have : c.length = n := by omega
          exact ⟨c, rfl, this, this ▸ h.2.2⟩
        | list c h =>
          have := passesList_count h
          omega
    simp only [pyPoint]
    by_cases c0 : args.length + kw.length = 0
    · rw [if_pos c0]
      simp only [reduceCtorEq, false_iff]
      intro hm
      cases hm with
      | coordinates c h => have := passesCoordinates_count h; have := h.1; omega
      | list c h => have := passesList_count h; omega
    rw [if_neg c0]
    by_cases c1 : args.length + kw.length = 1
    · rw [if_pos c1]
      match args, h1, hl, c1 with
      | [], h1, _, c1 => exact absurd ⟨rfl, by simpa using c1⟩ h1
      | a :: r, _, hl, c1 =>
        have hr : r = [] := List.length_eq_zero_iff.1 (by simp only [List.length_cons] at c1; omega)
        have hkw : kw = [] := List.length_eq_zero_iff.1 (by simp only [List.length_cons] at c1; omega)
        subst hr hkw
        have other : (∀ x, a ≠ .num x) → (∀ l, a ≠ .list l) → ¬ Spec.PointMeant [a] [] o := by
          intro hx hl hm
          cases hm with
          | coordinates c h => obtain ⟨x, h, -⟩ := passes_numbers_single h; exact hx x h
          | list c h => exact hl _ (passesList_position h)
        cases a with
        | num x =>
          change Outcome.val (PyObj.point [x]) = .val o ↔ _
          constructor
          · intro h
            rw [← Outcome.val.inj h]
            exact .coordinates [x] ⟨by simp, by simp, passes_position "x" _⟩
          · intro hm
            cases hm with
            | coordinates c h =>
              obtain ⟨y, hy, rfl⟩ := passes_numbers_single h
              rw [PyObj.num.inj hy]
            | list c h => have := passesList_position h; simp at this
        | list l =>
          have hlen := hl l rfl
          have hsel : (if l.length = 1 then pointClass 1 [.list l] [] else
              if l.length = 2 then pointClass 2 [.list l] [] else pointClass 3 [.list l] []) =
              (coordinatesFromList l.length l >>= fun c => .val (.point c)) := by
            have hcl : ∀ n, pointClass n [.list l] [] = (coordinatesFromList n l >>= fun c => .val (.point c)) :=
              fun n => rfl
            simp only [hcl]
            obtain ⟨ha, hb⟩ := hlen
            generalize l.length = m at ha hb ⊢
            interval_cases m <;> rfl
          show (if l.length = 1 then pointClass 1 [.list l] [] else
              if l.length = 2 then pointClass 2 [.list l] [] else pointClass 3 [.list l] []) = .val o ↔ _
          rw [hsel, Outcome.bind_eq_val]
          constructor
          · rintro ⟨c, hc, ho⟩
            rw [← Outcome.val.inj ho]
            have := (coordinatesFromList_iff l c).1 hc
            refine .list c ⟨?_, ?_, ?_⟩
            · rw [this] at hlen; simpa using hlen.1
            · rw [this] at hlen; simpa using hlen.2
            · rw [this]; exact passes_position _ _
          · intro hm
            cases hm with
            | coordinates c h => obtain ⟨x, h, -⟩ := passes_numbers_single h; cases h
            | list c h =>
              have := passesList_position h
              exact ⟨c, (coordinatesFromList_iff l c).2 (PyObj.list.inj this), rfl⟩
        | _ =>
          refine iff_of_false ?_ (other (by simp) (by simp))
          intro h
          cases h
    rw [if_neg c1]
    by_cases c2 : args.length + kw.length = 2
    · rw [if_pos c2]
      exact many 2 (by omega) (by omega) (.inl c2)
    · rw [if_neg c2]
      exact many 3 le_rfl (by omega) (.inr ⟨rfl, by omega⟩)
  refine ⟨key, fun hn => ?_⟩
  rcases pyPoint_settled args kw with ⟨o, ho⟩ | h
  · exact absurd ⟨o, (key o).1 ho⟩ hn
  · exact h

/-- Mixed calls: the first coordinate is passed by position, the others by keyword. -/
example : pyPoint [.num 1] [("z", .num 3), ("y", .num 2)] = .val (.point [1, 2, 3]) ∧
    Spec.PointMeant [.num 1] [("z", .num 3), ("y", .num 2)] (.point [1, 2, 3]) :=
  ⟨rfl, .coordinates _ ⟨by simp, by simp, rfl, 1, by simp, rfl, List.Perm.swap _ _ _⟩⟩

theorem vectorClass_settled (n : ℕ) (args : List PyObj) (kw : PyKw) :
    (∃ o, vectorClass n args kw = .val o) ∨ (vectorClass n args kw).isThrown := by
  rw [vectorClass]
  split
  · exact .inl ⟨_, rfl⟩
  split
  · split
    · exact .inl ⟨_, rfl⟩
    · exact .inr trivial
  split
  · split
    · exact .inl ⟨_, rfl⟩
    · exact .inr trivial
  split
  · rename_i l _
    rcases coordinatesFromList_settled n l with ⟨c, hc⟩ | h
    · exact .inl ⟨_, by rw [hc]; rfl⟩
    · cases hl : coordinatesFromList n l <;> rw [hl] at h <;> first | exact .inr trivial | exact h.elim
  · split
    · exact .inl ⟨_, rfl⟩
    · exact .inr trivial

theorem makeVector_settled (args : List PyObj) (kw : PyKw) (n : ℕ) :
    (∃ o, makeVector args kw n = .val o) ∨ (makeVector args kw n).isThrown := by
  rw [makeVector]
  split
  · exact vectorClass_settled _ _ _
  · split <;> exact vectorClass_settled _ _ _

theorem pyVector_settled (args : List PyObj) (kw : PyKw) :
    (∃ o, pyVector args kw = .val o) ∨ (pyVector args kw).isThrown := by
  simp only [pyVector]
  split
  · exact .inr trivial
  split
  · split
    · exact .inr trivial
    · exact makeVector_settled _ _ _
    · split
      · exact makeVector_settled _ _ _
      · exact .inr trivial
  split
  · split <;> exact makeVector_settled _ _ _
  · exact makeVector_settled _ _ _

/-- Calls of the constructors of vectors with at least two arguments. -/
theorem vectorClass_many (args : List PyObj) (kw : PyKw) (hk : (kw.map (·.1)).Nodup) (n : ℕ) (h3 : n ≤ 3)
    (hc : 2 ≤ args.length + kw.length) (o : PyObj) :
    vectorClass n args kw = .val o ↔
      (∃ c, o = .vector c ∧ c.length = n ∧ Spec.Passes (["x", "y", "z"].take n) (c.map .num) args kw) ∨
      (∃ p q, o = .vector (List.zipWith (fun s t => t - s) p q) ∧ p.length = n ∧ q.length = n ∧
        Spec.Passes ["source", "target"] [.point p, .point q] args kw) := by
  have h0 : bindArguments [] args kw = none := bind_none List.nodup_nil hk (by simp only [List.length_nil]; omega)
  have h1 : bindArguments ["coordinates"] args kw = none :=
    bind_none (List.nodup_singleton _) hk (by simp only [List.length_singleton]; omega)
  have h2 : bindArguments ["direction"] args kw = none :=
    bind_none (List.nodup_singleton _) hk (by simp only [List.length_singleton]; omega)
  have hnd : ["source", "target"].Nodup := by decide
  simp only [vectorClass, h0, h1, h2]
  by_cases hpt : ∃ p q, bindArguments ["source", "target"] args kw = some [.point p, .point q]
  · obtain ⟨p, q, hb⟩ := hpt
    have hp := (bind_iff _ hnd args kw hk _).1 hb
    have hcount := passes_count hp
    have hno : ∀ c : List ℝ, c.length = n → ¬ Spec.Passes (["x", "y", "z"].take n) (c.map .num) args kw := by
      intro c hcl hpc
      have hcount' := passes_count hpc
      obtain ⟨_, k, hk2, ha, hperm⟩ := hp
      obtain ⟨_, k', hk2', ha', hperm'⟩ := hpc
      have hn2 : n = 2 := by
        simp only [List.length_take, List.length_cons, List.length_nil] at hcount hcount'
        omega
      subst hn2
      obtain ⟨x, y, rfl⟩ := List.length_eq_two.1 hcl
      have hk3 : k ≤ 2 := hk2
      have hk3' : k' ≤ 2 := hk2'
      have hlen := congrArg List.length (ha.symm.trans ha')
      simp at hlen
      have hkk : k = k' := by omega
      subst hkk
      interval_cases k
      · have hm := (hperm'.symm.trans hperm).mem_iff.1 (show ("x", PyObj.num x) ∈ _ by simp)
        simp at hm
      · rw [ha] at ha'
        simp at ha'
      · rw [ha] at ha'
        simp at ha'
    rw [hb]
    simp only
    constructor
    · intro h
      split at h
      · rename_i hl
        exact .inr ⟨p, q, (Outcome.val.inj h).symm, hl.1, hl.2, hp⟩
      · cases h
    · rintro (⟨c, rfl, hl, hpc⟩ | ⟨p', q', rfl, hl, hl', hpc⟩)
      · exact absurd hpc (hno c hl)
      · have := (bind_iff _ hnd args kw hk _).2 hpc
        rw [hb] at this
        simp only [Option.some.injEq, List.cons.injEq, PyObj.point.injEq, and_true] at this
        obtain ⟨rfl, rfl⟩ := this
        rw [if_pos ⟨hl, hl'⟩]
  · have hrest : (match bindArguments ["source", "target"] args kw with
        | some [.point p, .point q] => if p.length = n ∧ q.length = n then
            Outcome.val (.vector (List.zipWith (fun s t => t - s) p q)) else .thrown "TypeError"
        | _ => match fromCoordinates n args kw with
          | some c => .val (.vector c)
          | none => .thrown "TypeError") = match fromCoordinates n args kw with
          | some c => Outcome.val (PyObj.vector c)
          | none => .thrown "TypeError" := by
      split
      · rename_i p q hb
        exact absurd ⟨p, q, hb⟩ hpt
      · rfl
    refine Iff.trans (Eq.congr_left hrest) ?_
    have hno : ∀ p q, ¬ Spec.Passes ["source", "target"] [.point p, .point q] args kw := fun p q hp =>
      hpt ⟨p, q, (bind_iff _ hnd args kw hk _).2 hp⟩
    cases hf : fromCoordinates n args kw with
    | none =>
      simp only [reduceCtorEq, false_iff]
      rintro (⟨c, _, hl, hp⟩ | ⟨p, q, _, _, _, hp⟩)
      · rw [(fromCoordinates_iff n h3 args kw hk c).2 ⟨hl, hp⟩] at hf
        cases hf
      · exact hno p q hp
    | some d =>
      simp only [Outcome.val.injEq]
      constructor
      · rintro rfl
        exact .inl ⟨d, rfl, (fromCoordinates_iff n h3 args kw hk d).1 hf⟩
      · rintro (⟨c, rfl, hl, hp⟩ | ⟨p, q, _, _, _, hp⟩)
        · have := (fromCoordinates_iff n h3 args kw hk c).2 ⟨hl, hp⟩
          rw [hf] at this
          rw [Option.some.inj this]
        · exact absurd hp (hno p q)

theorem zipWith_sub_iff (p q c : List ℝ) (hq : q.length = p.length) :
    (c.length = p.length ∧ ∀ (i : ℕ) (h : i < p.length) (hc : i < c.length) (hq : i < q.length), c[i] = q[i] - p[i]) ↔
      c = List.zipWith (fun s t => t - s) p q := by
  constructor
  · rintro ⟨hl, h⟩
    refine List.ext_getElem (by simp [hl, hq]) fun i h1 h2 => ?_
    rw [List.getElem_zipWith]
    exact h i (by omega) h1 (by omega)
  · rintro rfl
    exact ⟨by simp [hq], fun i h _ _ => by rw [List.getElem_zipWith]⟩

/-- `Vector`: apart from single arguments passed by keyword, lists without elements or with more than three elements,
single numbers, and two points that are both passed by keyword, a vector is returned if and only if it is the one meant
by the arguments, and an exception is raised otherwise. -/
theorem C84_vector_partial (args : List PyObj) (kw : PyKw) (hk : (kw.map (·.1)).Nodup)
    (h1 : ¬ (args = [] ∧ kw.length = 1)) (hl : ∀ l, args = [.list l] → 1 ≤ l.length ∧ l.length ≤ 3)
    (hx : ∀ x, args = [.num x] → kw ≠ []) (hs : args = [] → "source" ∉ kw.map (·.1)) :
    (∀ o, pyVector args kw = .val o ↔ Spec.VectorMeant args kw o) ∧
      ((¬ ∃ o, Spec.VectorMeant args kw o) → (pyVector args kw).isThrown) := by
  have key : ∀ o, pyVector args kw = .val o ↔ Spec.VectorMeant args kw o := by
    intro o
    have count_points : ∀ p q : List ℝ, Spec.Passes ["source", "target"] [.point p, .point q] args kw →
        args.length + kw.length = 2 := fun p q h => by simpa using passes_count h
    have head_point : ∀ {p q : List ℝ}, Spec.Passes ["source", "target"] [.point p, .point q] args kw →
        args.head? = some (.point p) := by
      rintro p q ⟨_, k, hk2, ha, hp⟩
      have hk3 : k ≤ 2 := hk2
      interval_cases k
      · exact absurd ((hp.map (·.1)).mem_iff.2 (by simp)) (hs ha)
      · rw [ha]; rfl
      · rw [ha]; rfl
    have head_num : ∀ {c : List ℝ}, Spec.PassesCoordinates c args kw →
        args.head?.bind PyObj.worldDimension = none := by
      rintro c ⟨h1, _, _, k, hk2, ha, hp⟩
      cases c with
      | nil => simp at h1
      | cons x r =>
        cases k with
        | zero => rw [ha]; rfl
        | succ k => rw [ha]; rfl
    simp only [pyVector]
    by_cases c0 : args.length + kw.length = 0
    · rw [if_pos c0]
      simp only [reduceCtorEq, false_iff]
      intro hm
      cases hm with
      | coordinates c h => have := passesCoordinates_count h; have := h.1; omega
      | list c h => have := passesList_count h; omega
      | points p q c _ _ _ _ _ h => have := count_points _ _ h; omega
      | direction d _ _ h => have := passes_count h; simp at this; omega
    rw [if_neg c0]
    by_cases c1 : args.length + kw.length = 1
    · rw [if_pos c1]
      match args, h1, hl, hx, c1, count_points with
      | [], h1, _, _, c1, _ => exact absurd ⟨rfl, by simpa using c1⟩ h1
      | a :: r, _, hl, hx, c1, count_points =>
        have hr : r = [] := List.length_eq_zero_iff.1 (by simp only [List.length_cons] at c1; omega)
        have hkw : kw = [] := List.length_eq_zero_iff.1 (by simp only [List.length_cons] at c1; omega)
        subst hr hkw
        have other : (∀ x, a ≠ .num x) → (∀ l, a ≠ .list l) → (∀ d, a ≠ .direction d) →
            ¬ Spec.VectorMeant [a] [] o := by
          intro hx hl hd hm
          cases hm with
          | coordinates c h => obtain ⟨x, h, -⟩ := passes_numbers_single h; exact hx x h
          | list c h => exact hl _ (passesList_position h)
          | points p q c _ _ _ _ _ h => have := count_points _ _ h; simp at this
          | direction d _ _ h =>
            rcases passes_single h with ⟨h, -⟩ | ⟨h, -⟩
            · exact hd d (by simpa using h)
            · simp at h
        cases a with
        | num x => exact absurd rfl (hx x rfl)
        | list l =>
          have hlen := hl l rfl
          have hsel : makeVector [.list l] [] l.length = (coordinatesFromList l.length l >>= fun c => .val (.vector c)) := by
            have hcl : ∀ n, vectorClass n [.list l] [] = (coordinatesFromList n l >>= fun c => .val (.vector c)) :=
              fun n => rfl
            simp only [makeVector, hcl]
            obtain ⟨ha, hb⟩ := hlen
            generalize l.length = m at ha hb ⊢
            interval_cases m <;> rfl
          show makeVector [.list l] [] l.length = .val o ↔ _
          rw [hsel, Outcome.bind_eq_val]
          constructor
          · rintro ⟨c, hc, ho⟩
            rw [← Outcome.val.inj ho]
            have := (coordinatesFromList_iff l c).1 hc
            refine .list c ⟨?_, ?_, ?_⟩
            · rw [this] at hlen; simpa using hlen.1
            · rw [this] at hlen; simpa using hlen.2
            · rw [this]; exact passes_position _ _
          · intro hm
            cases hm with
            | coordinates c h => obtain ⟨x, h, -⟩ := passes_numbers_single h; cases h
            | list c h =>
              have := passesList_position h
              exact ⟨c, (coordinatesFromList_iff l c).2 (PyObj.list.inj this), rfl⟩
            | points p q c _ _ _ _ _ h => have := count_points _ _ h; simp at this
            | direction d _ _ h => rcases passes_single h with ⟨h, -⟩ | ⟨h, -⟩ <;> simp at h
        | direction d =>
          have hcl : ∀ n, vectorClass n [.direction d] [] =
              if d.length = n then .val (.vector d) else .thrown "TypeError" := fun n => rfl
          show makeVector [.direction d] [] d.length = .val o ↔ _
          simp only [makeVector, hcl]
          by_cases hd : 1 ≤ d.length ∧ d.length ≤ 3
          · have hv : (if d.length = 1 then if d.length = 1 then Outcome.val (PyObj.vector d) else .thrown "TypeError"
                else if d.length = 2 then if d.length = 2 then .val (.vector d) else .thrown "TypeError"
                else if d.length = 3 then .val (.vector d) else .thrown "TypeError") = .val (.vector d) := by
              obtain ⟨ha, hb⟩ := hd
              generalize d.length = m at ha hb ⊢
              interval_cases m <;> rfl
            rw [hv]
            constructor
            · intro h
              rw [← Outcome.val.inj h]
              exact .direction d hd.1 hd.2 (passes_position _ _)
            · intro hm
              cases hm with
              | coordinates c h => obtain ⟨x, h, -⟩ := passes_numbers_single h; cases h
              | list c h => have := passesList_position h; cases this
              | points p q c _ _ _ _ _ h => have := count_points _ _ h; simp at this
              | direction d' _ _ h =>
                rcases passes_single h with ⟨h, -⟩ | ⟨h, -⟩
                · simp only [List.cons.injEq, PyObj.direction.injEq, and_true] at h
                  rw [h]
                · simp at h
          · rw [if_neg (by omega), if_neg (by omega), if_neg (by omega)]
            simp only [reduceCtorEq, false_iff]
            intro hm
            cases hm with
            | coordinates c h => obtain ⟨x, h, -⟩ := passes_numbers_single h; cases h
            | list c h => have := passesList_position h; cases this
            | points p q c _ _ _ _ _ h => have := count_points _ _ h; simp at this
            | direction d' h1 h3 h =>
              rcases passes_single h with ⟨h, -⟩ | ⟨h, -⟩
              · simp only [List.cons.injEq, PyObj.direction.injEq, and_true] at h
                rw [← h] at h1 h3
                exact hd ⟨h1, h3⟩
              · simp at h
        | other =>
          refine iff_of_false ?_ (other (by simp) (by simp) (by simp))
          intro h
          cases h
        | _ =>
          refine iff_of_false ?_ (other (by simp) (by simp) (by simp))
          simp only [PyObj.worldDimension, makeVector]
          intro h
          split at h
          · cases h
          · split at h <;> cases h
    rw [if_neg c1]
    have select : ∀ m, 1 ≤ m → m ≤ 3 → makeVector args kw m = vectorClass m args kw := by
      intro m ha hb
      interval_cases m <;> rfl
    by_cases c2 : args.length + kw.length = 2
    · rw [if_pos c2]
      cases hd : args.head?.bind PyObj.worldDimension with
      | none =>
        simp only
        rw [c2, select 2 (by omega) (by omega), vectorClass_many args kw hk 2 (by omega) (by omega) o]
        constructor
        · rintro (⟨c, rfl, hlen, hp⟩ | ⟨p, q, rfl, hlp, hlq, hp⟩)
          · exact .coordinates c ⟨by omega, by omega, hlen ▸ hp⟩
          · rw [head_point hp] at hd
            cases hd
        · intro hm
          cases hm with
          | coordinates c h =>
            have := passesCoordinates_count h
            have hlen : c.length = 2 := by omega
            exact .inl ⟨c, rfl, hlen, hlen ▸ h.2.2⟩
          | list c h => have := passesList_count h; omega
          | points p q c _ _ _ _ _ h =>
            rw [head_point h] at hd
            cases hd
          | direction d _ _ h => have := passes_count h; simp at this; omega
      | some dim =>
        simp only
        have hmv : makeVector args kw dim = vectorClass (if dim = 1 then 1 else if dim = 2 then 2 else 3) args kw := by
          rw [makeVector]
          split
          · rfl
          · split <;> rfl
        rw [hmv, vectorClass_many args kw hk _ (by split <;> [omega; split <;> omega]) (by omega) o]
        constructor
        · rintro (⟨c, rfl, hlen, hp⟩ | ⟨p, q, rfl, hlp, hlq, hp⟩)
          · have hpc : Spec.PassesCoordinates c args kw :=
              ⟨by rw [hlen]; split <;> [omega; split <;> omega], by rw [hlen]; split <;> [omega; split <;> omega],
                by rw [hlen]; exact hp⟩
            rw [head_num hpc] at hd
            cases hd
          · refine .points p q _ (by rw [hlp]; split <;> [omega; split <;> omega])
              (by rw [hlp]; split <;> [omega; split <;> omega]) (by rw [hlq, hlp]) ?_ ?_ hp
            · exact ((zipWith_sub_iff p q _ (by rw [hlq, hlp])).2 rfl).1
            · intro i h
              exact ((zipWith_sub_iff p q _ (by rw [hlq, hlp])).2 rfl).2 i h _ _
        · intro hm
          cases hm with
          | coordinates c h =>
            rw [head_num h] at hd
            cases hd
          | list c h => have := passesList_count h; omega
          | points p q c hp1 hp3 hlq hlc hi h =>
            rw [head_point h] at hd
            have hdim : p.length = dim := Option.some.inj hd
            refine .inr ⟨p, q, ?_, ?_, ?_, h⟩
            · rw [(zipWith_sub_iff p q c hlq).1 ⟨hlc, fun i h _ _ => hi i h⟩]
            · split <;> [omega; split <;> omega]
            · split <;> [omega; split <;> omega]
          | direction d _ _ h => have := passes_count h; simp at this; omega
    · rw [if_neg c2]
      have hmv : makeVector args kw (args.length + kw.length) = vectorClass 3 args kw := by
        rw [makeVector, if_neg c1, if_neg c2]
      rw [hmv, vectorClass_many args kw hk 3 le_rfl (by omega) o]
      constructor
      · rintro (⟨c, rfl, hlen, hp⟩ | ⟨p, q, rfl, hlp, hlq, hp⟩)
        · exact .coordinates c ⟨by omega, by omega, hlen ▸ hp⟩
        · exact absurd (count_points _ _ hp) c2
      · intro hm
        cases hm with
        | coordinates c h =>
          have := passesCoordinates_count h
          have := h.2.1
          have hlen : c.length = 3 := by omega
          exact .inl ⟨c, rfl, hlen, hlen ▸ h.2.2⟩
        | list c h => have := passesList_count h; omega
        | points p q c _ _ _ _ _ h => exact absurd (count_points _ _ h) c2
        | direction d _ _ h => have := passes_count h; simp at this; omega
  refine ⟨key, fun hn => ?_⟩
  rcases pyVector_settled args kw with ⟨o, ho⟩ | h
  · exact absurd ⟨o, (key o).1 ho⟩ hn
  · exact h

/-- The vector between two points, the second one passed by keyword. -/
example : pyVector [.point [1, 2]] [("target", .point [4, 6])] = .val (.vector [4 - 1, 6 - 2]) := rfl

theorem squaredLength_get (v : List ℝ) : Coords.squaredLength (n := v.length) v.get = (v.map (· ^ 2)).sum := by
  rw [Coords.squaredLength, ← Fin.sum_univ_fun_getElem]
  exact Finset.sum_congr rfl fun i _ => by rw [sq]; rfl

/-- The direction of a list of coordinates. -/
theorem directionOf_get (v d : List ℝ) :
    (directionOf (n := v.length) v.get >>= fun d => Outcome.val (PyObj.direction (List.ofFn d))) = .val (.direction d) ↔
      ∃ s : ℝ, 0 < s ∧ v = d.map (s * ·) ∧ (d.map (· ^ 2)).sum = 1 := by
  constructor
  · intro h
    obtain ⟨e, he, h'⟩ := Outcome.bind_eq_val.1 h
    have hd : List.ofFn e = d := by simpa using h'
    by_cases hz : (v.get : Coords v.length) = Coords.default v.length
    · rw [hz, (C83_direction (n := v.length) (v.get)).2] at he
      cases he
    · obtain ⟨e', he', hu, ht, hp, -⟩ := (C83_direction (n := v.length) (v.get)).1 hz
      rw [he'] at he
      have hee : e' = e := Outcome.val.inj he
      subst hee
      refine ⟨Coords.length (n := v.length) v.get, hp, ?_, ?_⟩
      · rw [← hd]
        refine List.ext_getElem (by simp) fun i h1 h2 => ?_
        have := congrFun ht ⟨i, h1⟩
        simp only [directionTimes, Coords.scale, List.get_eq_getElem] at this
        rw [← this]
        simp only [List.getElem_map, List.getElem_ofFn]
        exact mul_comm _ _
      · rw [← hd, List.map_ofFn, List.sum_ofFn]
        have h1 : Coords.squaredLength e' = 1 := by
          have := congrArg (· ^ 2) hu
          simp only [length_eq, one_pow] at this
          rw [squaredLength_eq, this]
        rw [← h1, Coords.squaredLength]
        exact Finset.sum_congr rfl fun i _ => by simp [sq]
  · rintro ⟨s, hs, rfl, hu⟩
    have hlen : Coords.length (n := (d.map (s * ·)).length) (d.map (s * ·)).get = s := by
      rw [Coords.length, squaredLength_get, List.map_map]
      have : ((· ^ 2) ∘ (s * ·) : ℝ → ℝ) = fun x => s ^ 2 * x ^ 2 := by
        funext x
        simp [mul_pow]
      rw [this, List.sum_map_mul_left, hu, mul_one, Real.sqrt_sq hs.le]
    rw [directionOf, hlen, Coords.divide, if_neg hs.ne']
    change Outcome.val (PyObj.direction _) = _
    congr 2
    refine List.ext_getElem (by simp) fun i h1 h2 => ?_
    simp [hs.ne']

/-- `Direction`: apart from a vector passed by keyword, the direction of the vector is returned; it is not defined for
the zero vector, and an exception is raised for all other arguments. -/
theorem C84_direction_partial (args : List PyObj) (kw : PyKw) (ha : args ≠ []) :
    (∀ o, pyDirection args kw = .val o ↔ Spec.DirectionMeant args kw o) ∧
      ((¬ ∃ o, Spec.DirectionMeant args kw o) → pyDirection args kw = .nan ∨ (pyDirection args kw).isThrown) ∧
      (pyDirection args kw = .nan ↔ kw = [] ∧ ∃ n, 1 ≤ n ∧ n ≤ 3 ∧ args = [.vector (List.replicate n 0)]) := by
  by_cases hv : kw = [] ∧ ∃ v, args = [.vector v] ∧ 1 ≤ v.length ∧ v.length ≤ 3
  · obtain ⟨rfl, v, rfl, h1, h3⟩ := hv
    have hsel : pyDirection [.vector v] [] =
        (directionOf (n := v.length) v.get >>= fun d => Outcome.val (PyObj.direction (List.ofFn d))) := by
      have hcl : ∀ n, directionClass n [.vector v] [] = if v.length = n then
          (directionOf (n := v.length) v.get >>= fun d => Outcome.val (PyObj.direction (List.ofFn d)))
          else .thrown "TypeError" := fun n => rfl
      show (if v.length = 1 then directionClass 1 [.vector v] [] else
        if v.length = 2 then directionClass 2 [.vector v] [] else directionClass 3 [.vector v] []) = _
      simp only [hcl]
      generalize (directionOf (n := v.length) v.get >>= fun d => Outcome.val (PyObj.direction (List.ofFn d))) = x
      generalize v.length = m at h1 h3 ⊢
      interval_cases m <;> rfl
    have key : ∀ o, pyDirection [.vector v] [] = .val o ↔ Spec.DirectionMeant [.vector v] [] o := by
      intro o
      rw [hsel]
      constructor
      · intro h
        obtain ⟨e, he, h'⟩ := Outcome.bind_eq_val.1 h
        have ho : o = .direction (List.ofFn e) := (Outcome.val.inj h').symm
        rw [ho] at h ⊢
        obtain ⟨s, hs, hm, hu⟩ := (directionOf_get v _).1 h
        exact ⟨v, _, s, h1, h3, passes_position _ _, rfl, hs, hm, hu⟩
      · rintro ⟨w, d, s, _, _, hp, rfl, hs, hm, hu⟩
        rcases passes_single hp with ⟨hw, -⟩ | ⟨hw, -⟩
        · simp only [List.cons.injEq, PyObj.vector.injEq, and_true] at hw
          rw [hw]
          exact (directionOf_get w d).2 ⟨s, hs, hm, hu⟩
        · simp at hw
    have hzero : (v.get : Coords v.length) = Coords.default v.length ↔ v = List.replicate v.length 0 := by
      constructor
      · intro h
        refine List.ext_getElem (by simp) fun i h1 h2 => ?_
        have := congrFun h ⟨i, h1⟩
        simpa [Coords.default] using this
      · intro h
        funext i
        have : v[(i : ℕ)] = (List.replicate v.length (0 : ℝ))[(i : ℕ)]'(by simp) := List.getElem_of_eq h _
        simpa [Coords.default] using this
    have hnan : pyDirection [.vector v] [] = .nan ↔ v = List.replicate v.length 0 := by
      rw [← hzero, hsel]
      constructor
      · intro h
        by_contra hz
        obtain ⟨e', he', -⟩ := (C83_direction (n := v.length) (v.get)).1 hz
        rw [he'] at h
        cases h
      · intro hz
        rw [hz, (C83_direction (n := v.length) (v.get)).2]
        rfl
    refine ⟨key, ?_, ?_⟩
    · intro hno
      by_cases hz : v = List.replicate v.length 0
      · exact .inl (hnan.2 hz)
      · obtain ⟨e', he', -⟩ := (C83_direction (n := v.length) (v.get)).1 (mt hzero.1 hz)
        exact absurd ⟨_, (key (.direction (List.ofFn e'))).1 (by rw [hsel, he']; rfl)⟩ hno
    · rw [hnan]
      constructor
      · intro h
        exact ⟨rfl, v.length, h1, h3, by rw [← h]⟩
      · rintro ⟨-, n, _, _, h⟩
        simp only [List.cons.injEq, PyObj.vector.injEq, and_true] at h
        rw [h]
        simp
  · have hno : ∀ o, ¬ Spec.DirectionMeant args kw o := by
      rintro o ⟨v, d, s, h1, h3, hp, -⟩
      rcases passes_single hp with ⟨hw, hk⟩ | ⟨hw, -⟩
      · exact hv ⟨hk, v, hw, h1, h3⟩
      · exact ha hw
    have hth : (pyDirection args kw).isThrown := by
      simp only [pyDirection]
      by_cases c1 : args.length + kw.length = 1
      · rw [if_neg (by simpa using c1)]
        cases args with
        | nil => exact absurd rfl ha
        | cons a r =>
          have hr : r = [] := List.length_eq_zero_iff.1 (by simp only [List.length_cons] at c1; omega)
          have hkw : kw = [] := List.length_eq_zero_iff.1 (by simp only [List.length_cons] at c1; omega)
          subst hr hkw
          cases a with
          | vector v =>
            have hcl : ∀ n, directionClass n [.vector v] [] = if v.length = n then
              (directionOf (n := v.length) v.get >>= fun d => Outcome.val (PyObj.direction (List.ofFn d)))
              else .thrown "TypeError" := fun n => rfl
            have hlen : ¬ (1 ≤ v.length ∧ v.length ≤ 3) := fun h => hv ⟨rfl, v, rfl, h⟩
            simp only [List.head?_cons, Option.bind_some, PyObj.worldDimension, hcl]
            rw [if_neg (by omega), if_neg (by omega), if_neg (by omega)]
            trivial
          | num x => trivial
          | list l => trivial
          | other => trivial
          | _ =>
            simp only [List.head?_cons, Option.bind_some, PyObj.worldDimension]
            split
            · trivial
            · split <;> trivial
      · rw [if_pos (by simpa using c1)]
        trivial
    refine ⟨fun o => iff_of_false (fun h => by rw [h] at hth; exact hth) (hno o), fun _ => .inr hth, ?_⟩
    refine iff_of_false (fun h => by rw [h] at hth; exact hth) ?_
    rintro ⟨hk, n, h1, h3, h⟩
    exact hv ⟨hk, _, h, by simpa using h1, by simpa using h3⟩

example : pyDirection [.vector [3, 4]] [] = .val (.direction [3 / 5, 4 / 5]) := by
  refine ((C84_direction_partial [.vector [3, 4]] [] (by simp)).1 _).2
    ⟨[3, 4], [3 / 5, 4 / 5], 5, by simp, by simp, passes_position _ _, rfl, by norm_num, by norm_num, by norm_num⟩

/-- `Circle`: apart from calls in which the centre is passed by keyword, a circle is returned if and only if a point of
the three-dimensional space, a direction and a number are passed, and an exception is raised otherwise. -/
theorem C84_circle_partial (args : List PyObj) (kw : PyKw) (hk : (kw.map (·.1)).Nodup) (ha : args ≠ []) :
    (∀ o, pyCircle args kw = .val o ↔ Spec.CircleMeant args kw o) ∧
      ((¬ ∃ o, Spec.CircleMeant args kw o) → (pyCircle args kw).isThrown) := by
  have hnd : ["center", "normal", "radius"].Nodup := by decide
  have hcl : ∀ o, circleClass args kw = .val o ↔ Spec.CircleMeant args kw o := by
    intro o
    rw [circleClass]
    constructor
    · intro h
      split at h
      · rename_i c d r hb
        split at h
        · rename_i hl
          exact ⟨c, d, r, hl.1, hl.2, (Outcome.val.inj h).symm, (bind_iff _ hnd args kw hk _).1 hb⟩
        · cases h
      · cases h
    · rintro ⟨c, d, r, hc, hd, rfl, hp⟩
      rw [(bind_iff _ hnd args kw hk _).2 hp]
      exact if_pos ⟨hc, hd⟩
  have hset : (∃ o, pyCircle args kw = .val o) ∨ (pyCircle args kw).isThrown := by
    simp only [pyCircle]
    split
    · exact .inr trivial
    split
    · exact .inr trivial
    split
    · exact .inr trivial
    split
    · exact .inr trivial
    rw [circleClass]
    split
    · split
      · exact .inl ⟨_, rfl⟩
      · exact .inr trivial
    · exact .inr trivial
  have key : ∀ o, pyCircle args kw = .val o ↔ Spec.CircleMeant args kw o := by
    intro o
    constructor
    · intro h
      simp only [pyCircle] at h
      split at h
      · cases h
      split at h
      · cases h
      split at h
      · cases h
      split at h
      · cases h
      exact (hcl o).1 h
    · intro hm
      have hcl' := (hcl o).2 hm
      obtain ⟨c, d, r, hc, hd, rfl, hp⟩ := hm
      have hcount := passes_count hp
      have hhead : args.head?.bind PyObj.worldDimension = some 3 := by
        obtain ⟨_, k, hk2, hargs, _⟩ := hp
        cases k with
        | zero => exact absurd hargs ha
        | succ k => rw [hargs]; exact congrArg some hc
      simp only [pyCircle]
      rw [if_neg (by simpa using hcount), hhead]
      exact hcl'
  refine ⟨key, fun hno => ?_⟩
  rcases hset with ⟨o, ho⟩ | h
  · exact absurd ⟨o, (key o).1 ho⟩ hno
  · exact h

/-- A circle whose radius is passed by keyword; if the centre is passed by keyword as well, an exception is raised. -/
example (d : PyObj) : pyCircle [.point [0, 0, 0], .direction [0, 0, 1]] [("radius", .num 2)] =
    .val (.circle [0, 0, 0] [0, 0, 1] 2) ∧
    pyCircle [] [("center", .point [0, 0, 0]), ("normal", d), ("radius", .num 2)] = .thrown "RuntimeError" :=
  ⟨rfl, rfl⟩

end Props
