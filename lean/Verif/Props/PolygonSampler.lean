import Verif.Lemmas.SortedEdges
import Verif.Props.DeprecatedQuadSampler

/-!
# Polygon sampler: C27, C28
-/

namespace Props
open Verif Frackit Lemmas

/-! ## The loops over the draws -/

theorem cornersLoop_run (s : Draws ℤ) (num : ℤ) (count : ℕ) (hc : count ≤ 100) :
    ∃ m, count ≤ m ∧ m ≤ 100 ∧
      cornersLoop s num count = (if m = count then num else s (m - 1), m) ∧
      (m ≠ count → num < 3) ∧ (∀ k, count ≤ k → k + 1 < m → s k < 3) ∧
      (m < 100 → 3 ≤ (if m = count then num else s (m - 1))) := by
  induction hn : 100 - count generalizing num count with
  | zero =>
    obtain rfl : count = 100 := by omega
    refine ⟨100, le_rfl, le_rfl, ?_, by simp, by intro k _ _; omega, by omega⟩
    rw [cornersLoop]; simp
  | succ n ih =>
    by_cases h3 : num < 3
    · obtain ⟨m, h1, h2, h4, h5, h6, h7⟩ := ih (s count) (count + 1) (by omega) (by omega)
      have hval : (if m = count + 1 then s count else s (m - 1)) = s (m - 1) := by
        split_ifs with h
        · rw [h]; rfl
        · rfl
      refine ⟨m, by omega, h2, ?_, fun _ => h3, ?_, ?_⟩
      · rw [cornersLoop, if_pos ⟨h3, by omega⟩, h4, hval, if_neg (by omega)]
      · intro k hk hk'
        rcases eq_or_lt_of_le hk with rfl | hlt
        · exact h5 (by omega)
        · exact h6 k hlt hk'
      · intro hm
        rw [if_neg (by omega), ← hval]; exact h7 hm
    · refine ⟨count, le_rfl, hc, ?_, by simp, by intro k _ _; omega, ?_⟩
      · rw [cornersLoop, if_neg (by simp [h3])]; simp
      · intro _; simpa using h3

theorem cornersLoop_first (s : Draws ℤ) (i : ℕ) (hi : i < 99) (h : Spec.IsFirst (3 ≤ ·) s i) :
    cornersLoop s 0 0 = (s i, i + 1) := by
  obtain ⟨m, _, h2, h4, _, h6, h7⟩ := cornersLoop_run s 0 0 (by omega)
  have hm0 : m ≠ 0 := by rintro rfl; simpa using h7 (by omega)
  have hmi : m = i + 1 := by
    rcases lt_trichotomy m (i + 1) with hlt | he | hgt
    · have := h7 (by omega)
      rw [if_neg hm0] at this
      exact absurd this (h.2 (m - 1) (by omega))
    · exact he
    · have := h6 i (by omega) (by omega)
      exact absurd h.1 (not_le.2 this)
  rw [h4, hmi]; simp

theorem cornersLoop_none (s : Draws ℤ) (h : ∀ k < 99, s k < 3) : (cornersLoop s 0 0).2 = 100 := by
  obtain ⟨m, _, h2, h4, _, h6, h7⟩ := cornersLoop_run s 0 0 (by omega)
  rw [h4]
  by_contra hne
  have hlt : m < 100 := by simp only at hne; omega
  have := h7 hlt
  split_ifs at this with h0
  · norm_num at this
  · exact absurd (h (m - 1) (by omega)) (not_lt.2 this)

theorem lengthLoop_run (s : Draws ℝ) (count : ℕ) (hc : count ≤ 100) :
    ∃ m, count ≤ m ∧ m ≤ 100 ∧ lengthLoop s (s count) count = (s m, m) ∧
      (∀ k, count ≤ k → k < m → s k < 0) ∧ (m < 100 → 0 ≤ s m) := by
  induction hn : 100 - count generalizing count with
  | zero =>
    obtain rfl : count = 100 := by omega
    refine ⟨100, le_rfl, le_rfl, ?_, by intro k _ _; omega, by omega⟩
    rw [lengthLoop]; simp
  | succ n ih =>
    by_cases h3 : s count < 0
    · obtain ⟨m, h1, h2, h4, h5, h6⟩ := ih (count + 1) (by omega) (by omega)
      refine ⟨m, by omega, h2, ?_, ?_, h6⟩
      · rw [lengthLoop, if_pos ⟨h3, by omega⟩, h4]
      · intro k hk hk'
        rcases eq_or_lt_of_le hk with rfl | hlt
        · exact h3
        · exact h5 k hlt hk'
    · refine ⟨count, le_rfl, hc, ?_, by intro k _ _; omega, ?_⟩
      · rw [lengthLoop, if_neg (by simp [h3])]
      · intro _; exact not_lt.1 h3

theorem lengthLoop_first (s : Draws ℝ) (i : ℕ) (hi : i ≤ 100) (h : Spec.IsFirst (0 ≤ ·) s i) :
    lengthLoop s (s 0) 0 = (s i, i) := by
  obtain ⟨m, _, h2, h4, h5, h6⟩ := lengthLoop_run s 0 (by omega)
  have hmi : m = i := by
    rcases lt_trichotomy m i with hlt | he | hgt
    · exact absurd (h6 (by omega)) (h.2 m hlt)
    · exact he
    · exact absurd h.1 (not_le.2 (h5 i (by omega) hgt))
  rw [h4, hmi]

theorem lengthLoop_none (s : Draws ℝ) (h : ∀ k < 100, s k < 0) :
    lengthLoop s (s 0) 0 = (s 100, 100) := by
  obtain ⟨m, _, h2, h4, h5, h6⟩ := lengthLoop_run s 0 (by omega)
  have : m = 100 := by
    by_contra hne
    exact absurd (h6 (by omega)) (not_le.2 (h m (by omega)))
  rw [h4, this]

/-! ## Placement of the polygon -/

theorem dipNormal_unit (s t : ℝ) : Spec.IsUnit (Spec.dipNormal s t) := by
  have h1 := Real.sin_sq_add_cos_sq s
  have h2 := Real.sin_sq_add_cos_sq t
  simp only [Spec.IsUnit, Spec.dipNormal]
  linear_combination h2 + Real.sin t ^ 2 * h1

theorem dip_frame (s t : ℝ) :
    (Spec.dipNormal s t).dot (Spec.dipDir s t) = 0 ∧
    (Spec.dipNormal s t).dot (Spec.strikeDir s) = 0 ∧
    (Spec.dipDir s t).cross (Spec.strikeDir s) = Spec.dipNormal s t ∧
    (Spec.dipDir s t).dot (Spec.dipDir s t) = 1 ∧
    (Spec.strikeDir s).dot (Spec.strikeDir s) = 1 ∧
    (Spec.dipDir s t).dot (Spec.strikeDir s) = 0 := by
  have h1 := Real.sin_sq_add_cos_sq s
  have h2 := Real.sin_sq_add_cos_sq t
  have a := (isUnit_inner _).1 (dipDir_unit s t)
  have b := (isUnit_inner _).1 (strikeDir_unit s)
  refine ⟨?_, ?_, ?_, a, b, strike_dip_orthogonal s t⟩
  · simp only [Spec.dipNormal, Spec.dipDir, V3.dot]
    linear_combination Real.sin t * Real.cos t * h1
  · simp only [Spec.dipNormal, Spec.strikeDir, V3.dot]; ring
  · ext <;> simp only [Spec.dipNormal, Spec.dipDir, Spec.strikeDir, V3.cross]
    · ring
    · ring
    · linear_combination Real.cos t * h1

theorem rotate_planar (v : V3) (hz : v.z = 0) (s t : ℝ) :
    rotate (rotate v ⟨0, 0, 1⟩ s) (Spec.strikeDir s) t
      = v.x • Spec.dipDir s t + v.y • Spec.strikeDir s := by
  have h1 := Real.sin_sq_add_cos_sq s
  simp only [rotate_eq]
  ext <;> simp only [Spec.dipDir, Spec.strikeDir, V3.cross, V3.dot, V3.add_x, V3.add_y, V3.add_z,
    V3.smul_x, V3.smul_y, V3.smul_z, hz]
  · linear_combination (-(Real.sin s) * v.y * (1 - Real.cos t)) * h1
  · linear_combination (Real.cos s * v.y * (1 - Real.cos t)) * h1
  · linear_combination (-(Real.sin t) * v.x) * h1

theorem partialSums_eq (p : V3) (es : List V3) :
    partialSums p es = (List.range (es.length + 1)).map fun j =>
      p + ⟨pos V3.x es j, pos V3.y es j, pos V3.z es j⟩ := by
  induction es generalizing p with
  | nil =>
    simp only [partialSums, List.length_nil, zero_add, List.range_one, List.map_cons, List.map_nil]
    congr 1
    ext <;> simp [pos]
  | cons e es ih =>
    rw [partialSums, ih, List.length_cons, List.range_succ_eq_map (n := es.length + 1), List.map_cons,
      List.map_map]
    congr 1
    · ext <;> simp [pos]
    · refine List.map_congr_left fun j _ => ?_
      simp only [Function.comp]
      have hg : ∀ g : V3 → ℝ, pos g (e :: es) j.succ = g e + pos g es j := by
        intro g
        unfold pos
        rw [Finset.sum_range_succ']
        simp only [List.getD_cons_succ, List.getD_cons_zero]
        ring
      ext <;> simp [hg] <;> ring

/-- Position of the `j`-th corner, before the translation. -/
noncomputable def localVertex (es : List V3) (s t : ℝ) (j : ℕ) : V3 :=
  pos V3.x es j • Spec.dipDir s t + pos V3.y es j • Spec.strikeDir s

theorem foldl_min_spec {α : Type} (f : α → ℝ) (l : List α) (m : ℝ) :
    (l.foldl (fun m v => min m (f v)) m ≤ m) ∧
    (∀ v ∈ l, l.foldl (fun m v => min m (f v)) m ≤ f v) ∧
    (l.foldl (fun m v => min m (f v)) m = m ∨ ∃ v ∈ l, l.foldl (fun m v => min m (f v)) m = f v) := by
  induction l generalizing m with
  | nil => simp
  | cons a l ih =>
    obtain ⟨h1, h2, h3⟩ := ih (min m (f a))
    simp only [List.foldl_cons]
    refine ⟨h1.trans (min_le_left _ _), ?_, ?_⟩
    · intro v hv
      rcases List.mem_cons.1 hv with rfl | hv
      · exact h1.trans (min_le_right _ _)
      · exact h2 v hv
    · rcases h3 with h | ⟨v, hv, h⟩
      · rcases min_choice m (f a) with h' | h'
        · left; rw [h, h']
        · right; exact ⟨a, List.mem_cons_self, by rw [h, h']⟩
      · right; exact ⟨v, List.mem_cons_of_mem _ hv, h⟩

theorem foldl_max_spec {α : Type} (f : α → ℝ) (l : List α) (m : ℝ) :
    (m ≤ l.foldl (fun m v => max m (f v)) m) ∧
    (∀ v ∈ l, f v ≤ l.foldl (fun m v => max m (f v)) m) ∧
    (l.foldl (fun m v => max m (f v)) m = m ∨ ∃ v ∈ l, l.foldl (fun m v => max m (f v)) m = f v) := by
  induction l generalizing m with
  | nil => simp
  | cons a l ih =>
    obtain ⟨h1, h2, h3⟩ := ih (max m (f a))
    simp only [List.foldl_cons]
    refine ⟨(le_max_left _ _).trans h1, ?_, ?_⟩
    · intro v hv
      rcases List.mem_cons.1 hv with rfl | hv
      · exact (le_max_right _ _).trans h1
      · exact h2 v hv
    · rcases h3 with h | ⟨v, hv, h⟩
      · rcases max_choice m (f a) with h' | h'
        · left; rw [h, h']
        · right; exact ⟨a, List.mem_cons_self, by rw [h, h']⟩
      · right; exact ⟨v, List.mem_cons_of_mem _ hv, h⟩

/-- The bounding box of the translated vertices. -/
theorem extent_translated (f : V3 → ℝ) (hadd : ∀ a b : V3, f (a + b) = f a + f b) (hf0 : f 0 = 0)
    (vs : List V3) (h0 : (0 : V3) ∈ vs) (d : V3) :
    Spec.Extent f (vs.map fun v => v + d) (minOver f vs + f d) (maxOver f vs + f d) := by
  obtain ⟨a1, a2, a3⟩ := foldl_min_spec f vs 0
  obtain ⟨b1, b2, b3⟩ := foldl_max_spec f vs 0
  refine ⟨⟨?_, ?_⟩, ⟨?_, ?_⟩⟩
  · have : ∃ v ∈ vs, f v = minOver f vs := by
      rcases a3 with h | ⟨v, hv, h⟩
      · exact ⟨0, h0, by rw [hf0]; exact h.symm⟩
      · exact ⟨v, hv, h.symm⟩
    obtain ⟨v, hv, h⟩ := this
    exact ⟨v + d, List.mem_map.2 ⟨v, hv, rfl⟩, by rw [hadd, h]⟩
  · rintro y ⟨p, hp, rfl⟩
    obtain ⟨v, hv, rfl⟩ := List.mem_map.1 hp
    rw [hadd]
    exact add_le_add_left (a2 v hv) _
  · have : ∃ v ∈ vs, f v = maxOver f vs := by
      rcases b3 with h | ⟨v, hv, h⟩
      · exact ⟨0, h0, by rw [hf0]; exact h.symm⟩
      · exact ⟨v, hv, h.symm⟩
    obtain ⟨v, hv, h⟩ := this
    exact ⟨v + d, List.mem_map.2 ⟨v, hv, rfl⟩, by rw [hadd, h]⟩
  · rintro y ⟨p, hp, rfl⟩
    obtain ⟨v, hv, rfl⟩ := List.mem_map.1 hp
    rw [hadd]
    exact add_le_add_left (b2 v hv) _

/-- Result of the placement: translated local vertices, with the center of the bounding box at the
sampled point. -/
theorem placePolygon_spec (es : List V3) (hz : ∀ e ∈ es, e.z = 0) (hn : 0 < es.length) (s t : ℝ)
    (c : V3) : ∃ b : V3, placePolygon es s t c
        = .val ((List.range es.length).map fun j => localVertex es s t j + b) ∧
      Spec.BoxCenter ((List.range es.length).map fun j => localVertex es s t j + b) c := by
  have hdir : mkDirection ⟨-Real.sin s, Real.cos s, 0⟩ = .val (Spec.strikeDir s) :=
    mkDirection_of_unit (strikeDir_unit s)
  have hrot : rotateList (rotateList es ⟨0, 0, 1⟩ s) (Spec.strikeDir s) t
      = es.map fun e => e.x • Spec.dipDir s t + e.y • Spec.strikeDir s := by
    have : ∀ (l : List V3) (k : V3) (a : ℝ), rotateList l k a = l.map fun v => rotate v k a :=
      fun l k a => rfl
    rw [this, this, List.map_map]
    exact List.map_congr_left fun e he => rotate_planar e (hz e he) s t
  set L := es.map fun e => e.x • Spec.dipDir s t + e.y • Spec.strikeDir s with hL
  have hLl : L.length = es.length := by simp [hL]
  have hvs : partialSums 0 L.dropLast = (List.range es.length).map (localVertex es s t) := by
    rw [partialSums_eq, List.length_dropLast, hLl, Nat.sub_add_cancel hn]
    refine List.map_congr_left fun j hj => ?_
    have hj' := List.mem_range.1 hj
    have hg : ∀ g : V3 → ℝ, pos g L.dropLast j
        = ∑ k ∈ Finset.range j, g ((es.getD k 0).x • Spec.dipDir s t
            + (es.getD k 0).y • Spec.strikeDir s) := by
      intro g
      refine Finset.sum_congr rfl fun k hk => ?_
      have hk' := Finset.mem_range.1 hk
      congr 1
      have h1 : k < L.dropLast.length := by rw [List.length_dropLast, hLl]; omega
      rw [List.getD_eq_getElem?_getD, List.getElem?_eq_getElem h1, List.getElem_dropLast]
      simp only [hL, List.getElem_map, Option.getD_some]
      rw [List.getD_eq_getElem?_getD, List.getElem?_eq_getElem (show k < es.length by omega)]
      rfl
    rw [zero_add, hg V3.x, hg V3.y, hg V3.z]
    ext <;> simp only [localVertex, pos, V3.add_x, V3.add_y, V3.add_z, V3.smul_x, V3.smul_y,
      V3.smul_z, Finset.sum_add_distrib, Finset.sum_mul]
  set vs := (List.range es.length).map (localVertex es s t) with hvsd
  have h0 : (0 : V3) ∈ vs :=
    List.mem_map.2 ⟨0, List.mem_range.2 hn, by ext <;> simp [localVertex, pos]⟩
  refine ⟨c - bboxCenter vs, ?_, ?_⟩
  · unfold placePolygon
    simp only [hdir, Outcome.val_bind, hrot, hvs, Outcome.pure_eq]
    rw [hvsd, List.map_map]; rfl
  · have hmap : ((List.range es.length).map fun j => localVertex es s t j + (c - bboxCenter vs))
        = vs.map fun v => v + (c - bboxCenter vs) := by
      rw [hvsd, List.map_map]; rfl
    rw [hmap]
    intro f hf
    simp only [List.mem_cons, List.not_mem_nil, or_false] at hf
    rcases hf with rfl | rfl | rfl
    · refine ⟨_, _, extent_translated V3.x (fun a b => rfl) rfl vs h0 _, ?_⟩
      simp only [V3.sub_x, bboxCenter]; ring
    · refine ⟨_, _, extent_translated V3.y (fun a b => rfl) rfl vs h0 _, ?_⟩
      simp only [V3.sub_y, bboxCenter]; ring
    · refine ⟨_, _, extent_translated V3.z (fun a b => rfl) rfl vs h0 _, ?_⟩
      simp only [V3.sub_z, bboxCenter]; ring

/-! ## The corners -/

/-- Corners obtained from edges: a translated chain of the edges in the sampled plane. -/
def Placed (es : List V3) (s t : ℝ) (c : V3) (cs : List V3) : Prop :=
  ∃ b : V3, cs = (List.range es.length).map (fun j => localVertex es s t j + b) ∧ Spec.BoxCenter cs c

namespace Placed
variable {es : List V3} {s t : ℝ} {c : V3} {cs : List V3} (h : Placed es s t c cs)
include h

theorem length : cs.length = es.length := by
  obtain ⟨b, rfl, _⟩ := h; simp

theorem planar : ∀ p ∈ cs, Spec.PlanarPolygon (Spec.dipNormal s t) p cs := by
  obtain ⟨b, rfl, _⟩ := h
  intro p hp q hq
  obtain ⟨i, _, rfl⟩ := List.mem_map.1 hp
  obtain ⟨j, _, rfl⟩ := List.mem_map.1 hq
  obtain ⟨h1, h2, _⟩ := dip_frame s t
  rw [Spec.onPlane_iff]
  have : localVertex es s t j + b - (localVertex es s t i + b)
      = (pos V3.x es j - pos V3.x es i) • Spec.dipDir s t
        + (pos V3.y es j - pos V3.y es i) • Spec.strikeDir s := by
    unfold localVertex; module
  rw [this, V3.dot_add, V3.dot_smul, V3.dot_smul, h1, h2]; ring

/-- Extent in a direction of the plane, given the extremal positions. -/
theorem extent_of (g : V3) (q : V3 → ℝ)
    (hg : ∀ j, Spec.inner g (localVertex es s t j) = pos q es j)
    (hq : (es.map q).sum = 0) (hn : 0 < es.length) (a b : ℕ)
    (ha : a ≤ es.length) (hb : b ≤ es.length)
    (hab : ∀ j ≤ es.length, pos q es a ≤ pos q es j ∧ pos q es j ≤ pos q es b) :
    ∃ lo hi, Spec.Extent (Spec.inner g) cs lo hi ∧ hi - lo = pos q es b - pos q es a := by
  obtain ⟨d, rfl, _⟩ := h
  have hin : ∀ j, Spec.inner g (localVertex es s t j + d) = pos q es j + Spec.inner g d := by
    intro j; rw [← hg]; simp [Spec.inner]; ring
  have hw : ∀ j ≤ es.length, ∃ k < es.length, pos q es k = pos q es j := by
    intro j hj
    rcases eq_or_lt_of_le hj with rfl | hlt
    · exact ⟨0, hn, by rw [pos_total, hq]; simp [pos]⟩
    · exact ⟨j, hlt, rfl⟩
  refine ⟨pos q es a + Spec.inner g d, pos q es b + Spec.inner g d, ⟨⟨?_, ?_⟩, ⟨?_, ?_⟩⟩, by ring⟩
  · obtain ⟨k, hk, e⟩ := hw a ha
    exact ⟨_, List.mem_map.2 ⟨k, List.mem_range.2 hk, rfl⟩, by rw [hin, e]⟩
  · rintro y ⟨p, hp, rfl⟩
    obtain ⟨j, hj, rfl⟩ := List.mem_map.1 hp
    rw [hin]
    exact add_le_add_left (hab j (List.mem_range.1 hj).le).1 _
  · obtain ⟨k, hk, e⟩ := hw b hb
    exact ⟨_, List.mem_map.2 ⟨k, List.mem_range.2 hk, rfl⟩, by rw [hin, e]⟩
  · rintro y ⟨p, hp, rfl⟩
    obtain ⟨j, hj, rfl⟩ := List.mem_map.1 hp
    rw [hin]
    exact add_le_add_left (hab j (List.mem_range.1 hj).le).2 _

/-- There is always an extent, bounded by the sum of the positive parts. -/
theorem extent_le (g : V3) (q : V3 → ℝ)
    (hg : ∀ j, Spec.inner g (localVertex es s t j) = pos q es j)
    (hq : (es.map q).sum = 0) (hn : 0 < es.length) :
    ∃ lo hi, Spec.Extent (Spec.inner g) cs lo hi ∧ hi - lo ≤ posSum (es.map q) := by
  have hne : (Finset.range (es.length + 1)).Nonempty := ⟨0, by simp⟩
  obtain ⟨a, ha, ha'⟩ := Finset.exists_min_image _ (pos q es) hne
  obtain ⟨b, hb, hb'⟩ := Finset.exists_max_image _ (pos q es) hne
  have ha2 : a ≤ es.length := by simpa [Nat.lt_succ_iff] using ha
  have hb2 : b ≤ es.length := by simpa [Nat.lt_succ_iff] using hb
  obtain ⟨lo, hi, e1, e2⟩ := h.extent_of g q hg hq hn a b ha2 hb2 fun j hj =>
    ⟨ha' j (by simpa [Nat.lt_succ_iff] using hj), hb' j (by simpa [Nat.lt_succ_iff] using hj)⟩
  exact ⟨lo, hi, e1, by rw [e2]; exact pos_sub_le q es hq a b ha2 hb2⟩

theorem corner : ∃ b, (∀ j < es.length, cs.getD j 0 = localVertex es s t j + b) := by
  obtain ⟨b, rfl, _⟩ := h
  refine ⟨b, fun j hj => ?_⟩
  simp [List.getD_eq_getElem?_getD, hj]

/-- The boundary edges are the given edge vectors. -/
theorem edge_mem (hx : (es.map V3.x).sum = 0) (hy : (es.map V3.y).sum = 0) (hn : 0 < es.length)
    (e : V3 × V3) (he : e ∈ Spec.polyEdges cs) : ∃ i < es.length, e.1 = cs.getD i 0 ∧
      e.2 - e.1 = (es.getD i 0).x • Spec.dipDir s t + (es.getD i 0).y • Spec.strikeDir s := by
  obtain ⟨b, hb⟩ := h.corner
  have hl := h.length
  have hne : cs ≠ [] := by intro h'; rw [h'] at hl; simp at hl; omega
  have hsucc : ∀ i, localVertex es s t (i + 1) - localVertex es s t i
      = (es.getD i 0).x • Spec.dipDir s t + (es.getD i 0).y • Spec.strikeDir s := by
    intro i
    unfold localVertex pos
    rw [Finset.sum_range_succ, Finset.sum_range_succ]
    module
  rcases (mem_polyEdges cs e hne).1 he with ⟨i, hi, rfl⟩ | rfl
  · refine ⟨i, by omega, rfl, ?_⟩
    simp only
    rw [hb i (by omega), hb (i + 1) (by omega), ← hsucc i]
    module
  · refine ⟨es.length - 1, by omega, by simp only [hl], ?_⟩
    simp only
    rw [hl, hb 0 hn, hb (es.length - 1) (by omega), ← hsucc, Nat.sub_add_cancel hn]
    have e0 : localVertex es s t es.length = localVertex es s t 0 := by
      unfold localVertex
      rw [pos_total, pos_total, hx, hy]; simp [pos]
    rw [e0]
    module

end Placed

theorem inner_dip (es : List V3) (s t : ℝ) (j : ℕ) :
    Spec.inner (Spec.dipDir s t) (localVertex es s t j) = pos V3.x es j := by
  obtain ⟨_, _, _, h1, h2, h3⟩ := dip_frame s t
  rw [Spec.inner_eq_dot, localVertex, V3.dot_add, V3.dot_smul, V3.dot_smul, h1, h3]; ring

theorem inner_strike (es : List V3) (s t : ℝ) (j : ℕ) :
    Spec.inner (Spec.strikeDir s) (localVertex es s t j) = pos V3.y es j := by
  obtain ⟨_, _, _, h1, h2, h3⟩ := dip_frame s t
  rw [Spec.inner_eq_dot, localVertex, V3.dot_add, V3.dot_smul, V3.dot_smul, h2, V3.dot_comm, h3]; ring

/-- Scaled and sorted edges: number, sums and sums of positive parts. -/
structure EdgesFrom (es : List V3) (n : ℕ) (strikeLength dipLength : ℝ) : Prop where
  length : es.length = n
  planar : ∀ e ∈ es, e.z = 0
  sumX : (es.map V3.x).sum = 0
  sumY : (es.map V3.y).sum = 0
  posX : 0 ≤ dipLength → 4 / 5 * dipLength ≤ posSum (es.map V3.x) ∧ posSum (es.map V3.x) ≤ dipLength
  posY : 0 ≤ strikeLength →
    4 / 5 * strikeLength ≤ posSum (es.map V3.y) ∧ posSum (es.map V3.y) ≤ strikeLength
  sorted : es.Pairwise fun a b => edgeAngle a ≤ edgeAngle b

theorem planeEdges_spec {sort : List V3 → List V3} (hs : SortsBy edgeAngle sort)
    (ds : List (ℝ × ℝ)) (dx dy : List ℝ) (n : ℕ) (hx : (ds.map Prod.fst).Perm dx)
    (hy : (ds.map Prod.snd).Perm dy) (lx : dx.length = n) (sx : dx.sum = 0) (sy : dy.sum = 0)
    (px : 4 / 5 ≤ posSum dx ∧ posSum dx ≤ 1) (py : 4 / 5 ≤ posSum dy ∧ posSum dy ≤ 1)
    (Ls Ld : ℝ) : EdgesFrom (planeEdges sort ds Ld Ls) n Ls Ld := by
  unfold planeEdges
  set raw : List V3 := ds.map fun d => ⟨d.1 * Ld, d.2 * Ls, 0⟩ with hraw
  have hperm := hs.perm raw
  have rx : raw.map V3.x = (ds.map Prod.fst).map fun x => x * Ld := by
    rw [hraw, List.map_map, List.map_map]; rfl
  have ry : raw.map V3.y = (ds.map Prod.snd).map fun x => x * Ls := by
    rw [hraw, List.map_map, List.map_map]; rfl
  have e1 : (raw.map V3.x).sum = 0 := by
    rw [rx, List.sum_map_mul_right, List.map_id', hx.sum_eq, sx, zero_mul]
  have e2 : (raw.map V3.y).sum = 0 := by
    rw [ry, List.sum_map_mul_right, List.map_id', hy.sum_eq, sy, zero_mul]
  refine ⟨?_, ?_, ?_, ?_, ?_, ?_, hs.sorted raw⟩
  · rw [hperm.length_eq, hraw, List.length_map, ← lx, ← hx.length_eq, List.length_map]
  · intro e he
    obtain ⟨d, _, rfl⟩ := List.mem_map.1 (hperm.mem_iff.1 he)
    rfl
  · rw [(hperm.map V3.x).sum_eq, e1]
  · rw [(hperm.map V3.y).sum_eq, e2]
  · intro h
    rw [posSum_perm (hperm.map V3.x), rx, posSum_scale _ h, posSum_perm hx]
    constructor <;> nlinarith [px.1, px.2]
  · intro h
    rw [posSum_perm (hperm.map V3.y), ry, posSum_scale _ h, posSum_perm hy]
    constructor <;> nlinarith [py.1, py.2]

/-- Values drawn from the unit interval. -/
def UnitDraws (s : Draws ℝ) : Prop := ∀ k, 0 ≤ s k ∧ s k ≤ 1

/-- A call that gets past the checks returns corners placed from edges. -/
theorem sampleCorners_placed {sort : List V3 → List V3} (hs : SortsBy edgeAngle sort)
    (d : PolygonDraws) (hu : UnitDraws d.interval) (n : ℕ) (hn : 3 ≤ n) (cnt cs1 cd1 : ℕ)
    (Ls Ld : ℝ) (hc : cornersLoop d.corners 0 0 = ((n : ℤ), cnt)) (hcnt : cnt ≠ 100)
    (hS : lengthLoop d.strikeLength (d.strikeLength 0) 0 = (Ls, cs1)) (hcs : cs1 ≠ 100)
    (hD : lengthLoop d.dipLength (d.dipLength 0) 0 = (Ld, cd1)) :
    ∃ es cs, sampleCorners sort d = .val cs ∧ EdgesFrom es n Ls Ld ∧
      Placed es d.strikeAngle d.dipAngle d.center cs := by
  have hlen : ∀ first, (intervalValues d.interval first n).length = n := fun f => by
    simp [intervalValues]
  have h01 : ∀ first, ∀ v ∈ intervalValues d.interval first n, 0 ≤ v ∧ v ≤ 1 := by
    intro f v hv
    obtain ⟨i, _, rfl⟩ := List.mem_map.1 hv
    exact hu _
  obtain ⟨dx, ex, lx, sx, px⟩ := coordinateDeltas_spec (intervalValues d.interval 0 n)
    (by rw [hlen]; exact hn) (h01 0)
  obtain ⟨dy, ey, ly, sy, py⟩ := coordinateDeltas_spec (intervalValues d.interval n n)
    (by rw [hlen]; exact hn) (h01 n)
  rw [hlen] at lx ly
  obtain ⟨ds, ed, qx, qy⟩ := combineDeltas_spec dx dy (by rw [lx, ly]) (by omega)
  have hE := planeEdges_spec hs ds dx dy n qx qy lx sx sy px py Ls Ld
  obtain ⟨b, hp, hb⟩ := placePolygon_spec (planeEdges sort ds Ld Ls) hE.planar
    (by rw [hE.length]; omega) d.strikeAngle d.dipAngle d.center
  refine ⟨_, _, ?_, hE, b, rfl, hb⟩
  unfold sampleCorners
  simp only [hc, if_neg hcnt, Int.toNat_natCast, ex, ey, ed, Outcome.val_bind, hS, hD, if_neg hcs]
  exact hp

end Props
