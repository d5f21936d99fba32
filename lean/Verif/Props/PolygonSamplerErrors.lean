import Verif.Props.SampledPolygons

/-!
# Number of tries of the polygon sampler (C++): C28
-/

namespace Props
open Verif Frackit Lemmas

/-- The complete property for a sampler: 100 inadmissible draws lead to an error, and a first admissible value
within 100 draws is used. -/
def C28_full (sample : PolygonDraws → Outcome (List V3)) : Prop :=
  ∀ d : PolygonDraws, UnitDraws d.interval →
    ((∀ k < 100, d.corners k < 3) → (sample d).isThrown) ∧
    ((∀ k < 100, d.strikeLength k < 0) → (sample d).isThrown) ∧
    ((∀ k < 100, d.dipLength k < 0) → (sample d).isThrown) ∧
    (∀ i j l, i < 100 → j < 100 → l < 100 → Spec.IsFirst (3 ≤ ·) d.corners i →
      Spec.IsFirst (0 ≤ ·) d.strikeLength j → Spec.IsFirst (0 ≤ ·) d.dipLength l →
      ∃ cs, sample d = .val cs ∧ cs.length = d.corners i ∧
        (∃ lo hi, Spec.Extent (Spec.inner (Spec.dipDir d.strikeAngle d.dipAngle)) cs lo hi ∧
          hi - lo ≤ d.dipLength l) ∧
        (∃ lo hi, Spec.Extent (Spec.inner (Spec.strikeDir d.strikeAngle)) cs lo hi ∧
          hi - lo ≤ d.strikeLength j))

theorem exists_first {α : Type} (P : α → Prop) (s : Draws α) (n : ℕ) (h : ∃ k < n, P (s k)) :
    ∃ i < n, Spec.IsFirst P s i := by
  classical
  obtain ⟨k, hk, hp⟩ := h
  have hex : ∃ k, P (s k) := ⟨k, hp⟩
  exact ⟨Nat.find hex, lt_of_le_of_lt (Nat.find_min' hex hp) hk, Nat.find_spec hex,
    fun m hm => Nat.find_min hex hm⟩

theorem thrown_of_corners (sort : List V3 → List V3) (d : PolygonDraws)
    (h : ∀ k < 99, d.corners k < 3) : (sampleCorners sort d).isThrown := by
  have := cornersLoop_none d.corners h
  unfold sampleCorners
  rcases hc : cornersLoop d.corners 0 0 with ⟨n, c⟩
  rw [hc] at this
  simp only at this
  simp [this]

/-- The length that the loop over the dip lengths ends with. -/
theorem lengthLoop_exists (s : Draws ℝ) : ∃ l ≤ 100, lengthLoop s (s 0) 0 = (s l, l) ∧
    (∀ k < l, s k < 0) ∧ (l < 100 → 0 ≤ s l) := by
  obtain ⟨m, _, h2, h4, h5, h6⟩ := lengthLoop_run s 0 (by omega)
  exact ⟨m, h2, h4, fun k hk => h5 k (Nat.zero_le _) hk, h6⟩

theorem thrown_of_strike (sort : List V3 → List V3) (d : PolygonDraws)
    (hu : UnitDraws d.interval) (h : ∀ k < 100, d.strikeLength k < 0) :
    (sampleCorners sort d).isThrown := by
  by_cases hc : ∀ k < 99, d.corners k < 3
  · exact thrown_of_corners sort d hc
  · push Not at hc
    obtain ⟨i, hi, hf⟩ := exists_first (3 ≤ ·) d.corners 99 hc
    have hn := hf.1
    -- the same draws with admissible strike lengths get past the increments
    obtain ⟨n, hn'⟩ : ∃ n : ℕ, d.corners i = n := ⟨(d.corners i).toNat, by simp only at hn; omega⟩
    have hn3 : 3 ≤ n := by simp only [hn'] at hn; exact_mod_cast hn
    have hlen : ∀ first, (intervalValues d.interval first n).length = n := fun f => by
      simp [intervalValues]
    have h01 : ∀ first, ∀ v ∈ intervalValues d.interval first n, 0 ≤ v ∧ v ≤ 1 := by
      intro f v hv
      obtain ⟨i, _, rfl⟩ := List.mem_map.1 hv
      exact hu _
    obtain ⟨dx, ex, lx, _⟩ := coordinateDeltas_spec (intervalValues d.interval 0 n)
      (by rw [hlen]; exact hn3) (h01 0)
    obtain ⟨dy, ey, ly, _⟩ := coordinateDeltas_spec (intervalValues d.interval n n)
      (by rw [hlen]; exact hn3) (h01 n)
    rw [hlen] at lx ly
    obtain ⟨ds, ed, _⟩ := combineDeltas_spec dx dy (by rw [lx, ly]) (by omega)
    unfold sampleCorners
    rw [cornersLoop_first _ i hi hf, hn']
    simp only [if_neg (show ¬ i + 1 = 100 by omega), Int.toNat_natCast, ex, ey, ed, Outcome.val_bind,
      lengthLoop_none _ h, if_true, Outcome.isThrown_thrown]

/-- **C28 (partial: when an error is raised)** The exact condition.  The number of corners gets 99 tries only;
the dip length is not checked at all. -/
theorem C28_error_partial (sort : List V3 → List V3) (hs : SortsBy edgeAngle sort) (d : PolygonDraws)
    (hu : UnitDraws d.interval) :
    (sampleCorners sort d).isThrown ↔
      (∀ k < 99, d.corners k < 3) ∨ (∀ k < 100, d.strikeLength k < 0) := by
  constructor
  · intro h
    by_contra hcon
    push Not at hcon
    obtain ⟨i, hi, hf⟩ := exists_first (3 ≤ ·) d.corners 99 hcon.1
    obtain ⟨j, hj, hg⟩ := exists_first (0 ≤ ·) d.strikeLength 100 hcon.2
    obtain ⟨l, hl, hd, _⟩ := lengthLoop_exists d.dipLength
    have hn := hf.1
    obtain ⟨n, hn'⟩ : ∃ n : ℕ, d.corners i = n := ⟨(d.corners i).toNat, by simp only at hn; omega⟩
    have hn3 : 3 ≤ n := by simp only [hn'] at hn; exact_mod_cast hn
    obtain ⟨es, cs, e, _⟩ := sampleCorners_placed hs d hu n hn3 (i + 1) j l _ _
      (by rw [cornersLoop_first _ i hi hf, hn']) (by omega) (lengthLoop_first _ j (by omega) hg)
      (by omega) hd
    rw [e] at h
    exact h
  · rintro (h | h)
    · exact thrown_of_corners sort d h
    · exact thrown_of_strike sort d hu h

/-- **C28 (partial: what is used)** If no error is raised, the first number of corners of at least three and the
first strike length that is not negative are used.  The dip length is the first of the first 101 draws
that is not negative, if there is one. -/
theorem C28_values_partial (sort : List V3 → List V3) (hs : SortsBy edgeAngle sort) (d : PolygonDraws)
    (hu : UnitDraws d.interval) (cs : List V3) (h : sampleCorners sort d = .val cs) :
    ∃ i j, i < 99 ∧ j < 100 ∧ Spec.IsFirst (3 ≤ ·) d.corners i ∧
      Spec.IsFirst (0 ≤ ·) d.strikeLength j ∧ cs.length = d.corners i ∧
      (∃ lo hi, Spec.Extent (Spec.inner (Spec.strikeDir d.strikeAngle)) cs lo hi ∧
        hi - lo ≤ d.strikeLength j) ∧
      (∀ l ≤ 100, Spec.IsFirst (0 ≤ ·) d.dipLength l →
        ∃ lo hi, Spec.Extent (Spec.inner (Spec.dipDir d.strikeAngle d.dipAngle)) cs lo hi ∧
          hi - lo ≤ d.dipLength l) := by
  have hnt : ¬ (sampleCorners sort d).isThrown := by rw [h]; exact id
  rw [C28_error_partial sort hs d hu] at hnt
  push Not at hnt
  obtain ⟨i, hi, hf⟩ := exists_first (3 ≤ ·) d.corners 99 hnt.1
  obtain ⟨j, hj, hg⟩ := exists_first (0 ≤ ·) d.strikeLength 100 hnt.2
  obtain ⟨l, hl, hd, hneg, hnn⟩ := lengthLoop_exists d.dipLength
  have hn := hf.1
  obtain ⟨n, hn'⟩ : ∃ n : ℕ, d.corners i = n := ⟨(d.corners i).toNat, by simp only at hn; omega⟩
  have hn3 : 3 ≤ n := by simp only [hn'] at hn; exact_mod_cast hn
  obtain ⟨es, cs', e, hE, hP⟩ := sampleCorners_placed hs d hu n hn3 (i + 1) j l _ _
    (by rw [cornersLoop_first _ i hi hf, hn']) (by omega) (lengthLoop_first _ j (by omega) hg)
    (by omega) hd
  rw [h] at e
  cases e
  have hl0 : 0 < es.length := by rw [hE.length]; omega
  refine ⟨i, j, hi, hj, hf, hg, ?_, ?_, ?_⟩
  · rw [hP.length, hE.length, hn']
  · obtain ⟨lo, hi, h1, h2⟩ := hP.extent_le _ V3.y (inner_strike es _ _) hE.sumY hl0
    exact ⟨lo, hi, h1, h2.trans (hE.posY hg.1).2⟩
  · intro l' hl' hfl
    have : lengthLoop d.dipLength (d.dipLength 0) 0 = (d.dipLength l', l') :=
      lengthLoop_first _ l' hl' hfl
    rw [this] at hd
    obtain ⟨_, rfl⟩ := Prod.mk.inj hd
    obtain ⟨lo, hi, h1, h2⟩ := hP.extent_le _ V3.x (inner_dip es _ _) hE.sumX hl0
    exact ⟨lo, hi, h1, h2.trans (hE.posX hfl.1).2⟩

/-- Draws of the examples: four corners, the values 0, 1/3, 2/3, 1 in both directions, horizontal
orientation. -/
noncomputable def drawsWith (corners : Draws ℤ) (strike dip : Draws ℝ) : PolygonDraws where
  corners := corners
  interval := fun k => ((k % 4 : ℕ) : ℝ) / 3
  strikeLength := strike
  dipLength := dip
  strikeAngle := 0
  dipAngle := 0
  center := 0

theorem drawsWith_unit (c : Draws ℤ) (s t : Draws ℝ) : UnitDraws (drawsWith c s t).interval := by
  intro k
  refine ⟨?_, ?_⟩
  · simp only [drawsWith]; positivity
  · simp only [drawsWith]
    have : ((k % 4 : ℕ) : ℝ) ≤ 3 := by exact_mod_cast (by omega : k % 4 ≤ 3)
    linarith

/-- **C28 (disproof)** If only negative dip lengths are drawn, no error is raised. -/
theorem C28_disproof (sort : List V3 → List V3) (hs : SortsBy edgeAngle sort) :
    ¬ C28_full (sampleCorners sort) := by
  intro h
  have := (h (drawsWith (fun _ => 4) (fun _ => 1) (fun _ => -1)) (drawsWith_unit _ _ _)).2.2.1
    (fun k _ => by norm_num [drawsWith])
  rw [C28_error_partial sort hs _ (drawsWith_unit _ _ _)] at this
  rcases this with h | h
  · have := h 0 (by omega); norm_num [drawsWith] at this
  · have := h 0 (by omega); norm_num [drawsWith] at this

/-- **C28 (disproof)** An admissible number of corners in the 100th try is refused. -/
theorem C28_hundredth_try (sort : List V3 → List V3) (d : PolygonDraws)
    (h : Spec.IsFirst (3 ≤ ·) d.corners 99) : (sampleCorners sort d).isThrown :=
  thrown_of_corners sort d fun k hk => by simpa using h.2 k hk

/-- The partial theorems are not vacuous: draws with a negative first strike length lead to a value. -/
example : ∃ cs, sampleCorners stableSort
    (drawsWith (fun _ => 4) (fun k => if k = 0 then -1 else 1) (fun _ => 1)) = .val cs := by
  obtain ⟨cs, h, _⟩ := C27_structure stableSort stableSort_sorts
    (drawsWith (fun _ => 4) (fun k => if k = 0 then -1 else 1) (fun _ => 1)) 4 1 1
    ⟨drawsWith_unit _ _ _, ⟨0, by omega, ⟨by norm_num [drawsWith], by intro k hk; omega⟩, rfl⟩,
     ⟨1, by omega, ⟨by norm_num [drawsWith], by
      intro k hk; obtain rfl : k = 0 := by omega
      norm_num [drawsWith]⟩, by norm_num [drawsWith]⟩,
     ⟨0, by omega, ⟨by norm_num [drawsWith], by intro k hk; omega⟩, rfl⟩⟩
  exact ⟨cs, h⟩

end Props
