import Verif.Spec.Euclid

/-!
# Distance between sets of points
-/

namespace Spec
open Verif

/-- `d` is the distance between the two sets: no two points are closer, and there are points that are
arbitrarily little farther apart. -/
def SetDist (A B : Set V3) (d : ℝ) : Prop :=
  (∀ a ∈ A, ∀ b ∈ B, d ≤ dist a b) ∧ ∀ e, 0 < e → ∃ a ∈ A, ∃ b ∈ B, dist a b < d + e

theorem SetDist.unique {A B : Set V3} {d d' : ℝ} (h : SetDist A B d) (h' : SetDist A B d') : d = d' := by
  apply le_antisymm
  · refine le_of_forall_pos_lt_add fun e he => ?_
    obtain ⟨a, ha, b, hb, hab⟩ := h'.2 e he
    exact (h.1 a ha b hb).trans_lt hab
  · refine le_of_forall_pos_lt_add fun e he => ?_
    obtain ⟨a, ha, b, hb, hab⟩ := h.2 e he
    exact (h'.1 a ha b hb).trans_lt hab

theorem SetDist.symm {A B : Set V3} {d : ℝ} (h : SetDist A B d) : SetDist B A d := by
  refine ⟨fun b hb a ha => by rw [dist_comm]; exact h.1 a ha b hb, fun e he => ?_⟩
  obtain ⟨a, ha, b, hb, hab⟩ := h.2 e he
  exact ⟨b, hb, a, ha, by rw [dist_comm]; exact hab⟩

theorem SetDist.union {A B C : Set V3} {d d' : ℝ} (h : SetDist A B d) (h' : SetDist A C d') :
    SetDist A (B ∪ C) (min d d') := by
  refine ⟨?_, ?_⟩
  · rintro a ha b (hb | hb)
    · exact (min_le_left _ _).trans (h.1 a ha b hb)
    · exact (min_le_right _ _).trans (h'.1 a ha b hb)
  · intro e he
    rcases min_choice d d' with hm | hm <;> rw [hm]
    · obtain ⟨a, ha, b, hb, hab⟩ := h.2 e he
      exact ⟨a, ha, b, .inl hb, hab⟩
    · obtain ⟨a, ha, b, hb, hab⟩ := h'.2 e he
      exact ⟨a, ha, b, .inr hb, hab⟩

end Spec
