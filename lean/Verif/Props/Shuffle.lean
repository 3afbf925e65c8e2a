import Verif.Proof.Shuffle
import Verif.Model.SoilDynamics

/-! # Property C13: shuffles -/

namespace Soil

/-- **C13**. A shuffle rearranges its input, whatever the generator delivers. -/
theorem C13_shuffle_perm {α : Type} (l : List α) (r : Rng) : (shuffle l r).1.Perm l :=
  shuffle_perm l r

/-- **C13**. Every rearrangement can be produced. -/
theorem C13_shuffle_reaches {α : Type} (l l' : List α) (h : l.Perm l') :
    ∃ r, (shuffle l r).1 = l' := shuffle_surj l l' h

/-- **C13**. The noise table contains each of 0..255 exactly once and nothing else. -/
theorem C13_permTable (r : Rng) (z : ℤ) :
    (permTable r).1.count z = if 0 ≤ z ∧ z < 256 then 1 else 0 := by
  unfold permTable
  rw [(shuffle_perm _ r).count_eq]
  have hnd : ((List.range 256).map fun n : ℕ => (n : ℤ)).Nodup :=
    List.Nodup.map (fun a b h => by simpa using h) List.nodup_range
  rw [hnd.count]
  have : z ∈ ((List.range 256).map fun n : ℕ => (n : ℤ)) ↔ 0 ≤ z ∧ z < 256 := by
    simp only [List.mem_map, List.mem_range]
    constructor
    · rintro ⟨a, h, rfl⟩; omega
    · rintro ⟨h1, h2⟩; exact ⟨z.toNat, by omega, by omega⟩
  simp only [this]

/-- **C13**. Shuffling the body-soil entries rearranges them and changes nothing else. -/
theorem C13_entries {F : Type} (w : World F) :
    (shuffleEntries w).out.bodySoilPos.Perm w.out.bodySoilPos ∧
    (shuffleEntries w).out =
      { w.out with bodySoilPos := (shuffleEntries w).out.bodySoilPos } ∧
    (shuffleEntries w).log = w.log :=
  ⟨shuffle_perm _ _, rfl, rfl⟩

/-- **C13**. Each pass of the two relaxation functions and of the two intersection functions visits
each direction exactly once, because the order it uses is a shuffle of the complete list. -/
theorem C13_directions (r : Rng) :
    (∀ d, (shuffle directions4 r).1.count d = directions4.count d) ∧
    (∀ d, (shuffle directions8 r).1.count d = directions8.count d) :=
  ⟨fun d => (shuffle_perm _ r).count_eq d, fun d => (shuffle_perm _ r).count_eq d⟩

/-- The reverse order can be produced and is a real change. -/
example : ∃ r, (shuffle [1, 2, 3, 4] r).1 = [4, 3, 2, 1] :=
  C13_shuffle_reaches _ _ (List.reverse_perm [4, 3, 2, 1])

end Soil
