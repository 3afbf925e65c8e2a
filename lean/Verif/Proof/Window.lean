import Verif.Model.Relax

/-! # The sides of the relaxation area -/

namespace Soil

variable {F : Type} [FOps F]

theorem foldl_min_le_iff (cs : List (ℤ × ℤ)) (f : ℤ × ℤ → ℤ) (m i : ℤ) :
    cs.foldl (fun m c => Min.min m (f c)) m ≤ i ↔ m ≤ i ∨ ∃ c ∈ cs, f c ≤ i := by
  induction cs generalizing m with
  | nil => simp
  | cons a cs ih => rw [List.foldl_cons, ih, min_le_iff]; simp [or_assoc]

theorem le_foldl_max_iff (cs : List (ℤ × ℤ)) (f : ℤ × ℤ → ℤ) (m i : ℤ) :
    i ≤ cs.foldl (fun m c => Max.max m (f c)) m ↔ i ≤ m ∨ ∃ c ∈ cs, i ≤ f c := by
  induction cs generalizing m with
  | nil => simp
  | cons a cs ih => rw [List.foldl_cons, ih, le_max_iff]; simp [or_assoc]

theorem lower_side {U : ℤ → Prop} {cs : List (ℤ × ℤ)} {f : ℤ × ℤ → ℤ} {m b n : ℤ}
    (hs : (∃ c ∈ cs, f c ≤ n + b) ↔ ∃ i, U i ∧ i ≤ n + b) (hm : ∃ i, U i ∧ i ≤ m) (hn : 2 ≤ n) :
    Max.max (cs.foldl (fun m c => Min.min m (f c)) m - b) 2 ≤ n ↔ ∃ i, U i ∧ i - b ≤ n := by
  rw [max_le_iff, sub_le_iff_le_add, foldl_min_le_iff, hs]
  simp only [sub_le_iff_le_add]
  constructor
  · rintro ⟨h | h, -⟩
    · obtain ⟨i, hi, hle⟩ := hm
      exact ⟨i, hi, hle.trans h⟩
    · exact h
  · exact fun h => ⟨.inr h, hn⟩

theorem upper_side {U : ℤ → Prop} {cs : List (ℤ × ℤ)} {f : ℤ × ℤ → ℤ} {m b n : ℤ}
    (hs : (∃ c ∈ cs, n - b ≤ f c) ↔ ∃ i, U i ∧ n - b ≤ i) (hm : ∃ i, U i ∧ 0 ≤ i) (hn : n ≤ m) :
    n ≤ Min.min (cs.foldl (fun m c => Max.max m (f c)) 0 + b) m ↔ ∃ i, U i ∧ n ≤ i + b := by
  rw [le_min_iff, ← sub_le_iff_le_add, le_foldl_max_iff, hs]
  simp only [← sub_le_iff_le_add]
  constructor
  · rintro ⟨h | h, -⟩
    · obtain ⟨i, hi, hle⟩ := hm
      exact ⟨i, hi, h.trans hle⟩
    · exact h
  · exact fun h => ⟨.inr h, hn⟩

theorem relaxAreaOf_sides (g : Grid F) (b : ℤ) (cs : List (ℤ × ℤ)) (U : ℤ → ℤ → Prop)
    (hm : ∀ i j, (i, j) ∈ cs ↔ U i j)
    (hb : ∀ i j, U i j → 0 ≤ i ∧ i ≤ 2 * g.halfX ∧ 0 ≤ j ∧ j ≤ 2 * g.halfY) (hne : ∃ i j, U i j) :
    let a := relaxAreaOf g b cs
    2 ≤ a.minX ∧ a.maxX ≤ 2 * g.halfX ∧ 2 ≤ a.minY ∧ a.maxY ≤ 2 * g.halfY ∧
      (∀ n, 2 ≤ n → (a.minX ≤ n ↔ ∃ i j, U i j ∧ i - b ≤ n)) ∧
      (∀ n, n ≤ 2 * g.halfX → (n ≤ a.maxX ↔ ∃ i j, U i j ∧ n ≤ i + b)) ∧
      (∀ n, 2 ≤ n → (a.minY ≤ n ↔ ∃ i j, U i j ∧ j - b ≤ n)) ∧
      (∀ n, n ≤ 2 * g.halfY → (n ≤ a.maxY ↔ ∃ i j, U i j ∧ n ≤ j + b)) := by
  obtain ⟨i0, j0, h0⟩ := hne
  obtain ⟨b1, b2, b3, b4⟩ := hb _ _ h0
  have ex : ∀ P : ℤ → Prop, (∃ c ∈ cs, P c.1) ↔ ∃ i, (∃ j, U i j) ∧ P i := fun P =>
    ⟨fun ⟨c, hc, hp⟩ => ⟨c.1, ⟨c.2, (hm _ _).mp hc⟩, hp⟩, fun ⟨i, ⟨j, hu⟩, hp⟩ => ⟨(i, j), (hm _ _).mpr hu, hp⟩⟩
  have ey : ∀ P : ℤ → Prop, (∃ c ∈ cs, P c.2) ↔ ∃ j, (∃ i, U i j) ∧ P j := fun P =>
    ⟨fun ⟨c, hc, hp⟩ => ⟨c.2, ⟨c.1, (hm _ _).mp hc⟩, hp⟩, fun ⟨j, ⟨i, hu⟩, hp⟩ => ⟨(i, j), (hm _ _).mpr hu, hp⟩⟩
  have fx : ∀ P : ℤ → Prop, (∃ i, (∃ j, U i j) ∧ P i) ↔ ∃ i j, U i j ∧ P i := fun P =>
    ⟨fun ⟨i, ⟨j, h⟩, p⟩ => ⟨i, j, h, p⟩, fun ⟨i, j, h, p⟩ => ⟨i, ⟨j, h⟩, p⟩⟩
  have fy : ∀ P : ℤ → Prop, (∃ j, (∃ i, U i j) ∧ P j) ↔ ∃ i j, U i j ∧ P j := fun P =>
    ⟨fun ⟨j, ⟨i, h⟩, p⟩ => ⟨i, j, h, p⟩, fun ⟨i, j, h, p⟩ => ⟨j, ⟨i, h⟩, p⟩⟩
  refine ⟨le_max_right _ _, min_le_right _ _, le_max_right _ _, min_le_right _ _,
    fun n hn => ?_, fun n hn => ?_, fun n hn => ?_, fun n hn => ?_⟩
  · exact (lower_side (ex (· ≤ n + b)) ⟨i0, ⟨j0, h0⟩, b2⟩ hn).trans (fx (· - b ≤ n))
  · exact (upper_side (ex (n - b ≤ ·)) ⟨i0, ⟨j0, h0⟩, b1⟩ hn).trans (fx (n ≤ · + b))
  · exact (lower_side (ey (· ≤ n + b)) ⟨j0, ⟨i0, h0⟩, b4⟩ hn).trans (fy (· - b ≤ n))
  · exact (upper_side (ey (n - b ≤ ·)) ⟨j0, ⟨i0, h0⟩, b3⟩ hn).trans (fy (n ≤ · + b))

end Soil
