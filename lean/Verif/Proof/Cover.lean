import Verif.Model.Real
import Verif.Spec.Shape
import Verif.Proof.Plane
import Mathlib.Topology.Order.IntermediateValue
import Mathlib.Topology.Instances.Real.Lemmas
import Mathlib.Topology.Algebra.Order.Field

/-! # Every point of a face is near a column of the rasterised face -/

set_option linter.unusedSectionVars false

namespace Soil

/-! ## Leaving a square or a triangle -/

/-- A path from the unit square to a point that is not inside by the margin passes near the boundary. -/
theorem exit_quad {tol u0 v0 u1 v1 : ℝ} (ht : 0 ≤ tol) (hu : 0 ≤ u0 ∧ u0 ≤ 1) (hv : 0 ≤ v0 ∧ v0 ≤ 1)
    (h1 : ¬ RectMargin tol u1 v1) :
    ∃ t us vs : ℝ, (0 ≤ t ∧ t ≤ 1) ∧ (0 ≤ us ∧ us ≤ 1) ∧ (0 ≤ vs ∧ vs ≤ 1) ∧
      (us = 0 ∨ us = 1 ∨ vs = 0 ∨ vs = 1) ∧
      |us - (u0 + t * (u1 - u0))| ≤ tol ∧ |vs - (v0 + t * (v1 - v0))| ≤ tol := by
  by_cases hin : (0 ≤ u1 ∧ u1 ≤ 1) ∧ (0 ≤ v1 ∧ v1 ≤ 1)
  · obtain ⟨⟨a1, a2⟩, b1, b2⟩ := hin
    have e1 : u0 + 1 * (u1 - u0) = u1 := by ring
    have e2 : v0 + 1 * (v1 - v0) = v1 := by ring
    unfold RectMargin at h1
    simp only [not_and_or, not_lt] at h1
    rcases h1 with h | h | h | h
    · refine ⟨1, 0, v1, by norm_num, by norm_num, ⟨b1, b2⟩, .inl rfl, ?_, ?_⟩
      · rw [e1, zero_sub, abs_neg, abs_of_nonneg a1]; exact h
      · rw [e2, sub_self, abs_zero]; exact ht
    · refine ⟨1, 1, v1, by norm_num, by norm_num, ⟨b1, b2⟩, .inr (.inl rfl), ?_, ?_⟩
      · rw [e1, abs_of_nonneg (by linarith)]; linarith
      · rw [e2, sub_self, abs_zero]; exact ht
    · refine ⟨1, u1, 0, by norm_num, ⟨a1, a2⟩, by norm_num, .inr (.inr (.inl rfl)), ?_, ?_⟩
      · rw [e1, sub_self, abs_zero]; exact ht
      · rw [e2, zero_sub, abs_neg, abs_of_nonneg b1]; exact h
    · refine ⟨1, u1, 1, by norm_num, ⟨a1, a2⟩, by norm_num, .inr (.inr (.inr rfl)), ?_, ?_⟩
      · rw [e1, sub_self, abs_zero]; exact ht
      · rw [e2, abs_of_nonneg (by linarith)]; linarith
  · set f : ℝ → ℝ := fun t => min (min (u0 + t * (u1 - u0)) (1 - (u0 + t * (u1 - u0))))
      (min (v0 + t * (v1 - v0)) (1 - (v0 + t * (v1 - v0)))) with hf
    have hcont : Continuous f := by fun_prop
    have f0 : 0 ≤ f 0 := by
      simp only [hf, zero_mul, add_zero, le_min_iff]
      refine ⟨⟨hu.1, by linarith [hu.2]⟩, hv.1, by linarith [hv.2]⟩
    have f1 : f 1 ≤ 0 := by
      by_contra hn
      push Not at hn
      simp only [hf, one_mul, lt_min_iff] at hn
      obtain ⟨⟨a, b⟩, c, d⟩ := hn
      exact hin ⟨⟨by linarith, by linarith⟩, by linarith, by linarith⟩
    obtain ⟨t, ⟨t0, t1⟩, ht0⟩ := intermediate_value_Icc' (zero_le_one (α := ℝ)) hcont.continuousOn
      ⟨f1, f0⟩
    have hge : 0 ≤ f t := ht0.ge
    simp only [hf, le_min_iff] at hge
    obtain ⟨⟨a, b⟩, c, d⟩ := hge
    refine ⟨t, u0 + t * (u1 - u0), v0 + t * (v1 - v0), ⟨t0, t1⟩, ⟨a, by linarith⟩, ⟨c, by linarith⟩, ?_,
      by rw [sub_self, abs_zero]; exact ht, by rw [sub_self, abs_zero]; exact ht⟩
    have hle : f t ≤ 0 := ht0.le
    simp only [hf, min_le_iff] at hle
    rcases hle with (h | h) | h | h
    · exact .inl (le_antisymm h a)
    · exact .inr (.inl (by linarith))
    · exact .inr (.inr (.inl (le_antisymm h c)))
    · exact .inr (.inr (.inr (by linarith)))

/-- The same for a triangle -/
theorem exit_tri {tol u0 v0 u1 v1 : ℝ} (ht : 0 ≤ tol) (hu : 0 ≤ u0) (hv : 0 ≤ v0) (hs : u0 + v0 ≤ 1)
    (h1 : ¬ TriMargin tol u1 v1) :
    ∃ t us vs : ℝ, (0 ≤ t ∧ t ≤ 1) ∧ 0 ≤ us ∧ 0 ≤ vs ∧ us + vs ≤ 1 ∧
      (us = 0 ∨ vs = 0 ∨ us + vs = 1) ∧
      |us - (u0 + t * (u1 - u0))| ≤ tol ∧ |vs - (v0 + t * (v1 - v0))| ≤ tol := by
  by_cases hin : 0 ≤ u1 ∧ 0 ≤ v1 ∧ u1 + v1 ≤ 1
  · obtain ⟨a1, b1, c1⟩ := hin
    have e1 : u0 + 1 * (u1 - u0) = u1 := by ring
    have e2 : v0 + 1 * (v1 - v0) = v1 := by ring
    unfold TriMargin at h1
    simp only [not_and_or, not_lt] at h1
    rcases h1 with h | h | h
    · refine ⟨1, 0, v1, by norm_num, by norm_num, b1, by linarith, .inl rfl, ?_, ?_⟩
      · rw [e1, zero_sub, abs_neg, abs_of_nonneg a1]; exact h
      · rw [e2, sub_self, abs_zero]; exact ht
    · refine ⟨1, u1, 0, by norm_num, a1, by norm_num, by linarith, .inr (.inl rfl), ?_, ?_⟩
      · rw [e1, sub_self, abs_zero]; exact ht
      · rw [e2, zero_sub, abs_neg, abs_of_nonneg b1]; exact h
    · refine ⟨1, 1 - v1, v1, by norm_num, by linarith, b1, by linarith, .inr (.inr (by ring)), ?_, ?_⟩
      · rw [e1, abs_of_nonneg (by linarith)]; linarith
      · rw [e2, sub_self, abs_zero]; exact ht
  · set f : ℝ → ℝ := fun t => min (u0 + t * (u1 - u0)) (min (v0 + t * (v1 - v0))
      (1 - (u0 + t * (u1 - u0)) - (v0 + t * (v1 - v0)))) with hf
    have hcont : Continuous f := by fun_prop
    have f0 : 0 ≤ f 0 := by
      simp only [hf, zero_mul, add_zero, le_min_iff]
      exact ⟨hu, hv, by linarith⟩
    have f1 : f 1 ≤ 0 := by
      by_contra hn
      push Not at hn
      simp only [hf, one_mul, lt_min_iff] at hn
      obtain ⟨a, b, c⟩ := hn
      exact hin ⟨by linarith, by linarith, by linarith⟩
    obtain ⟨t, ⟨t0, t1⟩, ht0⟩ := intermediate_value_Icc' (zero_le_one (α := ℝ)) hcont.continuousOn
      ⟨f1, f0⟩
    have hge : 0 ≤ f t := ht0.ge
    simp only [hf, le_min_iff] at hge
    obtain ⟨a, b, c⟩ := hge
    refine ⟨t, u0 + t * (u1 - u0), v0 + t * (v1 - v0), ⟨t0, t1⟩, a, b, by linarith, ?_,
      by rw [sub_self, abs_zero]; exact ht, by rw [sub_self, abs_zero]; exact ht⟩
    have hle : f t ≤ 0 := ht0.le
    simp only [hf, min_le_iff] at hle
    rcases hle with h | h | h
    · exact .inl (le_antisymm h a)
    · exact .inr (.inl (le_antisymm h b))
    · exact .inr (.inr (by linarith))

/-! ## One coordinate -/

/-- The corner of the column `m` on the side of `x` -/
noncomputable def cornerToward (m : ℤ) (x : ℝ) : ℤ := if (m : ℝ) ≤ x then m else m - 1

theorem cornerToward_cases (m : ℤ) (x : ℝ) : m = cornerToward m x ∨ m = cornerToward m x + 1 := by
  unfold cornerToward
  split_ifs <;> omega

/-- The column `i` touched by a point `e` near the way from `p` to the corner on the side of `x` is next to the column of `x`. -/
theorem near_of_way {p x e t r d : ℝ} {m i : ℤ} (hp : |p - m| ≤ 1 / 2) (hx : |x - p| ≤ r)
    (ht : 0 ≤ t ∧ t ≤ 1) (hd : 0 ≤ d) (hrd : r + d < 1) (hd2 : d < 1 / 2)
    (he : |e - (p + t * ((cornerToward m x : ℝ) + 1 / 2 - p))| ≤ d) (hi : |e - i| ≤ 1 / 2) :
    |x - i| < 3 / 2 := by
  obtain ⟨p1, p2⟩ := abs_le.mp hp
  obtain ⟨x1, x2⟩ := abs_le.mp hx
  obtain ⟨e1, e2⟩ := abs_le.mp he
  obtain ⟨i1, i2⟩ := abs_le.mp hi
  unfold cornerToward at e1 e2
  rw [abs_lt]
  split_ifs at e1 e2 with hm
  · have a1 : 0 ≤ t * ((m : ℝ) + 1 / 2 - p) := mul_nonneg ht.1 (by linarith)
    have a2 : t * ((m : ℝ) + 1 / 2 - p) ≤ 1 * ((m : ℝ) + 1 / 2 - p) :=
      mul_le_mul_of_nonneg_right ht.2 (by linarith)
    constructor <;> linarith
  · push Not at hm
    push_cast at e1 e2
    have a1 : 0 ≤ t * (p - ((m : ℝ) - 1 + 1 / 2)) := mul_nonneg ht.1 (by linarith)
    have a2 : t * (p - ((m : ℝ) - 1 + 1 / 2)) ≤ 1 * (p - ((m : ℝ) - 1 + 1 / 2)) :=
      mul_le_mul_of_nonneg_right ht.2 (by linarith)
    constructor <;> linarith

theorem near_of_still {p x e r d : ℝ} {i : ℤ} (hx : |x - p| ≤ r) (hrd : r + d < 1)
    (he : |e - p| ≤ d) (hi : |e - i| ≤ 1 / 2) : |x - i| < 3 / 2 := by
  obtain ⟨x1, x2⟩ := abs_le.mp hx
  obtain ⟨e1, e2⟩ := abs_le.mp he
  obtain ⟨i1, i2⟩ := abs_le.mp hi
  rw [abs_lt]
  constructor <;> linarith

theorem quad_lo {A B C D u v q η : ℝ} (hu : 0 ≤ u ∧ u ≤ 1) (hv : 0 ≤ v ∧ v ≤ 1)
    (hq : q = A + u * (B - A) + v * (D - A)) (hη : |C - B - D + A| ≤ η) (h2 : η < 1 / 2) :
    A < q + 1 / 2 ∨ B < q + 1 / 2 ∨ C < q + 1 / 2 ∨ D < q + 1 / 2 := by
  by_contra hn
  push Not at hn
  obtain ⟨a, b, c, d⟩ := hn
  obtain ⟨e1, e2⟩ := abs_le.mp hη
  have n1 := mul_nonneg (mul_nonneg (sub_nonneg.mpr hu.2) (sub_nonneg.mpr hv.2)) (sub_nonneg.mpr a)
  have n2 := mul_nonneg (mul_nonneg hu.1 (sub_nonneg.mpr hv.2)) (sub_nonneg.mpr b)
  have n3 := mul_nonneg (mul_nonneg (sub_nonneg.mpr hu.2) hv.1) (sub_nonneg.mpr d)
  have n4 := mul_nonneg (mul_nonneg hu.1 hv.1) (show 0 ≤ B + D - A - (q + 1 / 2) + η by linarith)
  have n5 : u * v * η ≤ η := by
    have h0 : 0 ≤ η := le_trans (abs_nonneg _) hη
    have : u * v ≤ 1 := by nlinarith
    nlinarith
  have e : (1 - u) * (1 - v) * (A - (q + 1 / 2)) + u * (1 - v) * (B - (q + 1 / 2)) +
      (1 - u) * v * (D - (q + 1 / 2)) + u * v * (B + D - A - (q + 1 / 2) + η) =
      -(1 / 2) + u * v * η := by
    have : q + 1 / 2 = A + u * (B - A) + v * (D - A) + 1 / 2 := by rw [← hq]
    linear_combination (-1) * this
  linarith

theorem quad_hi {A B C D u v q η : ℝ} (hu : 0 ≤ u ∧ u ≤ 1) (hv : 0 ≤ v ∧ v ≤ 1)
    (hq : q = A + u * (B - A) + v * (D - A)) (hη : |C - B - D + A| ≤ η) (h2 : η < 1 / 2) :
    q < A + 1 / 2 ∨ q < B + 1 / 2 ∨ q < C + 1 / 2 ∨ q < D + 1 / 2 := by
  have := quad_lo (A := -A) (B := -B) (C := -C) (D := -D) (q := -q) hu hv (by rw [hq]; ring)
    (η := η) (by rw [← abs_neg]; ring_nf; ring_nf at hη; exact hη) h2
  rcases this with h | h | h | h
  · exact .inl (by linarith)
  · exact .inr (.inl (by linarith))
  · exact .inr (.inr (.inl (by linarith)))
  · exact .inr (.inr (.inr (by linarith)))

theorem tri_lo {A B C u v q : ℝ} (hu : 0 ≤ u) (hv : 0 ≤ v) (hs : u + v ≤ 1)
    (hq : q = A + u * (B - A) + v * (C - A)) : A < q + 1 / 2 ∨ B < q + 1 / 2 ∨ C < q + 1 / 2 := by
  by_contra hn
  push Not at hn
  obtain ⟨a, b, c⟩ := hn
  have n1 := mul_nonneg (show 0 ≤ 1 - u - v by linarith) (sub_nonneg.mpr a)
  have n2 := mul_nonneg hu (sub_nonneg.mpr b)
  have n3 := mul_nonneg hv (sub_nonneg.mpr c)
  nlinarith

theorem tri_hi {A B C u v q : ℝ} (hu : 0 ≤ u) (hv : 0 ≤ v) (hs : u + v ≤ 1)
    (hq : q = A + u * (B - A) + v * (C - A)) : q < A + 1 / 2 ∨ q < B + 1 / 2 ∨ q < C + 1 / 2 := by
  by_contra hn
  push Not at hn
  obtain ⟨a, b, c⟩ := hn
  have n1 := mul_nonneg (show 0 ≤ 1 - u - v by linarith) (sub_nonneg.mpr a)
  have n2 := mul_nonneg hu (sub_nonneg.mpr b)
  have n3 := mul_nonneg hv (sub_nonneg.mpr c)
  nlinarith

/-! ## Faces -/

/-- The points of a face, sides included, in index coordinates -/
inductive Face.Whole (g : Grid ℝ) : Face ℝ → Vec3 ℝ → Prop
  | edge {f P} : f.OnEdge g P → Face.Whole g f P
  | quad {a b c d u v} : (0 ≤ u ∧ u ≤ 1) → (0 ≤ v ∧ v ≤ 1) →
      Face.Whole g (.quad a b c d) (planePoint (idx g a) (edgeIdx g a b) (edgeIdx g a d) u v)
  | tri {a b c u v} : 0 ≤ u → 0 ≤ v → u + v ≤ 1 →
      Face.Whole g (.tri a b c) (planePoint (idx g a) (edgeIdx g a b) (edgeIdx g a c) u v)

/-- A quadrilateral is a parallelogram up to `η`, and the margin is at most `δ` with it -/
def Face.Tight (g : Grid ℝ) (tol η δ : ℝ) : Face ℝ → Prop
  | .quad a b c d =>
    (|(idx g c).x - (idx g b).x - (idx g d).x + (idx g a).x| ≤ η ∧
      |(idx g c).y - (idx g b).y - (idx g d).y + (idx g a).y| ≤ η) ∧
    tol * (|(edgeIdx g a b).x| + |(edgeIdx g a d).x|) + η ≤ δ ∧
    tol * (|(edgeIdx g a b).y| + |(edgeIdx g a d).y|) + η ≤ δ
  | .tri a b c => tol * (|(edgeIdx g a b).x| + |(edgeIdx g a c).x|) ≤ δ ∧
    tol * (|(edgeIdx g a b).y| + |(edgeIdx g a c).y|) ≤ δ

theorem way_close {A ab ad u0 v0 u1 v1 us vs t tol R η δ : ℝ} (hu : |us - (u0 + t * (u1 - u0))| ≤ tol)
    (hv : |vs - (v0 + t * (v1 - v0))| ≤ tol) (hR : |R - (A + us * ab + vs * ad)| ≤ η)
    (hδ : tol * (|ab| + |ad|) + η ≤ δ) :
    |R - ((A + u0 * ab + v0 * ad) + t * ((A + u1 * ab + v1 * ad) - (A + u0 * ab + v0 * ad)))| ≤ δ := by
  have e : R - ((A + u0 * ab + v0 * ad) + t * ((A + u1 * ab + v1 * ad) - (A + u0 * ab + v0 * ad))) =
      (R - (A + us * ab + vs * ad)) + ((us - (u0 + t * (u1 - u0))) * ab +
        (vs - (v0 + t * (v1 - v0))) * ad) := by ring
  rw [e]
  have h1 := abs_add_le (R - (A + us * ab + vs * ad)) ((us - (u0 + t * (u1 - u0))) * ab +
        (vs - (v0 + t * (v1 - v0))) * ad)
  have h2 := abs_add_le ((us - (u0 + t * (u1 - u0))) * ab) ((vs - (v0 + t * (v1 - v0))) * ad)
  rw [abs_mul, abs_mul] at h2
  have h3 := mul_le_mul_of_nonneg_right hu (abs_nonneg ab)
  have h4 := mul_le_mul_of_nonneg_right hv (abs_nonneg ad)
  linarith

/-- Points on the boundary of the parallelogram are near the sides of the quadrilateral. -/
theorem quad_edge {g : Grid ℝ} {a b c d : Vec3 ℝ} {η us vs : ℝ}
    (hx : |(idx g c).x - (idx g b).x - (idx g d).x + (idx g a).x| ≤ η)
    (hy : |(idx g c).y - (idx g b).y - (idx g d).y + (idx g a).y| ≤ η)
    (hu : 0 ≤ us ∧ us ≤ 1) (hv : 0 ≤ vs ∧ vs ≤ 1) (hb : us = 0 ∨ us = 1 ∨ vs = 0 ∨ vs = 1) :
    ∃ e ∈ (Face.quad a b c d).edges, ∃ w : ℝ, 0 ≤ w ∧ w ≤ 1 ∧
      |(segPoint (idx g e.1) (idx g e.2) w).x -
        ((idx g a).x + us * (edgeIdx g a b).x + vs * (edgeIdx g a d).x)| ≤ η ∧
      |(segPoint (idx g e.1) (idx g e.2) w).y -
        ((idx g a).y + us * (edgeIdx g a b).y + vs * (edgeIdx g a d).y)| ≤ η := by
  have h0 : 0 ≤ η := le_trans (abs_nonneg _) hx
  have sm : ∀ {k z r : ℝ}, 0 ≤ k → k ≤ 1 → |z| ≤ η → r = k * z → |r| ≤ η := by
    intro k z r k0 k1 hz hr
    rw [hr, abs_mul, abs_of_nonneg k0]
    nlinarith [abs_nonneg z]
  have z0 : ∀ {r : ℝ}, r = 0 → |r| ≤ η := by intro r hr; rw [hr, abs_zero]; exact h0
  unfold segPoint edgeIdx
  dsimp only
  rcases hb with rfl | rfl | rfl | rfl
  · exact ⟨(d, a), by simp [Face.edges], 1 - vs, by linarith, by linarith, z0 (by ring), z0 (by ring)⟩
  · exact ⟨(b, c), by simp [Face.edges], vs, hv.1, hv.2, sm hv.1 hv.2 hx (by ring),
      sm hv.1 hv.2 hy (by ring)⟩
  · exact ⟨(a, b), by simp [Face.edges], us, hu.1, hu.2, z0 (by ring), z0 (by ring)⟩
  · exact ⟨(c, d), by simp [Face.edges], 1 - us, by linarith, by linarith, sm hu.1 hu.2 hx (by ring),
      sm hu.1 hu.2 hy (by ring)⟩

theorem tri_edge {g : Grid ℝ} {a b c : Vec3 ℝ} {us vs : ℝ} (hu : 0 ≤ us) (hv : 0 ≤ vs)
    (hs : us + vs ≤ 1) (hb : us = 0 ∨ vs = 0 ∨ us + vs = 1) :
    ∃ e ∈ (Face.tri a b c).edges, ∃ w : ℝ, 0 ≤ w ∧ w ≤ 1 ∧
      |(segPoint (idx g e.1) (idx g e.2) w).x -
        ((idx g a).x + us * (edgeIdx g a b).x + vs * (edgeIdx g a c).x)| ≤ 0 ∧
      |(segPoint (idx g e.1) (idx g e.2) w).y -
        ((idx g a).y + us * (edgeIdx g a b).y + vs * (edgeIdx g a c).y)| ≤ 0 := by
  have z0 : ∀ {r : ℝ}, r = 0 → |r| ≤ 0 := by intro r hr; rw [hr, abs_zero]
  unfold segPoint edgeIdx
  dsimp only
  rcases hb with rfl | rfl | h
  · exact ⟨(c, a), by simp [Face.edges], 1 - vs, by linarith, by linarith, z0 (by ring), z0 (by ring)⟩
  · exact ⟨(a, b), by simp [Face.edges], us, hu, by linarith, z0 (by ring), z0 (by ring)⟩
  · obtain rfl : us = 1 - vs := by linarith
    exact ⟨(b, c), by simp [Face.edges], vs, hv, by linarith, z0 (by ring), z0 (by ring)⟩

/-- If the plane is vertical, one can leave any bounded set of coefficients without moving
horizontally. -/
theorem still_way {ab ad : Vec3 ℝ} (h : hDet ab ad = 0) (u0 v0 : ℝ) : ∃ u1 v1 : ℝ,
    (u1 < 0 ∨ 1 < u1 ∨ v1 < 0 ∨ 1 < v1) ∧ (∀ A : ℝ, A + u1 * ab.x + v1 * ad.x = A + u0 * ab.x + v0 * ad.x) ∧
      (∀ A : ℝ, A + u1 * ab.y + v1 * ad.y = A + u0 * ab.y + v0 * ad.y) := by
  unfold hDet at h
  -- a direction that does not move horizontally
  obtain ⟨p, q, hpq, ex, ey⟩ : ∃ p q : ℝ, (p ≠ 0 ∨ q ≠ 0) ∧ p * ab.x + q * ad.x = 0 ∧
      p * ab.y + q * ad.y = 0 := by
    by_cases h1 : ab.x = 0 ∧ ab.y = 0
    · exact ⟨1, 0, .inl one_ne_zero, by rw [h1.1]; ring, by rw [h1.2]; ring⟩
    · by_cases h2 : ab.x = 0
      · have h3 : ab.y ≠ 0 := fun h3 => h1 ⟨h2, h3⟩
        refine ⟨ad.y, -ab.y, .inr (neg_ne_zero.mpr h3), by linarith, by ring⟩
      · exact ⟨ad.x, -ab.x, .inr (neg_ne_zero.mpr h2), by ring, by linarith⟩
  rcases hpq with hp | hq
  · refine ⟨u0 + (2 - u0) / p * p, v0 + (2 - u0) / p * q, .inr (.inl ?_), fun A => ?_, fun A => ?_⟩
    · rw [div_mul_cancel₀ _ hp]; linarith
    · linear_combination ((2 - u0) / p) * ex
    · linear_combination ((2 - u0) / p) * ey
  · refine ⟨u0 + (2 - v0) / q * p, v0 + (2 - v0) / q * q, .inr (.inr (.inr ?_)), fun A => ?_, fun A => ?_⟩
    · rw [div_mul_cancel₀ _ hq]; linarith
    · linear_combination ((2 - v0) / q) * ex
    · linear_combination ((2 - v0) / q) * ey

theorem exists_col (p : ℝ) : ∃ m : ℤ, |p - m| ≤ 1 / 2 := ⟨round p, abs_sub_round p⟩

/-- Every point of a face has an occupied column next to it, also next to each point not more than `r`
away. -/
theorem face_cover {g : Grid ℝ} {f : Face ℝ} {tol η δ : ℝ} (ht : 0 ≤ tol) {occ : ℤ → ℤ → Prop}
    (HE : ∀ e ∈ f.edges, ∀ u : ℝ, 0 ≤ u → u ≤ 1 → ∃ i j : ℤ,
      |(segPoint (idx g e.1) (idx g e.2) u).x - i| ≤ 1 / 2 ∧
      |(segPoint (idx g e.1) (idx g e.2) u).y - j| ≤ 1 / 2 ∧ occ i j)
    (HI : f.Flat g → ∀ P, f.Inner g tol P → f.InBox g P → ∀ m n : ℤ, P.x = m + 1 / 2 →
      P.y = n + 1 / 2 → ∀ i j, (i = m ∨ i = m + 1) → (j = n ∨ j = n + 1) → occ i j)
    (hT : f.Tight g tol η δ) (hη : 0 ≤ η) (hη2 : η < 1 / 2) (hδ : 0 ≤ δ) (hδ2 : δ < 1 / 2) {P : Vec3 ℝ} (hP : f.Whole g P)
    {x y r : ℝ} (hx : |x - P.x| ≤ r) (hy : |y - P.y| ≤ r) (hr : r + δ < 1) :
    ∃ i j : ℤ, occ i j ∧ |x - i| < 3 / 2 ∧ |y - j| < 3 / 2 := by
  cases hP with
  | edge h =>
    obtain ⟨e, he, u, u0, u1, rfl⟩ := h
    obtain ⟨i, j, h1, h2, ho⟩ := HE e he u u0 u1
    have z : ∀ p : ℝ, |p - p| ≤ δ := fun p => by rw [sub_self, abs_zero]; exact hδ
    exact ⟨i, j, ho, near_of_still hx hr (z _) h1, near_of_still hy hr (z _) h2⟩
  | @quad a b c d u0 v0 hu hv =>
    obtain ⟨⟨sx, sy⟩, dx, dy⟩ := hT
    obtain ⟨m, hm⟩ := exists_col (planePoint (idx g a) (edgeIdx g a b) (edgeIdx g a d) u0 v0).x
    obtain ⟨n, hn⟩ := exists_col (planePoint (idx g a) (edgeIdx g a b) (edgeIdx g a d) u0 v0).y
    have finish : ∀ u1 v1, ¬ RectMargin tol u1 v1 → ∃ t : ℝ, (0 ≤ t ∧ t ≤ 1) ∧ ∃ (i j : ℤ) (ex ey : ℝ),
        occ i j ∧ |ex - i| ≤ 1 / 2 ∧ |ey - j| ≤ 1 / 2 ∧
        |ex - (((idx g a).x + u0 * (edgeIdx g a b).x + v0 * (edgeIdx g a d).x) + t *
          (((idx g a).x + u1 * (edgeIdx g a b).x + v1 * (edgeIdx g a d).x) -
            ((idx g a).x + u0 * (edgeIdx g a b).x + v0 * (edgeIdx g a d).x)))| ≤ δ ∧
        |ey - (((idx g a).y + u0 * (edgeIdx g a b).y + v0 * (edgeIdx g a d).y) + t *
          (((idx g a).y + u1 * (edgeIdx g a b).y + v1 * (edgeIdx g a d).y) -
            ((idx g a).y + u0 * (edgeIdx g a b).y + v0 * (edgeIdx g a d).y)))| ≤ δ := by
      intro u1 v1 hm
      obtain ⟨t, us, vs, htt, hus, hvs, hb, d1, d2⟩ := exit_quad ht hu hv hm
      obtain ⟨e, he, w, w0, w1, ex, ey⟩ := quad_edge sx sy hus hvs hb
      obtain ⟨i, j, i1, j1, ho⟩ := HE e he w w0 w1
      exact ⟨t, htt, i, j, _, _, ho, i1, j1, way_close d1 d2 ex dx, way_close d1 d2 ey dy⟩
    by_cases hflat : hDet (edgeIdx g a b) (edgeIdx g a d) = 0
    · obtain ⟨u1, v1, ho, kx, ky⟩ := still_way hflat u0 v0
      obtain ⟨t, -, i, j, ex, ey, hoc, i1, j1, k1, k2⟩ := finish u1 v1 (by
        unfold RectMargin
        rintro ⟨a1, a2, a3, a4⟩
        rcases ho with h | h | h | h <;> linarith)
      rw [kx, sub_self, mul_zero, add_zero] at k1
      rw [ky, sub_self, mul_zero, add_zero] at k2
      exact ⟨i, j, hoc, near_of_still hx hr k1 i1, near_of_still hy hr k2 j1⟩
    · obtain ⟨q1, q2⟩ := coef_solve hflat (a := idx g a) ((cornerToward m x : ℝ) + 1 / 2)
        ((cornerToward n y : ℝ) + 1 / 2)
      generalize coefAB (edgeIdx g a b) (edgeIdx g a d) (idx g a) ((cornerToward m x : ℝ) + 1 / 2)
        ((cornerToward n y : ℝ) + 1 / 2) = u1 at q1 q2
      generalize coefAD (edgeIdx g a b) (edgeIdx g a d) (idx g a) ((cornerToward m x : ℝ) + 1 / 2)
        ((cornerToward n y : ℝ) + 1 / 2) = v1 at q1 q2
      by_cases hmar : RectMargin tol u1 v1
      · have hu1 : 0 ≤ u1 ∧ u1 ≤ 1 := ⟨by linarith [hmar.1], by linarith [hmar.2.1]⟩
        have hv1 : 0 ≤ v1 ∧ v1 ≤ 1 := ⟨by linarith [hmar.2.2.1], by linarith [hmar.2.2.2]⟩
        refine ⟨m, n, HI hflat _ (.quad hmar) ?_ _ _ q1 q2 m n (cornerToward_cases m x)
          (cornerToward_cases n y), ?_, ?_⟩
        · unfold Face.InBox Face.vertices
          simp only [List.mem_cons, List.not_mem_nil, or_false, exists_eq_or_imp, exists_eq_left]
          exact ⟨⟨quad_lo hu1 hv1 rfl sx hη2, quad_hi hu1 hv1 rfl sx hη2⟩,
            quad_lo hu1 hv1 rfl sy hη2, quad_hi hu1 hv1 rfl sy hη2⟩
        · rw [abs_lt]
          constructor <;> linarith [abs_le.mp hm, abs_le.mp hx]
        · rw [abs_lt]
          constructor <;> linarith [abs_le.mp hn, abs_le.mp hy]
      · obtain ⟨t, htt, i, j, ex, ey, hoc, i1, j1, k1, k2⟩ := finish u1 v1 hmar
        unfold planePoint at hm hn hx hy
        dsimp only at hm hn hx hy
        rw [q1] at k1
        rw [q2] at k2
        exact ⟨i, j, hoc, near_of_way hm hx htt hδ hr hδ2 k1 i1, near_of_way hn hy htt hδ hr hδ2 k2 j1⟩
  | @tri a b c u0 v0 hu hv hs =>
    obtain ⟨dx, dy⟩ := hT
    obtain ⟨m, hm⟩ := exists_col (planePoint (idx g a) (edgeIdx g a b) (edgeIdx g a c) u0 v0).x
    obtain ⟨n, hn⟩ := exists_col (planePoint (idx g a) (edgeIdx g a b) (edgeIdx g a c) u0 v0).y
    have finish : ∀ u1 v1, ¬ TriMargin tol u1 v1 → ∃ t : ℝ, (0 ≤ t ∧ t ≤ 1) ∧ ∃ (i j : ℤ) (ex ey : ℝ),
        occ i j ∧ |ex - i| ≤ 1 / 2 ∧ |ey - j| ≤ 1 / 2 ∧
        |ex - (((idx g a).x + u0 * (edgeIdx g a b).x + v0 * (edgeIdx g a c).x) + t *
          (((idx g a).x + u1 * (edgeIdx g a b).x + v1 * (edgeIdx g a c).x) -
            ((idx g a).x + u0 * (edgeIdx g a b).x + v0 * (edgeIdx g a c).x)))| ≤ δ ∧
        |ey - (((idx g a).y + u0 * (edgeIdx g a b).y + v0 * (edgeIdx g a c).y) + t *
          (((idx g a).y + u1 * (edgeIdx g a b).y + v1 * (edgeIdx g a c).y) -
            ((idx g a).y + u0 * (edgeIdx g a b).y + v0 * (edgeIdx g a c).y)))| ≤ δ := by
      intro u1 v1 hm
      obtain ⟨t, us, vs, htt, hus, hvs, hsum, hb, d1, d2⟩ := exit_tri ht hu hv hs hm
      obtain ⟨e, he, w, w0, w1, ex, ey⟩ := tri_edge hus hvs hsum hb
      obtain ⟨i, j, i1, j1, ho⟩ := HE e he w w0 w1
      exact ⟨t, htt, i, j, _, _, ho, i1, j1, way_close d1 d2 ex (by rw [add_zero]; exact dx),
        way_close d1 d2 ey (by rw [add_zero]; exact dy)⟩
    by_cases hflat : hDet (edgeIdx g a b) (edgeIdx g a c) = 0
    · obtain ⟨u1, v1, ho, kx, ky⟩ := still_way hflat u0 v0
      obtain ⟨t, -, i, j, ex, ey, hoc, i1, j1, k1, k2⟩ := finish u1 v1 (by
        unfold TriMargin
        rintro ⟨a1, a2, a3⟩
        rcases ho with h | h | h | h <;> linarith)
      rw [kx, sub_self, mul_zero, add_zero] at k1
      rw [ky, sub_self, mul_zero, add_zero] at k2
      exact ⟨i, j, hoc, near_of_still hx hr k1 i1, near_of_still hy hr k2 j1⟩
    · obtain ⟨q1, q2⟩ := coef_solve hflat (a := idx g a) ((cornerToward m x : ℝ) + 1 / 2)
        ((cornerToward n y : ℝ) + 1 / 2)
      generalize coefAB (edgeIdx g a b) (edgeIdx g a c) (idx g a) ((cornerToward m x : ℝ) + 1 / 2)
        ((cornerToward n y : ℝ) + 1 / 2) = u1 at q1 q2
      generalize coefAD (edgeIdx g a b) (edgeIdx g a c) (idx g a) ((cornerToward m x : ℝ) + 1 / 2)
        ((cornerToward n y : ℝ) + 1 / 2) = v1 at q1 q2
      by_cases hmar : TriMargin tol u1 v1
      · have hu1 : 0 ≤ u1 := by linarith [hmar.1]
        have hv1 : 0 ≤ v1 := by linarith [hmar.2.1]
        have hs1 : u1 + v1 ≤ 1 := by linarith [hmar.2.2]
        refine ⟨m, n, HI hflat _ (.tri hmar) ?_ _ _ q1 q2 m n (cornerToward_cases m x)
          (cornerToward_cases n y), ?_, ?_⟩
        · unfold Face.InBox Face.vertices
          simp only [List.mem_cons, List.not_mem_nil, or_false, exists_eq_or_imp, exists_eq_left]
          exact ⟨⟨tri_lo hu1 hv1 hs1 rfl, tri_hi hu1 hv1 hs1 rfl⟩, tri_lo hu1 hv1 hs1 rfl,
            tri_hi hu1 hv1 hs1 rfl⟩
        · rw [abs_lt]
          constructor <;> linarith [abs_le.mp hm, abs_le.mp hx]
        · rw [abs_lt]
          constructor <;> linarith [abs_le.mp hn, abs_le.mp hy]
      · obtain ⟨t, htt, i, j, ex, ey, hoc, i1, j1, k1, k2⟩ := finish u1 v1 hmar
        unfold planePoint at hm hn hx hy
        dsimp only at hm hn hx hy
        rw [q1] at k1
        rw [q2] at k2
        exact ⟨i, j, hoc, near_of_way hm hx htt hδ hr hδ2 k1 i1, near_of_way hn hy htt hδ hr hδ2 k2 j1⟩

end Soil
