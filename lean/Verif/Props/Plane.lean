import Verif.Proof.Plane
import Verif.Model.Real
import Mathlib.Data.Rat.Floor

/-!
# Parallelograms and triangles (C17)
-/

set_option linter.unusedSectionVars false

namespace Soil

variable {K : Type} [Field K] [LinearOrder K] [FloorRing K] [Transc K] [IsStrictOrderedRing K]

theorem decompose_coef (test : K → K → Bool) (ab ad a : Vec3 K) (minX minY lenX lenY i j : ℤ) :
    (decompose test ab ad a minX minY lenX lenY).cAB i j =
      coefAB ab ad a (minX + 1 / 2 + i) (minY + 1 / 2 + j) ∧
    (decompose test ab ad a minX minY lenX lenY).cAD i j =
      coefAD ab ad a (minX + 1 / 2 + i) (minY + 1 / 2 + j) ∧
    (decompose test ab ad a minX minY lenX lenY).inside i j =
      test ((decompose test ab ad a minX minY lenX lenY).cAB i j)
        ((decompose test ab ad a minX minY lenX lenY).cAD i j) := by
  unfold decompose
  simp only [ex_add, ex_ofInt, ex_ofRat]
  push_cast
  simp

/-- **C17**. Decomposition of a parallelogram that is not vertical: the coefficients of each lattice
point reconstruct its horizontal position, the point is marked inside exactly if it is a point of the
parallelogram at least the margin away from the edges, and the number of cells is four times the number
of inside points. -/
theorem C17_rectangle (ab ad a : Vec3 K) (minX minY lenX lenY : ℤ) (tol : K) (h : hDet ab ad ≠ 0)
    (d : Decomp K) (hd : d = decomposeVectorRectangle ab ad a minX minY lenX lenY tol) :
    (∀ i j, (planePoint a ab ad (d.cAB i j) (d.cAD i j)).x = minX + 1 / 2 + i ∧
      (planePoint a ab ad (d.cAB i j) (d.cAD i j)).y = minY + 1 / 2 + j) ∧
    (∀ i j, d.inside i j = true ↔ ∃ u v, RectMargin tol u v ∧
      (planePoint a ab ad u v).x = minX + 1 / 2 + i ∧ (planePoint a ab ad u v).y = minY + 1 / 2 + j) ∧
    d.nCell = 4 * ((Finset.Ico 0 lenX ×ˢ Finset.Ico 0 lenY).filter fun p =>
      d.inside p.1 p.2 = true).card := by
  subst hd
  unfold decomposeVectorRectangle
  refine ⟨?_, ?_, decompose_nCell _ _ _ _ _ _ _ _⟩
  · intro i j
    obtain ⟨e1, e2, -⟩ := decompose_coef (inRect tol) ab ad a minX minY lenX lenY i j
    rw [e1, e2]; exact coef_solve h _ _
  · intro i j
    obtain ⟨e1, e2, e3⟩ := decompose_coef (inRect tol) ab ad a minX minY lenX lenY i j
    rw [e3, inRect_iff, e1, e2]
    constructor
    · intro hm; exact ⟨_, _, hm, coef_solve h _ _⟩
    · rintro ⟨u, v, hm, hx, hy⟩
      obtain ⟨c1, c2⟩ := coef_unique h hx hy
      rw [c1, c2]; exact hm

/-- **C17**. The same for triangles. -/
theorem C17_triangle (ab ac a : Vec3 K) (minX minY lenX lenY : ℤ) (tol : K) (h : hDet ab ac ≠ 0)
    (d : Decomp K) (hd : d = decomposeVectorTriangle ab ac a minX minY lenX lenY tol) :
    (∀ i j, (planePoint a ab ac (d.cAB i j) (d.cAD i j)).x = minX + 1 / 2 + i ∧
      (planePoint a ab ac (d.cAB i j) (d.cAD i j)).y = minY + 1 / 2 + j) ∧
    (∀ i j, d.inside i j = true ↔ ∃ u v, TriMargin tol u v ∧
      (planePoint a ab ac u v).x = minX + 1 / 2 + i ∧ (planePoint a ab ac u v).y = minY + 1 / 2 + j) ∧
    d.nCell = 4 * ((Finset.Ico 0 lenX ×ˢ Finset.Ico 0 lenY).filter fun p =>
      d.inside p.1 p.2 = true).card := by
  subst hd
  unfold decomposeVectorTriangle
  refine ⟨?_, ?_, decompose_nCell _ _ _ _ _ _ _ _⟩
  · intro i j
    obtain ⟨e1, e2, -⟩ := decompose_coef (inTri tol) ab ac a minX minY lenX lenY i j
    rw [e1, e2]; exact coef_solve h _ _
  · intro i j
    obtain ⟨e1, e2, e3⟩ := decompose_coef (inTri tol) ab ac a minX minY lenX lenY i j
    rw [e3, inTri_iff, e1, e2]
    constructor
    · intro hm; exact ⟨_, _, hm, coef_solve h _ _⟩
    · rintro ⟨u, v, hm, hx, hy⟩
      obtain ⟨c1, c2⟩ := coef_unique h hx hy
      rw [c1, c2]; exact hm

/-- **C17**. In a vertical plane no point is inside, for non-negative margins: only the edges are
listed.  (Exact arithmetic with `x / 0 = 0`; see DESIGN.md.) -/
theorem C17_vertical (ab ad a : Vec3 K) (minX minY lenX lenY : ℤ) (tol : K) (h : hDet ab ad = 0)
    (ht : 0 ≤ tol) :
    (∀ i j, (decomposeVectorRectangle ab ad a minX minY lenX lenY tol).inside i j = false) ∧
    (∀ i j, (decomposeVectorTriangle ab ad a minX minY lenX lenY tol).inside i j = false) := by
  constructor <;> intro i j
  · unfold decomposeVectorRectangle
    obtain ⟨e1, e2, e3⟩ := decompose_coef (inRect tol) ab ad a minX minY lenX lenY i j
    rw [e3, Bool.eq_false_iff]
    intro hc
    rw [inRect_iff, e1, (coef_det_zero h _ _).1] at hc
    exact absurd hc.1 (not_lt.mpr ht)
  · unfold decomposeVectorTriangle
    obtain ⟨e1, e2, e3⟩ := decompose_coef (inTri tol) ab ad a minX minY lenX lenY i j
    rw [e3, Bool.eq_false_iff]
    intro hc
    rw [inTri_iff, e1, (coef_det_zero h _ _).1] at hc
    exact absurd hc.1 (not_lt.mpr ht)

/-- **C17**. Rasterising the parallelogram spanned at `a` by `b` and `d` succeeds and writes exactly as
many cells into the preallocated list as it has room for.  Beside the cells of the four edges it lists
exactly the four cells around each vertical lattice line that meets the parallelogram within the margin
(and the bounding box of the four corners, which need not form a parallelogram), at the height where
the line meets the plane. -/
theorem C17_rectangle_cells (hs : SqrtLaw K) (a b c d : Vec3 K) (g : Grid K) (tol : K)
    (h : hDet (edgeIdx g a b) (edgeIdx g a d) ≠ 0) :
    ∃ N inner l1 l2 l3 l4, (∀ fuel, N ≤ fuel →
        calcRectanglePos fuel a b c d g tol = .ok (inner ++ l1 ++ l2 ++ l3 ++ l4) ∧
        calcLinePos fuel a b g = .ok l1 ∧ calcLinePos fuel b c g = .ok l2 ∧
        calcLinePos fuel c d g = .ok l3 ∧ calcLinePos fuel d a g = .ok l4) ∧
      ∀ x, x ∈ inner ↔ ∃ (m n : ℤ) (u v : K),
        (⌊min (min (min (idx g a).x (idx g b).x) (idx g c).x) (idx g d).x⌋ ≤ m ∧
          m < ⌈max (max (max (idx g a).x (idx g b).x) (idx g c).x) (idx g d).x⌉) ∧
        (⌊min (min (min (idx g a).y (idx g b).y) (idx g c).y) (idx g d).y⌋ ≤ n ∧
          n < ⌈max (max (max (idx g a).y (idx g b).y) (idx g c).y) (idx g d).y⌉) ∧
        RectMargin tol u v ∧
        (planePoint (idx g a) (edgeIdx g a b) (edgeIdx g a d) u v).x = m + 1 / 2 ∧
        (planePoint (idx g a) (edgeIdx g a b) (edgeIdx g a d) u v).y = n + 1 / 2 ∧
        Around m n (planePoint (idx g a) (edgeIdx g a b) (edgeIdx g a d) u v).z x := by
  obtain ⟨l1, h1, -⟩ := calcLinePos_box hs a b g
  obtain ⟨l2, h2, -⟩ := calcLinePos_box hs b c g
  obtain ⟨l3, h3, -⟩ := calcLinePos_box hs c d g
  obtain ⟨l4, h4, -⟩ := calcLinePos_box hs d a g
  obtain ⟨r, e1, hr⟩ := calcRectanglePos_spec a b c d g tol
  refine ⟨lineFuel (idx g a) (idx g b) + lineFuel (idx g b) (idx g c) +
    lineFuel (idx g c) (idx g d) + lineFuel (idx g d) (idx g a), r, l1, l2, l3, l4, ?_, ?_⟩
  · intro fuel hf
    have k1 := h1 fuel (by omega)
    have k2 := h2 fuel (by omega)
    have k3 := h3 fuel (by omega)
    have k4 := h4 fuel (by omega)
    exact ⟨e1 fuel l1 l2 l3 l4 k1 k2 k3 k4, k1, k2, k3, k4⟩
  · intro x
    rw [hr]
    constructor
    · rintro ⟨m, n, b1, b2, hi, ha⟩
      obtain ⟨q1, q2⟩ := coef_solve (a := idx g a) h ((m : K) + 1 / 2) ((n : K) + 1 / 2)
      exact ⟨m, n, _, _, b1, b2, (inRect_iff _ _ _).mp hi, q1, q2, ha⟩
    · rintro ⟨m, n, u, v, b1, b2, hi, hx, hy, ha⟩
      obtain ⟨c1, c2⟩ := coef_unique h hx hy
      refine ⟨m, n, b1, b2, ?_, ?_⟩
      · rw [c1, c2]; exact (inRect_iff _ _ _).mpr hi
      · rw [c1, c2]; exact ha

/-- **C17**. Rasterising a triangle that is not vertical, with a non-negative margin.  The bounding box
plays no role here. -/
theorem C17_triangle_cells (hs : SqrtLaw K) (a b c : Vec3 K) (g : Grid K) (tol : K) (ht : 0 ≤ tol)
    (h : hDet (edgeIdx g a b) (edgeIdx g a c) ≠ 0) :
    ∃ N inner l1 l2 l3, (∀ fuel, N ≤ fuel →
        calcTrianglePos fuel a b c g tol = .ok (inner ++ l1 ++ l2 ++ l3) ∧
        calcLinePos fuel a b g = .ok l1 ∧ calcLinePos fuel b c g = .ok l2 ∧
        calcLinePos fuel c a g = .ok l3) ∧
      ∀ x, x ∈ inner ↔ ∃ (m n : ℤ) (u v : K), TriMargin tol u v ∧
        (planePoint (idx g a) (edgeIdx g a b) (edgeIdx g a c) u v).x = m + 1 / 2 ∧
        (planePoint (idx g a) (edgeIdx g a b) (edgeIdx g a c) u v).y = n + 1 / 2 ∧
        Around m n (planePoint (idx g a) (edgeIdx g a b) (edgeIdx g a c) u v).z x := by
  obtain ⟨l1, h1, -⟩ := calcLinePos_box hs a b g
  obtain ⟨l2, h2, -⟩ := calcLinePos_box hs b c g
  obtain ⟨l3, h3, -⟩ := calcLinePos_box hs c a g
  obtain ⟨r, e1, hr⟩ := calcTrianglePos_spec a b c g tol
  refine ⟨lineFuel (idx g a) (idx g b) + lineFuel (idx g b) (idx g c) +
    lineFuel (idx g c) (idx g a), r, l1, l2, l3, ?_, ?_⟩
  · intro fuel hf
    have k1 := h1 fuel (by omega)
    have k2 := h2 fuel (by omega)
    have k3 := h3 fuel (by omega)
    exact ⟨e1 fuel l1 l2 l3 k1 k2 k3, k1, k2, k3⟩
  · -- a convex combination lies in the box
    have box : ∀ {p q r u v x : K} {m : ℤ}, 0 ≤ u → 0 ≤ v → u + v ≤ 1 →
        p + u * (q - p) + v * (r - p) = x → x = m + 1 / 2 →
        ⌊min (min p q) r⌋ ≤ m ∧ m < ⌈max (max p q) r⌉ := by
      intro p q r u v x m hu hv huv hx hm
      have hmin : min (min p q) r ≤ x := by
        set z := min (min p q) r
        have h1 : z ≤ p := (min_le_left _ _).trans (min_le_left _ _)
        have h2 : z ≤ q := (min_le_left _ _).trans (min_le_right _ _)
        have h3 : z ≤ r := min_le_right _ _
        nlinarith [mul_nonneg (sub_nonneg.mpr huv) (sub_nonneg.mpr h1),
          mul_nonneg hu (sub_nonneg.mpr h2), mul_nonneg hv (sub_nonneg.mpr h3)]
      have hmax : x ≤ max (max p q) r := by
        set z := max (max p q) r
        have h1 : p ≤ z := (le_max_left _ _).trans (le_max_left _ _)
        have h2 : q ≤ z := (le_max_right _ _).trans (le_max_left _ _)
        have h3 : r ≤ z := le_max_right _ _
        nlinarith [mul_nonneg (sub_nonneg.mpr huv) (sub_nonneg.mpr h1),
          mul_nonneg hu (sub_nonneg.mpr h2), mul_nonneg hv (sub_nonneg.mpr h3)]
      constructor
      · have h1 : ((⌊min (min p q) r⌋ : ℤ) : K) < ((m + 1 : ℤ) : K) := by
          have := Int.floor_le (min (min p q) r)
          push_cast; linarith
        have : ⌊min (min p q) r⌋ < m + 1 := by exact_mod_cast h1
        omega
      · rw [Int.lt_ceil]
        linarith
    intro x
    rw [hr]
    constructor
    · rintro ⟨m, n, b1, b2, hi, ha⟩
      obtain ⟨q1, q2⟩ := coef_solve (a := idx g a) h ((m : K) + 1 / 2) ((n : K) + 1 / 2)
      exact ⟨m, n, _, _, (inTri_iff _ _ _).mp hi, q1, q2, ha⟩
    · rintro ⟨m, n, u, v, hi, hx, hy, ha⟩
      obtain ⟨c1, c2⟩ := coef_unique h hx hy
      obtain ⟨i1, i2, i3⟩ := hi
      refine ⟨m, n, box (by linarith) (by linarith) (by linarith) hx rfl,
        box (by linarith) (by linarith) (by linarith) hy rfl, ?_, ?_⟩
      · rw [c1, c2]; exact (inTri_iff _ _ _).mpr ⟨i1, i2, i3⟩
      · rw [c1, c2]; exact ha

-- a unit-cell parallelogram with some points inside
example : hDet (⟨4, 1, 2⟩ : Vec3 ℚ) ⟨0, 3, 1⟩ ≠ 0 := by norm_num [hDet]
example : (decomposeVectorRectangle (⟨4, 1, 2⟩ : Vec3 ℚ) ⟨0, 3, 1⟩ ⟨1, 1, 0⟩ 1 1 4 4 (1 / 100)).nCell =
    48 := by decide +kernel
example : (decomposeVectorTriangle (⟨4, 1, 2⟩ : Vec3 ℚ) ⟨0, 3, 1⟩ ⟨1, 1, 0⟩ 1 1 4 4 (1 / 100)).nCell =
    24 := by decide +kernel
-- an edge that is vertical makes the plane vertical
example : hDet (⟨4, 1, 2⟩ : Vec3 ℚ) ⟨0, 0, 1⟩ = 0 := by norm_num [hDet]

end Soil
