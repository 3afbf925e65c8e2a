import Verif.Proof.Line
import Verif.Spec.Plane
import Verif.Spec.State
import Mathlib.Tactic.LinearCombination

/-! # Decomposition of planes -/

set_option linter.unusedSectionVars false
set_option linter.unusedSimpArgs false

namespace Soil

variable {K : Type} [Field K] [LinearOrder K] [FloorRing K] [Transc K] [IsStrictOrderedRing K]

/-- the coefficients solve the linear system -/
theorem coef_solve {ab ad a : Vec3 K} (h : hDet ab ad ≠ 0) (x y : K) :
    a.x + coefAB ab ad a x y * ab.x + coefAD ab ad a x y * ad.x = x ∧
      a.y + coefAB ab ad a x y * ab.y + coefAD ab ad a x y * ad.y = y := by
  unfold coefAB coefAD
  simp only [ex_sub, ex_mul, ex_div, ex_add, ex_neg]
  change ab.x * ad.y - ab.y * ad.x ≠ 0 at h
  generalize hd : ab.x * ad.y - ab.y * ad.x = D at h ⊢
  constructor
  · field_simp; linear_combination (x - a.x) * hd
  · field_simp; linear_combination (y - a.y) * hd

/-- and are the only solution -/
theorem coef_unique {ab ad a : Vec3 K} (h : hDet ab ad ≠ 0) {x y u v : K}
    (hx : a.x + u * ab.x + v * ad.x = x) (hy : a.y + u * ab.y + v * ad.y = y) :
    coefAB ab ad a x y = u ∧ coefAD ab ad a x y = v := by
  subst hx hy
  unfold coefAB coefAD
  simp only [ex_sub, ex_mul, ex_div, ex_add, ex_neg]
  change ab.x * ad.y - ab.y * ad.x ≠ 0 at h
  generalize hd : ab.x * ad.y - ab.y * ad.x = D at h ⊢
  constructor
  · field_simp; linear_combination u * hd
  · field_simp; linear_combination v * hd

/-- in exact arithmetic with `x / 0 = 0` -/
theorem coef_det_zero {ab ad a : Vec3 K} (h : hDet ab ad = 0) (x y : K) :
    coefAB ab ad a x y = 0 ∧ coefAD ab ad a x y = 0 := by
  unfold coefAB coefAD
  simp only [ex_sub, ex_mul, ex_div, ex_add, ex_neg]
  change ab.x * ad.y - ab.y * ad.x = 0 at h
  rw [h]; simp

theorem inRect_iff (tol u v : K) : inRect tol u v = true ↔ RectMargin tol u v := by
  unfold inRect RectMargin
  simp only [ex_lt, ex_sub, ex_ofRat, Bool.and_eq_true, decide_eq_true_eq]
  push_cast
  tauto

theorem inTri_iff (tol u v : K) : inTri tol u v = true ↔ TriMargin tol u v := by
  unfold inTri TriMargin
  simp only [ex_lt, ex_sub, ex_add, ex_ofRat, Bool.and_eq_true, decide_eq_true_eq]
  push_cast
  tauto

theorem fold_count {α : Type*} (f : α → Bool) (l : List α) (n : ℕ) :
    l.foldl (fun n p => if f p then n + 4 else n) n = n + 4 * (l.filter f).length := by
  induction l generalizing n with
  | nil => simp
  | cons x l ih =>
    rw [List.foldl_cons, ih]
    by_cases h : f x = true
    · rw [if_pos h, List.filter_cons_of_pos h, List.length_cons]; ring
    · rw [if_neg h, List.filter_cons_of_neg h]

theorem decompose_nCell (test : K → K → Bool) (ab ad a : Vec3 K) (minX minY lenX lenY : ℤ) :
    (decompose test ab ad a minX minY lenX lenY).nCell =
      4 * ((Finset.Ico 0 lenX ×ˢ Finset.Ico 0 lenY).filter fun p =>
        (decompose test ab ad a minX minY lenX lenY).inside p.1 p.2 = true).card := by
  set d := decompose test ab ad a minX minY lenX lenY with hd
  have h1 : d.nCell = 4 * ((Area.mk 0 lenX 0 lenY).cells.filter fun p => d.inside p.1 p.2).length := by
    rw [hd]; unfold decompose; dsimp only
    rw [fold_count (fun p : ℤ × ℤ => test _ _)]; simp
  rw [h1]
  congr 1
  rw [← List.toFinset_card_of_nodup ((Area.nodup_cells _).filter _)]
  congr 1
  ext p
  simp only [List.mem_toFinset, List.mem_filter, Area.mem_cells, Finset.mem_filter, Finset.mem_product,
    Finset.mem_Ico]
  tauto

/-- the inner cells: always computed, four per inside corner -/
theorem innerCells_ok (d : Decomp K) (aZ abZ adZ : K) (minX minY : ℤ) (l : List (ℤ × ℤ)) :
    ∃ r, innerCells d aZ abZ adZ minX minY l = .ok r ∧
      r.length = 4 * (l.filter fun p => d.inside (p.1 - minX) (p.2 - minY)).length ∧
      ∀ c, c ∈ r ↔ ∃ p ∈ l, d.inside (p.1 - minX) (p.2 - minY) = true ∧
        c ∈ fourCells p.1 p.2 ⌈aZ + d.cAB (p.1 - minX) (p.2 - minY) * abZ +
          d.cAD (p.1 - minX) (p.2 - minY) * adZ⌉ := by
  induction l with
  | nil => exact ⟨[], rfl, rfl, by simp⟩
  | cons p l ih =>
    obtain ⟨r, h1, h2, h3⟩ := ih
    obtain ⟨ii, jj⟩ := p
    unfold innerCells
    by_cases h : d.inside (ii - minX) (jj - minY) = true
    · rw [if_pos h]
      simp only [ex_ceil, ex_add, ex_mul, castInt_exact, truncZ_intCast, h1, ok_bind]
      refine ⟨_, rfl, ?_, ?_⟩
      · rw [List.filter_cons_of_pos (by exact h), List.length_append, h2]
        simp [fourCells]; ring
      · intro c
        rw [List.mem_append, h3]
        simp only [List.mem_cons, exists_eq_or_imp, h, true_and]
    · rw [if_neg h]
      refine ⟨r, h1, ?_, ?_⟩
      · rw [h2, List.filter_cons_of_neg (by exact h)]
      · intro c
        rw [h3]
        simp only [List.mem_cons, exists_eq_or_imp, h, false_and, false_or]
        simp

theorem filter_shift (f : ℤ → ℤ → Bool) (minX maxX minY maxY : ℤ) :
    ((Area.mk minX maxX minY maxY).cells.filter fun p => f (p.1 - minX) (p.2 - minY)).length =
      ((Finset.Ico 0 (maxX - minX) ×ˢ Finset.Ico 0 (maxY - minY)).filter fun p =>
        f p.1 p.2 = true).card := by
  rw [← List.toFinset_card_of_nodup ((Area.nodup_cells _).filter _)]
  apply Finset.card_bij (fun p _ => (p.1 - minX, p.2 - minY))
  · intro p hp
    simp only [List.mem_toFinset, List.mem_filter, Area.mem_cells, Finset.mem_filter,
      Finset.mem_product, Finset.mem_Ico] at hp ⊢
    exact ⟨⟨⟨by omega, by omega⟩, by omega, by omega⟩, hp.2⟩
  · intro p _ q _ h
    simp only [Prod.mk.injEq] at h
    ext <;> omega
  · intro p hp
    simp only [List.mem_toFinset, List.mem_filter, Area.mem_cells, Finset.mem_filter,
      Finset.mem_product, Finset.mem_Ico] at hp ⊢
    refine ⟨(p.1 + minX, p.2 + minY), ?_, by ext <;> simp⟩
    simp only [add_sub_cancel_right]
    exact ⟨⟨by omega, by omega, by omega, by omega⟩, hp.2⟩

theorem fillBuffer_exact (l : List Cell3) : fillBuffer l.length l = .ok l := by
  unfold fillBuffer
  rw [guardOob_of le_rfl, Nat.sub_self]
  simp

theorem edgeInd_eq (g : Grid K) (a b : Vec3 K) : edgeInd g a b = edgeIdx g a b := by
  unfold edgeInd edgeIdx idx
  simp only [ex_sub, ex_div, Vec3.mk.injEq]
  refine ⟨?_, ?_, ?_⟩ <;> ring

theorem boundingInt_eq (x : K) (l : List K) :
    boundingInt x l = .ok (⌊l.foldl min x⌋, ⌈l.foldl max x⌉) := by
  unfold boundingInt
  have h1 : (FOps.minL x l : K) = l.foldl min x := by
    unfold FOps.minL; congr 1; funext a b; exact ex_min a b
  have h2 : (FOps.maxL x l : K) = l.foldl max x := by
    unfold FOps.maxL; congr 1; funext a b; exact ex_max a b
  simp only [h1, h2, ex_floor, ex_ceil, castInt_exact, truncZ_intCast, ok_bind]
  rfl

/-- the inner part common to rectangles and triangles -/
theorem inner_spec (test : K → K → Bool) (ab ad a : Vec3 K) (minX maxX minY maxY : ℤ) :
    ∃ r, (do
        let inner ← innerCells (decompose test ab ad a minX minY (maxX - minX) (maxY - minY)) a.z ab.z
          ad.z minX minY (Area.mk minX maxX minY maxY).cells
        fillBuffer (decompose test ab ad a minX minY (maxX - minX) (maxY - minY)).nCell inner
          : M (List Cell3)) = .ok r ∧
      innerCells (decompose test ab ad a minX minY (maxX - minX) (maxY - minY)) a.z ab.z ad.z minX minY
        (Area.mk minX maxX minY maxY).cells = .ok r ∧
      r.length = (decompose test ab ad a minX minY (maxX - minX) (maxY - minY)).nCell ∧
      ∀ c, c ∈ r ↔ ∃ m n : ℤ, minX ≤ m ∧ m < maxX ∧ minY ≤ n ∧ n < maxY ∧
        test (coefAB ab ad a (m + 1 / 2) (n + 1 / 2)) (coefAD ab ad a (m + 1 / 2) (n + 1 / 2)) = true ∧
        Around m n (a.z + coefAB ab ad a (m + 1 / 2) (n + 1 / 2) * ab.z +
          coefAD ab ad a (m + 1 / 2) (n + 1 / 2) * ad.z) c := by
  set d := decompose test ab ad a minX minY (maxX - minX) (maxY - minY) with hd
  obtain ⟨r, h1, h2, h3⟩ := innerCells_ok d a.z ab.z ad.z minX minY (Area.mk minX maxX minY maxY).cells
  have hlen : r.length = d.nCell := by
    rw [h2, filter_shift, hd, decompose_nCell]
  have hcoef : ∀ m n : ℤ, d.cAB (m - minX) (n - minY) = coefAB ab ad a (m + 1 / 2) (n + 1 / 2) ∧
      d.cAD (m - minX) (n - minY) = coefAD ab ad a (m + 1 / 2) (n + 1 / 2) := by
    intro m n
    rw [hd]; unfold decompose; dsimp only
    simp only [ex_add, ex_ofInt, ex_ofRat]
    have e1 : (minX : K) + ((1 / 2 : ℚ) : K) + ((m - minX : ℤ) : K) = m + 1 / 2 := by push_cast; ring
    have e2 : (minY : K) + ((1 / 2 : ℚ) : K) + ((n - minY : ℤ) : K) = n + 1 / 2 := by push_cast; ring
    rw [e1, e2]; exact ⟨rfl, rfl⟩
  have hin : ∀ m n : ℤ, d.inside (m - minX) (n - minY) =
      test (coefAB ab ad a (m + 1 / 2) (n + 1 / 2)) (coefAD ab ad a (m + 1 / 2) (n + 1 / 2)) := by
    intro m n
    obtain ⟨e1, e2⟩ := hcoef m n
    rw [← e1, ← e2]; rfl
  refine ⟨r, ?_, h1, hlen, ?_⟩
  · rw [h1, ok_bind, ← hlen]; exact fillBuffer_exact r
  intro c
  rw [h3]
  constructor
  · rintro ⟨⟨m, n⟩, hp, hi, hc⟩
    rw [Area.mem_cells] at hp
    dsimp only at hp hi hc
    refine ⟨m, n, hp.1, hp.2.1, hp.2.2.1, hp.2.2.2, by rw [← hin]; exact hi, ?_⟩
    rw [(hcoef m n).1, (hcoef m n).2] at hc
    unfold fourCells at hc
    unfold Around
    have z1 := Int.le_ceil (a.z + coefAB ab ad a (m + 1 / 2) (n + 1 / 2) * ab.z +
          coefAD ab ad a (m + 1 / 2) (n + 1 / 2) * ad.z)
    have z2 := Int.ceil_lt_add_one (a.z + coefAB ab ad a (m + 1 / 2) (n + 1 / 2) * ab.z +
          coefAD ab ad a (m + 1 / 2) (n + 1 / 2) * ad.z)
    simp only [List.mem_cons, List.not_mem_nil, or_false] at hc
    rcases hc with rfl | rfl | rfl | rfl <;> refine ⟨by simp, by simp, ?_, ?_⟩ <;> dsimp only <;> linarith
  · rintro ⟨m, n, g1, g2, g3, g4, ht, ⟨a1, a2, a3, a4⟩⟩
    refine ⟨(m, n), Area.mem_cells.mpr ⟨g1, g2, g3, g4⟩, by dsimp only; rw [hin]; exact ht, ?_⟩
    dsimp only
    rw [(hcoef m n).1, (hcoef m n).2]
    have : ⌈a.z + coefAB ab ad a (m + 1 / 2) (n + 1 / 2) * ab.z +
          coefAD ab ad a (m + 1 / 2) (n + 1 / 2) * ad.z⌉ = c.2.2 := by
      rw [Int.ceil_eq_iff]; exact ⟨a3, a4⟩
    rw [this]
    obtain ⟨c1, c2, c3⟩ := c
    dsimp only at a1 a2
    unfold fourCells
    simp only [List.mem_cons, List.not_mem_nil, or_false, Prod.mk.injEq, and_true]
    omega

theorem calcRectanglePos_spec (a b c d : Vec3 K) (g : Grid K) (tol : K) :
    ∃ r, (∀ (fuel : ℕ) (l1 l2 l3 l4 : List Cell3), calcLinePos fuel a b g = .ok l1 →
        calcLinePos fuel b c g = .ok l2 → calcLinePos fuel c d g = .ok l3 →
        calcLinePos fuel d a g = .ok l4 →
        calcRectanglePos fuel a b c d g tol = .ok (r ++ l1 ++ l2 ++ l3 ++ l4)) ∧
      ∀ x, x ∈ r ↔ ∃ m n : ℤ,
        (⌊min (min (min (idx g a).x (idx g b).x) (idx g c).x) (idx g d).x⌋ ≤ m ∧
          m < ⌈max (max (max (idx g a).x (idx g b).x) (idx g c).x) (idx g d).x⌉) ∧
        (⌊min (min (min (idx g a).y (idx g b).y) (idx g c).y) (idx g d).y⌋ ≤ n ∧
          n < ⌈max (max (max (idx g a).y (idx g b).y) (idx g c).y) (idx g d).y⌉) ∧
        inRect tol (coefAB (edgeIdx g a b) (edgeIdx g a d) (idx g a) (m + 1 / 2) (n + 1 / 2))
          (coefAD (edgeIdx g a b) (edgeIdx g a d) (idx g a) (m + 1 / 2) (n + 1 / 2)) = true ∧
        Around m n ((idx g a).z +
          coefAB (edgeIdx g a b) (edgeIdx g a d) (idx g a) (m + 1 / 2) (n + 1 / 2) * (edgeIdx g a b).z +
          coefAD (edgeIdx g a b) (edgeIdx g a d) (idx g a) (m + 1 / 2) (n + 1 / 2) *
            (edgeIdx g a d).z) x := by
  unfold calcRectanglePos decomposeVectorRectangle
  simp only [toIndex_eq, edgeInd_eq, boundingInt_eq, ok_bind, List.foldl_cons, List.foldl_nil]
  obtain ⟨r, -, r1, r2, r3⟩ := inner_spec (inRect tol) (edgeIdx g a b) (edgeIdx g a d) (idx g a)
    ⌊min (min (min (idx g a).x (idx g b).x) (idx g c).x) (idx g d).x⌋
    ⌈max (max (max (idx g a).x (idx g b).x) (idx g c).x) (idx g d).x⌉
    ⌊min (min (min (idx g a).y (idx g b).y) (idx g c).y) (idx g d).y⌋
    ⌈max (max (max (idx g a).y (idx g b).y) (idx g c).y) (idx g d).y⌉
  refine ⟨r, ?_, ?_⟩
  · intro fuel l1 l2 l3 l4 h1 h2 h3 h4
    rw [r1, ok_bind, ← r2, fillBuffer_exact, ok_bind, h1, ok_bind, h2, ok_bind, h3, ok_bind, h4,
      ok_bind]
    rfl
  · intro x
    rw [r3]
    constructor
    · rintro ⟨m, n, g1, g2, g3, g4, g5, g6⟩
      exact ⟨m, n, ⟨g1, g2⟩, ⟨g3, g4⟩, g5, g6⟩
    · rintro ⟨m, n, ⟨g1, g2⟩, ⟨g3, g4⟩, g5, g6⟩
      exact ⟨m, n, g1, g2, g3, g4, g5, g6⟩

theorem calcTrianglePos_spec (a b c : Vec3 K) (g : Grid K) (tol : K) :
    ∃ r, (∀ (fuel : ℕ) (l1 l2 l3 : List Cell3), calcLinePos fuel a b g = .ok l1 →
        calcLinePos fuel b c g = .ok l2 → calcLinePos fuel c a g = .ok l3 →
        calcTrianglePos fuel a b c g tol = .ok (r ++ l1 ++ l2 ++ l3)) ∧
      ∀ x, x ∈ r ↔ ∃ m n : ℤ,
        (⌊min (min (idx g a).x (idx g b).x) (idx g c).x⌋ ≤ m ∧
          m < ⌈max (max (idx g a).x (idx g b).x) (idx g c).x⌉) ∧
        (⌊min (min (idx g a).y (idx g b).y) (idx g c).y⌋ ≤ n ∧
          n < ⌈max (max (idx g a).y (idx g b).y) (idx g c).y⌉) ∧
        inTri tol (coefAB (edgeIdx g a b) (edgeIdx g a c) (idx g a) (m + 1 / 2) (n + 1 / 2))
          (coefAD (edgeIdx g a b) (edgeIdx g a c) (idx g a) (m + 1 / 2) (n + 1 / 2)) = true ∧
        Around m n ((idx g a).z +
          coefAB (edgeIdx g a b) (edgeIdx g a c) (idx g a) (m + 1 / 2) (n + 1 / 2) * (edgeIdx g a b).z +
          coefAD (edgeIdx g a b) (edgeIdx g a c) (idx g a) (m + 1 / 2) (n + 1 / 2) *
            (edgeIdx g a c).z) x := by
  unfold calcTrianglePos decomposeVectorTriangle
  simp only [toIndex_eq, edgeInd_eq, boundingInt_eq, ok_bind, List.foldl_cons, List.foldl_nil]
  obtain ⟨r, -, r1, r2, r3⟩ := inner_spec (inTri tol) (edgeIdx g a b) (edgeIdx g a c) (idx g a)
    ⌊min (min (idx g a).x (idx g b).x) (idx g c).x⌋
    ⌈max (max (idx g a).x (idx g b).x) (idx g c).x⌉
    ⌊min (min (idx g a).y (idx g b).y) (idx g c).y⌋
    ⌈max (max (idx g a).y (idx g b).y) (idx g c).y⌉
  refine ⟨r, ?_, ?_⟩
  · intro fuel l1 l2 l3 h1 h2 h3
    rw [r1, ok_bind, ← r2, fillBuffer_exact, ok_bind, h1, ok_bind, h2, ok_bind, h3, ok_bind]
    rfl
  · intro x
    rw [r3]
    constructor
    · rintro ⟨m, n, g1, g2, g3, g4, g5, g6⟩
      exact ⟨m, n, ⟨g1, g2⟩, ⟨g3, g4⟩, g5, g6⟩
    · rintro ⟨m, n, ⟨g1, g2⟩, ⟨g3, g4⟩, g5, g6⟩
      exact ⟨m, n, g1, g2, g3, g4, g5, g6⟩

end Soil
