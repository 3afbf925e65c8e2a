import Verif.Proof.LineFlt
import Verif.Proof.Plane

/-! # Rasterisation of walls and `body_area_` in rounded arithmetic -/

namespace Soil

open FOps

section Any

variable {F : Type} [FOps F]

theorem minL_any (x : F) (l : List F) : FOps.minL x l ∈ x :: l := by
  unfold FOps.minL
  induction l generalizing x with
  | nil => simp
  | cons y l ih =>
    rw [List.foldl_cons]
    have h := ih (FOps.min x y)
    have e : FOps.min x y = x ∨ FOps.min x y = y := by unfold FOps.min; split_ifs <;> simp
    rcases e with e | e <;> rw [e] at h ⊢ <;> rcases List.mem_cons.mp h with h | h <;> simp [h]

theorem maxL_any (x : F) (l : List F) : FOps.maxL x l ∈ x :: l := by
  unfold FOps.maxL
  induction l generalizing x with
  | nil => simp
  | cons y l ih =>
    rw [List.foldl_cons]
    have h := ih (FOps.max x y)
    have e : FOps.max x y = x ∨ FOps.max x y = y := by unfold FOps.max; split_ifs <;> simp
    rcases e with e | e <;> rw [e] at h ⊢ <;> rcases List.mem_cons.mp h with h | h <;> simp [h]

theorem decompose_count (test : F → F → Bool) (ab ad a : Vec3 F) (minX maxX minY maxY : ℤ) :
    (decompose test ab ad a minX minY (maxX - minX) (maxY - minY)).nCell =
      4 * ((Area.mk minX maxX minY maxY).cells.filter fun p =>
        (decompose test ab ad a minX minY (maxX - minX) (maxY - minY)).inside (p.1 - minX) (p.2 - minY)).length := by
  set d := decompose test ab ad a minX minY (maxX - minX) (maxY - minY) with hd
  have h1 : d.nCell = 4 * ((Area.mk 0 (maxX - minX) 0 (maxY - minY)).cells.filter fun p => d.inside p.1 p.2).length := by
    rw [hd]; unfold decompose; dsimp only
    rw [fold_count (fun p : ℤ × ℤ => test _ _)]; simp
  rw [h1, filter_shift]
  congr 1
  rw [← List.toFinset_card_of_nodup ((Area.nodup_cells _).filter _)]
  congr 1
  ext p
  simp only [List.mem_toFinset, List.mem_filter, Area.mem_cells, Finset.mem_filter, Finset.mem_product,
    Finset.mem_Ico]
  tauto

theorem innerCells_any (d : Decomp F) (aZ abZ adZ : F) (minX minY : ℤ) (P : ℤ → Prop) (l : List (ℤ × ℤ))
    (h : ∀ c ∈ l, d.inside (c.1 - minX) (c.2 - minY) = true → ∃ k, castInt (FOps.ceil (FOps.add (FOps.add aZ
      (FOps.mul (d.cAB (c.1 - minX) (c.2 - minY)) abZ)) (FOps.mul (d.cAD (c.1 - minX) (c.2 - minY)) adZ))) = .ok k ∧ P k) :
    ∃ r, innerCells d aZ abZ adZ minX minY l = .ok r ∧
      r.length = 4 * (l.filter fun p => d.inside (p.1 - minX) (p.2 - minY)).length ∧
      ∀ t ∈ r, ∃ c ∈ l, (t.1 = c.1 ∨ t.1 = c.1 + 1) ∧ (t.2.1 = c.2 ∨ t.2.1 = c.2 + 1) ∧ P t.2.2 := by
  induction l with
  | nil => exact ⟨[], rfl, rfl, by simp⟩
  | cons p l ih =>
    obtain ⟨r, h1, h2, h3⟩ := ih fun c hc => h c (List.mem_cons_of_mem _ hc)
    obtain ⟨ii, jj⟩ := p
    unfold innerCells
    by_cases hi : d.inside (ii - minX) (jj - minY) = true
    · rw [if_pos hi]
      obtain ⟨k, hk, hP⟩ := h (ii, jj) List.mem_cons_self hi
      dsimp only at hk
      rw [hk, ok_bind, h1, ok_bind]
      refine ⟨_, rfl, ?_, ?_⟩
      · rw [List.filter_cons_of_pos (by exact hi), List.length_append, h2]
        simp [fourCells]; ring
      · intro t ht
        rcases List.mem_append.mp ht with ht | ht
        · refine ⟨(ii, jj), List.mem_cons_self, ?_⟩
          simp only [fourCells, List.mem_cons, List.not_mem_nil, or_false] at ht
          rcases ht with rfl | rfl | rfl | rfl <;> simp [hP]
        · obtain ⟨c, hc, hh⟩ := h3 t ht
          exact ⟨c, List.mem_cons_of_mem _ hc, hh⟩
    · rw [if_neg hi]
      refine ⟨r, h1, ?_, ?_⟩
      · rw [h2, List.filter_cons_of_neg (by exact hi)]
      · intro t ht
        obtain ⟨c, hc, hh⟩ := h3 t ht
        exact ⟨c, List.mem_cons_of_mem _ hc, hh⟩

end Any

variable {R : Rounding} {prec : ℕ} {u : ℚ} (A : Accurate R prec u)

theorem min_le_flt (x y : Flt R) : (FOps.min x y).val ≤ x.val ∧ (FOps.min x y).val ≤ y.val := by
  unfold FOps.min
  by_cases h : y.val < x.val
  · rw [if_pos (show FOps.lt y x = true from decide_eq_true (p := y.val < x.val) h)]
    exact ⟨h.le, le_rfl⟩
  · rw [if_neg (show ¬ FOps.lt y x = true from fun e => h (of_decide_eq_true (p := y.val < x.val) e))]
    exact ⟨le_rfl, not_lt.mp h⟩

theorem le_max_flt (x y : Flt R) : x.val ≤ (FOps.max x y).val ∧ y.val ≤ (FOps.max x y).val := by
  unfold FOps.max
  by_cases h : x.val < y.val
  · rw [if_pos (show FOps.lt x y = true from decide_eq_true (p := x.val < y.val) h)]
    exact ⟨h.le, le_rfl⟩
  · rw [if_neg (show ¬ FOps.lt x y = true from fun e => h (of_decide_eq_true (p := x.val < y.val) e))]
    exact ⟨le_rfl, not_lt.mp h⟩

theorem minL_le_flt (x : Flt R) (l : List (Flt R)) : ∀ v ∈ x :: l, (FOps.minL x l).val ≤ v.val := by
  unfold FOps.minL
  induction l generalizing x with
  | nil => simp
  | cons y l ih =>
    intro v hv
    rw [List.foldl_cons]
    have h := ih (FOps.min x y)
    have h0 := h _ List.mem_cons_self
    obtain ⟨m1, m2⟩ := min_le_flt x y
    rcases List.mem_cons.mp hv with rfl | hv
    · exact h0.trans m1
    · rcases List.mem_cons.mp hv with rfl | hv
      · exact h0.trans m2
      · exact h v (List.mem_cons_of_mem _ hv)

theorem le_maxL_flt (x : Flt R) (l : List (Flt R)) : ∀ v ∈ x :: l, v.val ≤ (FOps.maxL x l).val := by
  unfold FOps.maxL
  induction l generalizing x with
  | nil => simp
  | cons y l ih =>
    intro v hv
    rw [List.foldl_cons]
    have h := ih (FOps.max x y)
    have h0 := h _ List.mem_cons_self
    obtain ⟨m1, m2⟩ := le_max_flt x y
    rcases List.mem_cons.mp hv with rfl | hv
    · exact m1.trans h0
    · rcases List.mem_cons.mp hv with rfl | hv
      · exact m2.trans h0
      · exact h v (List.mem_cons_of_mem _ hv)

/-- Bounding box of a wall -/
theorem boundingInt_flt {B : ℤ} (hB : B < 2 ^ 28) {lo hi : ℚ} (h0 : 0 ≤ lo) (h1 : hi ≤ B) {x : Flt R} {l : List (Flt R)}
    (h : ∀ v ∈ x :: l, lo ≤ v.val ∧ v.val ≤ hi) :
    ∃ a b : ℤ, boundingInt x l = .ok (a, b) ∧ lo - 1 < a ∧ (b : ℚ) < hi + 1 := by
  have hm := h _ (minL_any x l)
  have hM := h _ (maxL_any x l)
  have f1 := Int.lt_floor_add_one (FOps.minL x l).val
  have f2 := Int.floor_le (FOps.minL x l).val
  have c1 := Int.ceil_lt_add_one (FOps.maxL x l).val
  have c2 := Int.le_ceil (FOps.maxL x l).val
  have i1 : 0 ≤ ⌊(FOps.minL x l).val⌋ := Int.floor_nonneg.mpr (by linarith)
  have i2 : ⌊(FOps.minL x l).val⌋ ≤ B := by
    have : (⌊(FOps.minL x l).val⌋ : ℚ) ≤ B := by linarith
    exact_mod_cast this
  have i3 : ⌈(FOps.maxL x l).val⌉ ≤ B := Int.ceil_le.mpr (by linarith)
  have i4 : 0 ≤ ⌈(FOps.maxL x l).val⌉ := Int.ceil_nonneg (by linarith)
  refine ⟨⌊(FOps.minL x l).val⌋, ⌈(FOps.maxL x l).val⌉, ?_, by linarith, by linarith⟩
  unfold boundingInt
  have e1 : castInt (FOps.floor (FOps.minL x l)) = .ok ⌊(FOps.minL x l).val⌋ := castInt_int ⌊(FOps.minL x l).val⌋ (by rw [abs_of_nonneg i1]; omega)
  have e2 : castInt (FOps.ceil (FOps.maxL x l)) = .ok ⌈(FOps.maxL x l).val⌉ := castInt_int ⌈(FOps.maxL x l).val⌉ (by rw [abs_of_nonneg i4]; omega)
  rw [e1, ok_bind, e2, ok_bind]
  rfl

include A

omit A in
/-- Indices are far below the precision. -/
theorem Small.tiny {B : ℤ} (hB : Small prec u B) (hu : 0 ≤ u) : u * B ≤ 1 / 96 := by
  have hb : (1 : ℚ) ≤ B := by exact_mod_cast hB.one
  have h6 : u * (12 * B) ≤ u * ((B + 3) * (B + 9)) := mul_le_mul_of_nonneg_left (by nlinarith) hu
  have := hB.room
  linarith

/-- Error of one operation after an error of the argument -/
theorem Accurate.err {x y e m : ℚ} (h : |x - y| ≤ e) (hm : |x| ≤ m) : |R.rnd x - y| ≤ e + u * m := by
  have h1 := A.rel x
  have h2 := abs_add_le (R.rnd x - x) (x - y)
  rw [sub_add_sub_cancel] at h2
  have := mul_le_mul_of_nonneg_left hm A.pos
  linarith

/-- Index of a height -/
theorem indexZ_flt {B H : ℤ} (hB : Small prec u B) {half : ℤ} (h0 : 0 ≤ half) (hH : 0 ≤ H) (hh : half + H ≤ B) {cz : ℚ} (hc : 0 < cz)
    {z : ℚ} (hz : |z| ≤ H * cz) :
    |R.rnd (R.rnd (R.rnd (z / cz) + R.rnd half) - R.rnd 1) - (half - 1 + z / cz)| ≤ 4 * (u * B) ∧
      ((half - 1 - H : ℤ) : ℚ) ≤ R.rnd (R.rnd (R.rnd (z / cz) + R.rnd half) - R.rnd 1) ∧
      R.rnd (R.rnd (R.rnd (z / cz) + R.rnd half) - R.rnd 1) ≤ ((half - 1 + H : ℤ) : ℚ) := by
  have hu := A.pos
  have hdig := hB.digits
  have hone := hB.one
  have hb1 : (1 : ℚ) ≤ B := by exact_mod_cast hone
  have hhq : (half : ℚ) + H ≤ B := by exact_mod_cast hh
  have h0q : (0 : ℚ) ≤ half := by exact_mod_cast h0
  have hHq : (0 : ℚ) ≤ H := by exact_mod_cast hH
  rw [A.one, A.binary.nat half (by rw [abs_of_nonneg h0]; omega)]
  have a0 : |z / cz| ≤ H := by rw [abs_div, abs_of_pos hc, div_le_iff₀ hc]; exact hz
  have a1 : |R.rnd (z / cz)| ≤ H := by
    have := A.binary.abs_le (x := z / cz) H 0 (by rw [abs_of_nonneg hH]; omega) (by simpa using a0)
    simpa using this
  obtain ⟨l1, l2⟩ := abs_le.mp a1
  have k : ∀ (n : ℤ) {x : ℚ}, |n| ≤ 2 ^ prec → x ≤ n → R.rnd x ≤ n := fun n x hn h => by
    have := A.binary.le (x := x) n 0 hn (by simpa using h)
    simpa using this
  have k' : ∀ (n : ℤ) {x : ℚ}, |n| ≤ 2 ^ prec → (n : ℚ) ≤ x → (n : ℚ) ≤ R.rnd x := fun n x hn h => by
    have := A.binary.ge (x := x) n 0 hn (by simpa using h)
    simpa using this
  have b2 := k (half + H) (x := R.rnd (z / cz) + half) (by rw [abs_le]; constructor <;> omega) (by push_cast; linarith)
  have b1 := k' (half - H) (x := R.rnd (z / cz) + half) (by rw [abs_le]; constructor <;> omega) (by push_cast; linarith)
  have c2 := k (half - 1 + H) (x := R.rnd (R.rnd (z / cz) + half) - 1) (by rw [abs_le]; constructor <;> omega)
    (by push_cast at b2 ⊢; linarith)
  have c1 := k' (half - 1 - H) (x := R.rnd (R.rnd (z / cz) + half) - 1) (by rw [abs_le]; constructor <;> omega)
    (by push_cast at b1 ⊢; linarith)
  refine ⟨?_, c1, c2⟩
  push_cast at b1 b2
  have e1 := A.err (x := z / cz) (y := z / cz) (e := 0) (m := B) (by simp) (by linarith)
  have e2 := A.err (x := R.rnd (z / cz) + half) (y := z / cz + half) (e := u * B) (m := B)
    (by rw [add_sub_add_right_eq_sub]; linarith) (by rw [abs_le]; constructor <;> linarith)
  have e3 := A.err (x := R.rnd (R.rnd (z / cz) + half) - 1) (y := half - 1 + z / cz) (e := 2 * (u * B)) (m := 2 * B)
    (by
      rw [show R.rnd (R.rnd (z / cz) + half) - 1 - (half - 1 + z / cz) = R.rnd (R.rnd (z / cz) + half) - (z / cz + half) by ring]
      linarith) (by rw [abs_le]; constructor <;> linarith)
  linarith

/-- Difference of heights in cells -/
theorem edgeZ_flt {B H : ℤ} (hB : Small prec u B) (hH : 0 ≤ H) (hh : 2 * H + 1 ≤ B) {cz : ℚ} (hc : 0 < cz)
    {z z' : ℚ} (hz : |z| ≤ H * cz) (hz' : |z'| ≤ H * cz) :
    |R.rnd (R.rnd (z' - z) / cz) - (z' / cz - z / cz)| ≤ 3 * (u * B) ∧ |R.rnd (R.rnd (z' - z) / cz)| ≤ B := by
  have hu := A.pos
  have hb1 : (1 : ℚ) ≤ B := by exact_mod_cast hB.one
  have hHq : (0 : ℚ) ≤ H := by exact_mod_cast hH
  have hhq : 2 * (H : ℚ) + 1 ≤ B := by exact_mod_cast hh
  have tiny := hB.tiny hu
  have d0 : |z' - z| ≤ 2 * H * cz := by
    have := abs_sub z' z
    linarith
  have d1 : |z' / cz - z / cz| ≤ 2 * H := by
    rw [← sub_div, abs_div, abs_of_pos hc, div_le_iff₀ hc]; exact d0
  have e1 : |R.rnd (z' - z) / cz - (z' / cz - z / cz)| ≤ u * B := by
    rw [← sub_div, ← sub_div, abs_div, abs_of_pos hc, div_le_iff₀ hc]
    have h1 := A.rel (z' - z)
    have h2 := mul_le_mul_of_nonneg_left d0 hu
    have h3 : u * (2 * H * cz) ≤ u * B * cz := by
      rw [mul_assoc u]
      refine mul_le_mul_of_nonneg_left (mul_le_mul_of_nonneg_right (by linarith) hc.le) hu
    linarith
  have m1 : |R.rnd (z' - z) / cz| ≤ 2 * B := by
    have h2 := abs_add_le (R.rnd (z' - z) / cz - (z' / cz - z / cz)) (z' / cz - z / cz)
    rw [sub_add_cancel] at h2
    linarith
  have e2 := A.err e1 m1
  refine ⟨by linarith, ?_⟩
  have h2 := abs_add_le (R.rnd (R.rnd (z' - z) / cz) - (z' / cz - z / cz)) (z' / cz - z / cz)
  rw [sub_add_cancel] at h2
  linarith

omit A in
/-- The exact height relative to the middle -/
theorem hull_flt {H c d α β δ : ℚ} (ha : |α| ≤ H) (hb : |β| ≤ H) (he : |δ| ≤ H)
    (c0 : 0 ≤ c) (c1 : c ≤ 1) (d0 : 0 ≤ d) (d1 : d ≤ 1) : |α + c * (β - α) + d * (δ - α)| ≤ 3 * H := by
  have t : ∀ f x : ℚ, |f| ≤ 1 → |x| ≤ H → |f * x| ≤ H := by
    intro f x hf hx
    rw [abs_mul]
    have := abs_nonneg x
    have := abs_nonneg f
    nlinarith
  have t1 := t (1 - c - d) α (by rw [abs_le]; constructor <;> linarith) ha
  have t2 := t c β (by rw [abs_of_nonneg c0]; exact c1) hb
  have t3 := t d δ (by rw [abs_of_nonneg d0]; exact d1) he
  have v1 := abs_add_le ((1 - c - d) * α + c * β) (d * δ)
  have v2 := abs_add_le ((1 - c - d) * α) (c * β)
  rw [show α + c * (β - α) + d * (δ - α) = (1 - c - d) * α + c * β + d * δ by ring]
  linarith

/-- Error of a product with a number between 0 and 1 -/
theorem mulerr_flt {B f X Y : ℚ} (f0 : 0 ≤ f) (f1 : f ≤ 1) (h1 : |X - Y| ≤ 3 * (u * B)) (h2 : |X| ≤ B) :
    |R.rnd (f * X) - f * Y| ≤ 4 * (u * B) ∧ |R.rnd (f * X)| ≤ 2 * B := by
  have hB : 0 ≤ B := (abs_nonneg X).trans h2
  have k1 : |f * X - f * Y| ≤ 3 * (u * B) := by
    rw [← mul_sub, abs_mul, abs_of_nonneg f0]
    have := abs_nonneg (X - Y)
    nlinarith
  have k2 : |f * X| ≤ B := by
    rw [abs_mul, abs_of_nonneg f0]
    have := abs_nonneg X
    nlinarith
  have k3 := A.err k1 k2
  refine ⟨by linarith, ?_⟩
  have k4 := A.err (x := f * X) (y := 0) (e := B) (m := B) (by simpa using k2) k2
  rw [sub_zero] at k4
  have := mul_le_mul_of_nonneg_right A.small hB
  linarith

/-- Error of the sum -/
theorem sumerr_flt {B I J X X' Y Y' : ℚ} (hI : |I - J| ≤ 4 * (u * B)) (hI' : |I| ≤ 2 * B) (hX : |X - X'| ≤ 4 * (u * B)) (hX' : |X| ≤ 2 * B)
    (hY : |Y - Y'| ≤ 4 * (u * B)) (hY' : |Y| ≤ 2 * B) : |R.rnd (R.rnd (I + X) + Y) - (J + X' + Y')| ≤ 23 * (u * B) := by
  have hB : 0 ≤ B := by have := (abs_nonneg X).trans hX'; linarith
  have m1 : |I + X| ≤ 4 * B := by have := abs_add_le I X; linarith
  have s1 := A.err (x := I + X) (y := J + X') (e := 8 * (u * B)) (m := 4 * B) (by
    rw [show I + X - (J + X') = (I - J) + (X - X') by ring]
    have := abs_add_le (I - J) (X - X')
    linarith) m1
  have s1' : |R.rnd (I + X)| ≤ 5 * B := by
    have := A.err (x := I + X) (y := 0) (e := 4 * B) (m := 4 * B) (by rw [sub_zero]; exact m1) m1
    rw [sub_zero] at this
    have := mul_le_mul_of_nonneg_right A.small hB
    linarith
  have s2 := A.err (x := R.rnd (I + X) + Y) (y := J + X' + Y') (e := 16 * (u * B)) (m := 7 * B) (by
    rw [show R.rnd (I + X) + Y - (J + X' + Y') = (R.rnd (I + X) - (J + X')) + (Y - Y') by ring]
    have := abs_add_le (R.rnd (I + X) - (J + X')) (Y - Y')
    linarith) (by have := abs_add_le (R.rnd (I + X)) Y; linarith)
  linarith

/-- The height of an inner cell -/
theorem innerHeight_flt {B H : ℤ} (hB : Small prec u B) {g : Grid (Flt R)} (hc : 0 < g.cellZ.val) (h0 : 0 ≤ g.halfZ) (hH : 0 ≤ H)
    (hh : g.halfZ + H ≤ B) (hh2 : 2 * H + 1 ≤ B) {a b e : Vec3 (Flt R)} (ha : |a.z.val| ≤ H * g.cellZ.val)
    (hb : |b.z.val| ≤ H * g.cellZ.val) (he : |e.z.val| ≤ H * g.cellZ.val) {c d : Flt R}
    (c0 : 0 ≤ c.val) (c1 : c.val ≤ 1) (d0 : 0 ≤ d.val) (d1 : d.val ≤ 1) :
    ∃ k, castInt (FOps.ceil (FOps.add (FOps.add (toIndex g a).z (FOps.mul c (edgeInd g a b).z))
      (FOps.mul d (edgeInd g a e).z))) = .ok k ∧ g.halfZ - 2 - 3 * H ≤ k ∧ k ≤ g.halfZ + 1 + 3 * H := by
  have tiny := hB.tiny A.pos
  have hb1 : (1 : ℚ) ≤ B := by exact_mod_cast hB.one
  have hHq : (0 : ℚ) ≤ H := by exact_mod_cast hH
  have hhq : (g.halfZ : ℚ) + H ≤ B := by exact_mod_cast hh
  have h0q : (0 : ℚ) ≤ g.halfZ := by exact_mod_cast h0
  obtain ⟨i1, i2, i3⟩ := indexZ_flt A hB h0 hH hh hc ha
  obtain ⟨p1, p2⟩ := edgeZ_flt A hB hH hh2 hc ha hb
  obtain ⟨q1, q2⟩ := edgeZ_flt A hB hH hh2 hc ha he
  have bd : ∀ z : ℚ, |z| ≤ H * g.cellZ.val → |z / g.cellZ.val| ≤ H := fun z hz => by
    rw [abs_div, abs_of_pos hc, div_le_iff₀ hc]; exact hz
  obtain ⟨m1, m2⟩ := mulerr_flt A c0 c1 p1 p2
  obtain ⟨n1, n2⟩ := mulerr_flt A d0 d1 q1 q2
  push_cast at i2 i3
  have s2 := sumerr_flt A i1 (by rw [abs_le]; constructor <;> linarith) m1 m2 n1 n2
  have hull := hull_flt (bd _ ha) (bd _ hb) (bd _ he) c0 c1 d0 d1
  generalize hw : R.rnd (R.rnd (R.rnd (R.rnd (R.rnd (a.z.val / g.cellZ.val) + R.rnd g.halfZ) - R.rnd 1) +
    R.rnd (c.val * R.rnd (R.rnd (b.z.val - a.z.val) / g.cellZ.val))) +
    R.rnd (d.val * R.rnd (R.rnd (e.z.val - a.z.val) / g.cellZ.val))) = w at s2
  obtain ⟨w1, w2⟩ := abs_le.mp s2
  obtain ⟨v1, v2⟩ := abs_le.mp hull
  have f1 := Int.le_ceil w
  have f2 := Int.ceil_lt_add_one w
  have k1 : g.halfZ - 2 - 3 * H ≤ ⌈w⌉ := by
    have : ((g.halfZ - 2 - 3 * H : ℤ) : ℚ) ≤ ⌈w⌉ := by push_cast; linarith
    exact_mod_cast this
  have k2 : ⌈w⌉ ≤ g.halfZ + 1 + 3 * H := by
    have : (⌈w⌉ : ℚ) ≤ ((g.halfZ + 1 + 3 * H : ℤ) : ℚ) := by push_cast; linarith
    exact_mod_cast this
  refine ⟨⌈w⌉, ?_, k1, k2⟩
  have := castInt_int (R := R) ⌈w⌉ (by have := hB.int; rw [abs_lt]; constructor <;> omega)
  rw [← this, ← hw]
  rfl

omit A in
/-- The computation returns a value with the property, or it runs out of a small amount of fuel. -/
def Fine {α : Type} (fuel : ℕ) (B : ℤ) (m : M α) (P : α → Prop) : Prop :=
  (m = .error .fuel ∧ (fuel : ℤ) < 3 * B + 4) ∨ ∃ r, m = .ok r ∧ P r

omit A in
theorem Fine.bind {α β : Type} {fuel : ℕ} {B : ℤ} {m : M α} {P : α → Prop} {f : α → M β} {Q : β → Prop} (h : Fine fuel B m P)
    (hf : ∀ r, P r → Fine fuel B (f r) Q) : Fine fuel B (m >>= f) Q := by
  rcases h with ⟨h1, h2⟩ | ⟨r, h1, h2⟩
  · left
    rw [h1]
    exact ⟨rfl, h2⟩
  · rw [h1, ok_bind]
    exact hf r h2

omit A in
theorem Fine.pure {α : Type} {fuel : ℕ} {B : ℤ} {P : α → Prop} {r : α} (h : P r) : Fine fuel B (Pure.pure r : M α) P :=
  .inr ⟨r, rfl, h⟩

omit A in
theorem Fine.weaken {α : Type} {fuel : ℕ} {B : ℤ} {m : M α} {P Q : α → Prop} (h : Fine fuel B m P) (hpq : ∀ r, P r → Q r) :
    Fine fuel B m Q := by
  rcases h with h | ⟨r, h1, h2⟩
  · exact .inl h
  · exact .inr ⟨r, h1, hpq r h2⟩

omit A in
/-- A box of index positions -/
structure IdxBox where
  lx : ℚ
  hx : ℚ
  ly : ℚ
  hy : ℚ
  k0 : ℤ
  k1 : ℤ

omit A in
/-- The box lies in the range of indices. -/
def IdxBox.Fits (b : IdxBox) (B : ℤ) : Prop := (0 ≤ b.lx ∧ b.hx ≤ B ∧ 0 ≤ b.ly ∧ b.hy ≤ B) ∧ -1 ≤ b.k0 ∧ b.k1 ≤ B + 2

omit A in
/-- An index position in the box -/
def IdxBox.Has (b : IdxBox) (p : Vec3 (Flt R)) : Prop :=
  (b.lx ≤ p.x.val ∧ p.x.val ≤ b.hx) ∧ (b.ly ≤ p.y.val ∧ p.y.val ≤ b.hy) ∧ (b.k0 + 1 ≤ p.z.val ∧ p.z.val ≤ b.k1 - 2)

omit A in
/-- A cell near the box -/
def IdxBox.By (b : IdxBox) (t : Cell3) : Prop :=
  (b.lx - 2 < t.1 ∧ (t.1 : ℚ) < b.hx + 2) ∧ (b.ly - 2 < t.2.1 ∧ (t.2.1 : ℚ) < b.hy + 2) ∧ b.k0 ≤ t.2.2 ∧ t.2.2 ≤ b.k1

omit A in
theorem IdxBox.Has.range {b : IdxBox} {B : ℤ} (hb : b.Fits B) {p : Vec3 (Flt R)} (h : b.Has p) : InRange B p := by
  obtain ⟨⟨f1, f2, f3, f4⟩, f5, f6⟩ := hb
  obtain ⟨⟨a1, a2⟩, ⟨a3, a4⟩, a5, a6⟩ := h
  have f5' : (-1 : ℚ) ≤ b.k0 := by exact_mod_cast f5
  have f6' : (b.k1 : ℚ) ≤ B + 2 := by exact_mod_cast f6
  exact ⟨⟨by linarith, by linarith⟩, ⟨by linarith, by linarith⟩, by linarith, by linarith⟩

theorem calcLinePos_by {B : ℤ} (hB : Small prec u B) {bx : IdxBox} (hbx : bx.Fits B) {g : Grid (Flt R)} {a b : Vec3 (Flt R)}
    (ha : bx.Has (toIndex g a)) (hb : bx.Has (toIndex g b)) (fuel : ℕ) :
    Fine fuel B (calcLinePos fuel a b g) fun r => r ≠ [] ∧ ∀ t ∈ r, bx.By t := by
  rcases calcLinePos_flt A hB (ha.range hbx) (hb.range hbx) fuel with h | ⟨r, h1, h0, h2⟩
  · exact .inl h
  · refine .inr ⟨r, h1, h0, fun t ht => ?_⟩
    obtain ⟨⟨x1, x2⟩, ⟨y1, y2⟩, z1, z2⟩ := h2 t ht
    obtain ⟨⟨a1, a2⟩, ⟨a3, a4⟩, a5, a6⟩ := ha
    obtain ⟨⟨b1, b2⟩, ⟨b3, b4⟩, b5, b6⟩ := hb
    have m5 := le_min a5 b5
    have m6 := max_le a6 b6
    have k1 : ((bx.k0 - 1 : ℤ) : ℚ) < t.2.2 := by push_cast; linarith
    have k2 : (t.2.2 : ℚ) < ((bx.k1 + 1 : ℤ) : ℚ) := by push_cast; linarith
    have k1' : bx.k0 - 1 < t.2.2 := by exact_mod_cast k1
    have k2' : t.2.2 < bx.k1 + 1 := by exact_mod_cast k2
    have m1 := le_min a1 b1
    have m2 := max_le a2 b2
    have m3 := le_min a3 b3
    have m4 := max_le a4 b4
    exact ⟨⟨by linarith, by linarith⟩, ⟨by linarith, by linarith⟩, by omega, by omega⟩

omit A in
theorem inner_flt {bx : IdxBox} {test : Flt R → Flt R → Bool}
    (ht : ∀ c d, test c d = true → (0 ≤ c.val ∧ c.val ≤ 1) ∧ 0 ≤ d.val ∧ d.val ≤ 1) {ab ad a : Vec3 (Flt R)}
    (hz : ∀ c d : Flt R, 0 ≤ c.val → c.val ≤ 1 → 0 ≤ d.val → d.val ≤ 1 → ∃ k, castInt (FOps.ceil (FOps.add (FOps.add a.z
      (FOps.mul c ab.z)) (FOps.mul d ad.z))) = .ok k ∧ bx.k0 ≤ k ∧ k ≤ bx.k1) {minX maxX minY maxY : ℤ}
    (h1 : bx.lx - 1 < minX) (h2 : (maxX : ℚ) < bx.hx + 1) (h3 : bx.ly - 1 < minY) (h4 : (maxY : ℚ) < bx.hy + 1) :
    ∃ r, innerCells (decompose test ab ad a minX minY (maxX - minX) (maxY - minY)) a.z ab.z ad.z minX minY
        (Area.mk minX maxX minY maxY).cells = .ok r ∧
      fillBuffer (decompose test ab ad a minX minY (maxX - minX) (maxY - minY)).nCell r = .ok r ∧ ∀ t ∈ r, bx.By t := by
  obtain ⟨r, e1, e2, e3⟩ := innerCells_any (decompose test ab ad a minX minY (maxX - minX) (maxY - minY)) a.z ab.z ad.z
    minX minY (fun k => bx.k0 ≤ k ∧ k ≤ bx.k1) (Area.mk minX maxX minY maxY).cells (by
      intro c _ hin
      obtain ⟨⟨c0, c1⟩, d0, d1⟩ := ht _ _ hin
      exact hz _ _ c0 c1 d0 d1)
  refine ⟨r, e1, ?_, ?_⟩
  · rw [decompose_count, ← e2]
    exact fillBuffer_exact r
  · intro t htr
    obtain ⟨c, hc, hx, hy, hk⟩ := e3 t htr
    obtain ⟨c1, c2, c3, c4⟩ := Area.mem_cells.mp hc
    dsimp only at c1 c2 c3 c4
    have q1 : (minX : ℚ) ≤ c.1 := by exact_mod_cast c1
    have q2 : (c.1 : ℚ) + 1 ≤ maxX := by exact_mod_cast c2
    have q3 : (minY : ℚ) ≤ c.2 := by exact_mod_cast c3
    have q4 : (c.2 : ℚ) + 1 ≤ maxY := by exact_mod_cast c4
    refine ⟨?_, ?_, hk⟩
    · rcases hx with e | e <;> rw [e] <;> push_cast <;> constructor <;> linarith
    · rcases hy with e | e <;> rw [e] <;> push_cast <;> constructor <;> linarith

theorem inRect_flt {tol : Flt R} (h0 : 0 ≤ tol.val) (c d : Flt R) (h : inRect tol c d = true) :
    (0 ≤ c.val ∧ c.val ≤ 1) ∧ 0 ≤ d.val ∧ d.val ≤ 1 := by
  simp only [inRect, Bool.and_eq_true] at h
  obtain ⟨⟨⟨h1, h2⟩, h3⟩, h4⟩ := h
  have h1 : tol.val < c.val := of_decide_eq_true h1
  have h2 : c.val < R.rnd (R.rnd 1 - tol.val) := of_decide_eq_true h2
  have h3 : tol.val < d.val := of_decide_eq_true h3
  have h4 : d.val < R.rnd (R.rnd 1 - tol.val) := of_decide_eq_true h4
  rw [A.one] at h2 h4
  have := (A.binary.mono (show 1 - tol.val ≤ 1 by linarith)).trans_eq A.one
  exact ⟨⟨by linarith, by linarith⟩, by linarith, by linarith⟩

theorem inTri_flt {tol : Flt R} (h0 : 0 ≤ tol.val) (c d : Flt R) (h : inTri tol c d = true) :
    (0 ≤ c.val ∧ c.val ≤ 1) ∧ 0 ≤ d.val ∧ d.val ≤ 1 := by
  simp only [inTri, Bool.and_eq_true] at h
  obtain ⟨⟨h1, h3⟩, h4⟩ := h
  have h1 : tol.val < c.val := of_decide_eq_true h1
  have h3 : tol.val < d.val := of_decide_eq_true h3
  have h4 : R.rnd (c.val + d.val) < R.rnd (R.rnd 1 - tol.val) := of_decide_eq_true h4
  rw [A.one] at h4
  have k := (A.binary.mono (show 1 - tol.val ≤ 1 by linarith)).trans_eq A.one
  have : c.val + d.val < 1 := by
    by_contra hc
    push Not at hc
    have := A.one.symm.trans_le (A.binary.mono hc)
    linarith
  exact ⟨⟨by linarith, by linarith⟩, by linarith, by linarith⟩

/-- The cells of a rectangular wall -/
theorem calcRectanglePos_flt {B : ℤ} (hB : Small prec u B) {bx : IdxBox} (hbx : bx.Fits B) {g : Grid (Flt R)} {tol : Flt R}
    (htol : 0 ≤ tol.val) {a b c d : Vec3 (Flt R)} (ha : bx.Has (toIndex g a)) (hb : bx.Has (toIndex g b))
    (hc : bx.Has (toIndex g c)) (hd : bx.Has (toIndex g d)) (hz : ∀ c' d' : Flt R, 0 ≤ c'.val → c'.val ≤ 1 → 0 ≤ d'.val → d'.val ≤ 1 →
      ∃ k, castInt (FOps.ceil (FOps.add (FOps.add (toIndex g a).z (FOps.mul c' (edgeInd g a b).z))
        (FOps.mul d' (edgeInd g a d).z))) = .ok k ∧ bx.k0 ≤ k ∧ k ≤ bx.k1) (fuel : ℕ) :
    Fine fuel B (calcRectanglePos fuel a b c d g tol) fun r => r ≠ [] ∧ ∀ t ∈ r, bx.By t := by
  unfold calcRectanglePos
  obtain ⟨minX, maxX, e1, x1, x2⟩ := boundingInt_flt hB.int hbx.1.1 hbx.1.2.1 (x := (toIndex g a).x)
    (l := [(toIndex g b).x, (toIndex g c).x, (toIndex g d).x]) (by
      intro v hv
      simp only [List.mem_cons, List.not_mem_nil, or_false] at hv
      rcases hv with rfl | rfl | rfl | rfl
      exacts [ha.1, hb.1, hc.1, hd.1])
  obtain ⟨minY, maxY, e2, y1, y2⟩ := boundingInt_flt hB.int hbx.1.2.2.1 hbx.1.2.2.2 (x := (toIndex g a).y)
    (l := [(toIndex g b).y, (toIndex g c).y, (toIndex g d).y]) (by
      intro v hv
      simp only [List.mem_cons, List.not_mem_nil, or_false] at hv
      rcases hv with rfl | rfl | rfl | rfl
      exacts [ha.2.1, hb.2.1, hc.2.1, hd.2.1])
  obtain ⟨r, i1, i2, i3⟩ := inner_flt (bx := bx) (inRect_flt A htol) (ab := edgeInd g a b) (ad := edgeInd g a d)
    (a := toIndex g a) hz x1 x2 y1 y2
  simp only [e1, e2, ok_bind]
  unfold decomposeVectorRectangle
  simp only [i1, i2, ok_bind]
  refine (calcLinePos_by A hB hbx ha hb fuel).bind fun l1 h1 => ?_
  refine (calcLinePos_by A hB hbx hb hc fuel).bind fun l2 h2 => ?_
  refine (calcLinePos_by A hB hbx hc hd fuel).bind fun l3 h3 => ?_
  refine (calcLinePos_by A hB hbx hd ha fuel).bind fun l4 h4 => Fine.pure ⟨by simp [h1.1], ?_⟩
  intro t ht
  simp only [List.mem_append] at ht
  rcases ht with (((ht | ht) | ht) | ht) | ht
  exacts [i3 t ht, h1.2 t ht, h2.2 t ht, h3.2 t ht, h4.2 t ht]

/-- The cells of a triangular wall -/
theorem calcTrianglePos_flt {B : ℤ} (hB : Small prec u B) {bx : IdxBox} (hbx : bx.Fits B) {g : Grid (Flt R)} {tol : Flt R}
    (htol : 0 ≤ tol.val) {a b c : Vec3 (Flt R)} (ha : bx.Has (toIndex g a)) (hb : bx.Has (toIndex g b))
    (hc : bx.Has (toIndex g c)) (hz : ∀ c' d' : Flt R, 0 ≤ c'.val → c'.val ≤ 1 → 0 ≤ d'.val → d'.val ≤ 1 →
      ∃ k, castInt (FOps.ceil (FOps.add (FOps.add (toIndex g a).z (FOps.mul c' (edgeInd g a b).z))
        (FOps.mul d' (edgeInd g a c).z))) = .ok k ∧ bx.k0 ≤ k ∧ k ≤ bx.k1) (fuel : ℕ) :
    Fine fuel B (calcTrianglePos fuel a b c g tol) fun r => r ≠ [] ∧ ∀ t ∈ r, bx.By t := by
  unfold calcTrianglePos
  obtain ⟨minX, maxX, e1, x1, x2⟩ := boundingInt_flt hB.int hbx.1.1 hbx.1.2.1 (x := (toIndex g a).x)
    (l := [(toIndex g b).x, (toIndex g c).x]) (by
      intro v hv
      simp only [List.mem_cons, List.not_mem_nil, or_false] at hv
      rcases hv with rfl | rfl | rfl
      exacts [ha.1, hb.1, hc.1])
  obtain ⟨minY, maxY, e2, y1, y2⟩ := boundingInt_flt hB.int hbx.1.2.2.1 hbx.1.2.2.2 (x := (toIndex g a).y)
    (l := [(toIndex g b).y, (toIndex g c).y]) (by
      intro v hv
      simp only [List.mem_cons, List.not_mem_nil, or_false] at hv
      rcases hv with rfl | rfl | rfl
      exacts [ha.2.1, hb.2.1, hc.2.1])
  obtain ⟨r, i1, i2, i3⟩ := inner_flt (bx := bx) (inTri_flt A htol) (ab := edgeInd g a b) (ad := edgeInd g a c)
    (a := toIndex g a) hz x1 x2 y1 y2
  simp only [e1, e2, ok_bind]
  unfold decomposeVectorTriangle
  simp only [i1, i2, ok_bind]
  refine (calcLinePos_by A hB hbx ha hb fuel).bind fun l1 h1 => ?_
  refine (calcLinePos_by A hB hbx hb hc fuel).bind fun l2 h2 => ?_
  refine (calcLinePos_by A hB hbx hc ha fuel).bind fun l3 h3 => Fine.pure ⟨by simp [h1.1], ?_⟩
  intro t ht
  simp only [List.mem_append] at ht
  rcases ht with ((ht | ht) | ht) | ht
  exacts [i3 t ht, h1.2 t ht, h2.2 t ht, h3.2 t ht]

end Soil
