import Verif.Proof.Line
import Verif.Model.Real

/-!
# Rasterisation of segments (C16)
-/

set_option linter.unusedSectionVars false

namespace Soil

variable {K : Type} [Field K] [LinearOrder K] [FloorRing K] [Transc K] [IsStrictOrderedRing K]

/-- The real square root satisfies the law. -/
theorem sqrtLaw_real : SqrtLaw ℝ := fun x hx => ⟨Real.sqrt_nonneg x, Real.mul_self_sqrt hx⟩

/-- **C16**. Rasterising the segment from `a` to `b` terminates, the loop bound of the model does not
influence the result, and if the start is in general position, then
* the first cell is the cell of `a`;
* each cell is followed by a face-adjacent cell in the direction of the segment;
* the last cell is the cell of `b`, if the end is in general position;
* every listed cell is touched by the segment;
* every point of the segment is in a listed cell. -/
theorem C16_line (hs : SqrtLaw K) (a b : Vec3 K) (g : Grid K)
    (hg : StartGeneric (idx g a) (idx g b)) :
    ∃ N cells, (∀ fuel, N ≤ fuel → calcLinePos fuel a b g = .ok cells) ∧
      (∃ c, cells.head? = some c ∧ CellOf c (idx g a)) ∧
      List.IsChain (Move (idx g a) (idx g b)) cells ∧
      (EndGeneric (idx g a) (idx g b) → ∃ c, cells.getLast? = some c ∧ CellOf c (idx g b)) ∧
      (∀ c ∈ cells, ∃ u, 0 ≤ u ∧ u ≤ 1 ∧ Touches c (segPoint (idx g a) (idx g b) u)) ∧
      (∀ u, 0 ≤ u → u ≤ 1 → ∃ c ∈ cells, Touches c (segPoint (idx g a) (idx g b) u)) :=
  ⟨_, calcLinePos_spec hs a b g hg⟩

/-- **C16**. For any segment at all, rasterisation terminates with at least one cell, and all cells
are within one cell of the bounding box of the segment (rounded like any position). -/
theorem C16_terminates (hs : SqrtLaw K) (a b : Vec3 K) (g : Grid K) :
    ∃ N cells, (∀ fuel, N ≤ fuel → calcLinePos fuel a b g = .ok cells) ∧ cells ≠ [] ∧
      ∀ c ∈ cells,
        min (idx g a).x (idx g b).x - 3 / 2 ≤ c.1 ∧ c.1 ≤ max (idx g a).x (idx g b).x + 3 / 2 ∧
        min (idx g a).y (idx g b).y - 3 / 2 ≤ c.2.1 ∧ c.2.1 ≤ max (idx g a).y (idx g b).y + 3 / 2 ∧
        min (idx g a).z (idx g b).z - 1 ≤ c.2.2 ∧ c.2.2 ≤ max (idx g a).z (idx g b).z + 2 := by
  obtain ⟨cells, h1, h2, h3⟩ := calcLinePos_box hs a b g
  refine ⟨_, cells, h1, h2, ?_⟩
  intro c hc
  obtain ⟨x, rfl, hx, hy, hz⟩ := h3 c hc
  have rx := abs_le.mp (abs_roundAway_sub_le x.x)
  have ry := abs_le.mp (abs_roundAway_sub_le x.y)
  have z1 := Int.le_ceil x.z
  have z2 := Int.ceil_lt_add_one x.z
  refine ⟨?_, ?_, ?_, ?_, ?_, ?_⟩ <;> dsimp only <;> linarith [rx.1, rx.2, ry.1, ry.2, hx.1, hx.2,
    hy.1, hy.2, hz.1, hz.2]

theorem quarter_ne (m : ℤ) (n : ℤ) : ((m : K) + 1 / 4 ≠ n + 1 / 2) := by
  intro h
  have : (4 * m + 1 : K) = 4 * n + 2 := by linarith
  have h2 : (4 * m + 1 : ℤ) = 4 * n + 2 := by exact_mod_cast this
  omega

theorem quarter_ne' (m : ℤ) (n : ℤ) : ((m : K) + 1 / 4 ≠ n) := by
  intro h
  have : (4 * m + 1 : K) = 4 * n := by linarith
  have h2 : (4 * m + 1 : ℤ) = 4 * n := by exact_mod_cast this
  omega

-- segments between positions at a quarter of a cell are in general position, unless they are
-- orthogonal to an axis
example (p q : Vec3 ℝ) (m n : Fin 3 → ℤ) (hp : p = ⟨m 0 + 1 / 4, m 1 + 1 / 4, m 2 + 1 / 4⟩)
    (hq : q = ⟨n 0 + 1 / 4, n 1 + 1 / 4, n 2 + 1 / 4⟩) (h : ∀ i, m i ≠ n i) :
    StartGeneric p q ∧ EndGeneric p q := by
  subst hp hq
  have hne : ∀ i, ((m i : ℝ) + 1 / 4) ≠ n i + 1 / 4 := fun i e => h i (by
    have : (m i : ℝ) = n i := by linarith
    exact_mod_cast this)
  exact ⟨⟨quarter_ne _, quarter_ne _, fun _ => quarter_ne' _, fun e => absurd e (hne 0),
    fun e => absurd e (hne 1), fun e => absurd e (hne 2)⟩,
    ⟨quarter_ne _, quarter_ne _, fun _ => quarter_ne' _⟩⟩

-- positions with these index coordinates exist on every grid
example (g : Grid ℝ) (hc : g.cellXY ≠ 0) (hz : g.cellZ ≠ 0) (p : Vec3 ℝ) : ∃ a, idx g a = p := by
  refine ⟨⟨(p.x - g.halfX) * g.cellXY, (p.y - g.halfY) * g.cellXY, (p.z - g.halfZ + 1) * g.cellZ⟩, ?_⟩
  unfold idx
  rw [mul_div_cancel_right₀ _ hc, mul_div_cancel_right₀ _ hc, mul_div_cancel_right₀ _ hz]
  obtain ⟨x, y, z⟩ := p
  simp
  ring

/-- **C16**. The condition on the start is needed: a segment that starts exactly on the boundary
between the cells 2 and 3 and decreases to the cell 1 never reaches the cell 1. -/
theorem C16_boundary_start (hs : SqrtLaw K) (a b : Vec3 K) (g : Grid K) (ha : (idx g a).x = 5 / 2)
    (hb : (idx g b).x = 7 / 10) :
    (∀ c : ℤ × ℤ × ℤ, CellOf c (idx g b) → c.1 = 1) ∧
    ∃ N cells, (∀ fuel, N ≤ fuel → calcLinePos fuel a b g = .ok cells) ∧ ∀ c ∈ cells, 2 ≤ c.1 := by
  constructor
  · intro c hc
    have := hc.1
    rw [hb] at this
    have h1 := roundAway_eq_of_abs_lt _ _ this
    have h2 : roundAway (7 / 10 : K) = 1 := by
      apply roundAway_eq_of_abs_lt
      norm_num [abs_lt]
    rw [← h1, h2]
  · obtain ⟨c, l, ok, h1, tr⟩ := calcLinePos_trace hs a b g
    refine ⟨_, _, h1, ?_⟩
    intro x hx
    obtain ⟨n, hn, rfl⟩ := List.mem_map.mp hx
    obtain ⟨e1, -, -⟩ := (tr.early ⟨.zero _ _, .zero _ _, .zero _ _⟩).1 n hn
    have e := e1.conv ok.dx.1 ok.dx.2
    have hr : roundAway (5 / 2 : K) = 3 := by
      unfold roundAway
      rw [if_pos (by norm_num), Int.floor_eq_iff]; norm_num
    have ho : axO (5 / 2 : K) (7 / 10) = 1 := by
      unfold axO
      rw [if_neg (by norm_num), hr]; norm_num
    have hd : axD (5 / 2 : K) (7 / 10) = 9 / 5 := by
      unfold axD
      rw [if_neg (by norm_num), abs_of_neg (by norm_num)]; norm_num
    rw [ha, hb, ho, hd] at e
    have hn1 : n.1 ≤ 1 := by
      rcases hk : n.1 with _ | _ | k
      · omega
      · omega
      · exfalso
        have := e (k + 1) hk
        have h0 : (0 : K) ≤ k := Nat.cast_nonneg k
        push_cast at this
        linarith
    unfold cellAt posAt
    dsimp only
    rw [ok.sx, ha, hb]
    have hS : axS (5 / 2 : K) (7 / 10) = -1 := by unfold axS; rw [if_neg (by norm_num)]
    rw [hS]
    rcases Nat.le_one_iff_eq_zero_or_eq_one.mp hn1 with h | h <;> rw [h]
    · rw [show (5 / 2 + ((-1 : ℤ) : K) * ((0 : ℕ) : K)) = 5 / 2 by push_cast; ring, hr]; norm_num
    · have : roundAway (3 / 2 : K) = 2 := by
        unfold roundAway
        rw [if_pos (by norm_num), Int.floor_eq_iff]; norm_num
      rw [show (5 / 2 + ((-1 : ℤ) : K) * ((1 : ℕ) : K)) = 3 / 2 by push_cast; ring, this]

/-- **C16**. The condition on orthogonal segments is needed: a segment that stays at a distance of
`5 · 10⁻¹¹` above the boundary between the cells 2 and 3 is also given the cell 2. -/
theorem C16_spurious_cell (hs : SqrtLaw K) (a b : Vec3 K) (g : Grid K)
    (ha : (idx g a).x = 5 / 2 + 1 / 20000000000) (hb : (idx g b).x = 5 / 2 + 1 / 20000000000) :
    (∀ c : ℤ × ℤ × ℤ, ∀ u, Touches c (segPoint (idx g a) (idx g b) u) → c.1 = 3) ∧
    ∃ N cells, (∀ fuel, N ≤ fuel → calcLinePos fuel a b g = .ok cells) ∧ ∃ c ∈ cells, c.1 = 2 := by
  have hr : roundAway (5 / 2 + 1 / 20000000000 : K) = 3 := by
    apply roundAway_eq_of_abs_lt
    norm_num [abs_lt]
  constructor
  · intro c u hc
    have := hc.1
    unfold segPoint at this
    rw [ha, hb, sub_self, mul_zero, add_zero] at this
    rw [← hr]
    obtain ⟨h1, h2⟩ := abs_le.mp this
    have h3 : (c.1 : K) < 4 := by norm_num at h1 ⊢; linarith
    have h4 : (2 : K) < c.1 := by norm_num at h2 ⊢; linarith
    have h5 : c.1 < 4 := by exact_mod_cast h3
    have h6 : 2 < c.1 := by exact_mod_cast h4
    rw [hr]; omega
  · obtain ⟨c, l, ok, h1, tr⟩ := calcLinePos_trace hs a b g
    obtain ⟨m, hm⟩ : ∃ m, ((0, 0, 0) :: l : List (ℕ × ℕ × ℕ)).getLast? = some m :=
      ⟨_, List.getLast?_eq_some_getLast (by simp)⟩
    refine ⟨_, _, h1, cellAt c (idx g a) m, List.mem_map_of_mem (List.mem_of_getLast? hm), ?_⟩
    obtain ⟨ee, el⟩ := tr.early ⟨.zero _ _, .zero _ _, .zero _ _⟩
    obtain ⟨e1, -, -⟩ := ee m (List.mem_of_getLast? hm)
    have e := e1.conv ok.dx.1 ok.dx.2
    have e' := (el m hm).1
    rw [← one_mul c.norm, times_ge ok.dx.1 ok.dx.2, one_mul] at e'
    have ho : axO (5 / 2 + 1 / 20000000000 : K) (5 / 2 + 1 / 20000000000) = 1 / 20000000000 := by
      unfold axO
      rw [if_neg (lt_irrefl _), hr]; norm_num
    have hd : axD (5 / 2 + 1 / 20000000000 : K) (5 / 2 + 1 / 20000000000) = 1 / 10000000000 := by
      unfold axD
      rw [if_pos (sub_self _)]
    rw [ha, hb, ho, hd] at e e'
    have hm1 : m.1 = 1 := by
      rcases hk : m.1 with _ | _ | k
      · exfalso; rw [hk] at e'; norm_num at e'
      · rfl
      · exfalso
        have := e (k + 1) hk
        have h0 : (0 : K) ≤ k := Nat.cast_nonneg k
        push_cast at this
        norm_num at this
        linarith
    unfold cellAt posAt
    dsimp only
    rw [ok.sx, ha, hb, hm1]
    have hS : axS (5 / 2 + 1 / 20000000000 : K) (5 / 2 + 1 / 20000000000) = -1 := by
      unfold axS; rw [if_neg (lt_irrefl _)]
    rw [hS]
    apply roundAway_eq_of_abs_lt
    norm_num [abs_lt]

end Soil
