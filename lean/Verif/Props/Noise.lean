import Verif.Proof.Noise
import Verif.Props.Cone

/-! # C59: size and slope of the initial terrain -/

set_option linter.unusedSectionVars false

namespace Soil

/-- The terrain written by `Init` is the height computed for the column. -/
theorem init_terrain {F : Type} [FOps F] {g : Grid F} {amp : F} {w w' : World F} (h : init g amp w = .ok w')
    {i j : ℤ} (hij : w.out.InGrid i j) :
    initHeight g amp (permTable w.rng).1 i j = .ok (w'.out.terrain i j) := by
  have key : ∀ (perm : List ℤ) (l : List (ℤ × ℤ)) (s s' : SimOut F), initCells g amp perm l s = .ok s' →
      (∀ p : ℤ × ℤ, s'.terrain p.1 p.2 = s.terrain p.1 p.2 ∨
        initHeight g amp perm p.1 p.2 = .ok (s'.terrain p.1 p.2)) ∧
      (∀ p ∈ l, initHeight g amp perm p.1 p.2 = .ok (s'.terrain p.1 p.2)) := by
    intro perm l
    induction l with
    | nil =>
      intro s s' h
      cases h
      exact ⟨fun p => .inl rfl, fun p hp => by simp at hp⟩
    | cons q l ih =>
      intro s s' h
      unfold initCells at h
      obtain ⟨-, h⟩ := guardOob_bind.mp h
      obtain ⟨v, hv, h⟩ := bind_eq_ok.mp h
      obtain ⟨h2, h3⟩ := ih _ _ h
      have hq : initHeight g amp perm q.1 q.2 = .ok (s'.terrain q.1 q.2) := by
        rcases h2 q with h2 | h2
        · rw [h2, show (s.setT q.1 q.2 v).terrain q.1 q.2 = v from upd2_same _ _ _ _]
          exact hv
        · exact h2
      refine ⟨fun p => ?_, fun p hp => ?_⟩
      · by_cases hpq : p.1 = q.1 ∧ p.2 = q.2
        · rw [hpq.1, hpq.2]; exact .inr hq
        · rcases h2 p with h2 | h2
          · left
            rw [h2]
            exact upd2_ne _ _ hpq
          · exact .inr h2
      · rcases List.mem_cons.mp hp with rfl | hp
        · exact hq
        · exact h3 p hp
  unfold init at h
  dsimp only at h
  obtain ⟨s, hs, h⟩ := bind_eq_ok.mp h
  cases h
  exact (key _ _ _ _ hs).2 (i, j) (SimOut.mem_allCells.mpr hij)

/-- Noise of four frequencies -/
structure Octaves (perm : List ℤ) (x y : ℝ) (n1 n2 n4 n8 : ℝ) : Prop where
  n1 : simplexNoise (1 * x) (1 * y) perm = .ok n1
  n2 : simplexNoise (2 * x) (2 * y) perm = .ok n2
  n4 : simplexNoise (4 * x) (4 * y) perm = .ok n4
  n8 : simplexNoise (8 * x) (8 * y) perm = .ok n8

section Heights
variable {gx gy gz cxy cz : ℝ} (hv : ValidGridArgs gx gy gz cxy cz) {g : Grid ℝ}
  (hg : mkGrid gx gy gz cxy cz = .ok g) {amp : ℝ} {rng : Rng} {log : List (Warn ℝ)} {w : World ℝ}
  (hi : init g amp ⟨mkSimOut g, rng, log⟩ = .ok w)

include hv in
theorem coord_le {a : ℝ} {i hf : ℤ} (hh : hf = ⌊a / cxy + 1 / 2⌋) (ha : 0 < a) (hca : cxy ≤ a) (h0 : 0 ≤ i)
    (h1 : i ≤ 2 * hf) : 0 ≤ i * (cxy / (2 * a)) ∧ i * (cxy / (2 * a)) ≤ 3 / 2 := by
  have hi0 : (0 : ℝ) ≤ i := by exact_mod_cast h0
  have hi1 : (i : ℝ) ≤ 2 * hf := by exact_mod_cast h1
  have hc := hv.cxy_pos
  refine ⟨by positivity, ?_⟩
  rw [← mul_div_assoc, div_le_iff₀ (by linarith)]
  have h2 : (hf : ℝ) ≤ a / cxy + 1 / 2 := by rw [hh]; exact Int.floor_le _
  have h3 : a / cxy * cxy = a := div_mul_cancel₀ _ hc.ne'
  have h4 : (i : ℝ) * cxy ≤ (2 * (a / cxy + 1 / 2)) * cxy :=
    mul_le_mul_of_nonneg_right (by linarith) hc.le
  nlinarith

include hv hg hi in
theorem height_octaves {i j : ℤ} (i0 : 0 ≤ i) (i1 : i ≤ 2 * g.halfX) (j0 : 0 ≤ j) (j1 : j ≤ 2 * g.halfY) :
    ∃ n1 n2 n4 n8, Octaves (permTable rng).1 (i * (cxy / (2 * gx))) (j * (cxy / (2 * gy))) n1 n2 n4 n8 ∧
      w.out.terrain i j =
        cz * roundAway (amp * (1 / 2 * n1 + 1 / 4 * n2 + 1 / 8 * n4 + 1 / 16 * n8) / cz) := by
  obtain ⟨g', hg', hs⟩ := mkGrid_ok hv
  rw [hg] at hg'; cases hg'
  have h := init_terrain hi (i := i) (j := j)
    ⟨i0, by show i < 2 * g.halfX + 1; omega, j0, by show j < 2 * g.halfY + 1; omega⟩
  have e : ∀ (a : ℝ) (k : ℤ), 0 < a → (-a - (-a + k * cxy)) / (2 * -a) = k * (cxy / (2 * a)) := by
    intro a k ha
    field_simp
    ring
  unfold initHeight at h
  simp only [ex_add, ex_sub, ex_mul, ex_div, ex_ofRat, ex_round, Rat.cast_ofNat, Rat.cast_one,
    hs.vectX 0 le_rfl, hs.vectX i i0, hs.vectY 0 le_rfl, hs.vectY j j0, Int.cast_zero, zero_mul,
    add_zero, e _ _ hv.gx_pos, e _ _ hv.gy_pos, hs.cellZ] at h
  obtain ⟨n1, h1, h⟩ := bind_eq_ok.mp h
  obtain ⟨n2, h2, h⟩ := bind_eq_ok.mp h
  obtain ⟨n4, h4, h⟩ := bind_eq_ok.mp h
  obtain ⟨n8, h8, h⟩ := bind_eq_ok.mp h
  refine ⟨n1, n2, n4, n8, ⟨h1, h2, h4, h8⟩, ?_⟩
  have : cz * _ = w.out.terrain i j := Except.ok.inj h
  rw [← this]
  norm_num

theorem row_lt {x y : ℝ} (hx : 0 ≤ x) (hy : 0 ≤ y) (hx1 : x ≤ 12) (hy1 : y ≤ 12) :
    y + (x + y) * (Real.sqrt 3 - 1) / 2 < 255 := by
  have hr1 : Real.sqrt 3 ≤ 2 := real_sqrt3.2
  have : (x + y) * (Real.sqrt 3 - 1) ≤ (x + y) * 1 :=
    mul_le_mul_of_nonneg_left (by linarith) (by linarith)
  linarith

/-- weighted sum of the octaves -/
theorem octaves_le {perm : List ℤ} (h : IsPermTable perm) {x y : ℝ} (hx : 0 ≤ x) (hx1 : x ≤ 3 / 2)
    (hy : 0 ≤ y) (hy1 : y ≤ 3 / 2) {n1 n2 n4 n8 : ℝ} (o : Octaves perm x y n1 n2 n4 n8) :
    |1 / 2 * n1 + 1 / 4 * n2 + 1 / 8 * n4 + 1 / 16 * n8| ≤ 80 / 2187 := by
  have key : ∀ {f v : ℝ}, 1 ≤ f → f ≤ 8 → simplexNoise (f * x) (f * y) perm = .ok v → |v| ≤ 256 / 6561 := by
    intro f v f1 f8 hv
    have a1 : 0 ≤ f * x := by positivity
    have a2 : 0 ≤ f * y := by positivity
    exact noise_bound h a1 a2 (row_lt a1 a2 (by nlinarith) (by nlinarith)) hv
  have k1 := abs_le.mp (key (by norm_num) (by norm_num) o.n1)
  have k2 := abs_le.mp (key (by norm_num) (by norm_num) o.n2)
  have k4 := abs_le.mp (key (by norm_num) (by norm_num) o.n4)
  have k8 := abs_le.mp (key (by norm_num) (by norm_num) o.n8)
  rw [abs_le]
  constructor <;> linarith

theorem octaves_diff {perm : List ℤ} (h : IsPermTable perm) {x y x' y' : ℝ} (hx : 0 ≤ x) (hx1 : x ≤ 3 / 2)
    (hy : 0 ≤ y) (hy1 : y ≤ 3 / 2) (hx' : 0 ≤ x') (hx1' : x' ≤ 3 / 2) (hy' : 0 ≤ y') (hy1' : y' ≤ 3 / 2)
    {n1 n2 n4 n8 m1 m2 m4 m8 : ℝ} (o : Octaves perm x y n1 n2 n4 n8) (o' : Octaves perm x' y' m1 m2 m4 m8)
    {δ : ℝ} (hd : ∀ f : ℝ, 0 ≤ f → ∀ u, |contrib perm (f * x') (f * y') u - contrib perm (f * x) (f * y) u| ≤
      1 / 10 * (f * δ)) :
    |(1 / 2 * m1 + 1 / 4 * m2 + 1 / 8 * m4 + 1 / 16 * m8) -
      (1 / 2 * n1 + 1 / 4 * n2 + 1 / 8 * n4 + 1 / 16 * n8)| ≤ 6 / 5 * δ := by
  have key : ∀ {f v v' : ℝ}, 1 ≤ f → f ≤ 8 → simplexNoise (f * x) (f * y) perm = .ok v →
      simplexNoise (f * x') (f * y') perm = .ok v' → |v' - v| ≤ 6 * (1 / 10 * (f * δ)) := by
    intro f v v' f1 f8 hv hv'
    have a1 : 0 ≤ f * x := by positivity
    have a2 : 0 ≤ f * y := by positivity
    have a3 : 0 ≤ f * x' := by positivity
    have a4 : 0 ≤ f * y' := by positivity
    exact noise_diff h a1 a2 (row_lt a1 a2 (by nlinarith) (by nlinarith)) a3 a4
      (row_lt a3 a4 (by nlinarith) (by nlinarith)) hv hv' (hd f (by linarith))
  have k1 := abs_le.mp (key (by norm_num) (by norm_num) o.n1 o'.n1)
  have k2 := abs_le.mp (key (by norm_num) (by norm_num) o.n2 o'.n2)
  have k4 := abs_le.mp (key (by norm_num) (by norm_num) o.n4 o'.n4)
  have k8 := abs_le.mp (key (by norm_num) (by norm_num) o.n8 o'.n8)
  rw [abs_le]
  constructor <;> linarith

/-- rounding moves each of two heights by at most half a cell -/
theorem round_diff {c a b : ℝ} (hc : 0 < c) : |c * roundAway (a / c) - c * roundAway (b / c)| ≤ |a - b| + c := by
  have h1 := abs_le.mp (abs_roundAway_sub_le (a / c))
  have h2 := abs_le.mp (abs_roundAway_sub_le (b / c))
  have ea : c * (a / c) = a := mul_div_cancel₀ _ hc.ne'
  have eb : c * (b / c) = b := mul_div_cancel₀ _ hc.ne'
  have h3 := abs_le.mp (le_refl |a - b|)
  rw [abs_le]
  constructor <;> nlinarith

end Heights

/-- **C59**, size. `Init` with amplitude `amp` gives no height above 80/2187 of the amplitude (less than
four percent), up to the rounding to whole cells. -/
theorem C59_amplitude (gx gy gz cxy cz : ℝ) (hv : ValidGridArgs gx gy gz cxy cz) (g : Grid ℝ)
    (hg : mkGrid gx gy gz cxy cz = .ok g) (amp : ℝ) (rng : Rng) (log : List (Warn ℝ)) (w : World ℝ)
    (hi : init g amp ⟨mkSimOut g, rng, log⟩ = .ok w) (i j : ℤ) (i0 : 0 ≤ i) (i1 : i ≤ 2 * g.halfX)
    (j0 : 0 ≤ j) (j1 : j ≤ 2 * g.halfY) : |w.out.terrain i j| ≤ 80 / 2187 * |amp| + cz / 2 := by
  obtain ⟨g', hg', hs⟩ := mkGrid_ok hv
  rw [hg] at hg'; cases hg'
  obtain ⟨n1, n2, n4, n8, o, e⟩ := height_octaves hv hg hi i0 i1 j0 j1
  obtain ⟨x0, x1⟩ := coord_le hv hs.halfX hv.gx_pos hv.cxy_le_x i0 i1
  obtain ⟨y0, y1⟩ := coord_le hv hs.halfY hv.gy_pos hv.cxy_le_y j0 j1
  have hN := octaves_le (permTable_isPermTable rng) x0 x1 y0 y1 o
  rw [e]
  set N := 1 / 2 * n1 + 1 / 4 * n2 + 1 / 8 * n4 + 1 / 16 * n8
  have hc := hv.cz_pos
  have h1 := abs_le.mp (abs_roundAway_sub_le (amp * N / cz))
  have ea : cz * (amp * N / cz) = amp * N := mul_div_cancel₀ _ hc.ne'
  have h2 : |amp * N| ≤ 80 / 2187 * |amp| := by
    rw [abs_mul]; nlinarith [abs_nonneg amp]
  have h3 := abs_le.mp h2
  rw [abs_le]
  constructor <;> nlinarith

/-- **C59**, flat. An amplitude of thirteen cells or less gives a flat terrain, for every random stream. -/
theorem C59_flat (gx gy gz cxy cz : ℝ) (hv : ValidGridArgs gx gy gz cxy cz) (g : Grid ℝ)
    (hg : mkGrid gx gy gz cxy cz = .ok g) (amp : ℝ) (ha : |amp| ≤ 13 * cz) (rng : Rng) (log : List (Warn ℝ))
    (w : World ℝ) (hi : init g amp ⟨mkSimOut g, rng, log⟩ = .ok w) (i j : ℤ) (i0 : 0 ≤ i)
    (i1 : i ≤ 2 * g.halfX) (j0 : 0 ≤ j) (j1 : j ≤ 2 * g.halfY) : w.out.terrain i j = 0 := by
  have h := C59_amplitude gx gy gz cxy cz hv g hg amp rng log w hi i j i0 i1 j0 j1
  obtain ⟨n1, n2, n4, n8, o, e⟩ := height_octaves hv hg hi i0 i1 j0 j1
  have hc := hv.cz_pos
  rw [e] at h ⊢
  set k := roundAway (amp * (1 / 2 * n1 + 1 / 4 * n2 + 1 / 8 * n4 + 1 / 16 * n8) / cz)
  have hk : |(k : ℝ)| < 1 := by
    rw [abs_mul, abs_of_pos hc] at h
    by_contra hn
    push Not at hn
    nlinarith
  have : k = 0 := by
    rw [← Int.abs_lt_one_iff]
    exact_mod_cast hk
  rw [this]; simp

/-- **C59**, corner. The first column of the grid is at height zero, for every amplitude and random stream. -/
theorem C59_corner (gx gy gz cxy cz : ℝ) (hv : ValidGridArgs gx gy gz cxy cz) (g : Grid ℝ)
    (hg : mkGrid gx gy gz cxy cz = .ok g) (amp : ℝ) (rng : Rng) (log : List (Warn ℝ))
    (w : World ℝ) (hi : init g amp ⟨mkSimOut g, rng, log⟩ = .ok w) : w.out.terrain 0 0 = 0 := by
  obtain ⟨g', hg', hs⟩ := mkGrid_ok hv
  rw [hg] at hg'; cases hg'
  have hX : 0 ≤ g.halfX := by
    rw [hs.halfX]; exact Int.floor_nonneg.mpr (by have := hv.gx_pos; have := hv.cxy_pos; positivity)
  have hY : 0 ≤ g.halfY := by
    rw [hs.halfY]; exact Int.floor_nonneg.mpr (by have := hv.gy_pos; have := hv.cxy_pos; positivity)
  obtain ⟨n1, n2, n4, n8, o, e⟩ := height_octaves hv hg hi le_rfl (by omega : (0 : ℤ) ≤ 2 * g.halfX) le_rfl
    (by omega : (0 : ℤ) ≤ 2 * g.halfY)
  have key : ∀ {f v : ℝ}, simplexNoise (f * ((0 : ℤ) * (cxy / (2 * gx)))) (f * ((0 : ℤ) * (cxy / (2 * gy))))
      (permTable rng).1 = .ok v → v = 0 := by
    intro f v hv
    simp only [Int.cast_zero, zero_mul, mul_zero] at hv
    obtain ⟨T, -, -, e⟩ := noise_sum (permTable_isPermTable rng) (x := 0) (y := 0) le_rfl le_rfl (by norm_num)
    rw [hv] at e; cases e
    refine Finset.sum_eq_zero fun u _ => ?_
    obtain ⟨m, n⟩ := u
    by_cases hm : m = 0 ∧ n = 0
    · obtain ⟨rfl, rfl⟩ := hm
      unfold contrib kern
      simp
    · have one : ∀ k : ℤ, k ≠ 0 → (1 : ℝ) ≤ |(k : ℝ)| := fun k hk => by
        have := Int.one_le_abs hk
        exact_mod_cast this
      refine contrib_far _ ?_
      by_cases h0 : m = 0
      · right; left
        simpa using one n (fun h => hm ⟨h0, h⟩)
      · left
        simpa using one m h0
  rw [e, key o.n1, key o.n2, key o.n4, key o.n8]
  simp

/-- **C59**, slope. Neighbouring columns differ in height by at most 3/5 of the amplitude times the width of a
column over the half-width of the grid, plus one cell of rounding. -/
theorem C59_slope (gx gy gz cxy cz : ℝ) (hv : ValidGridArgs gx gy gz cxy cz) (g : Grid ℝ)
    (hg : mkGrid gx gy gz cxy cz = .ok g) (amp : ℝ) (rng : Rng) (log : List (Warn ℝ)) (w : World ℝ)
    (hi : init g amp ⟨mkSimOut g, rng, log⟩ = .ok w) (i j : ℤ) (i0 : 0 ≤ i) (j0 : 0 ≤ j) :
    (i + 1 ≤ 2 * g.halfX → j ≤ 2 * g.halfY →
      |w.out.terrain (i + 1) j - w.out.terrain i j| ≤ 3 / 5 * |amp| * cxy / gx + cz) ∧
    (i ≤ 2 * g.halfX → j + 1 ≤ 2 * g.halfY →
      |w.out.terrain i (j + 1) - w.out.terrain i j| ≤ 3 / 5 * |amp| * cxy / gy + cz) := by
  obtain ⟨g', hg', hs⟩ := mkGrid_ok hv
  rw [hg] at hg'; cases hg'
  have hc := hv.cxy_pos
  have hx := hv.gx_pos
  have hy := hv.gy_pos
  constructor
  · intro i1 j1
    obtain ⟨n1, n2, n4, n8, o, e⟩ := height_octaves hv hg hi i0 (by omega) j0 j1
    obtain ⟨m1, m2, m4, m8, o', e'⟩ := height_octaves hv hg hi (by omega : 0 ≤ i + 1) i1 j0 j1
    obtain ⟨x0, x1⟩ := coord_le hv hs.halfX hx hv.cxy_le_x i0 (by omega)
    obtain ⟨x0', x1'⟩ := coord_le hv hs.halfX hx hv.cxy_le_x (by omega : 0 ≤ i + 1) i1
    obtain ⟨y0, y1⟩ := coord_le hv hs.halfY hy hv.cxy_le_y j0 j1
    have hd := octaves_diff (permTable_isPermTable rng) x0 x1 y0 y1 x0' x1' y0 y1 o o' (δ := cxy / (2 * gx))
      (fun f hf u => (contrib_x _ _ _ _ u).trans_eq (by
        rw [← mul_sub, abs_mul, abs_of_nonneg hf]
        push_cast
        rw [add_mul, one_mul, add_sub_cancel_left, abs_of_nonneg (by positivity)]))
    rw [e, e']
    refine (round_diff hv.cz_pos).trans ?_
    rw [← mul_sub, abs_mul]
    have : |amp| * (6 / 5 * (cxy / (2 * gx))) = 3 / 5 * |amp| * cxy / gx := by field_simp; ring
    rw [← this]
    gcongr
  · intro i1 j1
    obtain ⟨n1, n2, n4, n8, o, e⟩ := height_octaves hv hg hi i0 i1 j0 (by omega)
    obtain ⟨m1, m2, m4, m8, o', e'⟩ := height_octaves hv hg hi i0 i1 (by omega : 0 ≤ j + 1) j1
    obtain ⟨x0, x1⟩ := coord_le hv hs.halfX hx hv.cxy_le_x i0 i1
    obtain ⟨y0, y1⟩ := coord_le hv hs.halfY hy hv.cxy_le_y j0 (by omega)
    obtain ⟨y0', y1'⟩ := coord_le hv hs.halfY hy hv.cxy_le_y (by omega : 0 ≤ j + 1) j1
    have hd := octaves_diff (permTable_isPermTable rng) x0 x1 y0 y1 x0 x1 y0' y1' o o' (δ := cxy / (2 * gy))
      (fun f hf u => (contrib_y _ _ _ _ u).trans_eq (by
        rw [← mul_sub, abs_mul, abs_of_nonneg hf]
        push_cast
        rw [add_mul, one_mul, add_sub_cancel_left, abs_of_nonneg (by positivity)]))
    rw [e, e']
    refine (round_diff hv.cz_pos).trans ?_
    rw [← mul_sub, abs_mul]
    have : |amp| * (6 / 5 * (cxy / (2 * gy))) = 3 / 5 * |amp| * cxy / gy := by field_simp; ring
    rw [← this]
    gcongr

/-- **C59**, at rest. The initial terrain is at rest if 3/5 of the amplitude times the width of a column over the
half-width of the grid is less than the height difference allowed by the repose angle. -/
theorem C59_at_rest (gx gy gz cxy cz : ℝ) (hv : ValidGridArgs gx gy gz cxy cz) (g : Grid ℝ)
    (hg : mkGrid gx gy gz cxy cz = .ok g) (p : SimParam ℝ) (tol : ℝ) (ht : 0 ≤ tol) (amp : ℝ)
    (hx : 3 / 5 * |amp| * cxy / gx < reposeStep g p) (hy : 3 / 5 * |amp| * cxy / gy < reposeStep g p)
    (rng : Rng) (log : List (Warn ℝ)) (w : World ℝ) (hi : init g amp ⟨mkSimOut g, rng, log⟩ = .ok w) :
    ∀ i j, (1 ≤ i ∧ i < 2 * g.halfX) → (1 ≤ j ∧ j < 2 * g.halfY) →
      ¬ Unstable w.out (reposeStep g p) tol i j := by
  obtain ⟨g', hg', hs⟩ := mkGrid_ok hv
  rw [hg] at hg'; cases hg'
  obtain ⟨w1, h1, hlat, -⟩ := C41_init_real gx gy gz cxy cz g hv hg amp rng log
  rw [hi] at h1; cases h1
  have hc := hv.cz_pos
  -- a difference of whole cells less than the step and a cell is at most the step
  have key : ∀ {i j i' j' : ℤ}, (0 ≤ i ∧ i ≤ 2 * g.halfX) → (0 ≤ j ∧ j ≤ 2 * g.halfY) →
      (0 ≤ i' ∧ i' ≤ 2 * g.halfX) → (0 ≤ j' ∧ j' ≤ 2 * g.halfY) →
      w.out.terrain i j - w.out.terrain i' j' < reposeStep g p + cz →
      ¬ w.out.terrain i' j' < w.out.terrain i j - reposeStep g p - tol := by
    intro i j i' j' hi hj hi' hj' h hlt
    obtain ⟨n, en⟩ := hlat i j hi.1 hi.2 hj.1 hj.2
    obtain ⟨m, em⟩ := hlat i' j' hi'.1 hi'.2 hj'.1 hj'.2
    unfold reposeStep at h hlt
    rw [en, em, hs.cellZ] at h hlt
    set k := roundAway (g.cellXY * Transc.tan p.reposeAngle / cz)
    have a1 : (n - m : ℝ) * cz < (k + 1) * cz := by linarith
    have a2 : (k : ℝ) * cz < (n - m) * cz := by linarith
    have b1 : n - m < k + 1 := by exact_mod_cast lt_of_mul_lt_mul_right a1 hc.le
    have b2 : k < n - m := by exact_mod_cast lt_of_mul_lt_mul_right a2 hc.le
    omega
  rintro i j hi' hj' ⟨i', j', ha, hlt⟩
  have sX : ∀ k l : ℤ, 0 ≤ k → 0 ≤ l → k + 1 ≤ 2 * g.halfX → l ≤ 2 * g.halfY → _ := fun k l a b c d =>
    abs_le.mp ((C59_slope gx gy gz cxy cz hv g hg amp rng log w hi k l a b).1 c d)
  have sY : ∀ k l : ℤ, 0 ≤ k → 0 ≤ l → k ≤ 2 * g.halfX → l + 1 ≤ 2 * g.halfY → _ := fun k l a b c d =>
    abs_le.mp ((C59_slope gx gy gz cxy cz hv g hg amp rng log w hi k l a b).2 c d)
  have ha' : (i' = i + 1 ∧ j' = j) ∨ (i' = i - 1 ∧ j' = j) ∨ (i' = i ∧ j' = j + 1) ∨ (i' = i ∧ j' = j - 1) := by
    unfold Adjacent at ha; omega
  rcases ha' with ⟨e1, e2⟩ | ⟨e1, e2⟩ | ⟨e1, e2⟩ | ⟨e1, e2⟩ <;> rw [e1, e2] at hlt
  · have s := sX i j (by omega) (by omega) (by omega) (by omega)
    exact key (by omega) (by omega) (by omega) (by omega) (by linarith) hlt
  · have s := sX (i - 1) j (by omega) (by omega) (by omega) (by omega)
    rw [sub_add_cancel] at s
    exact key (by omega) (by omega) (by omega) (by omega) (by linarith) hlt
  · have s := sY i j (by omega) (by omega) (by omega) (by omega)
    exact key (by omega) (by omega) (by omega) (by omega) (by linarith) hlt
  · have s := sY i (j - 1) (by omega) (by omega) (by omega) (by omega)
    rw [sub_add_cancel] at s
    exact key (by omega) (by omega) (by omega) (by omega) (by linarith) hlt

/-- **C57** from the constructors and `Init`: soil moves only near the body, for every random stream of the
terrain and of the relaxation. -/
theorem C57_end_to_end (gx gy gz cxy cz : ℝ) (hv : ValidGridArgs gx gy gz cxy cz) (n : ℤ) (hn : gz = n * cz)
    (angle : ℝ) (iters buffer : ℤ)
    (hp : (0 ≤ angle ∧ angle ≤ Transc.pi / 2) ∧ 0 ≤ iters ∧ 2 ≤ buffer)
    (tol : ℝ) (ht : 0 < tol) (ht1 : tol ≤ 1 / 3) (ht2 : 2 * tol < cz)
    (hsm : 18 * tol * (gx + gy + gz + cxy + cz) ≤ cz) (amp : ℝ)
    (hx : 3 / 5 * |amp| * cxy / gx < cz * roundAway (cxy * Transc.tan angle / cz))
    (hy : 3 / 5 * |amp| * cxy / gy < cz * roundAway (cxy * Transc.tan angle / cz)) (rng : Rng) :
    ∃ g p w, mkGrid gx gy gz cxy cz = .ok g ∧ mkSimParam angle iters buffer = .ok p ∧
      init g amp ⟨mkSimOut g, rng, []⟩ = .ok w ∧
      ∀ (body : Body ℝ) (a : Area) (qs : List (Vec3 ℝ × Quat ℝ)),
        (∀ q ∈ qs, Clear g body q ∧ Over g a body q) →
        ∃ body' w' N, (∀ fuel, N ≤ fuel → run fuel g p tol qs body w = .ok (body', w')) ∧
          ∀ i j, ¬ NearRect a (1 + 2 * (qs.length * iters)) i j → w'.out.terrain i j = w.out.terrain i j := by
  obtain ⟨g, hg, gs⟩ := C01_grid_accepts hv
  have hpe := (C02_simParam_iff angle iters buffer).1 hp
  obtain ⟨w, hi, -, -⟩ := C41_init_real gx gy gz cxy cz g hv hg amp rng []
  refine ⟨g, _, w, hg, hpe, hi, fun body a qs hq => ?_⟩
  have S := setup_of_constructors hv hn hg hpe ht ht1 ht2
  have hst := start_of_init hv hg hi
  have er : reposeStep g ⟨angle, iters, buffer⟩ = cz * roundAway (cxy * Transc.tan angle / cz) := by
    unfold reposeStep; rw [gs.cellZ, gs.cellXY]
  obtain ⟨b, w', N, hN, h1, -⟩ := C57_cone g _ tol S (centred_of_constructor hv hg)
    (small_of_constructor hv hg ht hsm) hp.2.1 body a qs hq w hst.1 (fun i j hi' hj' hu =>
      absurd hu (C59_at_rest gx gy gz cxy cz hv g hg _ tol ht.le amp (by rw [er]; exact hx)
        (by rw [er]; exact hy) rng [] w hi i j hi' hj'))
  exact ⟨b, w', N, hN, h1⟩

/-- On the grid of the example program an amplitude of one metre gives heights of at most four centimetres, and
12 centimetres give a flat terrain. -/
example (rng : Rng) : ∃ g w w', mkGrid (4 : ℝ) 4 4 (1 / 20) (1 / 100) = .ok g ∧
    init g 1 ⟨mkSimOut g, rng, []⟩ = .ok w ∧ init g (3 / 25) ⟨mkSimOut g, rng, []⟩ = .ok w' ∧
    ∀ i j, 0 ≤ i → i ≤ 160 → 0 ≤ j → j ≤ 160 →
      |w.out.terrain i j| ≤ 1 / 20 ∧ w'.out.terrain i j = 0 := by
  have hv : ValidGridArgs (4 : ℝ) 4 4 (1 / 20) (1 / 100) := by constructor <;> norm_num
  obtain ⟨g, hg, gs⟩ := C01_grid_accepts hv
  have hX : g.halfX = 80 := by rw [gs.halfX]; norm_num [Int.floor_eq_iff]
  have hY : g.halfY = 80 := by rw [gs.halfY]; norm_num [Int.floor_eq_iff]
  obtain ⟨w, hi, -, -⟩ := C41_init_real 4 4 4 (1 / 20) (1 / 100) g hv hg 1 rng []
  obtain ⟨w', hi', -, -⟩ := C41_init_real 4 4 4 (1 / 20) (1 / 100) g hv hg (3 / 25) rng []
  refine ⟨g, w, w', hg, hi, hi', fun i j i0 i1 j0 j1 => ⟨?_, ?_⟩⟩
  · refine (C59_amplitude 4 4 4 (1 / 20) (1 / 100) hv g hg 1 rng [] w hi i j i0 (by omega) j0 (by omega)).trans ?_
    norm_num
  · exact C59_flat 4 4 4 (1 / 20) (1 / 100) hv g hg (3 / 25) (by rw [abs_of_pos] <;> norm_num) rng [] w' hi' i j i0
      (by omega) j0 (by omega)

/-- With a repose angle of 45 degrees the terrain of the example program is at rest up to amplitudes of six metres. -/
example : (3 / 5 : ℝ) * |6| * (1 / 20) / 4 < 1 / 100 * roundAway (1 / 20 * Transc.tan (Real.pi / 4) / (1 / 100) : ℝ) := by
  have e : (Transc.tan (Real.pi / 4) : ℝ) = 1 := Real.tan_pi_div_four
  rw [e, show (1 / 20 * 1 / (1 / 100) : ℝ) = ((5 : ℤ) : ℝ) by norm_num, roundAway_intCast]
  norm_num

end Soil
