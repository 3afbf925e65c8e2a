import Verif.Props.Construct
import Verif.Props.Shuffle
import Verif.Model.Real

/-! # Property C41: initial terrain -/

set_option linter.unusedSectionVars false

namespace Soil

/-- the table contains each of `0..255` once -/
def IsPermTable (perm : List ℤ) : Prop := perm.Perm ((List.range 256).map fun n : ℕ => (n : ℤ))

theorem IsPermTable.at {perm : List ℤ} (h : IsPermTable perm) {i : ℤ} (h0 : 0 ≤ i) (h1 : i < 256) :
    ∃ v, permAt perm i = .ok v := by
  have hl : perm.length = 256 := by rw [h.length_eq]; simp
  unfold permAt
  rw [if_pos h0, List.getElem?_eq_getElem (by omega : i.toNat < perm.length)]
  exact ⟨_, rfl⟩

theorem permTable_isPermTable (r : Rng) : IsPermTable (permTable r).1 := shuffle_perm _ _

section Any
variable {F : Type} [FOps F]

/-- The noise table lookup of one corner stays in the table when the row is in range. -/
theorem cornerGrad_ok {perm : List ℤ} (h : IsPermTable perm) (px py : F) (xi yi : ℤ) (h0 : 0 ≤ yi)
    (h1 : yi < 256) : ∃ v, cornerGrad perm px py xi yi = .ok v := by
  unfold cornerGrad
  dsimp only
  split_ifs
  · exact ⟨_, rfl⟩
  · obtain ⟨p, hp⟩ := h.at h0 h1
    obtain ⟨q, hq⟩ := h.at (Int.emod_nonneg (xi + p) (by norm_num : (256 : ℤ) ≠ 0))
      (Int.emod_lt_of_pos (xi + p) (by norm_num))
    have hd : (q % 8).toNat < gradDir.length := by
      have := Int.emod_lt_of_pos q (by norm_num : (0 : ℤ) < 8)
      have := Int.emod_nonneg q (by norm_num : (8 : ℤ) ≠ 0)
      simp only [gradDir, List.length_cons, List.length_nil]; omega
    rw [hp, ok_bind, hq, ok_bind, List.getElem?_eq_getElem hd]
    exact ⟨_, rfl⟩

/-- **C41** (any arithmetic). Every height written by `Init` is the vertical cell size times a
rounded number. -/
theorem C41_any (g : Grid F) (amp : F) (w w' : World F) (h : init g amp w = .ok w') :
    (∀ i j, w.out.InGrid i j → ∃ x, w'.out.terrain i j = FOps.mul g.cellZ (FOps.round x)) ∧
    (∃ t, w'.out = { w.out with terrain := t }) ∧ w'.log = w.log := by
  have key : ∀ (perm : List ℤ) (l : List (ℤ × ℤ)) (s s' : SimOut F),
      initCells g amp perm l s = .ok s' →
      (∃ t, s' = { s with terrain := t }) ∧
      (∀ p : ℤ × ℤ, s'.terrain p.1 p.2 = s.terrain p.1 p.2 ∨
        ∃ x, s'.terrain p.1 p.2 = FOps.mul g.cellZ (FOps.round x)) ∧
      (∀ p ∈ l, ∃ x, s'.terrain p.1 p.2 = FOps.mul g.cellZ (FOps.round x)) := by
    intro perm l
    induction l with
    | nil =>
      intro s s' h
      cases h
      exact ⟨⟨s.terrain, rfl⟩, fun p => .inl rfl, fun p hp => by simp at hp⟩
    | cons q l ih =>
      intro s s' h
      unfold initCells at h
      obtain ⟨-, h⟩ := guardOob_bind.mp h
      obtain ⟨v, hv, h⟩ := bind_eq_ok.mp h
      obtain ⟨⟨t, ht⟩, h2, h3⟩ := ih _ _ h
      have hv' : ∃ x, v = FOps.mul g.cellZ (FOps.round x) := by
        unfold initHeight at hv
        dsimp only at hv
        obtain ⟨_, _, hv⟩ := bind_eq_ok.mp hv
        obtain ⟨_, _, hv⟩ := bind_eq_ok.mp hv
        obtain ⟨_, _, hv⟩ := bind_eq_ok.mp hv
        obtain ⟨_, _, hv⟩ := bind_eq_ok.mp hv
        cases hv
        exact ⟨_, rfl⟩
      have hq : ∃ x, s'.terrain q.1 q.2 = FOps.mul g.cellZ (FOps.round x) := by
        rcases h2 q with h2 | h2
        · rw [h2, show (s.setT q.1 q.2 v).terrain q.1 q.2 = v from upd2_same _ _ _ _]
          exact hv'
        · exact h2
      refine ⟨⟨t, ht⟩, fun p => ?_, fun p hp => ?_⟩
      · by_cases hpq : p.1 = q.1 ∧ p.2 = q.2
        · rw [hpq.1, hpq.2]; exact .inr hq
        · rcases h2 p with h2 | h2
          · left
            rw [h2]
            exact upd2_ne _ _ hpq
          · exact .inr h2
      · rcases List.mem_cons.mp hp with rfl | hp
        · exact hq
        · exact h3 p hp
  unfold init at h
  dsimp only at h
  obtain ⟨s, hs, h⟩ := bind_eq_ok.mp h
  cases h
  obtain ⟨h1, -, h3⟩ := key _ _ _ _ hs
  exact ⟨fun i j hij => h3 (i, j) (SimOut.mem_allCells.mpr hij), h1, rfl⟩

end Any

section Exact

variable {K : Type} [Field K] [LinearOrder K] [FloorRing K] [Transc K] [IsStrictOrderedRing K]

/-- **C41**. The noise lookup stays in the permutation table for all non-negative coordinates whose
skewed row is below 255. -/
theorem C41_noise_safe (hr0 : (1 : K) ≤ Transc.sqrt 3) (perm : List ℤ)
    (h : IsPermTable perm) (x y : K) (hx : 0 ≤ x) (hy : 0 ≤ y)
    (hlt : y + (x + y) * (Transc.sqrt 3 - 1) / 2 < 255) :
    ∃ v, simplexNoise x y perm = .ok v := by
  unfold simplexNoise
  simp only [ex_add, ex_sub, ex_mul, ex_div, ex_sqrt, ex_ofRat, ex_floor, castInt_exact,
    truncZ_intCast, ok_bind, ex_lt, ex_ofInt, decide_eq_true_eq, Rat.cast_ofNat, Rat.cast_one]
  have h0 : 0 ≤ y + (x + y) * (Transc.sqrt 3 - 1) / 2 := by
    have : 0 ≤ (x + y) * (Transc.sqrt 3 - 1) := mul_nonneg (by linarith) (by linarith)
    linarith
  have h1 : 0 ≤ ⌊y + (x + y) * (Transc.sqrt 3 - 1) / 2⌋ := Int.floor_nonneg.mpr h0
  have h2 : ⌊y + (x + y) * (Transc.sqrt 3 - 1) / 2⌋ < 255 := by
    rw [Int.floor_lt]; exact_mod_cast hlt
  generalize ⌊y + (x + y) * (Transc.sqrt 3 - 1) / 2⌋ = yi at h1 h2
  generalize ⌊x + (x + y) * (Transc.sqrt 3 - 1) / 2⌋ = xi
  obtain ⟨v0, e0⟩ := cornerGrad_ok (F := K) h
    (x - (↑xi - ↑(xi + yi) * (3 - Transc.sqrt 3) / 6))
    (y - (↑yi - ↑(xi + yi) * (3 - Transc.sqrt 3) / 6)) xi yi (by omega) (by omega)
  rw [e0, ok_bind]
  split_ifs
  · obtain ⟨v1, e1⟩ := cornerGrad_ok (F := K) h _ _ (xi + 1) (yi + 0) (by omega) (by omega)
    rw [e1, ok_bind]
    obtain ⟨v2, e2⟩ := cornerGrad_ok (F := K) h _ _ (xi + 1) (yi + 1) (by omega) (by omega)
    rw [e2]
    exact ⟨_, rfl⟩
  · obtain ⟨v1, e1⟩ := cornerGrad_ok (F := K) h _ _ (xi + 0) (yi + 1) (by omega) (by omega)
    rw [e1, ok_bind]
    obtain ⟨v2, e2⟩ := cornerGrad_ok (F := K) h _ _ (xi + 1) (yi + 1) (by omega) (by omega)
    rw [e2]
    exact ⟨_, rfl⟩

theorem noise_small (hr0 : (1 : K) ≤ Transc.sqrt 3) (hr1 : (Transc.sqrt 3 : K) ≤ 2)
    {perm : List ℤ} (h : IsPermTable perm) {x y : K} (hx : 0 ≤ x) (hy : 0 ≤ y) (hx1 : x ≤ 12)
    (hy1 : y ≤ 12) : ∃ v, simplexNoise x y perm = .ok v := by
  refine C41_noise_safe hr0 perm h x y hx hy ?_
  have : (x + y) * (Transc.sqrt 3 - 1) ≤ (x + y) * 1 :=
    mul_le_mul_of_nonneg_left (by linarith) (by linarith)
  linarith

/-- **C41**. On every grid that can be built, for every amplitude and every random stream,
initialising a fresh simulation returns normally, gives every column a height that is a whole number
of vertical cells, and changes nothing else. -/
theorem C41_init (hr0 : (1 : K) ≤ Transc.sqrt 3) (hr1 : (Transc.sqrt 3 : K) ≤ 2)
    (gx gy gz cxy cz : K) (g : Grid K) (hv : ValidGridArgs gx gy gz cxy cz)
    (hg : mkGrid gx gy gz cxy cz = .ok g) (amp : K) (rng : Rng) (log : List (Warn K)) :
    ∃ w', init g amp ⟨mkSimOut g, rng, log⟩ = .ok w' ∧
      (∀ i j, 0 ≤ i → i ≤ 2 * g.halfX → 0 ≤ j → j ≤ 2 * g.halfY →
        ∃ n : ℤ, w'.out.terrain i j = n * cz) ∧
      (∃ t, w'.out = { mkSimOut g with terrain := t }) := by
  obtain ⟨g', hg', hs⟩ := mkGrid_ok hv
  rw [hg] at hg'; cases hg'
  -- coordinates
  have hcoord : ∀ {a : K} {i hf : ℤ}, hf = ⌊a / cxy + 1 / 2⌋ → 0 < a → cxy ≤ a → 0 ≤ i → i ≤ 2 * hf →
      0 ≤ (-a - (-a + i * cxy)) / (2 * -a) ∧ (-a - (-a + i * cxy)) / (2 * -a) ≤ 3 / 2 := by
    intro a i hf hh ha hca h0 h1
    have e : (-a - (-a + i * cxy)) / (2 * -a) = i * cxy / (2 * a) := by
      rw [show -a - (-a + (i : K) * cxy) = -(i * cxy) by ring, show 2 * -a = -(2 * a) by ring,
        neg_div_neg_eq]
    rw [e]
    have hi0 : (0 : K) ≤ i := by exact_mod_cast h0
    have hi1 : (i : K) ≤ 2 * hf := by exact_mod_cast h1
    have hc := hv.cxy_pos
    refine ⟨by positivity, ?_⟩
    rw [div_le_iff₀ (by linarith)]
    have h2 : (hf : K) ≤ a / cxy + 1 / 2 := by rw [hh]; exact Int.floor_le _
    have h3 : a / cxy * cxy = a := div_mul_cancel₀ _ hc.ne'
    have h4 : (i : K) * cxy ≤ (2 * (a / cxy + 1 / 2)) * cxy :=
      mul_le_mul_of_nonneg_right (by linarith) hc.le
    nlinarith
  have hheight : ∀ perm, IsPermTable perm → ∀ i j, 0 ≤ i → i ≤ 2 * g.halfX → 0 ≤ j →
      j ≤ 2 * g.halfY → ∃ v, initHeight g amp perm i j = .ok v := by
    intro perm hperm i j i0 i1 j0 j1
    unfold initHeight
    obtain ⟨x0, x1⟩ := hcoord hs.halfX hv.gx_pos hv.cxy_le_x i0 i1
    obtain ⟨y0, y1⟩ := hcoord hs.halfY hv.gy_pos hv.cxy_le_y j0 j1
    simp only [ex_add, ex_sub, ex_mul, ex_div, ex_ofRat, Rat.cast_ofNat, Rat.cast_one,
      hs.vectX 0 le_rfl, hs.vectX i i0, hs.vectY 0 le_rfl, hs.vectY j j0, Int.cast_zero, zero_mul,
      add_zero]
    generalize (-gx - (-gx + (i : K) * cxy)) / (2 * -gx) = x at x0 x1
    generalize (-gy - (-gy + (j : K) * cxy)) / (2 * -gy) = y at y0 y1
    obtain ⟨v1, e1⟩ := noise_small hr0 hr1 hperm (x := 1 * x) (y := 1 * y) (by linarith)
      (by linarith) (by linarith) (by linarith)
    obtain ⟨v2, e2⟩ := noise_small hr0 hr1 hperm (x := 2 * x) (y := 2 * y) (by linarith)
      (by linarith) (by linarith) (by linarith)
    obtain ⟨v4, e4⟩ := noise_small hr0 hr1 hperm (x := 4 * x) (y := 4 * y) (by linarith)
      (by linarith) (by linarith) (by linarith)
    obtain ⟨v8, e8⟩ := noise_small hr0 hr1 hperm (x := 8 * x) (y := 8 * y) (by linarith)
      (by linarith) (by linarith) (by linarith)
    rw [e1, ok_bind, e2, ok_bind, e4, ok_bind, e8, ok_bind]
    exact ⟨_, rfl⟩
  have hcells : ∀ perm, IsPermTable perm → ∀ (l : List (ℤ × ℤ)) (s : SimOut K),
      s.lenX = 2 * g.halfX + 1 → s.lenY = 2 * g.halfY + 1 → (∀ p ∈ l, s.InGrid p.1 p.2) →
      ∃ s', initCells g amp perm l s = .ok s' := by
    intro perm hperm l
    induction l with
    | nil => intro s _ _ _; exact ⟨s, rfl⟩
    | cons p l ih =>
      intro s hx hy hl
      have hp := hl p List.mem_cons_self
      unfold initCells
      rw [guardOob_of ⟨hp, by have := hp.2.1; omega, by have := hp.2.2.2; omega⟩, ok_bind]
      obtain ⟨v, hv⟩ := hheight perm hperm p.1 p.2 hp.1 (by have := hp.2.1; omega) hp.2.2.1
        (by have := hp.2.2.2; omega)
      rw [hv, ok_bind]
      exact ih _ hx hy fun q hq => hl q (List.mem_cons_of_mem _ hq)
  obtain ⟨s', hs'⟩ := hcells (permTable rng).1 (permTable_isPermTable rng) (mkSimOut g).allCells
    (mkSimOut g) rfl rfl fun p hp => SimOut.mem_allCells.mp hp
  have hi : init g amp ⟨mkSimOut g, rng, log⟩ = .ok ⟨s', (permTable rng).2, log⟩ := by
    unfold init
    dsimp only
    rw [hs', ok_bind]
    rfl
  obtain ⟨h1, h2, -⟩ := C41_any g amp _ _ hi
  refine ⟨_, hi, fun i j i0 i1 j0 j1 => ?_, h2⟩
  obtain ⟨x, hx⟩ := h1 i j ⟨i0, by show i < 2 * g.halfX + 1; omega, j0,
    by show j < 2 * g.halfY + 1; omega⟩
  refine ⟨roundAway x, ?_⟩
  rw [hx, ex_mul, ex_round, hs.cellZ, mul_comm]

end Exact

theorem real_sqrt3 : (1 : ℝ) ≤ Transc.sqrt 3 ∧ (Transc.sqrt 3 : ℝ) ≤ 2 := by
  constructor
  · show 1 ≤ Real.sqrt 3
    exact Real.le_sqrt_of_sq_le (by norm_num)
  · show Real.sqrt 3 ≤ 2
    rw [Real.sqrt_le_left (by norm_num)]; norm_num

/-- **C41** over the real numbers, with no further assumption on the square root. -/
theorem C41_init_real (gx gy gz cxy cz : ℝ) (g : Grid ℝ) (hv : ValidGridArgs gx gy gz cxy cz)
    (hg : mkGrid gx gy gz cxy cz = .ok g) (amp : ℝ) (rng : Rng) (log : List (Warn ℝ)) :
    ∃ w', init g amp ⟨mkSimOut g, rng, log⟩ = .ok w' ∧
      (∀ i j, 0 ≤ i → i ≤ 2 * g.halfX → 0 ≤ j → j ≤ 2 * g.halfY →
        ∃ n : ℤ, w'.out.terrain i j = n * cz) ∧
      (∃ t, w'.out = { mkSimOut g with terrain := t }) :=
  C41_init real_sqrt3.1 real_sqrt3.2 gx gy gz cxy cz g hv hg amp rng log

/-- A grid of 4 m by 4 m by 4 m with cells of 0.1 m meets the hypotheses. -/
example : ∃ g, mkGrid (4 : ℝ) 4 4 (1 / 10) (1 / 10) = .ok g ∧
    ValidGridArgs (4 : ℝ) 4 4 (1 / 10) (1 / 10) := by
  have hv : ValidGridArgs (4 : ℝ) 4 4 (1 / 10) (1 / 10) := by constructor <;> norm_num
  obtain ⟨g, hg, -⟩ := mkGrid_ok hv
  exact ⟨g, hg, hv⟩

end Soil
