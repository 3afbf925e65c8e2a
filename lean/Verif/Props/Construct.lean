import Verif.Props.Checks

/-! # Properties C01, C02, C03: constructors -/

set_option linter.unusedSectionVars false

namespace Soil

variable {K : Type} [Field K] [LinearOrder K] [FloorRing K] [Transc K] [IsStrictOrderedRing K]

/-- The documented requirements on the arguments of `Grid` -/
structure ValidGridArgs (gx gy gz cxy cz : K) : Prop where
  cz_pos : 0 < cz
  cxy_pos : 0 < cxy
  gx_pos : 0 < gx
  gy_pos : 0 < gy
  gz_pos : 0 < gz
  cz_le : cz ≤ cxy
  cxy_le_x : cxy ≤ gx
  cxy_le_y : cxy ≤ gy
  cz_le_z : cz ≤ gz

/-- The documented content of a `Grid` built from the given arguments -/
structure GridSpec (gx gy gz cxy cz : K) (g : Grid K) : Prop where
  halfX : g.halfX = ⌊gx / cxy + 1 / 2⌋
  halfY : g.halfY = ⌊gy / cxy + 1 / 2⌋
  halfZ : g.halfZ = ⌊gz / cz + 1 / 2⌋
  cellXY : g.cellXY = cxy
  cellZ : g.cellZ = cz
  cellArea : g.cellArea = cxy ^ 2
  cellVolume : g.cellVolume = cxy ^ 2 * cz
  vectX : ∀ i, 0 ≤ i → g.vectX i = -gx + i * cxy
  vectY : ∀ i, 0 ≤ i → g.vectY i = -gy + i * cxy
  vectZ : ∀ k, 0 ≤ k → g.vectZ k = -gz + (k + 1) * cz

theorem accVect_eq (a d : K) (n : ℕ) : accVect a d n = a + n * d := by
  induction n with
  | zero => simp [accVect]
  | succ n ih => simp only [accVect, ih, ex_add]; push_cast; ring

theorem roundAway_of_nonneg {x : K} (h : 0 ≤ x) : roundAway x = ⌊x + 1 / 2⌋ := by
  simp [roundAway, h]

theorem mkGrid_ok {gx gy gz cxy cz : K} (h : ValidGridArgs gx gy gz cxy cz) :
    ∃ g, mkGrid gx gy gz cxy cz = .ok g ∧ GridSpec gx gy gz cxy cz g := by
  obtain ⟨h1, h2, h3, h4, h5, h6, h7, h8, h9⟩ := h
  unfold mkGrid
  simp only [ex_le, ex_lt, ex_zero, decide_eq_true_eq, h1.not_ge, h2.not_ge, h3.not_ge, h4.not_ge,
    h5.not_ge, h6.not_gt, h7.not_gt, h8.not_gt, h9.not_gt, if_false, ex_div, ex_round, castInt_exact,
    truncZ_intCast, ok_bind, pure_eq_ok]
  refine ⟨_, rfl, ?_⟩
  constructor
  · exact roundAway_of_nonneg (div_nonneg h3.le h2.le)
  · exact roundAway_of_nonneg (div_nonneg h4.le h2.le)
  · exact roundAway_of_nonneg (div_nonneg h5.le h1.le)
  · rfl
  · rfl
  · simp [pow_two]
  · simp [pow_two]
  · intro i hi
    obtain ⟨n, rfl⟩ := Int.eq_ofNat_of_zero_le hi
    simp [accVect_eq]
  · intro i hi
    obtain ⟨n, rfl⟩ := Int.eq_ofNat_of_zero_le hi
    simp [accVect_eq]
  · intro i hi
    obtain ⟨n, rfl⟩ := Int.eq_ofNat_of_zero_le hi
    simp [accVect_eq]; ring

/-- **C01**. Building a grid from valid arguments succeeds, and the grid is the documented one. -/
theorem C01_grid_accepts {gx gy gz cxy cz : K} (h : ValidGridArgs gx gy gz cxy cz) :
    ∃ g, mkGrid gx gy gz cxy cz = .ok g ∧ GridSpec gx gy gz cxy cz g := mkGrid_ok h

/-- **C01**. Building a grid from any other arguments throws `std::invalid_argument`. -/
theorem C01_grid_rejects {gx gy gz cxy cz : K} (h : ¬ ValidGridArgs gx gy gz cxy cz) :
    ∃ msg, mkGrid gx gy gz cxy cz = .error (.invalidArgument msg) := by
  unfold mkGrid
  simp only [ex_le, ex_lt, ex_zero, decide_eq_true_eq, throw_eq_error]
  by_cases h1 : cz ≤ 0
  · simp [h1]
  by_cases h2 : cxy ≤ 0
  · simp [h1, h2]
  by_cases h3 : gx ≤ 0
  · simp [h1, h2, h3]
  by_cases h4 : gy ≤ 0
  · simp [h1, h2, h3, h4]
  by_cases h5 : gz ≤ 0
  · simp [h1, h2, h3, h4, h5]
  by_cases h6 : cxy < cz
  · simp [h1, h2, h3, h4, h5, h6]
  by_cases h7 : gx < cxy
  · simp [h1, h2, h3, h4, h5, h6, h7]
  by_cases h8 : gy < cxy
  · simp [h1, h2, h3, h4, h5, h6, h7, h8]
  by_cases h9 : gz < cz
  · simp [h1, h2, h3, h4, h5, h6, h7, h8, h9]
  exact absurd ⟨not_le.mp h1, not_le.mp h2, not_le.mp h3, not_le.mp h4, not_le.mp h5, not_lt.mp h6,
    not_lt.mp h7, not_lt.mp h8, not_lt.mp h9⟩ h

/-- **C01**. In the documented grid positions are strictly increasing, consecutive positions differ
by exactly one cell, there is at least one cell on each side of the centre, and the centre is within
half a cell of the origin. -/
theorem C01_grid_regular {gx gy gz cxy cz : K} {g : Grid K}
    (hv : ValidGridArgs gx gy gz cxy cz) (h : mkGrid gx gy gz cxy cz = .ok g) :
    (∀ i, 0 ≤ i → g.vectX (i + 1) = g.vectX i + cxy ∧ g.vectY (i + 1) = g.vectY i + cxy ∧
      g.vectZ (i + 1) = g.vectZ i + cz) ∧
    (∀ i i', 0 ≤ i → i < i' → g.vectX i < g.vectX i' ∧ g.vectY i < g.vectY i' ∧
      g.vectZ i < g.vectZ i') ∧
    (1 ≤ g.halfX ∧ 1 ≤ g.halfY ∧ 1 ≤ g.halfZ) ∧
    |g.vectX g.halfX| ≤ cxy / 2 ∧ |g.vectY g.halfY| ≤ cxy / 2 := by
  obtain ⟨g', hg, hs⟩ := mkGrid_ok hv
  rw [h] at hg; cases hg
  have one : ∀ {a c : K}, 0 < c → c ≤ a → 1 ≤ ⌊a / c + 1 / 2⌋ := by
    intro a c hc hac
    rw [Int.le_floor]
    have : 1 ≤ a / c := by rw [le_div_iff₀ hc]; linarith
    push_cast; linarith
  have hx := one hv.cxy_pos hv.cxy_le_x
  have hy := one hv.cxy_pos hv.cxy_le_y
  have hz := one hv.cz_pos hv.cz_le_z
  have mid : ∀ {a c : K}, 0 < c → |(-a + (⌊a / c + 1 / 2⌋ : ℤ) * c)| ≤ c / 2 := by
    intro a c hc
    have h1 := Int.floor_le (a / c + 1 / 2)
    have h2 := Int.lt_floor_add_one (a / c + 1 / 2)
    have h3 : a / c * c = a := div_mul_cancel₀ _ hc.ne'
    have h4 := mul_le_mul_of_nonneg_right h1 hc.le
    have h5 := mul_lt_mul_of_pos_right h2 hc
    rw [abs_le]
    constructor <;> nlinarith
  refine ⟨?_, ?_, ⟨by rw [hs.halfX]; exact hx, by rw [hs.halfY]; exact hy, by rw [hs.halfZ]; exact hz⟩,
    ?_, ?_⟩
  · intro i hi
    rw [hs.vectX i hi, hs.vectY i hi, hs.vectZ i hi, hs.vectX _ (by omega), hs.vectY _ (by omega),
      hs.vectZ _ (by omega)]
    push_cast
    refine ⟨by ring, by ring, by ring⟩
  · intro i i' hi hii
    rw [hs.vectX i hi, hs.vectY i hi, hs.vectZ i hi, hs.vectX _ (by omega), hs.vectY _ (by omega),
      hs.vectZ _ (by omega)]
    have hlt : (i : K) < i' := by exact_mod_cast hii
    have a1 := mul_lt_mul_of_pos_right hlt hv.cxy_pos
    have a2 := mul_lt_mul_of_pos_right hlt hv.cz_pos
    refine ⟨by linarith, by linarith, ?_⟩
    nlinarith
  · rw [hs.halfX, hs.vectX _ (by omega)]; exact mid hv.cxy_pos
  · rw [hs.halfY, hs.vectY _ (by omega)]; exact mid hv.cxy_pos

example : ValidGridArgs (4 : ℚ) 3 2 (1 / 5) (1 / 10) := by
  constructor <;> norm_num

example : ¬ ValidGridArgs (4 : ℚ) 3 2 (1 / 10) (1 / 5) := by
  intro h; have := h.cz_le; norm_num at this

/-! ## Body -/

/-- The documented requirements on the arguments of `Bucket` and `Blade` -/
structure ValidBodyArgs (o j b t : List K) (width : K) : Prop where
  o_len : o.length = 3
  j_len : j.length = 3
  b_len : b.length = 3
  t_len : t.length = 3
  j_ne_b : j ≠ b
  j_ne_t : j ≠ t
  b_ne_t : b ≠ t
  width_pos : 0 < width

theorem vecEq_iff (l m : List K) : vecEq l m = true ↔ l = m := by
  induction l generalizing m with
  | nil => cases m <;> simp [vecEq]
  | cons a l ih => cases m <;> simp [vecEq, ih]

/-- **C02**. A body built from valid arguments has the given kind and width, reference points
relative to the origin, and no pose yet. -/
theorem C02_body_accepts (kind : BodyKind) (o j b t : Vec3 K) (width : K)
    (h : ValidBodyArgs [o.x, o.y, o.z] [j.x, j.y, j.z] [b.x, b.y, b.z] [t.x, t.y, t.z] width) :
    mkBody kind [o.x, o.y, o.z] [j.x, j.y, j.z] [b.x, b.y, b.z] [t.x, t.y, t.z] width =
      .ok {
        kind := kind
        width := width
        jInit := ⟨j.x - o.x, j.y - o.y, j.z - o.z⟩
        bInit := ⟨b.x - o.x, b.y - o.y, b.z - o.z⟩
        tInit := ⟨t.x - o.x, t.y - o.y, t.z - o.z⟩
        pos := ⟨0, 0, 0⟩
        ori := ⟨0, 0, 0, 0⟩ } := by
  unfold mkBody
  rw [if_neg (by simp), if_neg (by simp), if_neg (by simp), if_neg (by simp),
    if_neg (by rw [vecEq_iff]; exact h.j_ne_b), if_neg (by rw [vecEq_iff]; exact h.j_ne_t),
    if_neg (by rw [vecEq_iff]; exact h.b_ne_t), if_neg (by simpa using h.width_pos)]
  simp

/-- **C02**. A body is rejected with `std::invalid_argument` for any other arguments; in particular
no coordinate outside the given vectors is read. -/
theorem C02_body_rejects (kind : BodyKind) (o j b t : List K) (width : K)
    (h : ¬ ValidBodyArgs o j b t width) :
    ∃ msg, mkBody kind o j b t width = .error (.invalidArgument msg) := by
  unfold mkBody
  simp only [throw_eq_error]
  by_cases h1 : o.length = 3
  swap; · simp [h1]
  by_cases h2 : j.length = 3
  swap; · simp [h1, h2]
  by_cases h3 : b.length = 3
  swap; · simp [h1, h2, h3]
  by_cases h4 : t.length = 3
  swap; · simp [h1, h2, h3, h4]
  by_cases h5 : j = b
  · have := (vecEq_iff j b).mpr h5
    simp [h1, h2, h3, h4, this]
  by_cases h6 : j = t
  · have a := mt (vecEq_iff j b).mp h5
    have := (vecEq_iff j t).mpr h6
    simp [h1, h2, h3, h4, a, this]
  by_cases h7 : b = t
  · have a := mt (vecEq_iff j b).mp h5
    have a' := mt (vecEq_iff j t).mp h6
    have := (vecEq_iff b t).mpr h7
    simp [h1, h2, h3, h4, a, a', this]
  by_cases h8 : width ≤ 0
  · have a := mt (vecEq_iff j b).mp h5
    have a' := mt (vecEq_iff j t).mp h6
    have a'' := mt (vecEq_iff b t).mp h7
    simp [h1, h2, h3, h4, a, a', a'', h8]
  exact absurd ⟨h1, h2, h3, h4, h5, h6, h7, not_le.mp h8⟩ h

example : ValidBodyArgs [(0 : ℚ), 0, 0] [0, 0, 0] [0, 0, -1] [1, 0, -1] (1 / 2) := by
  constructor <;> norm_num

/-- **C02**. `SimParam` accepts exactly repose angles in [0, π/2], non-negative iteration counts and
buffers of at least two cells, and stores them. -/
theorem C02_simParam_iff (angle : K) (n buffer : ℤ) :
    ((0 ≤ angle ∧ angle ≤ Transc.pi / 2) ∧ 0 ≤ n ∧ 2 ≤ buffer →
      mkSimParam angle n buffer = .ok ⟨angle, n, buffer⟩) ∧
    (¬ ((0 ≤ angle ∧ angle ≤ Transc.pi / 2) ∧ 0 ≤ n ∧ 2 ≤ buffer) →
      ∃ msg, mkSimParam angle n buffer = .error (.invalidArgument msg)) := by
  unfold mkSimParam
  simp only [throw_eq_error, ex_lt, ex_div, ex_pi, ex_ofRat, ex_zero, Bool.or_eq_true,
    decide_eq_true_eq]
  constructor
  · rintro ⟨⟨h1, h2⟩, h3, h4⟩
    rw [if_neg (by push_cast; push Not; exact ⟨h2, h1⟩), if_neg (by omega), if_neg (by omega)]
    rfl
  · intro h
    by_cases h1 : Transc.pi / ((2 : ℚ) : K) < angle ∨ angle < 0
    · exact ⟨_, by rw [if_pos h1]; rfl⟩
    by_cases h2 : n < 0
    · exact ⟨_, by rw [if_neg h1, if_pos h2]; rfl⟩
    by_cases h3 : buffer < 2
    · exact ⟨_, by rw [if_neg h1, if_neg h2, if_pos h3]; rfl⟩
    push Not at h1 h2 h3
    push_cast at h1
    exact absurd ⟨⟨h1.2, h1.1⟩, h2, h3⟩ h

/-! ## Fresh state -/

/-- **C03**. The state built from a grid has the documented content. -/
theorem C03_fresh_state (g : Grid K) :
    (mkSimOut g).lenX = 2 * g.halfX + 1 ∧ (mkSimOut g).lenY = 2 * g.halfY + 1 ∧
    (mkSimOut g).equilibrium = false ∧ (mkSimOut g).bodySoilPos = [] ∧
    (∀ i j, (mkSimOut g).terrain i j = 0) ∧
    (∀ k i j, (mkSimOut g).body k i j = 0 ∧ (mkSimOut g).bodySoil k i j = 0) ∧
    (∀ a ∈ [(mkSimOut g).bodyArea, (mkSimOut g).relaxArea, (mkSimOut g).impactArea],
      a = ⟨1, 2 * g.halfX, 1, 2 * g.halfY⟩) := by
  refine ⟨rfl, rfl, rfl, rfl, fun _ _ => ?_, fun _ _ _ => ⟨?_, ?_⟩, ?_⟩
  · simp [mkSimOut]
  · simp [mkSimOut]
  · simp [mkSimOut]
  · intro a ha
    simp only [List.mem_cons, List.not_mem_nil, or_false] at ha
    rcases ha with rfl | rfl | rfl <;> rfl

/-- **C03**. For every grid the fresh state passes both checks, with volume 0. -/
theorem C03_fresh_checks (g : Grid K) (tol : K) (htol : 0 ≤ tol) :
    checkSoil (mkSimOut g) tol = .ok true ∧ checkVolume (mkSimOut g) 0 g tol = .ok true := by
  obtain ⟨-, -, -, hp, ht, hb, -⟩ := C03_fresh_state g
  constructor
  · obtain ⟨b, hb1, hb2⟩ := C38_checkSoil_iff_exact (mkSimOut g) tol
      (by simp [AreaInside, mkSimOut])
    rw [hb1]
    congr 1
    rw [hb2]
    intro i j _ _ _ _
    constructor <;> simp [hb]
  · obtain ⟨b, hb1, hb2⟩ := C39_checkVolume_iff (mkSimOut g) 0 g tol
      (by intro e he; rw [hp] at he; simp at he)
    rw [hb1]
    congr 1
    rw [hb2]
    constructor
    · intro i j _ k _
      simp [layerSoil, hb, hp, htol]
    · have : ∀ i j, columnCells (mkSimOut g) g.cellZ i j = 0 := by
        intro i j
        rw [columnCells_eq]; simp [layerSoil, hb, ht]
      simp [totalCells, this]

example : ∃ g : Grid ℚ, mkGrid 4 3 2 (1 / 5) (1 / 10) = .ok g ∧ g.halfX = 20 := by
  obtain ⟨g, hg, hs⟩ := C01_grid_accepts (K := ℚ) (gx := 4) (gy := 3) (gz := 2) (cxy := 1 / 5)
    (cz := 1 / 10) (by constructor <;> norm_num)
  exact ⟨g, hg, by rw [hs.halfX]; norm_num⟩

end Soil
