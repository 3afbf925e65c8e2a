import Verif.Proof.Reach
import Verif.Props.History

/-! # C48: histories inside the grid never fail -/

set_option linter.unusedSectionVars false

namespace Soil

/-- **C48**. From any initial state, for any random numbers, any sequence of poses deep inside the grid
is simulated to the end: no index leaves an array, no uninitialised value is read, every loop ends. The
final state does not depend on the fuel. -/
theorem C48_safe (g : Grid ℝ) (p : SimParam ℝ) (tol : ℝ) (S : Setup g p tol) (C : Centred g)
    (hsm : 18 * tol * g.halfZ ≤ 1) (body : Body ℝ) (R D : ℝ) (H : Reach g body R D)
    (qs : List (Vec3 ℝ × Quat ℝ)) (hq : ∀ q ∈ qs, Deep g R D q) (w : World ℝ) (h : Start g w.out) :
    ∃ body' w' N, ∀ fuel, N ≤ fuel → run fuel g p tol qs body w = .ok (body', w') := by
  obtain ⟨⟨b, w'⟩, N, hN⟩ := run_ok S C hsm qs hq H h.sound
    (fun e he => by rw [h.noEntry] at he; cases he)
  exact ⟨b, w', N, hN⟩

/-- **C48**, fuel. If a history returns with some bound on the number of loop iterations, then it
returns the same with every larger bound, in any arithmetic. -/
theorem C48_fuel {F : Type} [FOps F] (fuel fuel' : ℕ) (hf : fuel ≤ fuel') (g : Grid F) (p : SimParam F)
    (tol : F) (qs : List (Vec3 F × Quat F)) (body : Body F) (w : World F) (r : Body F × World F)
    (h : run fuel g p tol qs body w = .ok r) : run fuel' g p tol qs body w = .ok r :=
  run_ext hf g p tol qs body w r h

/-- The grid of the constructor is centred. -/
theorem centred_of_constructor {gx gy gz cxy cz : ℝ} (hv : ValidGridArgs gx gy gz cxy cz) {g : Grid ℝ}
    (hg : mkGrid gx gy gz cxy cz = .ok g) : Centred g := by
  obtain ⟨g', hg', gs⟩ := C01_grid_accepts hv
  rw [hg] at hg'; cases hg'
  have key : ∀ a c : ℝ, 0 < c → |(⌊a / c + 1 / 2⌋ : ℝ) * c - a| ≤ c / 2 := by
    intro a c hc
    have h3 : a / c * c = a := div_mul_cancel₀ _ hc.ne'
    have h1 := mul_le_mul_of_nonneg_right (Int.floor_le (a / c + 1 / 2)) hc.le
    have h2 := mul_le_mul_of_nonneg_right (Int.lt_floor_add_one (a / c + 1 / 2)).le hc.le
    rw [abs_le]
    constructor <;> linarith
  refine ⟨fun i hi => ?_, fun i hi => ?_, ?_⟩
  · rw [gs.vectX i hi, gs.halfX, gs.cellXY]
    convert key gx cxy hv.cxy_pos using 2
    ring
  · rw [gs.vectY i hi, gs.halfY, gs.cellXY]
    convert key gy cxy hv.cxy_pos using 2
    ring
  · rw [gs.vectZ 0 le_rfl, gs.halfZ, gs.cellZ]
    convert key gz cz hv.cz_pos using 2
    push_cast
    ring

/-- **C48** from the constructors: grid, parameters and terrain are constructed, the history is
simulated to the end, `CheckSoil` returns true, and `CheckVolume` returns true exactly when no removal
warning was issued. -/
theorem C48_end_to_end (gx gy gz cxy cz : ℝ) (hv : ValidGridArgs gx gy gz cxy cz) (n : ℤ)
    (hn : gz = n * cz) (angle : ℝ) (iters buffer : ℤ)
    (hp : (0 ≤ angle ∧ angle ≤ Transc.pi / 2) ∧ 0 ≤ iters ∧ 2 ≤ buffer)
    (tol : ℝ) (ht : 0 < tol) (ht1 : tol ≤ 1 / 3) (ht2 : 2 * tol < cz) (hsm : 18 * tol * n ≤ 1)
    (amp : ℝ) (rng : Rng) :
    ∃ g p w, mkGrid gx gy gz cxy cz = .ok g ∧ mkSimParam angle iters buffer = .ok p ∧
      init g amp ⟨mkSimOut g, rng, []⟩ = .ok w ∧
      ∀ (body : Body ℝ) (R D : ℝ), Reach g body R D → ∀ qs : List (Vec3 ℝ × Quat ℝ),
        (∀ q ∈ qs, Deep g R D q) → ∃ body' w' N,
          (∀ fuel, N ≤ fuel → run fuel g p tol qs body w = .ok (body', w')) ∧
          checkSoil w'.out tol = .ok true ∧
          ∃ b, checkVolume w'.out (totalCells w.out cz) g tol = .ok b ∧
            (b = true ↔ ∀ x, .soilRemoved x ∉ w'.log) := by
  obtain ⟨g, hg, gs⟩ := C01_grid_accepts hv
  have hpe := (C02_simParam_iff angle iters buffer).1 hp
  obtain ⟨w, hi, -, -⟩ := C41_init_real gx gy gz cxy cz g hv hg amp rng []
  refine ⟨g, _, w, hg, hpe, hi, fun body R D H qs hq => ?_⟩
  have S := setup_of_constructors hv hn hg hpe ht ht1 ht2
  have hst := start_of_init hv hg hi
  have hZ : g.halfZ = n := by
    rw [gs.halfZ, hn, mul_div_cancel_right₀ _ hv.cz_pos.ne', Int.floor_eq_iff]
    constructor <;> linarith
  obtain ⟨b, w', N, hN⟩ := C48_safe g _ tol S (centred_of_constructor hv hg) (by rw [hZ]; exact hsm) body R D
    H qs hq w hst.1
  have := C37_end_to_end gx gy gz cxy cz hv n hn g hg angle iters buffer _ hpe tol ht ht1 ht2 amp rng w w'
    hi N qs body b (fun q hm => (hq q hm).poseOff H S.cellXY) (hN N le_rfl)
  exact ⟨b, w', N, hN, this.1, this.2⟩

/-! ## The hypotheses can be met

A grid of 8 m by 8 m by 8 m with cells of 0.1 m, the tolerance of the code, and a bucket or blade of
about one metre that may be anywhere in the middle of the grid with any orientation. -/

example : ValidGridArgs (8 : ℝ) 8 8 (1 / 10) (1 / 10) := by
  constructor <;> norm_num

example : (8 : ℝ) = (80 : ℤ) * (1 / 10) ∧ (0 : ℝ) < 1 / 100000000 ∧ (1 / 100000000 : ℝ) ≤ 1 / 3 ∧
    2 * (1 / 100000000 : ℝ) < 1 / 10 ∧ 18 * (1 / 100000000 : ℝ) * (80 : ℤ) ≤ 1 := by norm_num

example (kind : BodyKind) (pos : Vec3 ℝ) (ori : Quat ℝ) (g : Grid ℝ)
    (hg : mkGrid 8 8 8 (1 / 10) (1 / 10) = .ok g) :
    Reach g ⟨kind, ⟨0, 0, 0⟩, ⟨0, 0, -1 / 2⟩, ⟨7 / 10, 0, -1 / 2⟩, 1 / 2, pos, ori⟩ (5 / 4) (13 / 5) ∧
    ∀ (x y z : ℝ) (q : Quat ℝ), |x| ≤ 5 → |y| ≤ 5 → |z| ≤ 6 → qnormSq q ≠ 0 →
      Deep g (5 / 4) (13 / 5) (⟨x, y, z⟩, q) := by
  have hv : ValidGridArgs (8 : ℝ) 8 8 (1 / 10) (1 / 10) := by constructor <;> norm_num
  obtain ⟨g', hg', gs⟩ := C01_grid_accepts hv
  rw [hg] at hg'; cases hg'
  have hX : g.halfX = 80 := by rw [gs.halfX]; norm_num [Int.floor_eq_iff]
  have hY : g.halfY = 80 := by rw [gs.halfY]; norm_num [Int.floor_eq_iff]
  have hZ : g.halfZ = 80 := by rw [gs.halfZ]; norm_num [Int.floor_eq_iff]
  have l1 : len ⟨0, 0, 0⟩ ≤ 9 / 10 := by unfold len; rw [Real.sqrt_le_left (by norm_num)]; norm_num [dot]
  have l2 : len ⟨7 / 10, 0, -1 / 2⟩ ≤ 9 / 10 := by
    unfold len; rw [Real.sqrt_le_left (by norm_num)]; norm_num [dot]
  have l3 : len ⟨0, 0, -1 / 2⟩ ≤ 9 / 10 := by
    unfold len; rw [Real.sqrt_le_left (by norm_num)]; norm_num [dot]
  refine ⟨⟨by norm_num, ?_, ?_, ?_, by norm_num, ?_⟩, fun x y z q hx hy hz hq => ⟨hq, ?_, ?_, ?_⟩⟩
  · rw [gs.cellXY]; dsimp only; linarith
  · rw [gs.cellXY]; dsimp only; linarith
  · rw [gs.cellXY]; dsimp only; linarith
  · rw [gs.cellXY, gs.cellZ]; norm_num
  · rw [gs.cellXY, hX]; dsimp only; norm_num; linarith
  · rw [gs.cellXY, hY]; dsimp only; norm_num; linarith
  · rw [gs.cellZ, hZ]; dsimp only; norm_num; linarith

end Soil
