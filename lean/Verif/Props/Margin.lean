import Verif.Proof.Margin
import Verif.Props.Reach

/-! # C48 and C44 in terms of the vertices of the body -/

set_option linter.unusedSectionVars false

namespace Soil

/-- **C44**, hull. The rasterised body is the body up to a margin of a few cells: in every direction,
no occupied height of any column lies farther than the margin beyond the farthest vertex. (No condition
on the position of the edges relative to the cells is needed, unlike in `C44_only`.) -/
theorem C44_hull (g : Grid ℝ) (p : SimParam ℝ) (tol : ℝ) (S : Setup g p tol) (C : Centred g)
    (hsm : 18 * tol * ((g.halfX + g.halfY) * g.cellXY + g.halfZ * g.cellZ) ≤ g.cellZ)
    (pos : Vec3 ℝ) (ori : Quat ℝ) (body : Body ℝ) (hq : Clear g body (pos, ori)) (fuel : ℕ)
    (s s' : SimOut ℝ) (hs : Sound g s) (h : calcBodyPos fuel s pos ori g body p tol = .ok s')
    (i j : ℤ) (x : ℝ) (hij : s'.InGrid i j) (ho : Occ s' i j x) (n : Vec3 ℝ) :
    ∃ v ∈ bodyVertices g pos ori body,
      dot n ⟨g.vectX i, g.vectY j, x⟩ ≤ dot n v + (3 * g.cellXY + 4 * g.cellZ) * len n :=
  raster_support S C hsm (hq.box S.cellXY S.zgrid.pos) (hq.poseOff S.cellXY S.zgrid.pos) hs h hij ho n

/-- **C48**, from the vertices. From any initial state, for any random numbers, any sequence of poses
that keep the vertices of the body a few cells away from the sides of the grid is simulated to the end:
no index leaves an array, no uninitialised value is read, every loop ends. -/
theorem C48_margin (g : Grid ℝ) (p : SimParam ℝ) (tol : ℝ) (S : Setup g p tol) (C : Centred g)
    (hsm : 18 * tol * ((g.halfX + g.halfY) * g.cellXY + g.halfZ * g.cellZ) ≤ g.cellZ) (body : Body ℝ)
    (qs : List (Vec3 ℝ × Quat ℝ)) (hq : ∀ q ∈ qs, Clear g body q) (w : World ℝ) (h : Start g w.out) :
    ∃ body' w' N, ∀ fuel, N ≤ fuel → run fuel g p tol qs body w = .ok (body', w') := by
  obtain ⟨⟨b, w'⟩, N, hN⟩ := run_clear S C hsm qs hq h.sound
    (fun e he => by rw [h.noEntry] at he; cases he)
  exact ⟨b, w', N, hN⟩

/-- The tolerance is small enough for the grid. -/
theorem small_of_constructor {gx gy gz cxy cz tol : ℝ} (hv : ValidGridArgs gx gy gz cxy cz) {g : Grid ℝ}
    (hg : mkGrid gx gy gz cxy cz = .ok g) (ht : 0 < tol)
    (hsm : 18 * tol * (gx + gy + gz + cxy + cz) ≤ cz) :
    18 * tol * ((g.halfX + g.halfY) * g.cellXY + g.halfZ * g.cellZ) ≤ g.cellZ := by
  obtain ⟨g', hg', gs⟩ := C01_grid_accepts hv
  rw [hg] at hg'; cases hg'
  have key : ∀ a c : ℝ, 0 < c → (⌊a / c + 1 / 2⌋ : ℝ) * c ≤ a + c / 2 := by
    intro a c hc
    have h3 : a / c * c = a := div_mul_cancel₀ _ hc.ne'
    have h1 := mul_le_mul_of_nonneg_right (Int.floor_le (a / c + 1 / 2)) hc.le
    linarith
  rw [gs.halfX, gs.halfY, gs.halfZ, gs.cellXY, gs.cellZ]
  refine le_trans (mul_le_mul_of_nonneg_left ?_ (by linarith)) hsm
  linarith [key gx cxy hv.cxy_pos, key gy cxy hv.cxy_pos, key gz cz hv.cz_pos, hv.cz_pos]

/-- **C48** from the constructors, with the condition on the vertices -/
theorem C48_margin_end_to_end (gx gy gz cxy cz : ℝ) (hv : ValidGridArgs gx gy gz cxy cz) (n : ℤ)
    (hn : gz = n * cz) (angle : ℝ) (iters buffer : ℤ)
    (hp : (0 ≤ angle ∧ angle ≤ Transc.pi / 2) ∧ 0 ≤ iters ∧ 2 ≤ buffer)
    (tol : ℝ) (ht : 0 < tol) (ht1 : tol ≤ 1 / 3) (ht2 : 2 * tol < cz)
    (hsm : 18 * tol * (gx + gy + gz + cxy + cz) ≤ cz) (amp : ℝ) (rng : Rng) :
    ∃ g p w, mkGrid gx gy gz cxy cz = .ok g ∧ mkSimParam angle iters buffer = .ok p ∧
      init g amp ⟨mkSimOut g, rng, []⟩ = .ok w ∧
      ∀ (body : Body ℝ) (qs : List (Vec3 ℝ × Quat ℝ)), (∀ q ∈ qs, Clear g body q) →
        ∃ body' w' N, (∀ fuel, N ≤ fuel → run fuel g p tol qs body w = .ok (body', w')) ∧
          checkSoil w'.out tol = .ok true ∧
          ∃ b, checkVolume w'.out (totalCells w.out cz) g tol = .ok b ∧
            (b = true ↔ ∀ x, .soilRemoved x ∉ w'.log) := by
  obtain ⟨g, hg, gs⟩ := C01_grid_accepts hv
  have hpe := (C02_simParam_iff angle iters buffer).1 hp
  obtain ⟨w, hi, -, -⟩ := C41_init_real gx gy gz cxy cz g hv hg amp rng []
  refine ⟨g, _, w, hg, hpe, hi, fun body qs hq => ?_⟩
  have S := setup_of_constructors hv hn hg hpe ht ht1 ht2
  have hst := start_of_init hv hg hi
  obtain ⟨b, w', N, hN⟩ := C48_margin g _ tol S (centred_of_constructor hv hg)
    (small_of_constructor hv hg ht hsm) body qs hq w hst.1
  have := C37_end_to_end gx gy gz cxy cz hv n hn g hg angle iters buffer _ hpe tol ht ht1 ht2 amp rng w w'
    hi N qs body b (fun q hm => (hq q hm).poseOff S.cellXY S.zgrid.pos) (hN N le_rfl)
  exact ⟨b, w', N, hN, this.1, this.2⟩

/-! ## The hypotheses can be met

The grid, the tolerance and the bucket of the example program (test/example/soil_evolution.cpp): its
reference point may be anywhere up to 2.5 m from the middle of the grid in each coordinate, with any orientation. -/

example : ValidGridArgs (4 : ℝ) 4 4 (1 / 20) (1 / 100) ∧ (4 : ℝ) = (400 : ℤ) * (1 / 100) ∧
    18 * (1 / 100000) * (4 + 4 + 4 + 1 / 20 + 1 / 100 : ℝ) ≤ 1 / 100 := by
  refine ⟨?_, by norm_num, by norm_num⟩
  constructor <;> norm_num

/-- Vertices of a body of the given reach -/
theorem clear_of_reach {g : Grid ℝ} {body : Body ℝ} {R D : ℝ} (H : Reach g body R D)
    (hc : 0 < g.cellXY) {q : Vec3 ℝ × Quat ℝ} (ho : qnormSq q.2 ≠ 0)
    (hx : |q.1.x| + R + margin g < (g.halfX - 1 / 2) * g.cellXY)
    (hy : |q.1.y| + R + margin g < (g.halfY - 1 / 2) * g.cellXY)
    (hz : |q.1.z| + R < (g.halfZ - 1) * g.cellZ) : Clear g body q := by
  have key : ∀ v ∈ bodyVertices g q.1 q.2 body, |v.x| ≤ |q.1.x| + R ∧ |v.y| ≤ |q.1.y| + R ∧
      |v.z| ≤ |q.1.z| + R := by
    intro v hv
    have h := vertices_len H hc q.1 ho v hv
    obtain ⟨h1, h2, h3⟩ := abs_le_len (vsub v q.1)
    have t : ∀ {a b : ℝ}, |a - b| ≤ R → |a| ≤ |b| + R := by
      intro a b h
      have := abs_sub_abs_le_abs_sub a b
      linarith
    exact ⟨t (h1.trans h), t (h2.trans h), t (h3.trans h)⟩
  exact ⟨ho, fun v hv => by linarith [(key v hv).1], fun v hv => by linarith [(key v hv).2.1],
    fun v hv => by linarith [(key v hv).2.2]⟩

/-- The bucket of the example program -/
theorem bucket_clear (kind : BodyKind) (pos : Vec3 ℝ) (ori : Quat ℝ) (g : Grid ℝ)
    (hg : mkGrid 4 4 4 (1 / 20) (1 / 100) = .ok g) (x y z : ℝ) (q : Quat ℝ) (hx : |x| ≤ 5 / 2)
    (hy : |y| ≤ 5 / 2) (hz : |z| ≤ 5 / 2) (hq : qnormSq q ≠ 0) :
    Clear g ⟨kind, ⟨0, 0, 0⟩, ⟨0, 0, -1 / 2⟩, ⟨7 / 10, 0, -1 / 2⟩, 1 / 2, pos, ori⟩ (⟨x, y, z⟩, q) := by
  have hv : ValidGridArgs (4 : ℝ) 4 4 (1 / 20) (1 / 100) := by constructor <;> norm_num
  obtain ⟨g', hg', gs⟩ := C01_grid_accepts hv
  rw [hg] at hg'; cases hg'
  have hX : g.halfX = 80 := by rw [gs.halfX]; norm_num [Int.floor_eq_iff]
  have hY : g.halfY = 80 := by rw [gs.halfY]; norm_num [Int.floor_eq_iff]
  have hZ : g.halfZ = 400 := by rw [gs.halfZ]; norm_num [Int.floor_eq_iff]
  have l1 : len ⟨0, 0, 0⟩ ≤ 87 / 100 := by unfold len; rw [Real.sqrt_le_left (by norm_num)]; norm_num [dot]
  have l2 : len ⟨7 / 10, 0, -1 / 2⟩ ≤ 87 / 100 := by
    unfold len; rw [Real.sqrt_le_left (by norm_num)]; norm_num [dot]
  have l3 : len ⟨0, 0, -1 / 2⟩ ≤ 87 / 100 := by
    unfold len; rw [Real.sqrt_le_left (by norm_num)]; norm_num [dot]
  have c0 : g.cellXY = 1 / 20 := gs.cellXY
  have z0 : g.cellZ = 1 / 100 := gs.cellZ
  refine clear_of_reach (R := 117 / 100) (D := 10) ⟨by norm_num, ?_, ?_, ?_, by norm_num, ?_⟩
    (by rw [c0]; norm_num) hq ?_ ?_ ?_
  · rw [c0]; dsimp only; linarith
  · rw [c0]; dsimp only; linarith
  · rw [c0]; dsimp only; linarith
  · rw [c0, z0]; norm_num
  · unfold margin; rw [c0, z0, hX]; dsimp only; norm_num; linarith
  · unfold margin; rw [c0, z0, hY]; dsimp only; norm_num; linarith
  · rw [z0, hZ]; dsimp only; norm_num; linarith

end Soil
