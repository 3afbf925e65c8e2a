import Verif.Proof.ChartRun
import Verif.Props.Carry

/-!
# C63: the place in the grid and the size of the grid do not matter

The same motion of the same body over the same terrain, on another part of the grid or on a grid of another size, gives
the same terrain, the same soil on the body and the same warnings, moved along — as long as nothing comes near the sides of
either grid.
-/

namespace Soil

open FOps

section

variable {K : Type} [Field K] [LinearOrder K] [IsStrictOrderedRing K] [FloorRing K] [Transc K]

/-- **C63**, one step, in any exact arithmetic. Two states that show the same scene in different places: after a call of
`Step` with the pose moved along, they show the same scene again; the same random numbers were drawn, the same warnings
given, the same number of passes made. -/
theorem C63_step (c : Chart) (d : Vec3 K) (g g' : Grid K) (P : Placed c d g g') (p : SimParam K) (tol : K)
    (hb : 0 ≤ p.cellBuffer) (fuel : ℕ) (body : Body K) (pos : Vec3 K) (ori : Quat K) (w w' : World K) (r r' : StepResult K)
    (L : LikeA True c w.out w'.out) (hr : w'.rng = w.rng) (h : step fuel pos ori g body p tol w = .ok r)
    (h' : step fuel (vadd pos d) ori g' (body.moved d) p tol w' = .ok r')
    (R1 : Spacious c g g' p w.out.relaxArea) (R2 : Spacious c g g' p r.world.out.bodyArea) :
    LikeA True c r.world.out r'.world.out ∧ r'.world.rng = r.world.rng ∧
      (∃ x, r.world.log = w.log ++ x ∧ r'.world.log = w'.log ++ x) ∧ r'.body = r.body.moved d ∧ r'.updated = r.updated ∧
      r'.passes = r.passes :=
  step_like P p tol hb fuel body pos ori L hr h h' R1 R2

end

/-- **C63**. Two grids with cells of the same size and the same heights, the terrain of the second, `(tx, ty)` columns further,
being the same. Outside the rectangle `a` (and two columns around it) both terrains are at rest. Any motion of the body
over `a`, and the motion moved along on the second grid: both simulations end, the terrain and the soil on the body are the
same again in corresponding columns, and so are the records of soil on the body, the warnings and the random numbers
drawn. In both grids `a` must be far from the sides: twice as many columns as passes of relaxation can be made. -/
theorem C63_place (c : Chart) (d : Vec3 ℝ) (g g' : Grid ℝ) (P : Placed c d g g') (p : SimParam ℝ) (tol : ℝ)
    (S : Setup g p tol) (C : Centred g) (C' : Centred g')
    (hsm : 18 * tol * ((g.halfX + g.halfY) * g.cellXY + g.halfZ * g.cellZ) ≤ g.cellZ)
    (hsm' : 18 * tol * ((g'.halfX + g'.halfY) * g'.cellXY + g'.halfZ * g'.cellZ) ≤ g'.cellZ) (hm : 0 ≤ p.maxIterations)
    (body : Body ℝ) (a : Area) (qs : List (Vec3 ℝ × Quat ℝ)) (hq : ∀ q ∈ qs, Clear g body q ∧ Over g a body q)
    (W : Wide g (2 * (qs.length * p.maxIterations) + 1 + p.cellBuffer) a)
    (W' : Wide g' (2 * (qs.length * p.maxIterations) + 1 + p.cellBuffer) (c.area a))
    (w w' : World ℝ) (h : Start g w.out) (h' : Start g' w'.out) (hr : w'.rng = w.rng)
    (hA : w.out.relaxArea = ⟨1, 2 * g.halfX, 1, 2 * g.halfY⟩) (hA' : w'.out.relaxArea = ⟨1, 2 * g'.halfX, 1, 2 * g'.halfY⟩)
    (hT : ∀ i j, w.out.InGrid i j → w'.out.InGrid (i + c.tx) (j + c.ty) →
      w'.out.terrain (i + c.tx) (j + c.ty) = w.out.terrain i j)
    (hrest : ∀ i j, (1 ≤ i ∧ i < 2 * g.halfX) → (1 ≤ j ∧ j < 2 * g.halfY) →
      Unstable w.out (reposeStep g p) tol i j → NearRect a 2 i j)
    (hrest' : ∀ i j, (1 ≤ i ∧ i < 2 * g'.halfX) → (1 ≤ j ∧ j < 2 * g'.halfY) →
      Unstable w'.out (reposeStep g' p) tol i j → NearRect (c.area a) 2 i j)
    (he : w'.out.equilibrium = w.out.equilibrium) :
    ∃ body1 w1 w1' N, (∀ fuel, N ≤ fuel → run fuel g p tol qs body w = .ok (body1, w1) ∧
        run fuel g' p tol (qs.map fun q => (vadd q.1 d, q.2)) (body.moved d) w' = .ok (body1.moved d, w1')) ∧
      Like True c w1.out w1'.out ∧ w1'.rng = w1.rng ∧ ∃ y, w1.log = w.log ++ y ∧ w1'.log = w'.log ++ y := by
  have S' := placed_setup P S
  have hn : 0 ≤ (qs.length : ℤ) * p.maxIterations := by positivity
  have hbuf := S.buffer
  have on : ∀ i j, c.on (i, j) = (i + c.tx, j + c.ty) := fun i j => by simp [Chart.on, Chart.lin, P.swap]
  have hq' : ∀ q ∈ qs.map fun q => (vadd q.1 d, q.2), Clear g' (body.moved d) q := by
    intro q hm
    obtain ⟨q, hq1, rfl⟩ := List.mem_map.mp hm
    obtain ⟨h1, h2⟩ := hq q hq1
    refine clear_of_over (over_moved P h2 d) S'.cellXY (m := 2 * (qs.length * p.maxIterations) + 1 + p.cellBuffer) (by omega)
      W' h1.ori ?_
    intro v hv
    rw [vertices_moved P] at hv
    obtain ⟨u, hu, rfl⟩ := List.mem_map.mp hv
    have := h1.z u hu
    rw [P.halfZ, P.cellZ]
    show |u.z + d.z| < _
    rw [P.dz, add_zero]
    exact this
  obtain ⟨b1, w1, N1, e1⟩ := C48_margin g p tol S C hsm body qs (fun q hm => (hq q hm).1) w h
  obtain ⟨b1', w1', N1', e1'⟩ := C48_margin g' p tol S' C' hsm' (body.moved d) _ hq' w' h'
  have L : Like True c w.out w'.out := by
    refine ⟨fun _ _ _ => .inr trivial, fun i j h1 h2 => ?_, fun k i j _ _ => ?_, fun k i j _ _ => ?_, ?_, he⟩
    · rw [on] at h2 ⊢
      exact hT i j h1 h2
    · rw [h.body, h'.body]
    · rw [h.bodySoil, h'.bodySoil]
    · rw [h.noEntry, h'.noEntry]; rfl
  have hQ' := (quiet_iff h'.size).mpr hrest'
  obtain ⟨F, hlog, eb⟩ := run_fresh P S C C' hsm hsm' hm (a := a) (N := 2 * (qs.length * p.maxIterations)) (by omega) W W' qs
    (le_refl 2) (by omega) hq
    ⟨h.sound, fun e he => by rw [h.noEntry] at he; (cases he), (quiet_iff h.size).mpr hrest⟩
    ⟨h'.sound, fun e he => by rw [h'.noEntry] at he; (cases he), hQ'⟩
    ⟨L, .inr ⟨h.body, h'.body⟩, .inr ⟨hA, hA'⟩, hr⟩ (e1 (Max.max N1 N1') (le_max_left _ _))
    (e1' (Max.max N1 N1') (le_max_right _ _))
  dsimp only at F hlog eb
  subst eb
  exact ⟨b1, w1, w1', Max.max N1 N1', fun fuel hf => ⟨e1 fuel (le_trans (le_max_left _ _) hf),
    e1' fuel (le_trans (le_max_right _ _) hf)⟩, F.like, F.rng, hlog⟩

/-! ## Grids from the constructor -/

theorem mkGrid_vectZ {gx gy gz cxy cz : ℝ} (h : ValidGridArgs gx gy gz cxy cz) {g : Grid ℝ}
    (hg : mkGrid gx gy gz cxy cz = .ok g) : g.vectZ = fun i => accVect (-gz + cz) cz i.toNat := by
  obtain ⟨h1, h2, h3, h4, h5, h6, h7, h8, h9⟩ := h
  unfold mkGrid at hg
  simp only [ex_le, ex_lt, ex_zero, decide_eq_true_eq, h1.not_ge, h2.not_ge, h3.not_ge, h4.not_ge,
    h5.not_ge, h6.not_gt, h7.not_gt, h8.not_gt, h9.not_gt, if_false, ex_div, ex_round, castInt_exact,
    truncZ_intCast, ok_bind, pure_eq_ok, Except.ok.injEq] at hg
  subst hg
  rfl

/-- Two grids of the constructor with the same cells and the same height, of sizes that are multiples of the cells: columns
of the second correspond to those of the first. -/
theorem C63_placed {gx gy gx' gy' gz cxy cz : ℝ} (hv : ValidGridArgs gx gy gz cxy cz) (hv' : ValidGridArgs gx' gy' gz cxy cz)
    {g g' : Grid ℝ} (hg : mkGrid gx gy gz cxy cz = .ok g) (hg' : mkGrid gx' gy' gz cxy cz = .ok g')
    (hx : ∃ n : ℤ, gx = n * cxy) (hy : ∃ n : ℤ, gy = n * cxy) (hx' : ∃ n : ℤ, gx' = n * cxy) (hy' : ∃ n : ℤ, gy' = n * cxy)
    (tx ty : ℤ) :
    Placed ⟨false, tx, ty⟩ ⟨(g.halfX + tx - g'.halfX) * cxy, (g.halfY + ty - g'.halfY) * cxy, 0⟩ g g' := by
  have hz : g'.vectZ = g.vectZ := by rw [mkGrid_vectZ hv hg, mkGrid_vectZ hv' hg']
  obtain ⟨g1, e1, gs⟩ := C01_grid_accepts hv
  rw [hg] at e1; cases e1
  obtain ⟨g1', e1', gs'⟩ := C01_grid_accepts hv'
  rw [hg'] at e1'; cases e1'
  have key : ∀ b c : ℝ, 0 < c → (∃ n : ℤ, b = n * c) → (⌊b / c + 1 / 2⌋ : ℝ) * c = b := by
    rintro b c hc ⟨n, rfl⟩
    rw [mul_div_cancel_right₀ _ hc.ne']
    have : ⌊(n : ℝ) + 1 / 2⌋ = n := by
      rw [Int.floor_eq_iff]; constructor <;> linarith
    rw [this]
  have hc := hv.cxy_pos
  refine ⟨rfl, by rw [gs.cellXY, gs'.cellXY], by rw [gs.cellZ, gs'.cellZ], by rw [gs.cellXY]; exact hc, by rw [gs.halfZ, gs'.halfZ],
    hz, by rw [gs.cellXY], by rw [gs.cellXY], rfl, fun i h1 h2 => ?_, fun i h1 h2 => ?_⟩
  · rw [gs'.vectX _ h2, gs.vectX _ h1, gs.halfX, gs'.halfX]
    have := key gx cxy hc hx
    have := key gx' cxy hc hx'
    push_cast
    linarith
  · rw [gs'.vectY _ h2, gs.vectY _ h1, gs.halfY, gs'.halfY]
    have := key gy cxy hc hy
    have := key gy' cxy hc hy'
    push_cast
    linarith

/-- **C63**, size of the grid. The same motion (in metres) of the same body over the same terrain in the middle of two grids
of different sizes: same result. -/
theorem C63_size {gx gy gx' gy' gz cxy cz : ℝ} (hv : ValidGridArgs gx gy gz cxy cz) (hv' : ValidGridArgs gx' gy' gz cxy cz)
    {g g' : Grid ℝ} (hg : mkGrid gx gy gz cxy cz = .ok g) (hg' : mkGrid gx' gy' gz cxy cz = .ok g')
    (hx : ∃ n : ℤ, gx = n * cxy) (hy : ∃ n : ℤ, gy = n * cxy) (hx' : ∃ n : ℤ, gx' = n * cxy) (hy' : ∃ n : ℤ, gy' = n * cxy)
    (hz : ∃ n : ℤ, gz = n * cz) (angle : ℝ) (iters buffer : ℤ)
    (hp : (0 ≤ angle ∧ angle ≤ Transc.pi / 2) ∧ 0 ≤ iters ∧ 2 ≤ buffer) (tol : ℝ) (ht : 0 < tol) (ht1 : tol ≤ 1 / 3)
    (ht2 : 2 * tol < cz) (hsm : 18 * tol * (gx + gy + gz + cxy + cz) ≤ cz) (hsm' : 18 * tol * (gx' + gy' + gz + cxy + cz) ≤ cz)
    (body : Body ℝ) (a : Area) (qs : List (Vec3 ℝ × Quat ℝ)) (hq : ∀ q ∈ qs, Clear g body q ∧ Over g a body q)
    (W : Wide g (2 * (qs.length * iters) + 1 + buffer) a)
    (W' : Wide g' (2 * (qs.length * iters) + 1 + buffer)
      ⟨a.minX + (g'.halfX - g.halfX), a.maxX + (g'.halfX - g.halfX), a.minY + (g'.halfY - g.halfY), a.maxY + (g'.halfY - g.halfY)⟩)
    (w w' : World ℝ) (h : Start g w.out) (h' : Start g' w'.out) (hr : w'.rng = w.rng)
    (hA : w.out.relaxArea = ⟨1, 2 * g.halfX, 1, 2 * g.halfY⟩) (hA' : w'.out.relaxArea = ⟨1, 2 * g'.halfX, 1, 2 * g'.halfY⟩)
    (hT : ∀ i j, w.out.InGrid i j → w'.out.InGrid (i + (g'.halfX - g.halfX)) (j + (g'.halfY - g.halfY)) →
      w'.out.terrain (i + (g'.halfX - g.halfX)) (j + (g'.halfY - g.halfY)) = w.out.terrain i j)
    (hrest : ∀ i j, (1 ≤ i ∧ i < 2 * g.halfX) → (1 ≤ j ∧ j < 2 * g.halfY) →
      Unstable w.out (reposeStep g ⟨angle, iters, buffer⟩) tol i j → NearRect a 2 i j)
    (hrest' : ∀ i j, (1 ≤ i ∧ i < 2 * g'.halfX) → (1 ≤ j ∧ j < 2 * g'.halfY) →
      Unstable w'.out (reposeStep g' ⟨angle, iters, buffer⟩) tol i j →
        NearRect a 2 (i - (g'.halfX - g.halfX)) (j - (g'.halfY - g.halfY)))
    (he : w'.out.equilibrium = w.out.equilibrium) :
    ∃ body1 w1 w1' N, (∀ fuel, N ≤ fuel → run fuel g ⟨angle, iters, buffer⟩ tol qs body w = .ok (body1, w1) ∧
        run fuel g' ⟨angle, iters, buffer⟩ tol qs body w' = .ok (body1, w1')) ∧
      Like True ⟨false, g'.halfX - g.halfX, g'.halfY - g.halfY⟩ w1.out w1'.out ∧ w1'.rng = w1.rng ∧
      ∃ y, w1.log = w.log ++ y ∧ w1'.log = w'.log ++ y := by
  have P := C63_placed hv hv' hg hg' hx hy hx' hy' (g'.halfX - g.halfX) (g'.halfY - g.halfY)
  obtain ⟨n, hn⟩ := hz
  have S := setup_of_constructors hv hn hg ((C02_simParam_iff angle iters buffer).1 hp) ht ht1 ht2
  have := C63_place _ _ g g' P _ tol S (centred_of_constructor hv hg) (centred_of_constructor hv' hg')
    (small_of_constructor hv hg ht hsm) (small_of_constructor hv' hg' ht hsm') hp.2.1 body a qs hq W
    (by simpa [Chart.area] using W') w w' h h' hr hA hA' hT hrest
    (fun i j h1 h2 h3 => by
      have := hrest' i j h1 h2 h3
      unfold NearRect at this ⊢
      simp only [Chart.area, Bool.false_eq_true, if_false]
      omega) he
  have e0 : (⟨(g.halfX + ((g'.halfX - g.halfX : ℤ) : ℝ) - g'.halfX) * cxy,
      (g.halfY + ((g'.halfY - g.halfY : ℤ) : ℝ) - g'.halfY) * cxy, 0⟩ : Vec3 ℝ) = ⟨0, 0, 0⟩ := by
    push_cast
    congr 1 <;> ring
  have ev : ∀ v : Vec3 ℝ, vadd v ⟨0, 0, 0⟩ = v := fun v => by
    unfold vadd
    simp
  have eb : ∀ b : Body ℝ, b.moved ⟨0, 0, 0⟩ = b := fun b => by
    unfold Body.moved
    rw [ev]
  rw [e0] at this
  simpa only [ev, eb, Prod.mk.eta, List.map_id'] using this

/-! ## The hypotheses can be met

The bucket of the example program on flat ground, on the grid of the example program and a metre and half a metre further on
a grid of sixteen by twelve metres: up to five steps. -/

/-- A flat fresh terrain -/
theorem flat_rest {g : Grid ℝ} {p : SimParam ℝ} {tol : ℝ} (S : Setup g p tol) (ht : 0 ≤ Transc.tan p.reposeAngle) {i j : ℤ} :
    ¬ Unstable (mkSimOut g) (reposeStep g p) tol i j := by
  rintro ⟨i', j', -, h⟩
  have h0 : 0 ≤ reposeStep g p := by
    unfold reposeStep
    have hc := S.cellXY
    have hz := S.zgrid.pos
    have e : (0 : ℤ) ≤ roundAway (g.cellXY * Transc.tan p.reposeAngle / g.cellZ) := by
      apply le_roundAway_of_le
      push_cast
      positivity
    have : (0 : ℝ) ≤ (roundAway (g.cellXY * Transc.tan p.reposeAngle / g.cellZ) : ℝ) := by exact_mod_cast e
    positivity
  have := S.tolPos
  simp only [mkSimOut, ex_zero] at h
  linarith

theorem flat_start (g : Grid ℝ) (hx : 1 ≤ g.halfX) (hy : 1 ≤ g.halfY) : Start g (mkSimOut g) := by
  refine ⟨fun i j _ => ⟨0, by simp [mkSimOut]⟩, by simp [mkSimOut], by simp [mkSimOut], rfl, ?_, ?_, ?_⟩
  · unfold AreaInside mkSimOut; dsimp only; omega
  · unfold AreaInside mkSimOut; dsimp only; omega
  · exact ⟨rfl, rfl⟩

example (angle : ℝ) (ha : 0 ≤ angle ∧ angle ≤ Transc.pi / 2) (rng : Rng) (kind : BodyKind) (pos : Vec3 ℝ)
    (ori : Quat ℝ) (qs : List (Vec3 ℝ × Quat ℝ)) (hn : qs.length ≤ 5)
    (hq : ∀ q ∈ qs, (|q.1.x| ≤ 1 / 2 ∧ |q.1.y| ≤ 1 / 2 ∧ |q.1.z| ≤ 5 / 2) ∧ qnormSq q.2 ≠ 0) :
    ∃ g g' p body1 w1 w1' N, mkGrid 4 4 4 (1 / 20 : ℝ) (1 / 100) = .ok g ∧ mkGrid 8 6 4 (1 / 20 : ℝ) (1 / 100) = .ok g' ∧
      mkSimParam angle 3 4 = .ok p ∧
      (∀ fuel, N ≤ fuel →
        run fuel g p (1 / 100000) qs ⟨kind, ⟨0, 0, 0⟩, ⟨0, 0, -1 / 2⟩, ⟨7 / 10, 0, -1 / 2⟩, 1 / 2, pos, ori⟩
          ⟨mkSimOut g, rng, []⟩ = .ok (body1, w1) ∧
        run fuel g' p (1 / 100000) (qs.map fun q => (vadd q.1 ⟨1, 1 / 2, 0⟩, q.2))
          ⟨kind, ⟨0, 0, 0⟩, ⟨0, 0, -1 / 2⟩, ⟨7 / 10, 0, -1 / 2⟩, 1 / 2, vadd pos ⟨1, 1 / 2, 0⟩, ori⟩
          ⟨mkSimOut g', rng, []⟩ = .ok (body1.moved ⟨1, 1 / 2, 0⟩, w1')) ∧
      Like True ⟨false, 100, 50⟩ w1.out w1'.out ∧ w1'.log = w1.log := by
  have hv : ValidGridArgs (4 : ℝ) 4 4 (1 / 20) (1 / 100) := by constructor <;> norm_num
  have hv' : ValidGridArgs (8 : ℝ) 6 4 (1 / 20) (1 / 100) := by constructor <;> norm_num
  obtain ⟨g, hg, gs⟩ := C01_grid_accepts hv
  obtain ⟨g', hg', gs'⟩ := C01_grid_accepts hv'
  have hp := (C02_simParam_iff angle 3 4).1 ⟨ha, by norm_num, by norm_num⟩
  have S := setup_of_constructors (n := 400) (tol := 1 / 100000) hv (by norm_num) hg hp (by norm_num)
    (by norm_num) (by norm_num)
  have S' := setup_of_constructors (n := 400) (tol := 1 / 100000) hv' (by norm_num) hg' hp (by norm_num)
    (by norm_num) (by norm_num)
  have hX : g.halfX = 80 := by rw [gs.halfX]; norm_num [Int.floor_eq_iff]
  have hY : g.halfY = 80 := by rw [gs.halfY]; norm_num [Int.floor_eq_iff]
  have hX' : g'.halfX = 160 := by rw [gs'.halfX]; norm_num [Int.floor_eq_iff]
  have hY' : g'.halfY = 120 := by rw [gs'.halfY]; norm_num [Int.floor_eq_iff]
  have c0 : g.cellXY = 1 / 20 := gs.cellXY
  have z0 : g.cellZ = 1 / 100 := gs.cellZ
  have l1 : len ⟨0, 0, 0⟩ ≤ 87 / 100 := by unfold len; rw [Real.sqrt_le_left (by norm_num)]; norm_num [dot]
  have l2 : len ⟨7 / 10, 0, -1 / 2⟩ ≤ 87 / 100 := by
    unfold len; rw [Real.sqrt_le_left (by norm_num)]; norm_num [dot]
  have l3 : len ⟨0, 0, -1 / 2⟩ ≤ 87 / 100 := by
    unfold len; rw [Real.sqrt_le_left (by norm_num)]; norm_num [dot]
  have hR : Reach g ⟨kind, ⟨0, 0, 0⟩, ⟨0, 0, -1 / 2⟩, ⟨7 / 10, 0, -1 / 2⟩, 1 / 2, pos, ori⟩ (117 / 100) 10 := by
    refine ⟨by norm_num, ?_, ?_, ?_, by norm_num, ?_⟩
    · rw [c0]; dsimp only; linarith
    · rw [c0]; dsimp only; linarith
    · rw [c0]; dsimp only; linarith
    · rw [c0, z0]; norm_num
  have hcl : ∀ q ∈ qs, Clear g ⟨kind, ⟨0, 0, 0⟩, ⟨0, 0, -1 / 2⟩, ⟨7 / 10, 0, -1 / 2⟩, 1 / 2, pos, ori⟩ q ∧
      Over g ⟨42, 118, 42, 118⟩ ⟨kind, ⟨0, 0, 0⟩, ⟨0, 0, -1 / 2⟩, ⟨7 / 10, 0, -1 / 2⟩, 1 / 2, pos, ori⟩ q := by
    intro q hm
    obtain ⟨⟨hx, hy, hz⟩, ho⟩ := hq q hm
    refine ⟨bucket_clear kind pos ori g hg q.1.x q.1.y q.1.z q.2 (by linarith) (by linarith) hz ho,
      over_of_reach hR (by rw [c0]; norm_num) ho ?_ ?_⟩
    · have := abs_le.mp hx
      unfold margin; rw [c0, z0, hX]; dsimp only; push_cast; constructor <;> linarith
    · have := abs_le.mp hy
      unfold margin; rw [c0, z0, hY]; dsimp only; push_cast; constructor <;> linarith
  have P := C63_placed hv hv' hg hg' ⟨80, by norm_num⟩ ⟨80, by norm_num⟩ ⟨160, by norm_num⟩ ⟨120, by norm_num⟩ 100 50
  rw [hX, hY, hX', hY'] at P
  norm_num at P
  have h5 : (qs.length : ℤ) ≤ 5 := by exact_mod_cast hn
  have htan : 0 ≤ Transc.tan angle := S.repose
  obtain ⟨b1, w1, w1', N, hN, L, -, y, e1, e2⟩ := C63_place ⟨false, 100, 50⟩ ⟨1, 1 / 2, 0⟩ g g' (by simpa using P) _ (1 / 100000) S
    (centred_of_constructor hv hg) (centred_of_constructor hv' hg') (small_of_constructor hv hg (by norm_num) (by norm_num))
    (small_of_constructor hv' hg' (by norm_num) (by norm_num)) (by norm_num) _ ⟨42, 118, 42, 118⟩ qs hcl
    (by unfold Wide; dsimp only; omega) (by simp only [Chart.area, Wide, Bool.false_eq_true, if_false]; omega)
    ⟨mkSimOut g, rng, []⟩ ⟨mkSimOut g', rng, []⟩ (flat_start g (by omega) (by omega)) (flat_start g' (by omega) (by omega)) rfl rfl rfl
    (fun _ _ _ _ => rfl) (fun i j _ _ h => absurd h (flat_rest S htan)) (fun i j _ _ h => absurd h (flat_rest S' htan)) rfl
  exact ⟨g, g', _, b1, w1, w1', N, hg, hg', hp, hN, L, by rw [e1, e2]⟩

end Soil
