import Verif.Proof.Carry
import Verif.Props.Margin
import Verif.Props.Transport
import Verif.Props.Rest
import Verif.Proof.BodyExample
import Mathlib.Analysis.Real.Pi.Bounds

/-! # C58: soil carried by the body is never left behind -/

set_option linter.unusedSectionVars false

namespace Soil

/-- **C58**, one transport. After any history from an initial state, when the body moves to a further
pose, every entry of carried soil is put on a layer of the body near its moved position: no warning is
issued and the terrain is left alone, so all the carried soil stays on the body. -/
theorem C58_transport (g : Grid ℝ) (p : SimParam ℝ) (tol : ℝ) (S : Setup g p tol) (O : CarryOK g tol)
    (body : Body ℝ) (qs : List (Vec3 ℝ × Quat ℝ))
    (hq : ∀ q ∈ qs, Clear g body q ∧ General g tol body q) (w : World ℝ) (h : Start g w.out)
    (fuel : ℕ) (body' : Body ℝ) (w' : World ℝ) (hr : run fuel g p tol qs body w = .ok (body', w'))
    (pos : Vec3 ℝ) (ori : Quat ℝ) (hc : Clear g body (pos, ori)) (hG : General g tol body (pos, ori))
    (fuel' : ℕ) (s : SimOut ℝ) (h1 : calcBodyPos fuel' w'.out pos ori g body' p tol = .ok s)
    (w2 : World ℝ) (b2 : Body ℝ)
    (h2 : updateBodySoil pos ori g body' tol { w' with out := s } = .ok (w2, b2)) :
    w2.log = w'.log ∧ w2.out.terrain = w'.out.terrain ∧
    (∀ e ∈ w'.out.bodySoilPos, 0 < e.h → ∃ k i j,
      ⟨k, i, j, e.xb, e.yb, e.zb, e.h⟩ ∈ w2.out.bodySoilPos ∧ Chosen g tol s (movedTo pos ori e) k i j) ∧
    w2.out.bodySoilPos.length = (w'.out.bodySoilPos.filter fun e => 0 < e.h).length := by
  obtain ⟨⟨p', o', rfl⟩, hS, hC, -⟩ := run_carried S O qs hq h.sound
    (fun e he => by rw [h.noEntry] at he; cases he) hr
  have hc' : Clear g { body with pos := p', ori := o' } (pos, ori) := ⟨hc.ori, hc.x, hc.y, hc.z⟩
  have hC' : Carried g tol { body with pos := p', ori := o' } w'.out := hC
  have hG' : General g tol { body with pos := p', ori := o' } (pos, ori) := hG
  obtain ⟨a1, a2⟩ := transport_quiet S O hc' hG' hS hC' h1 w'.log _ h2
  dsimp only at a1 a2
  have hoff := hc'.poseOff S.cellXY S.zgrid.pos
  obtain ⟨hst, hp, -⟩ := stored_of_calc S hoff hS h1
  have N := calcBodyPos_post sqrtLaw_real S.zgrid S.cellXY S.level S.tolPos S.tolThird S.buffer hS.size
    hS.inArea hS.wf.bodyOK.al hoff h1
  obtain ⟨-, f2, n, f3, f4, -⟩ := C20_follows pos ori g _ tol S.zgrid.pos { w' with out := s } N.bodyOK hst
    w2 b2 h2
  dsimp only at f2 f3 f4
  rw [hp] at f2 f4
  have hn : n = 0 := by
    rw [a1] at f3
    have := congrArg List.length f3
    simp only [List.length_append, List.length_replicate] at this
    omega
  refine ⟨a1, a2, fun e he h0 => ?_, by rw [← f4, hn, add_zero]⟩
  rcases f2 e he h0 with q | ⟨q, -⟩
  · exact q
  · exact absurd q (wall_near S O.aligned O.small O.fine O.flat O.units hc' hG' hS h1 (hC' e he h0).1
      (hC' e he h0).2)

/-- **C58**, histories. The warning that carried soil was left behind is never issued. -/
theorem C58_history (g : Grid ℝ) (p : SimParam ℝ) (tol : ℝ) (S : Setup g p tol) (O : CarryOK g tol)
    (body : Body ℝ) (qs : List (Vec3 ℝ × Quat ℝ))
    (hq : ∀ q ∈ qs, Clear g body q ∧ General g tol body q) (w : World ℝ) (h : Start g w.out)
    (fuel : ℕ) (body' : Body ℝ) (w' : World ℝ) (hr : run fuel g p tol qs body w = .ok (body', w')) :
    ∃ m, w'.log = w.log ++ m ∧ .soilToTerrain ∉ m :=
  (run_carried S O qs hq h.sound (fun e he => by rw [h.noEntry] at he; cases he) hr).2.2.2

/-- Under the conditions of C58 a history settles if its steps reach equilibrium. -/
theorem allSettle_of_equilibrium {g : Grid ℝ} {p : SimParam ℝ} {tol : ℝ} (S : Setup g p tol)
    (O : CarryOK g tol) {fuel : ℕ} (qs : List (Vec3 ℝ × Quat ℝ)) {body : Body ℝ}
    (hq : ∀ q ∈ qs, Clear g body q ∧ General g tol body q) {w : World ℝ} (hs : Sound g w.out)
    (hl : Carried g tol body w.out) (h : AllEquilibrium fuel g p tol qs body w) :
    AllSettle fuel g p tol qs body w := by
  induction qs generalizing body w with
  | nil => trivial
  | cons q qs ih =>
    obtain ⟨pos, ori⟩ := q
    intro r hr
    obtain ⟨h1, h2⟩ := h r hr
    obtain ⟨hc, hG⟩ := hq _ List.mem_cons_self
    obtain ⟨c1, m⟩ := step_carried S O hc hG hs hl hr
    obtain ⟨s1, -⟩ := step_sound sqrtLaw_real S fuel pos ori body (hc.poseOff S.cellXY S.zgrid.pos) w hs r hr
    obtain ⟨p', o', hb⟩ := step_body hr
    refine ⟨fun hu => ⟨h1 hu, m⟩, ?_⟩
    rw [hb] at h2 ⊢
    exact ih (body := { body with pos := p', ori := o' })
      (fun q hm => ⟨⟨(hq q (List.mem_cons_of_mem _ hm)).1.ori, (hq q (List.mem_cons_of_mem _ hm)).1.x,
        (hq q (List.mem_cons_of_mem _ hm)).1.y, (hq q (List.mem_cons_of_mem _ hm)).1.z⟩,
        (hq q (List.mem_cons_of_mem _ hm)).2⟩) s1 c1 h2

/-- The converse: histories that settle (C43, C45 has one) meet the weaker hypothesis. -/
theorem allEquilibrium_of_settle {g : Grid ℝ} {p : SimParam ℝ} {tol : ℝ} {fuel : ℕ}
    (qs : List (Vec3 ℝ × Quat ℝ)) {body : Body ℝ} {w : World ℝ} (h : AllSettle fuel g p tol qs body w) :
    AllEquilibrium fuel g p tol qs body w := by
  induction qs generalizing body w with
  | nil => trivial
  | cons q qs ih => exact fun r hr => ⟨fun hu => ((h r hr).1 hu).1, ih (h r hr).2⟩

/-- **C43** with C58: the terrain of the whole grid is at rest after every step that moves the body, if all
steps reach equilibrium; nothing has to be assumed about soil left behind by the body. -/
theorem C43_equilibrium (g : Grid ℝ) (p : SimParam ℝ) (tol : ℝ) (S : Setup g p tol) (O : CarryOK g tol)
    (hbuf : 3 ≤ p.cellBuffer) (hp : 0 ≤ p.maxIterations) (fuel : ℕ) (qs : List (Vec3 ℝ × Quat ℝ))
    (q : Vec3 ℝ × Quat ℝ) (body body' : Body ℝ)
    (hq : ∀ x ∈ qs ++ [q], Clear g body x ∧ General g tol body x)
    (w w' : World ℝ) (r : StepResult ℝ) (h : Start g w.out)
    (hall : ∀ i j, Reachable g i j → w.out.relaxArea.Has i j)
    (heq : AllEquilibrium fuel g p tol (qs ++ [q]) body w)
    (hrun : run fuel g p tol qs body w = .ok (body', w'))
    (hstep : step fuel q.1 q.2 g body' p tol w' = .ok r) (hu : r.updated = true) :
    TerrainAtRest g p tol r.world.out :=
  C43_at_rest sqrtLaw_real g p tol S hbuf hp fuel qs q body body'
    (fun x hx => (hq x hx).1.poseOff S.cellXY S.zgrid.pos) w w' r h hall
    (allSettle_of_equilibrium S O _ hq h.sound (fun e he => by rw [h.noEntry] at he; cases he) heq)
    hrun hstep hu

/-- A grid made by the constructor whose extents are multiples of the cells -/
theorem aligned_of_constructor {gx gy gz cxy cz : ℝ} (hv : ValidGridArgs gx gy gz cxy cz) {g : Grid ℝ}
    (hg : mkGrid gx gy gz cxy cz = .ok g) (hx : ∃ n : ℤ, gx = n * cxy) (hy : ∃ n : ℤ, gy = n * cxy)
    (hz : ∃ n : ℤ, gz = n * cz) : Aligned g := by
  obtain ⟨g', hg', gs⟩ := C01_grid_accepts hv
  rw [hg] at hg'; cases hg'
  have key : ∀ a c : ℝ, 0 < c → (∃ n : ℤ, a = n * c) → (⌊a / c + 1 / 2⌋ : ℝ) * c = a := by
    rintro a c hc ⟨n, rfl⟩
    rw [mul_div_cancel_right₀ _ hc.ne']
    have : ⌊(n : ℝ) + 1 / 2⌋ = n := by
      rw [Int.floor_eq_iff]; constructor <;> linarith
    rw [this]
  refine ⟨fun i hi => ?_, fun i hi => ?_, ?_⟩
  · rw [gs.vectX i hi, gs.halfX, gs.cellXY]
    linarith [key gx cxy hv.cxy_pos hx]
  · rw [gs.vectY i hi, gs.halfY, gs.cellXY]
    linarith [key gy cxy hv.cxy_pos hy]
  · rw [gs.vectZ 0 le_rfl, gs.halfZ, gs.cellZ]
    push_cast
    linarith [key gz cz hv.cz_pos hz]

/-- The conditions for a grid made by the constructor -/
theorem carryOK_of_constructor {gx gy gz cxy cz tol : ℝ} (hv : ValidGridArgs gx gy gz cxy cz) {g : Grid ℝ}
    (hg : mkGrid gx gy gz cxy cz = .ok g) (hx : ∃ n : ℤ, gx = n * cxy) (hy : ∃ n : ℤ, gy = n * cxy)
    (hz : ∃ n : ℤ, gz = n * cz) (ht : 0 < tol) (hsm : 18 * tol * (gx + gy + gz + cxy + cz) ≤ cz)
    (hfine : 400 * tol * (gx + gy) ≤ cxy) (hflat : 2 * cz ≤ cxy)
    (hunits : (gz + 3 * cxy + 4 * cz) * cz < gz) : CarryOK g tol := by
  obtain ⟨g', hg', gs⟩ := C01_grid_accepts hv
  rw [hg] at hg'; cases hg'
  have key : ∀ a c : ℝ, 0 < c → (∃ n : ℤ, a = n * c) → (⌊a / c + 1 / 2⌋ : ℝ) * c = a := by
    rintro a c hc ⟨n, rfl⟩
    rw [mul_div_cancel_right₀ _ hc.ne']
    have : ⌊(n : ℝ) + 1 / 2⌋ = n := by
      rw [Int.floor_eq_iff]; constructor <;> linarith
    rw [this]
  have kx : (g.halfX : ℝ) * cxy = gx := by rw [gs.halfX]; exact key gx cxy hv.cxy_pos hx
  have ky : (g.halfY : ℝ) * cxy = gy := by rw [gs.halfY]; exact key gy cxy hv.cxy_pos hy
  have kz : (g.halfZ : ℝ) * cz = gz := by rw [gs.halfZ]; exact key gz cz hv.cz_pos hz
  refine ⟨aligned_of_constructor hv hg hx hy hz, small_of_constructor hv hg ht hsm, ?_, ?_, ?_⟩
  · refine le_of_mul_le_mul_right ?_ hv.cxy_pos
    calc 400 * tol * (g.halfX + g.halfY) * cxy = 400 * tol * (g.halfX * cxy + g.halfY * cxy) := by ring
      _ ≤ 1 * cxy := by rw [kx, ky, one_mul]; exact hfine
  · rw [gs.cellXY, gs.cellZ]; exact hflat
  · unfold margin
    rw [gs.cellXY, gs.cellZ, kz]
    refine lt_of_mul_lt_mul_right ?_ hv.cz_pos.le
    rw [kz]
    linarith

/-- **C58** from the constructors: grid, parameters and terrain are constructed, any history of poses
that keep the body clear of the sides, in general position, is simulated to the end, and no soil
carried by the body is ever left behind. -/
theorem C58_end_to_end (gx gy gz cxy cz : ℝ) (hv : ValidGridArgs gx gy gz cxy cz)
    (hx : ∃ n : ℤ, gx = n * cxy) (hy : ∃ n : ℤ, gy = n * cxy) (n : ℤ) (hn : gz = n * cz)
    (angle : ℝ) (iters buffer : ℤ)
    (hp : (0 ≤ angle ∧ angle ≤ Transc.pi / 2) ∧ 0 ≤ iters ∧ 2 ≤ buffer)
    (tol : ℝ) (ht : 0 < tol) (ht1 : tol ≤ 1 / 3) (ht2 : 2 * tol < cz)
    (hsm : 18 * tol * (gx + gy + gz + cxy + cz) ≤ cz) (hfine : 400 * tol * (gx + gy) ≤ cxy)
    (hflat : 2 * cz ≤ cxy) (hunits : (gz + 3 * cxy + 4 * cz) * cz < gz) (amp : ℝ) (rng : Rng) :
    ∃ g p w, mkGrid gx gy gz cxy cz = .ok g ∧ mkSimParam angle iters buffer = .ok p ∧
      init g amp ⟨mkSimOut g, rng, []⟩ = .ok w ∧
      ∀ (body : Body ℝ) (qs : List (Vec3 ℝ × Quat ℝ)),
        (∀ q ∈ qs, Clear g body q ∧ General g tol body q) →
        ∃ body' w' N, (∀ fuel, N ≤ fuel → run fuel g p tol qs body w = .ok (body', w')) ∧
          .soilToTerrain ∉ w'.log := by
  obtain ⟨g, hg, gs⟩ := C01_grid_accepts hv
  have hpe := (C02_simParam_iff angle iters buffer).1 hp
  obtain ⟨w, hi, -, -⟩ := C41_init_real gx gy gz cxy cz g hv hg amp rng []
  refine ⟨g, _, w, hg, hpe, hi, fun body qs hq => ?_⟩
  have S := setup_of_constructors hv hn hg hpe ht ht1 ht2
  have hst := start_of_init hv hg hi
  obtain ⟨b, w', N, hN⟩ := C48_margin g _ tol S (centred_of_constructor hv hg)
    (small_of_constructor hv hg ht hsm) body qs (fun q hm => (hq q hm).1) w hst.1
  obtain ⟨m, hm, hno⟩ := C58_history g _ tol S
    (carryOK_of_constructor hv hg hx hy ⟨n, hn⟩ ht hsm hfine hflat hunits) body qs hq w hst.1 N b w'
    (hN N le_rfl)
  refine ⟨b, w', N, hN, ?_⟩
  have h0 : w.log = [] := hst.2
  rw [hm, h0, List.nil_append]
  exact hno

/-- The bucket of the example program -/
noncomputable def exBucket : Body ℝ :=
  ⟨.bucket, ⟨0, 0, 0⟩, ⟨0, 0, -1 / 2⟩, ⟨7 / 10, 0, -1 / 2⟩, 1 / 2, ⟨0, 0, 0⟩, ⟨1, 0, 0, 0⟩⟩

theorem exBucket_corners (a b c : ℝ) :
    calcBodyCornerPos ⟨a, b, c⟩ ⟨1, 0, 0, 0⟩ exBucket =
      ⟨⟨a, b - 1 / 4, c⟩, ⟨a, b + 1 / 4, c⟩, ⟨a, b - 1 / 4, c - 1 / 2⟩, ⟨a, b + 1 / 4, c - 1 / 2⟩,
        ⟨a + 7 / 10, b - 1 / 4, c - 1 / 2⟩, ⟨a + 7 / 10, b + 1 / 4, c - 1 / 2⟩⟩ := by
  have hn : calcNormal (⟨0, 0, 0⟩ : Vec3 ℝ) ⟨0, 0, -1 / 2⟩ ⟨7 / 10, 0, -1 / 2⟩ = ⟨0, -1, 0⟩ := by
    unfold calcNormal
    simp only [ex_add, ex_sub, ex_mul, ex_div, ex_sqrt]
    have : Transc.sqrt (((0 - 0) * (-1 / 2 - 0) - (-1 / 2 - 0) * (0 - 0)) *
        ((0 - 0) * (-1 / 2 - 0) - (-1 / 2 - 0) * (0 - 0)) +
        ((-1 / 2 - 0) * (7 / 10 - 0) - (0 - 0) * (-1 / 2 - 0)) *
          ((-1 / 2 - 0) * (7 / 10 - 0) - (0 - 0) * (-1 / 2 - 0)) +
        ((0 - 0) * (0 - 0) - (0 - 0) * (7 / 10 - 0)) * ((0 - 0) * (0 - 0) - (0 - 0) * (7 / 10 - 0)) : ℝ) =
        7 / 20 :=
      sqrt_of_sq sqrtLaw_real (by norm_num) (by norm_num)
    rw [this]
    norm_num
  unfold calcBodyCornerPos
  simp only [exBucket, rot_one, hn]
  simp only [Vec3.addF, Vec3.subF, Vec3.smulF, ex_add, ex_sub, ex_mul, ex_ofRat]
  norm_num
  refine ⟨?_, ?_, ?_, ?_, ?_, ?_⟩ <;> ring_nf <;> simp

/-- The bucket of the example program, level, with its joint on a column, is in general position. -/
theorem exBucket_general {g : Grid ℝ} (hg : mkGrid 4 4 4 (1 / 20) (1 / 100) = .ok g) (i j k : ℤ) :
    General g (1 / 100000) exBucket (⟨i / 20, j / 20, k / 100 + 1 / 200⟩, ⟨1, 0, 0, 0⟩) := by
  have hv : ValidGridArgs (4 : ℝ) 4 4 (1 / 20) (1 / 100) := by constructor <;> norm_num
  obtain ⟨g', hg', gs⟩ := C01_grid_accepts hv
  rw [hg] at hg'; cases hg'
  have hX : g.halfX = 80 := by rw [gs.halfX]; norm_num [Int.floor_eq_iff]
  have hY : g.halfY = 80 := by rw [gs.halfY]; norm_num [Int.floor_eq_iff]
  have hZ : g.halfZ = 400 := by rw [gs.halfZ]; norm_num [Int.floor_eq_iff]
  have c0 : g.cellXY = 1 / 20 := gs.cellXY
  have z0 : g.cellZ = 1 / 100 := gs.cellZ
  have hf : ∀ v ∈ (nudge (1 / 100000) (calcBodyCornerPos
      ⟨(i / 20 : ℝ), j / 20, k / 100 + 1 / 200⟩ ⟨1, 0, 0, 0⟩ exBucket)).toList, ∀ q, StartGeneric (idx g v) q := by
    rw [exBucket_corners]
    intro v hv q
    obtain ⟨v0, hv0, hx, hy, hz⟩ := forall₂_right
      (C44_nudge (1 / 100000 : ℝ) (by norm_num) (by norm_num) _
        ⟨(i / 20 : ℝ), j / 20 - 1 / 4, k / 100 + 1 / 200 - 1 / 2⟩
        ⟨(i / 20 + 7 / 10 : ℝ), j / 20 + 1 / 4, k / 100 + 1 / 200⟩ (by
          simp only [Corners.toList, List.mem_cons, List.not_mem_nil, or_false, forall_eq_or_imp, forall_eq]
          refine ⟨?_, ?_, ?_, ?_, ?_, ?_⟩ <;> refine ⟨⟨?_, ?_⟩, ⟨?_, ?_⟩, ⟨?_, ?_⟩⟩ <;> linarith)) v hv
    have h2 : ∃ l m n : ℤ, v0.x = l / 20 ∧ v0.y = m / 20 ∧ v0.z = n / 100 + 1 / 200 := by
      simp only [Corners.toList, List.mem_cons, List.not_mem_nil, or_false] at hv0
      rcases hv0 with rfl | rfl | rfl | rfl | rfl | rfl
      · exact ⟨i, j - 5, k, by push_cast; ring, by push_cast; ring, by push_cast; ring⟩
      · exact ⟨i, j + 5, k, by push_cast; ring, by push_cast; ring, by push_cast; ring⟩
      · exact ⟨i, j - 5, k - 50, by push_cast; ring, by push_cast; ring, by push_cast; ring⟩
      · exact ⟨i, j + 5, k - 50, by push_cast; ring, by push_cast; ring, by push_cast; ring⟩
      · exact ⟨i + 14, j - 5, k - 50, by push_cast; ring, by push_cast; ring, by push_cast; ring⟩
      · exact ⟨i + 14, j + 5, k - 50, by push_cast; ring, by push_cast; ring, by push_cast; ring⟩
    obtain ⟨l, m, n, e1, e2, e3⟩ := h2
    rw [e1] at hx; rw [e2] at hy; rw [e3] at hz
    dsimp only at hx hy hz
    rw [abs_le] at hx hy hz
    refine startGeneric_of_near (l + 80) (m + 80) (n + 399) ?_ ?_ ?_
    all_goals
      simp only [idx, c0, z0, hX, hY, hZ]
      rw [abs_le]
      push_cast
      constructor <;> linarith [hx.1, hx.2, hy.1, hy.2, hz.1, hz.2]
  simp only [Corners.toList, List.mem_cons, List.not_mem_nil, or_false, forall_eq_or_imp, forall_eq] at hf
  obtain ⟨f1, f2, f3, f4, f5, f6⟩ := hf
  unfold General bodyFaces
  simp only [exBucket, bucketFaces, List.mem_cons, List.not_mem_nil, or_false, forall_eq_or_imp, forall_eq,
    Face.edges]
  exact ⟨⟨f3 _, f4 _, f6 _, f5 _⟩, ⟨f3 _, f4 _, f2 _, f1 _⟩, ⟨f1 _, f3 _, f5 _⟩, f2 _, f4 _, f6 _⟩

/-- The hypotheses hold for the grid and the bucket of the example program and every sequence, of any
length, of level poses with the joint on a column: it can dig and lift as it likes, and never loses soil. -/
example (amp : ℝ) (rng : Rng) : ∃ g p w, mkGrid (4 : ℝ) 4 4 (1 / 20) (1 / 100) = .ok g ∧
    mkSimParam (1 / 2 : ℝ) 3 4 = .ok p ∧ init g amp ⟨mkSimOut g, rng, []⟩ = .ok w ∧
    ∀ qs : List (ℤ × ℤ × ℤ), (∀ q ∈ qs, |q.1| ≤ 50 ∧ |q.2.1| ≤ 50 ∧ |q.2.2| ≤ 249) →
      ∃ body' w' N, (∀ fuel, N ≤ fuel → run fuel g p (1 / 100000)
        (qs.map fun q => (⟨q.1 / 20, q.2.1 / 20, q.2.2 / 100 + 1 / 200⟩, ⟨1, 0, 0, 0⟩)) exBucket w =
          .ok (body', w')) ∧ .soilToTerrain ∉ w'.log := by
  have hpi : (1 / 2 : ℝ) ≤ Transc.pi / 2 := by
    have : (3 : ℝ) < Real.pi := Real.pi_gt_three
    have e : (Transc.pi : ℝ) = Real.pi := rfl
    rw [e]; linarith
  obtain ⟨g, p, w, h1, h2, h3, h4⟩ := C58_end_to_end 4 4 4 (1 / 20) (1 / 100)
    (by constructor <;> norm_num) ⟨80, by norm_num⟩ ⟨80, by norm_num⟩ 400 (by norm_num) (1 / 2) 3 4
    ⟨⟨by norm_num, hpi⟩, by norm_num, by norm_num⟩ (1 / 100000) (by norm_num) (by norm_num) (by norm_num)
    (by norm_num) (by norm_num) (by norm_num) (by norm_num) amp rng
  refine ⟨g, p, w, h1, h2, h3, fun qs hq => h4 exBucket _ fun q hm => ?_⟩
  obtain ⟨⟨i, j, k⟩, hm', rfl⟩ := List.mem_map.mp hm
  obtain ⟨a1, a2, a3⟩ := hq _ hm'
  dsimp only at a1 a2 a3 ⊢
  rw [abs_le] at a1 a2 a3
  have b1 : (-50 : ℝ) ≤ i ∧ (i : ℝ) ≤ 50 := ⟨by exact_mod_cast a1.1, by exact_mod_cast a1.2⟩
  have b2 : (-50 : ℝ) ≤ j ∧ (j : ℝ) ≤ 50 := ⟨by exact_mod_cast a2.1, by exact_mod_cast a2.2⟩
  have b3 : (-249 : ℝ) ≤ k ∧ (k : ℝ) ≤ 249 := ⟨by exact_mod_cast a3.1, by exact_mod_cast a3.2⟩
  refine ⟨bucket_clear _ _ _ g h1 _ _ _ _ ?_ ?_ ?_ (by norm_num [qnormSq]), exBucket_general h1 i j k⟩ <;>
    rw [abs_le] <;> constructor <;> linarith [b1.1, b1.2, b2.1, b2.2, b3.1, b3.2]

end Soil
