import Verif.Proof.Total
import Verif.Proof.BodyExample
import Verif.Props.Line
import Verif.Props.Walls
import Verif.Props.Init
import Verif.Props.BodyGeometry

/-!
# C36, C37: whole histories
-/

set_option linter.unusedSectionVars false

namespace Soil

variable {K : Type} [Field K] [LinearOrder K] [FloorRing K] [Transc K] [IsStrictOrderedRing K]

/-- **C36**, one step: from any state in which the conventions hold, a step with a pose that keeps the
body off the border ends, if it returns, in a state in which they hold again, and `CheckSoil` returns
true. -/
theorem C36_step (hs : SqrtLaw K) (g : Grid K) (p : SimParam K) (tol : K) (hS : Setup g p tol)
    (fuel : ℕ) (pos : Vec3 K) (ori : Quat K) (body : Body K) (hoff : PoseOff g body (pos, ori))
    (w : World K) (h : Sound g w.out) (r : StepResult K)
    (hr : step fuel pos ori g body p tol w = .ok r) :
    Sound g r.world.out ∧ checkSoil r.world.out tol = .ok true := by
  have := (step_sound hs hS fuel pos ori body hoff w h r hr).1
  exact ⟨this, this.checkSoil hS.tolOK⟩

/-- **C36**: after any sequence of steps from an initial state, for any random numbers, `CheckSoil`
returns true. Every prefix of a history is a history, so this holds after every step. -/
theorem C36_history (hs : SqrtLaw K) (g : Grid K) (p : SimParam K) (tol : K) (hS : Setup g p tol)
    (fuel : ℕ) (qs : List (Vec3 K × Quat K)) (body body' : Body K) (hoff : ∀ q ∈ qs, PoseOff g body q)
    (w w' : World K) (h : Start g w.out) (hr : run fuel g p tol qs body w = .ok (body', w')) :
    WellFormed g.cellZ w'.out ∧ checkSoil w'.out tol = .ok true := by
  have := (run_sound hs hS fuel qs body hoff w h.sound _ hr).1
  exact ⟨this.wf, this.checkSoil hS.tolOK⟩

/-- **C37**: over any sequence of steps the amount of soil changes exactly by the amounts reported as
removed. -/
theorem C37_total (hs : SqrtLaw K) (g : Grid K) (p : SimParam K) (tol : K) (hS : Setup g p tol)
    (fuel : ℕ) (qs : List (Vec3 K × Quat K)) (body body' : Body K) (hoff : ∀ q ∈ qs, PoseOff g body q)
    (w w' : World K) (h : Start g w.out) (hr : run fuel g p tol qs body w = .ok (body', w')) :
    ∃ m, w'.log = w.log ++ m ∧ (∀ x, .soilRemoved x ∈ m → 0 < x) ∧
      totalSoil w'.out + removedSoil m = totalSoil w.out :=
  (run_sound hs hS fuel qs body hoff w h.sound _ hr).2

theorem removedSoil_pos {m : List (Warn K)} (hp : ∀ x, .soilRemoved x ∈ m → 0 < x) :
    0 ≤ removedSoil m ∧ ((∃ x, .soilRemoved x ∈ m) → 0 < removedSoil m) ∧
    ((∀ x, .soilRemoved x ∉ m) → removedSoil m = 0) := by
  induction m with
  | nil => simp [removedSoil]
  | cons a m ih =>
    obtain ⟨h1, h2, h3⟩ := ih fun x hx => hp x (List.mem_cons_of_mem _ hx)
    cases a with
    | soilRemoved x =>
      have hx := hp x List.mem_cons_self
      have hc : removedSoil (.soilRemoved x :: m) = x + removedSoil m := by simp [removedSoil]
      rw [hc]
      refine ⟨?_, fun _ => ?_, fun h => absurd List.mem_cons_self (h x)⟩ <;> linarith
    | soilToTerrain =>
      have hc : removedSoil (.soilToTerrain :: m) = removedSoil m := by simp [removedSoil]
      rw [hc]
      simpa using ⟨h1, fun x hx => h2 ⟨x, hx⟩, h3⟩
    | largeMovement =>
      have hc : removedSoil (.largeMovement :: m) = removedSoil m := by simp [removedSoil]
      rw [hc]
      simpa using ⟨h1, fun x hx => h2 ⟨x, hx⟩, h3⟩

/-- **C37**: after any sequence of steps from an initial state, for any random numbers, `CheckVolume`
with the initial number of cells returns, and it returns true exactly when no removal warning was
issued. -/
theorem C37_history (hs : SqrtLaw K) (g : Grid K) (p : SimParam K) (tol : K) (hS : Setup g p tol)
    (fuel : ℕ) (qs : List (Vec3 K × Quat K)) (body body' : Body K) (hoff : ∀ q ∈ qs, PoseOff g body q)
    (w w' : World K) (h : Start g w.out) (hl : w.log = [])
    (hr : run fuel g p tol qs body w = .ok (body', w')) :
    ∃ b, checkVolume w'.out (totalCells w.out g.cellZ) g tol = .ok b ∧
      (b = true ↔ ∀ x, .soilRemoved x ∉ w'.log) := by
  obtain ⟨s', m, e, hp, t⟩ := run_sound hs hS fuel qs body hoff w h.sound _ hr
  rw [hl, List.nil_append] at e
  dsimp only at e s' t
  obtain ⟨b, hb, hb'⟩ := C39_checkVolume_iff w'.out (totalCells w.out g.cellZ) g tol
    s'.wf.soilOK.entries
  refine ⟨b, hb, hb'.trans ?_⟩
  have hc := hS.zgrid.pos
  have e1 := totalCells_mul hc s'.wf.soilOK.terrain_al s'.wf.soilOK.soil_al
  have e2 := totalCells_mul hc h.sound.wf.soilOK.terrain_al h.sound.wf.soilOK.soil_al
  obtain ⟨r1, r2, r3⟩ := removedSoil_pos hp
  rw [e]
  constructor
  · rintro ⟨-, q⟩ x hx
    have := r2 ⟨x, hx⟩
    rw [q, e2] at e1
    linarith
  · intro hno
    refine ⟨fun i j hij k hk => ?_, ?_⟩
    · rw [s'.wf.soilOK.booked i j hij k hk, sub_self, abs_zero]
      exact hS.tolPos.le
    · rw [r3 hno, add_zero, ← e1, ← e2] at t
      exact_mod_cast mul_right_cancel₀ hc.ne' t

/-- Accepted constructor arguments give the conditions on grid and parameters. -/
theorem setup_of_constructors {gx gy gz cxy cz : ℝ} (hv : ValidGridArgs gx gy gz cxy cz) {n : ℤ}
    (hn : gz = n * cz) {g : Grid ℝ} (hg : mkGrid gx gy gz cxy cz = .ok g)
    {angle : ℝ} {iters buffer : ℤ} {p : SimParam ℝ} (hp : mkSimParam angle iters buffer = .ok p)
    {tol : ℝ} (ht : 0 < tol) (ht1 : tol ≤ 1 / 3) (ht2 : 2 * tol < cz) : Setup g p tol := by
  obtain ⟨g', hg', gs⟩ := C01_grid_accepts hv
  rw [hg] at hg'; cases hg'
  have hpv : (0 ≤ angle ∧ angle ≤ Transc.pi / 2) ∧ 0 ≤ iters ∧ 2 ≤ buffer := by
    by_contra hne
    obtain ⟨msg, hm⟩ := (C02_simParam_iff angle iters buffer).2 hne
    rw [hm] at hp; cases hp
  have hpe := (C02_simParam_iff angle iters buffer).1 hpv
  rw [hp] at hpe; cases hpe
  refine ⟨mkGrid_zgrid hv hg, by rw [gs.cellXY]; exact hv.cxy_pos, ⟨-n + 1, ?_⟩, ht, ht1,
    by rw [gs.cellZ]; exact ht2, hpv.2.2, C30_tan_nonneg _ hpv.1.1 hpv.1.2⟩
  rw [gs.vectZ 0 le_rfl, gs.cellZ, hn]
  push_cast; ring

/-- The state prepared by the constructor and `Init` is an initial state. -/
theorem start_of_init {gx gy gz cxy cz : ℝ} (hv : ValidGridArgs gx gy gz cxy cz) {g : Grid ℝ}
    (hg : mkGrid gx gy gz cxy cz = .ok g) {amp : ℝ} {rng : Rng} {w : World ℝ}
    (hi : init g amp ⟨mkSimOut g, rng, []⟩ = .ok w) : Start g w.out ∧ w.log = [] := by
  obtain ⟨g', hg', gs⟩ := C01_grid_accepts hv
  rw [hg] at hg'; cases hg'
  obtain ⟨w1, h1, h2, T, h3⟩ := C41_init_real gx gy gz cxy cz g hv hg amp rng []
  rw [hi] at h1; cases h1
  refine ⟨?_, (C41_any g amp _ w hi).2.2⟩
  rw [h3] at h2 ⊢
  refine ⟨fun i j hij => ?_, fun _ _ _ => by simp [mkSimOut], fun _ _ _ => by simp [mkSimOut], rfl,
    ?_, ?_, ⟨rfl, rfl⟩⟩
  · obtain ⟨a1, a2, a3, a4⟩ := hij
    simp only [mkSimOut] at a2 a4
    obtain ⟨m, hm⟩ := h2 i j a1 (by omega) a3 (by omega)
    exact ⟨m, by rw [gs.cellZ]; exact hm⟩
  all_goals
    unfold AreaInside mkSimOut
    dsimp only
    omega

/-- **C36, C37** from the constructors: valid arguments of the grid with a height that is a whole
number of cells, valid parameters, any noise amplitude, any random numbers, any body, any sequence of
poses off the border. -/
theorem C37_end_to_end (gx gy gz cxy cz : ℝ) (hv : ValidGridArgs gx gy gz cxy cz) (n : ℤ)
    (hn : gz = n * cz) (g : Grid ℝ) (hg : mkGrid gx gy gz cxy cz = .ok g)
    (angle : ℝ) (iters buffer : ℤ) (p : SimParam ℝ) (hp : mkSimParam angle iters buffer = .ok p)
    (tol : ℝ) (ht : 0 < tol) (ht1 : tol ≤ 1 / 3) (ht2 : 2 * tol < cz)
    (amp : ℝ) (rng : Rng) (w w' : World ℝ) (hi : init g amp ⟨mkSimOut g, rng, []⟩ = .ok w)
    (fuel : ℕ) (qs : List (Vec3 ℝ × Quat ℝ)) (body body' : Body ℝ) (hoff : ∀ q ∈ qs, PoseOff g body q)
    (hr : run fuel g p tol qs body w = .ok (body', w')) :
    checkSoil w'.out tol = .ok true ∧
    ∃ b, checkVolume w'.out (totalCells w.out cz) g tol = .ok b ∧
      (b = true ↔ ∀ x, .soilRemoved x ∉ w'.log) := by
  have hS := setup_of_constructors hv hn hg hp ht ht1 ht2
  have hst := start_of_init hv hg hi
  have hcz : g.cellZ = cz := by
    obtain ⟨g', hg', gs⟩ := C01_grid_accepts hv
    rw [hg] at hg'; cases hg'
    exact gs.cellZ
  have hc := C37_history sqrtLaw_real g _ tol hS fuel qs body body' hoff w w' hst.1 hst.2 hr
  rw [hcz] at hc
  exact ⟨(C36_history sqrtLaw_real g _ tol hS fuel qs body body' hoff w w' hst.1 hr).2, hc⟩

/-! ## The hypotheses can be met: a bucket or blade pushed into any terrain -/

theorem rSetup : Setup (rGrid ℝ) (rParam ℝ) (1 / 100000) where
  zgrid := rGrid_z
  cellXY := by norm_num [rGrid]
  level := rGrid_al
  tolPos := by norm_num
  tolThird := by norm_num
  tolCell := by norm_num [rGrid]
  buffer := by norm_num [rParam]
  repose := by show 0 ≤ Real.tan 0; simp

/-- any integer terrain -/
theorem rStart (T : ℤ → ℤ → ℤ) :
    Start (rGrid ℝ) { mkSimOut (rGrid ℝ) with terrain := fun i j => (T i j : ℝ) } where
  terrain i j _ := ⟨T i j, by simp [rGrid]⟩
  body _ _ _ := by simp [mkSimOut]
  bodySoil _ _ _ := by simp [mkSimOut]
  noEntry := rfl
  area := fresh_area' _
  relax := fresh_area' _
  size := ⟨rfl, rfl⟩
where
  fresh_area' (g : Grid ℝ) : AreaInside (mkSimOut g).bodyArea (mkSimOut g) := by
    unfold AreaInside mkSimOut
    dsimp only
    omega

/-- The step returns, it moves the body, and the checks pass. -/
example (kind : BodyKind) (T : ℤ → ℤ → ℤ) (rng : Rng) (a b c : ℝ) (ha : |a| ≤ 4) (hb : |b| ≤ 5)
    (hc : |c| ≤ 6) (hm : 1 / 2 ≤ Real.sqrt (a * a + b * b + c * c)) :
    ∃ N, ∀ fuel, N ≤ fuel → ∃ w' body', run fuel (rGrid ℝ) (rParam ℝ) (1 / 100000)
        [(⟨a, b, c⟩, ⟨1, 0, 0, 0⟩)] (rBody ℝ kind)
        ⟨{ mkSimOut (rGrid ℝ) with terrain := fun i j => (T i j : ℝ) }, rng, []⟩ = .ok (body', w') ∧
      body'.pos = ⟨a, b, c⟩ ∧ checkSoil w'.out (1 / 100000) = .ok true := by
  have hin := rBody_inside sqrtLaw_real kind a b c ha hb hc
  obtain ⟨N, hN⟩ := step_ok sqrtLaw_real rSetup (by norm_num [rGrid]) ⟨a, b, c⟩ ⟨1, 0, 0, 0⟩
    (rBody ℝ kind) (fun v hv => (hin v hv).1) (fun v hv => (hin v hv).2)
    ⟨{ mkSimOut (rGrid ℝ) with terrain := fun i j => (T i j : ℝ) }, rng, []⟩ (rStart T).sound
    (fun e he => by simp [mkSimOut] at he)
  refine ⟨N, fun fuel hf => ?_⟩
  obtain ⟨r, hr⟩ := hN fuel hf
  have hrun : run fuel (rGrid ℝ) (rParam ℝ) (1 / 100000)
        [(⟨a, b, c⟩, ⟨1, 0, 0, 0⟩)] (rBody ℝ kind)
        ⟨{ mkSimOut (rGrid ℝ) with terrain := fun i j => (T i j : ℝ) }, rng, []⟩ =
        .ok (r.body, r.world) := by
    unfold run
    rw [hr, ok_bind]
    rfl
  refine ⟨r.world, r.body, hrun, ?_, ?_⟩
  · have hu : r.updated = true := by
      rw [C12_updated_iff _ _ _ _ _ _ _ _ _ hr]
      have := (C10_translation (rGrid ℝ) (rBody ℝ kind) ⟨a, b, c⟩ (by norm_num [rBody, qnormSq])).mpr (by
        have : dot (⟨a, b, c⟩ : Vec3 ℝ) ⟨a, b, c⟩ = a * a + b * b + c * c := by unfold dot; ring
        rw [this]
        norm_num [rGrid]
        norm_num at hm
        exact hm)
      simpa [rBody, vadd] using this
    rw [(C12_step _ _ _ _ _ _ _ _ _ hr).2 hu]
  · refine (C36_history sqrtLaw_real (rGrid ℝ) (rParam ℝ) _ rSetup fuel _ (rBody ℝ kind) r.body ?_ _ _
      (rStart T) hrun).2
    intro q hq v hv
    simp only [List.mem_cons, List.not_mem_nil, or_false] at hq
    subst hq
    exact (hin v hv).1

end Soil
