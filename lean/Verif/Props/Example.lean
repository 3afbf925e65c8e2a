import Verif.Proof.Simulate
import Verif.Props.Evolution
import Verif.Props.Record
import Mathlib.Analysis.Real.Pi.Bounds

/-! # Property C55: the example program -/

set_option linter.unusedSectionVars false

namespace Soil

/-- **C55**, simulation loop. From the initial state, a sequence of poses that keep the vertices of the body a few cells
away from the sides of the grid is simulated to the end, with a check after every step. `CheckSoil`
always succeeds. `CheckVolume` succeeds after a step exactly if no soil was removed with a warning in that step or
an earlier one. -/
theorem C55_simulate (gx gy gz cxy cz : ℝ) (hv : ValidGridArgs gx gy gz cxy cz) (n : ℤ)
    (hn : gz = n * cz) (g : Grid ℝ) (hg : mkGrid gx gy gz cxy cz = .ok g) (angle : ℝ) (iters buffer : ℤ)
    (p : SimParam ℝ) (hp : mkSimParam angle iters buffer = .ok p)
    (tol : ℝ) (ht : 0 < tol) (ht1 : tol ≤ 1 / 3) (ht2 : 2 * tol < cz)
    (hsm : 18 * tol * (gx + gy + gz + cxy + cz) ≤ cz) (amp : ℝ) (rng : Rng) (w : World ℝ)
    (hi : init g amp ⟨mkSimOut g, rng, []⟩ = .ok w) (body : Body ℝ) (qs : List (Vec3 ℝ × Quat ℝ))
    (hq : ∀ q ∈ qs, Clear g body q) :
    ∃ vol cs body' w' N, terrainVolume w.out g = .ok vol ∧
      (∀ fuel, N ≤ fuel → simulate fuel g p tol vol qs body w = .ok (cs, body', w') ∧
        run fuel g p tol qs body w = .ok (body', w') ∧
        ∀ k (hk : k < cs.length), ∃ bk wk, run fuel g p tol (qs.take (k + 1)) body w = .ok (bk, wk) ∧
          cs[k].2 = true ∧ (cs[k].1 = true ↔ ∀ x, .soilRemoved x ∉ wk.log)) ∧
      cs.length = qs.length ∧ ((∀ x, .soilRemoved x ∉ w'.log) → ∀ c ∈ cs, c = (true, true)) := by
  have S := setup_of_constructors hv hn hg hp ht ht1 ht2
  have hst := start_of_init hv hg hi
  have hcz : g.cellZ = cz := by
    obtain ⟨g', hg', gs⟩ := C01_grid_accepts hv
    rw [hg] at hg'; cases hg'
    exact gs.cellZ
  obtain ⟨b, w', N, hN⟩ := C48_margin g _ tol S (centred_of_constructor hv hg)
    (small_of_constructor hv hg ht hsm) body qs hq w hst.1
  have hoff : ∀ l : List (Vec3 ℝ × Quat ℝ), (∀ q ∈ l, q ∈ qs) → ∀ q ∈ l, PoseOff g body q :=
    fun l hl q hm => (hq q (hl q hm)).poseOff S.cellXY S.zgrid.pos
  have hchk : ∀ k (r' : Body ℝ × World ℝ), run N g p tol (qs.take (k + 1)) body w = .ok r' →
      ∃ c, check r'.2.out (totalCells w.out cz) g tol = .ok c ∧ c.2 = true ∧
        (c.1 = true ↔ ∀ x, .soilRemoved x ∉ r'.2.log) := by
    intro k r' hr'
    obtain ⟨c1, v, c2, c3⟩ := C37_end_to_end gx gy gz cxy cz hv n hn g hg angle iters buffer _ hp tol ht ht1 ht2 amp rng w
      r'.2 hi N (qs.take (k + 1)) body r'.1 (hoff _ fun q hm => List.mem_of_mem_take hm) hr'
    refine ⟨(v, true), ?_, rfl, c3⟩
    unfold check
    rw [c2, ok_bind, c1]; rfl
  obtain ⟨cs, e1, e2, e3⟩ := simulate_of_run (vol := totalCells w.out cz) qs body w (hN N le_rfl)
    fun k _ r' hr' => let ⟨c, hc, _⟩ := hchk k r' hr'; ⟨c, hc⟩
  have key : ∀ k (hk : k < cs.length), ∃ bk wk, run N g p tol (qs.take (k + 1)) body w = .ok (bk, wk) ∧
      cs[k].2 = true ∧ (cs[k].1 = true ↔ ∀ x, .soilRemoved x ∉ wk.log) := by
    intro k hk
    obtain ⟨⟨bk, wk⟩, a1, a2⟩ := e3 k hk
    obtain ⟨c, b1, b2, b3⟩ := hchk k _ a1
    rw [a2] at b1; cases b1
    exact ⟨bk, wk, a1, b2, b3⟩
  refine ⟨totalCells w.out cz, cs, b, w', N, ?_, fun fuel hf => ?_, e2, ?_⟩
  · rw [terrainVolume_start hst.1, hcz]
  · have hk' : ∀ k (hk : k < cs.length), ∃ r', run fuel g p tol (qs.take (k + 1)) body w = .ok r' ∧
        check r'.2.out (totalCells w.out cz) g tol = .ok cs[k] := by
      intro k hk
      obtain ⟨r', a1, a2⟩ := e3 k hk
      exact ⟨r', C48_fuel N fuel hf g p tol _ body w _ a1, a2⟩
    obtain ⟨cs', f1, f2, f3⟩ := simulate_of_run (vol := totalCells w.out cz) qs body w (hN fuel hf) fun k hk r' hr' => by
      obtain ⟨r'', a1, a2⟩ := hk' k (by omega)
      rw [hr'] at a1; cases a1
      exact ⟨_, a2⟩
    have : cs' = cs := by
      refine List.ext_getElem (by omega) fun k h1 h2 => ?_
      obtain ⟨r1, a1, a2⟩ := hk' k h2
      obtain ⟨r2, b1, b2⟩ := f3 k h1
      rw [a1] at b1; cases b1
      rw [a2] at b2; exact (Except.ok.inj b2).symm
    subst this
    refine ⟨f1, hN fuel hf, fun k hk => ?_⟩
    obtain ⟨bk, wk, a1, a2, a3⟩ := key k hk
    exact ⟨bk, wk, C48_fuel N fuel hf g p tol _ body w _ a1, a2, a3⟩
  · intro hno c hc
    obtain ⟨k, hk, rfl⟩ := List.mem_iff_getElem.mp hc
    obtain ⟨bk, wk, a1, a2, a3⟩ := key k hk
    obtain ⟨r', d1, d2⟩ := run_take (hN N le_rfl) (k + 1)
    rw [a1] at d1; cases d1
    have hs := (run_sound sqrtLaw_real S N _ body (hoff _ fun q hm => List.mem_of_mem_take hm) w hst.1.sound _ a1).1
    have hb : bk = { body with pos := bk.pos, ori := bk.ori } := run_body N g p tol _ body w _ a1
    obtain ⟨-, m, hm, -⟩ := run_sound sqrtLaw_real S N (qs.drop (k + 1)) bk (fun q hqm => by
      rw [hb]
      exact hoff _ (fun q hm => List.mem_of_mem_drop hm) q hqm) wk hs _ d2
    have h1 : cs[k].1 = true := a3.mpr fun x hx => hno x (by
      dsimp only at hm
      rw [hm]; exact List.mem_append_left _ hx)
    exact Prod.ext h1 a2

/-- Number of steps of a chain of bounded increments -/
theorem chain_length {d : ℝ} : ∀ (ts : List ℝ) (a b : ℝ), List.IsChain (fun x y : ℝ => y ≤ x + d) ts →
    ts.head? = some a → ts.getLast? = some b → b ≤ a + (ts.length - 1) * d := by
  intro ts
  induction ts with
  | nil => intro a b _ h _; simp at h
  | cons x l ih =>
    intro a b hc ha hb
    simp only [List.head?_cons, Option.some.injEq] at ha
    subst ha
    cases l with
    | nil => simp at hb; simp [hb]
    | cons y l =>
      rw [List.isChain_cons_cons] at hc
      have := ih y b hc.2 rfl (by simpa using hb)
      simp only [List.length_cons, Nat.cast_add, Nat.cast_one] at this ⊢
      linarith [hc.1]

/-- The last element of a chain growing by at least `d` -/
theorem chain_length_ge {d : ℝ} : ∀ (ts : List ℝ) (a b : ℝ), List.IsChain (fun x y : ℝ => x + d ≤ y) ts →
    ts.head? = some a → ts.getLast? = some b → a + (ts.length - 1) * d ≤ b := by
  intro ts
  induction ts with
  | nil => intro a b _ h _; simp at h
  | cons x l ih =>
    intro a b hc ha hb
    simp only [List.head?_cons, Option.some.injEq] at ha
    subst ha
    cases l with
    | nil => simp at hb; simp [hb]
    | cons y l =>
      rw [List.isChain_cons_cons] at hc
      have := ih y b hc.2 rfl (by simpa using hb)
      simp only [List.length_cons, Nat.cast_add, Nat.cast_one] at this ⊢
      linarith [hc.1]

/-- An increasing chain is above its first element. -/
theorem chain_ge : ∀ (ts : List ℝ) (a : ℝ), List.IsChain (fun x y : ℝ => x ≤ y) ts → ts.head? = some a →
    ∀ t ∈ ts, a ≤ t := by
  intro ts
  induction ts with
  | nil => intro a _ h; simp at h
  | cons x l ih =>
    intro a hc ha t ht
    simp only [List.head?_cons, Option.some.injEq] at ha
    subst ha
    rcases List.mem_cons.mp ht with rfl | ht
    · exact le_rfl
    · cases l with
      | nil => cases ht
      | cons y l =>
        rw [List.isChain_cons_cons] at hc
        exact hc.1.trans (ih y hc.2 rfl t ht)

/-- **C55**, the program of the example. For every body and every parabolic trajectory that satisfies the conditions `Paced`
and keeps the body clear of the sides of the grid, and for all random numbers, the program runs to its end: no index leaves
an array, no loop runs forever. It simulates the poses of its schedule in order except the last one, the end of the
trajectory. After every step `CheckSoil` succeeds; if no warning about removed soil was given, `CheckVolume` succeeds after
every step, and if it succeeds after the last step no soil was removed. -/
theorem C55_program (body : Body ℝ) (xi zi xmin zmin o R : ℝ) (hz : xmin = 0 ∨ zi ≠ zmin)
    (H : Paced body (1 / 100) (xmin - xi) |zi - zmin| R 9999)
    (hc : ∀ g : Grid ℝ, mkGrid 4 4 4 (1 / 20) (1 / 100) = .ok g → ∀ x z ψ, xi ≤ x → x ≤ 2 * xmin - xi →
      Min.min zi zmin - 1 / 100 ≤ z → z ≤ Max.max zi zmin + 1 / 100 →
      Clear g body (⟨x, 0, z⟩, angleToQuat ⟨0, ψ, 0⟩)) (rng : Rng) :
    ∃ (g : Grid ℝ) (p : SimParam ℝ) (w : World ℝ) (times : List ℝ) (poses : List (Vec3 ℝ × Quat ℝ))
      (cs : List (Bool × Bool)) (body' : Body ℝ) (w' : World ℝ) (N : ℕ),
      mkGrid 4 4 4 (1 / 20) (1 / 100) = .ok g ∧ mkSimParam (17 / 20) 3 4 = .ok p ∧
      init g 32 ⟨mkSimOut g, rng, []⟩ = .ok w ∧
      (∀ fuel, N ≤ fuel →
        soilEvolutionOn fuel body (calcTrajectory xi zi xmin zmin o 10000) rng = .ok (cs, body', w') ∧
        evolution fuel g body (calcTrajectory xi zi xmin zmin o 10000) = .ok (times, poses) ∧
        run fuel g p (1 / 100000) poses.dropLast body w = .ok (body', w')) ∧
      40 ≤ cs.length ∧ cs.length ≤ 5000 ∧ times.length = cs.length ∧ poses.length = times.length + 1 ∧
      (∃ q, poses.getLast? = some (⟨2 * xmin - xi, 0, zi⟩, q)) ∧
      (∀ c ∈ cs, c.2 = true) ∧ ((∀ x, .soilRemoved x ∉ w'.log) → ∀ c ∈ cs, c.1 = true) ∧
      (∀ c, cs.getLast? = some c → c.1 = true → ∀ x, .soilRemoved x ∉ w'.log) := by
  have hv : ValidGridArgs (4 : ℝ) 4 4 (1 / 20) (1 / 100) := by constructor <;> norm_num
  obtain ⟨g, hg, gs⟩ := C01_grid_accepts hv
  have hpi : (17 / 20 : ℝ) ≤ Transc.pi / 2 := by
    show (17 / 20 : ℝ) ≤ Real.pi / 2
    linarith [Real.pi_gt_three]
  have hp := (C02_simParam_iff (17 / 20 : ℝ) 3 4).1 ⟨⟨by norm_num, hpi⟩, by norm_num, by norm_num⟩
  obtain ⟨w, hi, -, -⟩ := C41_init_real 4 4 4 (1 / 20) (1 / 100) g hv hg 32 rng []
  have hm : Min.min g.cellXY g.cellZ = 1 / 100 := by rw [gs.cellXY, gs.cellZ]; norm_num
  obtain ⟨ts, ps, z, ψ, N1, h1, h2, h3, h4, h5, h6, h7⟩ := C54_schedule g body xi zi xmin zmin o R 9999 hz
    (by rw [hm]; exact H)
  have hlen : ps.length = (ts ++ [(8 : ℝ)]).length + 1 := by
    rw [h6]; simp
  have htne : ∃ b, ts.getLast? = some b := by
    cases ts with
    | nil => simp at h2
    | cons a l => exact ⟨_, List.getLast?_eq_some_getLast (by simp)⟩
  obtain ⟨tl, htl⟩ := htne
  have hcount : 39 ≤ ts.length := by
    have := chain_length (d := 1 / 5) ts _ _ (h3.imp fun a b h => h.2) h2 htl
    have h8 := h5 tl htl
    have : (38 : ℝ) < ts.length := by linarith
    exact_mod_cast this
  have hcount' : ts.length ≤ 4999 := by
    have := chain_length_ge (d := 16 / (9999 : ℕ)) ts _ _ (h3.imp fun a b h => h.1) h2 htl
    have h8 := h4 tl (List.mem_of_getLast? htl)
    by_contra hc
    have h9 : (5000 : ℝ) ≤ ts.length := by exact_mod_cast Nat.lt_of_not_le hc
    have : (4999 : ℝ) * (16 / (9999 : ℕ)) ≤ (ts.length - 1) * (16 / (9999 : ℕ)) :=
      mul_le_mul_of_nonneg_right (by linarith) (by positivity)
    norm_num at this
    norm_num at *
    linarith
  have hD := H.dist
  have hZ : |zi - zmin| ≤ 7 := by
    have h := H.fine
    have r1 := Real.sqrt_le_sqrt (by nlinarith [sq_nonneg (2 * (xmin - xi))] :
      (4 * |zi - zmin|) ^ 2 ≤ (2 * (xmin - xi)) ^ 2 + (4 * |zi - zmin|) ^ 2)
    rw [Real.sqrt_sq (by positivity)] at r1
    have r2 : 0 ≤ 4 * R * |zi - zmin| / (xmin - xi) := by have := H.reach; positivity
    have r3 : 0 ≤ (8 * |zi - zmin| + 64 * R * |zi - zmin| ^ 2 / (xmin - xi) ^ 2) / ((9999 : ℕ) : ℝ) := by
      have := H.reach; positivity
    norm_num at h r3
    linarith
  have hclear : ∀ q ∈ ps.dropLast, Clear g body q := by
    intro q hq
    have hq' := List.mem_of_mem_dropLast hq
    rw [h6] at hq'
    simp only [List.cons_append, List.mem_cons, List.mem_append, List.mem_map, List.not_mem_nil, or_false] at hq'
    rcases hq' with rfl | ⟨t, ht, rfl⟩ | rfl
    · exact hc g hg _ _ _ le_rfl (by linarith) (by linarith [min_le_left zi zmin]) (by linarith [le_max_left zi zmin])
    · have t0 : 1 / 10 ≤ t :=
        chain_ge ts _ (h3.imp fun a b h => le_trans (le_add_of_nonneg_right (by positivity)) h.1) h2 t ht
      have t1 := h4 t ht
      have hz := (h7 t ht).1
      have hs1 : 0 ≤ t / 8 := by linarith
      have hs2 : t / 8 ≤ 1 := by linarith
      have e : (xi + t / 8 * (2 * (xmin - xi)) - xmin) / (xmin - xi) = 2 * (t / 8) - 1 := by
        rw [div_eq_iff hD.ne']; ring
      rw [e] at hz
      set u := (2 * (t / 8) - 1) ^ 2 with hu
      have hu0 : 0 ≤ u := sq_nonneg _
      have hu1 : u ≤ 1 := by rw [hu]; nlinarith
      have e8 : (8 : ℝ) * |zi - zmin| / ((9999 : ℕ) : ℝ) ^ 2 ≤ 1 / 100 := by
        rw [div_le_iff₀ (by norm_num)]; norm_num; linarith
      have hzz := abs_le.mp (hz.trans e8)
      have m1 : Min.min zi zmin ≤ zmin + (zi - zmin) * u := by
        nlinarith [min_le_left zi zmin, min_le_right zi zmin]
      have m2 : zmin + (zi - zmin) * u ≤ Max.max zi zmin := by
        nlinarith [le_max_left zi zmin, le_max_right zi zmin]
      refine hc g hg _ _ _ ?_ ?_ ?_ ?_
      · nlinarith
      · nlinarith
      · linarith [hzz.1]
      · linarith [hzz.2]
    · exact hc g hg _ _ _ (by linarith) le_rfl (by linarith [min_le_left zi zmin]) (by linarith [le_max_left zi zmin])
  obtain ⟨vol, cs, body', w', N2, e1, e2, e3, e4⟩ := C55_simulate 4 4 4 (1 / 20) (1 / 100) hv 400 (by norm_num) g hg
    (17 / 20) 3 4 _ hp (1 / 100000) (by norm_num) (by norm_num) (by norm_num) (by norm_num) 32 rng w hi body
    ps.dropLast hclear
  have hcs : cs.length = ts.length + 1 := by
    rw [e3, List.length_dropLast, hlen]; simp
  have htake : ps.take (ts ++ [(8 : ℝ)]).length = ps.dropLast := by
    rw [List.dropLast_eq_take, hlen]; rfl
  refine ⟨g, _, w, ts ++ [8], ps, cs, body', w', Max.max N1 N2, hg, hp, hi, fun fuel hf => ?_, ?_, ?_, ?_, hlen, ?_,
    ?_, ?_, ?_⟩
  · have hf1 := h1 fuel ((le_max_left _ _).trans hf)
    obtain ⟨f1, f2, -⟩ := e2 fuel ((le_max_right _ _).trans hf)
    refine ⟨?_, hf1, f2⟩
    unfold soilEvolutionOn
    simp only [ex_ofRat]
    norm_num
    norm_num at hg hp
    rw [hg, ok_bind, hp, ok_bind, hf1, ok_bind, hi, ok_bind, e1, ok_bind]
    dsimp only
    rw [mapM_nodeAt _ _ (by rw [hlen]; omega), ok_bind, htake]
    norm_num at f1
    exact f1
  · omega
  · omega
  · rw [hcs]; simp
  · rw [h6]
    exact ⟨_, by rw [List.getLast?_append]; rfl⟩
  · intro c hc
    obtain ⟨k, hk, rfl⟩ := List.mem_iff_getElem.mp hc
    obtain ⟨-, -, -, hh, -⟩ := (e2 N2 le_rfl).2.2 k hk
    exact hh
  · intro hno c hc
    rw [e4 hno c hc]
  · intro c hc hc1
    have hne : cs ≠ [] := by intro h; rw [h] at hcs; simp at hcs
    obtain ⟨-, f2, f3⟩ := e2 N2 le_rfl
    obtain ⟨bk, wk, a1, -, a3⟩ := f3 (cs.length - 1) (by omega)
    rw [List.take_of_length_le (by omega), f2] at a1
    cases a1
    rw [List.getLast?_eq_getElem?, List.getElem?_eq_getElem (by omega)] at hc
    cases hc
    exact a3.mp hc1

/-- **C55**, the shipped program. For all random numbers the example program runs to its end: no index leaves
an array, no loop runs forever. It simulates the poses of its schedule in order except the last one, the end of the
trajectory. After every step `CheckSoil` succeeds; if no warning about removed soil was given, `CheckVolume` succeeds after
every step, and if it succeeds after the last step no soil was removed. -/
theorem C55_shipped (rng : Rng) :
    ∃ (g : Grid ℝ) (p : SimParam ℝ) (body : Body ℝ) (w : World ℝ) (times : List ℝ) (poses : List (Vec3 ℝ × Quat ℝ))
      (cs : List (Bool × Bool)) (body' : Body ℝ) (w' : World ℝ) (N : ℕ),
      mkGrid 4 4 4 (1 / 20) (1 / 100) = .ok g ∧ mkSimParam (17 / 20) 3 4 = .ok p ∧
      shippedBody .bucket = .ok body ∧ init g 32 ⟨mkSimOut g, rng, []⟩ = .ok w ∧
      (∀ fuel, N ≤ fuel → exampleMain fuel rng = .ok (cs, body', w') ∧
        evolution fuel g body (defaultTraj body) = .ok (times, poses) ∧
        run fuel g p (1 / 100000) poses.dropLast body w = .ok (body', w')) ∧
      40 ≤ cs.length ∧ cs.length ≤ 5000 ∧ times.length = cs.length ∧ poses.length = times.length + 1 ∧
      (∃ q, poses.getLast? = some (⟨11 / 5, 0, 3 / 2⟩, q)) ∧
      (∀ c ∈ cs, c.2 = true) ∧ ((∀ x, .soilRemoved x ∉ w'.log) → ∀ c ∈ cs, c.1 = true) ∧
      (∀ c, cs.getLast? = some c → c.1 = true → ∀ x, .soilRemoved x ∉ w'.log) := by
  set body : Body ℝ :=
    ⟨.bucket, ⟨0, 0, 0⟩, ⟨0, 0, -1 / 2⟩, ⟨7 / 10, 0, -1 / 2⟩, 1 / 2, ⟨0, 0, 0⟩, ⟨0, 0, 0, 0⟩⟩ with hbody
  have hb : (shippedBody .bucket : M (Body ℝ)) = .ok body := shippedBody_bucket
  have htraj : defaultTraj body = calcTrajectory (-2 : ℝ) (3 / 2) (1 / 10) (1 / 4) (originAngle body) 10000 := by
    unfold defaultTraj; rw [hbody]; simp
  obtain ⟨g, p, w, times, poses, cs, body', w', N, h1, h2, h3, h4, h5, h6, h7, h8, h9, h10⟩ := C55_program body (-2) (3 / 2)
    (1 / 10) (1 / 4) (originAngle body) (861 / 1000) (.inr (by norm_num)) (shipped_paced body hb) (by
      intro g hg x z ψ x1 x2 z1 z2
      refine bucket_clear .bucket _ _ g hg x 0 z _ (by rw [abs_le]; constructor <;> linarith) (by norm_num) ?_
        (by rw [normSq_angleToQuat]; norm_num)
      norm_num at z1 z2
      rw [abs_le]; constructor <;> linarith) rng
  refine ⟨g, p, body, w, times, poses, cs, body', w', N, h1, h2, hb, h3, fun fuel hf => ?_, h5, h6, h7, h8, ?_, h10⟩
  · obtain ⟨f1, f2, f3⟩ := h4 fuel hf
    rw [← htraj] at f1 f2
    refine ⟨?_, f2, f3⟩
    unfold exampleMain
    rw [hb, ok_bind]
    exact f1
  · obtain ⟨q, hq⟩ := h9
    exact ⟨q, by rw [hq]; norm_num⟩

/-- A body turned about the Y axis -/
theorem pitch_clear {g : Grid ℝ} {body : Body ℝ} {R c : ℝ} (hc0 : 0 < g.cellXY) (hw : 0 ≤ body.width) (hR : 0 ≤ R)
    (hc : body.kind = .blade → g.cellXY ≤ c) (hc1 : 0 ≤ c)
    (hr : ∀ f ∈ cornerFns, (f (calcBodyCornerPos ⟨0, 0, 0⟩ ⟨1, 0, 0, 0⟩ body)).x ^ 2 +
      (f (calcBodyCornerPos ⟨0, 0, 0⟩ ⟨1, 0, 0, 0⟩ body)).z ^ 2 ≤ R ^ 2)
    (hy : body.jInit.y = 0 ∧ body.bInit.y = 0 ∧ body.tInit.y = 0) {x z ψ : ℝ}
    (h1 : |x| + R + c + margin g < (g.halfX - 1 / 2) * g.cellXY)
    (h2 : body.width / 2 + c + margin g < (g.halfY - 1 / 2) * g.cellXY)
    (h3 : |z| + R + c < (g.halfZ - 1) * g.cellZ) : Clear g body (⟨x, 0, z⟩, angleToQuat ⟨0, ψ, 0⟩) := by
  have corner : ∀ f ∈ cornerFns, |(f (calcBodyCornerPos ⟨x, 0, z⟩ (angleToQuat ⟨0, ψ, 0⟩) body)).x| ≤ |x| + R ∧
      |(f (calcBodyCornerPos ⟨x, 0, z⟩ (angleToQuat ⟨0, ψ, 0⟩) body)).y| ≤ body.width / 2 ∧
      |(f (calcBodyCornerPos ⟨x, 0, z⟩ (angleToQuat ⟨0, ψ, 0⟩) body)).z| ≤ |z| + R := by
    intro f hf
    rw [← evoCorners_eq, evoCorners_fn _ _ _ hf]
    have hr' := hr f hf
    rw [refCorners_fn body hf] at hr'
    have hy' : |(f (refCorners body)).y| ≤ body.width / 2 := by
      have hn := (abs_le_len (calcNormal body.jInit body.bInit body.tInit)).2.1.trans (len_normal _ _ _)
      have hb : |1 / 2 * body.width * (calcNormal body.jInit body.bInit body.tInit).y| ≤ body.width / 2 := by
        rw [abs_mul, abs_of_nonneg (by linarith)]
        nlinarith
      simp only [cornerFns, List.mem_cons, List.not_mem_nil, or_false] at hf
      rcases hf with rfl | rfl | rfl | rfl | rfl | rfl <;>
        simp only [refCorners, vadd, vsub, vsmul, hy.1, hy.2.1, hy.2.2, zero_add, zero_sub, abs_neg] <;> exact hb
    set v := f (refCorners body)
    have hsc := Real.sin_sq_add_cos_sq (-ψ)
    have a1 : |(rotY (-ψ) v).x| ≤ R := by
      refine abs_le_of_sq_le_sq' ?_ hR |> abs_le.mpr
      refine le_trans ?_ hr'
      simp only [rotY]
      nlinarith [sq_nonneg (Real.sin (-ψ) * v.x - Real.cos (-ψ) * v.z)]
    have a3 : |(rotY (-ψ) v).z| ≤ R := by
      refine abs_le_of_sq_le_sq' ?_ hR |> abs_le.mpr
      refine le_trans ?_ hr'
      simp only [rotY]
      nlinarith [sq_nonneg (Real.cos (-ψ) * v.x + Real.sin (-ψ) * v.z)]
    refine ⟨?_, ?_, ?_⟩
    · show |(rotY (-ψ) v).x + x| ≤ _
      have := abs_add_le (rotY (-ψ) v).x x
      linarith
    · show |v.y + 0| ≤ _
      rw [add_zero]; exact hy'
    · show |(rotY (-ψ) v).z + z| ≤ _
      have := abs_add_le (rotY (-ψ) v).z z
      linarith
  have key : ∀ v ∈ bodyVertices g ⟨x, 0, z⟩ (angleToQuat ⟨0, ψ, 0⟩) body,
      |v.x| ≤ |x| + R + c ∧ |v.y| ≤ body.width / 2 + c ∧ |v.z| ≤ |z| + R + c := by
    have front : ∀ v ∈ (calcBodyCornerPos ⟨x, 0, z⟩ (angleToQuat ⟨0, ψ, 0⟩) body).toList,
        |v.x| ≤ |x| + R ∧ |v.y| ≤ body.width / 2 ∧ |v.z| ≤ |z| + R := by
      intro v hv
      simp only [Corners.toList, List.mem_cons, List.not_mem_nil, or_false] at hv
      rcases hv with rfl | rfl | rfl | rfl | rfl | rfl
      · exact corner Corners.jr (by simp [cornerFns])
      · exact corner Corners.jl (by simp [cornerFns])
      · exact corner Corners.br (by simp [cornerFns])
      · exact corner Corners.bl (by simp [cornerFns])
      · exact corner Corners.tr (by simp [cornerFns])
      · exact corner Corners.tl (by simp [cornerFns])
    intro v hv
    unfold bodyVertices at hv
    dsimp only at hv
    cases hk : body.kind with
    | bucket =>
      rw [hk] at hv
      obtain ⟨a, b, d⟩ := front v hv
      exact ⟨by linarith, by linarith, by linarith⟩
    | blade =>
      rw [hk] at hv
      have hcb := hc hk
      rcases List.mem_append.mp hv with hv | hv
      · obtain ⟨a, b, d⟩ := front v hv
        exact ⟨by linarith, by linarith, by linarith⟩
      · have : ∃ u ∈ (calcBodyCornerPos ⟨x, 0, z⟩ (angleToQuat ⟨0, ψ, 0⟩) body).toList, ∃ n, len n ≤ 1 ∧
            v = vadd u (vsmul g.cellXY n) := by
          unfold bladeBack at hv
          dsimp only at hv
          simp only [Corners.toList, List.mem_cons, List.not_mem_nil, or_false] at hv ⊢
          rcases hv with rfl | rfl | rfl | rfl | rfl | rfl
          all_goals
            refine ⟨_, ?_, _, len_normal _ _ _, rfl⟩
            simp
        obtain ⟨u, hu, n, hn, rfl⟩ := this
        obtain ⟨a, b, d⟩ := front u hu
        obtain ⟨n1, n2, n3⟩ := abs_le_len n
        have t : ∀ p q : ℝ, |q| ≤ len n → |p + g.cellXY * q| ≤ |p| + c := by
          intro p q hq
          refine (abs_add_le _ _).trans ?_
          rw [abs_mul, abs_of_pos hc0]
          nlinarith
        exact ⟨(t _ _ n1).trans (by linarith), (t _ _ n2).trans (by linarith), (t _ _ n3).trans (by linarith)⟩
  refine ⟨by rw [normSq_angleToQuat]; norm_num, fun v hv => ?_, fun v hv => ?_, fun v hv => ?_⟩
  · linarith [(key v hv).1]
  · linarith [(key v hv).2.1]
  · linarith [(key v hv).2.2]

/-- **C55**, random trajectories of the bucket. Whatever numbers the example program draws for a random trajectory, it runs
to its end with the bucket, provided only that the first one is at least 1/25 (otherwise the bucket comes closer to the
side of the grid than the margin). -/
theorem C55_random_bucket (body : Body ℝ) (hb : shippedBody .bucket = .ok body) (u1 u2 u3 u4 : ℝ)
    (h1 : 1 / 25 ≤ u1 ∧ u1 ≤ 1) (h2 : 0 ≤ u2 ∧ u2 ≤ 1) (h3 : 0 ≤ u3 ∧ u3 ≤ 1) (h4 : 0 ≤ u4 ∧ u4 ≤ 1) (rng : Rng) :
    ∃ (cs : List (Bool × Bool)) (body' : Body ℝ) (w' : World ℝ) (N : ℕ),
      (∀ fuel, N ≤ fuel → soilEvolutionOn fuel body (randomTraj body u1 u2 u3 u4) rng = .ok (cs, body', w')) ∧
      40 ≤ cs.length ∧ cs.length ≤ 5000 ∧ (∀ c ∈ cs, c.2 = true) ∧
      ((∀ x, .soilRemoved x ∉ w'.log) → ∀ c ∈ cs, c.1 = true) ∧
      (∀ c, cs.getLast? = some c → c.1 = true → ∀ x, .soilRemoved x ∉ w'.log) := by
  have hb' := hb
  rw [shippedBody_bucket] at hb'
  set xi : ℝ := -3 + 2 * u1 with hxi
  set zi : ℝ := 1 / 2 + 3 / 2 * u2 with hzi
  set xm : ℝ := -1 / 2 * u3 with hxm
  set zm : ℝ := -1 / 4 + 1 / 2 * u4 with hzm
  have htraj : randomTraj body u1 u2 u3 u4 = calcTrajectory xi zi xm zm (originAngle body) 10000 := by
    cases hb'
    unfold randomTraj
    simp only [ex_ofRat, ex_mul, ex_add, hxi, hzi, hxm, hzm]
    norm_num
  have hZ : 0 < zi - zm := by linarith
  have P := bucket_paced body hb (xm - xi) |zi - zm| (by linarith) (by linarith) (abs_nonneg _)
    (by rw [abs_of_pos hZ]; linarith)
  obtain ⟨g, p, w, times, poses, cs, body', w', N, -, -, -, e4, e5, e6, -, -, -, e7, e8, e9⟩ := C55_program body xi zi xm zm
    (originAngle body) (861 / 1000) (.inr (by linarith [hZ])) P (by
      intro g hg x z ψ x1 x2 z1 z2
      have hv : ValidGridArgs (4 : ℝ) 4 4 (1 / 20) (1 / 100) := by constructor <;> norm_num
      obtain ⟨g', hg', gs⟩ := C01_grid_accepts hv
      rw [hg] at hg'; cases hg'
      have hX : g.halfX = 80 := by rw [gs.halfX]; norm_num [Int.floor_eq_iff]
      have hY : g.halfY = 80 := by rw [gs.halfY]; norm_num [Int.floor_eq_iff]
      have hZ : g.halfZ = 400 := by rw [gs.halfZ]; norm_num [Int.floor_eq_iff]
      have c0 : g.cellXY = 1 / 20 := gs.cellXY
      have z0 : g.cellZ = 1 / 100 := gs.cellZ
      have hx : |x| ≤ 73 / 25 := by rw [abs_le]; constructor <;> linarith
      have hz : |z| ≤ 5 / 2 := by
        have m1 : -1 / 4 ≤ Min.min zi zm := le_min (by linarith) (by linarith)
        have m2 : Max.max zi zm ≤ 2 := max_le (by linarith) (by linarith)
        rw [abs_le]; constructor <;> linarith
      refine pitch_clear (R := 861 / 1000) (c := 0) (by rw [c0]; norm_num) ?_ (by norm_num) ?_ le_rfl P.radius ?_ ?_ ?_ ?_
      · cases hb'; norm_num
      · cases hb'; intro h; cases h
      · cases hb'; exact ⟨rfl, rfl, rfl⟩
      · unfold margin; rw [hX, c0, z0]; norm_num; linarith
      · unfold margin; rw [hY, c0, z0]; cases hb'; norm_num
      · rw [hZ, z0]; norm_num; linarith) rng
  rw [← htraj] at e4
  exact ⟨cs, body', w', N, fun fuel hf => (e4 fuel hf).1, e5, e6, e7, e8, e9⟩

/-- **C55**, random trajectories of the blade: the same for a range of the numbers drawn (compare `C56_random_blade`). -/
theorem C55_random_blade (body : Body ℝ) (hb : shippedBody .blade = .ok body) (u1 u2 u3 u4 : ℝ)
    (h1 : 1 / 2 ≤ u1 ∧ u1 ≤ 17 / 20) (h2 : 0 ≤ u2 ∧ u2 ≤ 1) (h3 : 0 ≤ u3 ∧ u3 ≤ 1) (h4 : 0 ≤ u4 ∧ u4 ≤ 1)
    (hne : u3 = 0 ∨ u2 ≠ u4) (rng : Rng) :
    ∃ (cs : List (Bool × Bool)) (body' : Body ℝ) (w' : World ℝ) (N : ℕ),
      (∀ fuel, N ≤ fuel → soilEvolutionOn fuel body (randomTraj body u1 u2 u3 u4) rng = .ok (cs, body', w')) ∧
      40 ≤ cs.length ∧ cs.length ≤ 5000 ∧ (∀ c ∈ cs, c.2 = true) ∧
      ((∀ x, .soilRemoved x ∉ w'.log) → ∀ c ∈ cs, c.1 = true) ∧
      (∀ c, cs.getLast? = some c → c.1 = true → ∀ x, .soilRemoved x ∉ w'.log) := by
  have hb' := hb
  rw [shippedBody_blade] at hb'
  set xi : ℝ := -3 + 2 * u1 with hxi
  set zi : ℝ := 1 / 10 + 1 / 10 * u2 with hzi
  set xm : ℝ := -1 / 2 * u3 with hxm
  set zm : ℝ := 1 / 10 + 1 / 10 * u4 with hzm
  have htraj : randomTraj body u1 u2 u3 u4 = calcTrajectory xi zi xm zm 0 10000 := by
    cases hb'
    unfold randomTraj
    simp only [ex_ofRat, ex_mul, ex_add, hxi, hzi, hxm, hzm]
    norm_num
  have hZ : |zi - zm| ≤ 1 / 10 := by
    rw [abs_le]; constructor <;> linarith [h2.1, h2.2, h4.1, h4.2]
  have hz0 : xm = 0 ∨ zi ≠ zm := by
    rcases hne with h | h
    · left; rw [hxm, h]; ring
    · right
      intro e
      apply h
      linarith
  have P := blade_paced body hb (xm - xi) |zi - zm| (by linarith) (by linarith) (abs_nonneg _) hZ
  obtain ⟨g, p, w, times, poses, cs, body', w', N, -, -, -, e4, e5, e6, -, -, -, e7, e8, e9⟩ := C55_program body xi zi xm zm
    0 (17 / 10) hz0 P (by
      intro g hg x z ψ x1 x2 z1 z2
      have hv : ValidGridArgs (4 : ℝ) 4 4 (1 / 20) (1 / 100) := by constructor <;> norm_num
      obtain ⟨g', hg', gs⟩ := C01_grid_accepts hv
      rw [hg] at hg'; cases hg'
      have hX : g.halfX = 80 := by rw [gs.halfX]; norm_num [Int.floor_eq_iff]
      have hY : g.halfY = 80 := by rw [gs.halfY]; norm_num [Int.floor_eq_iff]
      have hZ : g.halfZ = 400 := by rw [gs.halfZ]; norm_num [Int.floor_eq_iff]
      have c0 : g.cellXY = 1 / 20 := gs.cellXY
      have z0 : g.cellZ = 1 / 100 := gs.cellZ
      have hx : |x| ≤ 2 := by rw [abs_le]; constructor <;> linarith
      have hz : |z| ≤ 1 := by
        have m1 : 0 ≤ Min.min zi zm := le_min (by linarith) (by linarith)
        have m2 : Max.max zi zm ≤ 1 / 2 := max_le (by linarith) (by linarith)
        rw [abs_le]; constructor <;> linarith
      refine pitch_clear (R := 17 / 10) (c := 1 / 20) (by rw [c0]; norm_num) ?_ (by norm_num) ?_ (by norm_num) P.radius ?_
        ?_ ?_ ?_
      · cases hb'; norm_num
      · intro _; rw [c0]
      · cases hb'; exact ⟨rfl, rfl, rfl⟩
      · unfold margin; rw [hX, c0, z0]; norm_num; linarith
      · unfold margin; rw [hY, c0, z0]; cases hb'; norm_num
      · rw [hZ, z0]; norm_num; linarith) rng
  rw [← htraj] at e4
  exact ⟨cs, body', w', N, fun fuel hf => (e4 fuel hf).1, e5, e6, e7, e8, e9⟩

/-! ## The hypotheses can be met -/

example : (1 / 25 ≤ (1 / 2 : ℝ) ∧ (1 / 2 : ℝ) ≤ 1) ∧ ∃ body : Body ℝ, shippedBody .bucket = .ok body :=
  ⟨⟨by norm_num, by norm_num⟩, _, shippedBody_bucket⟩

example : (1 / 2 ≤ (3 / 4 : ℝ) ∧ (3 / 4 : ℝ) ≤ 17 / 20) ∧ ((1 / 2 : ℝ) = 0 ∨ (1 / 4 : ℝ) ≠ 3 / 4) ∧
    ∃ body : Body ℝ, shippedBody .blade = .ok body :=
  ⟨⟨by norm_num, by norm_num⟩, by norm_num, _, shippedBody_blade⟩

end Soil
