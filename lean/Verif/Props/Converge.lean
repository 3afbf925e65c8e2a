import Verif.Proof.Settle
import Verif.Proof.Livelock
import Verif.Props.Active

/-! # Property C35: relaxation settles -/

set_option linter.unusedSectionVars false
set_option linter.unusedSimpArgs false

namespace Soil

section Exact

variable {K : Type} [Field K] [LinearOrder K] [FloorRing K] [Transc K] [IsStrictOrderedRing K]

/-- **C35**. Without a body in the grid, and with a repose height of at least one cell, relaxation
reaches equilibrium within a number of rounds that depends on the initial state only: not on the
random stream, nor on the configured maximum, as soon as the latter is large enough. -/
theorem C35_converges {g : Grid K} {p : SimParam K} {tol : K} (S : Setup g p tol)
    (hc : 1 ≤ roundAway (g.cellXY * Transc.tan p.reposeAngle / g.cellZ)) (body : Body K)
    (s : SimOut K) (hs : Sound g s)
    (hb : ∀ k i j, s.InGrid i j → k = 0 ∨ k = 2 → ¬ HasBody s k i j) :
    ∃ N : ℕ, ∀ (rng : Rng) (log : List (Warn K)) (m : ℤ) (fuel : ℕ), N ≤ m → N ≤ fuel →
      ∃ w' n, relaxLoop g body { p with maxIterations := m } tol fuel 0 ⟨s, rng, log⟩ =
          .ok (w', n) ∧
        w'.out.equilibrium = true ∧ n ≤ N := by
  have hdh : g.cellZ ≤ dhMax g p := by
    unfold dhMax
    simp only [ex_mul, ex_round, ex_div, ex_tan]
    have : (1 : K) ≤ (roundAway (g.cellXY * Transc.tan p.reposeAngle / g.cellZ) : K) := by
      exact_mod_cast hc
    nlinarith [S.tolOK.cpos]
  have hpos : 0 < g.cellZ ^ 2 := pow_pos S.tolOK.cpos 2
  obtain ⟨N, hN⟩ : ∃ N : ℕ, (energy s - floorEnergy s) / g.cellZ ^ 2 < N :=
    exists_nat_gt _
  rw [div_lt_iff₀ hpos] at hN
  refine ⟨N, fun rng log m fuel hm hf => ?_⟩
  have S' : Setup g { p with maxIterations := m } tol :=
    ⟨S.zgrid, S.cellXY, S.level, S.tolPos, S.tolThird, S.tolCell, S.buffer, S.repose⟩
  have := relaxLoop_bodyFree S' body hdh N fuel 0 ⟨s, rng, log⟩ hs hb (by linarith) hf
    (by simpa using hm)
  simpa using this

/-- **C35**, with a body. Whatever the body, and whatever the random stream, the number of rounds of
relaxation that move soil is bounded by a number that depends on the initial state only. -/
theorem C35_settles {g : Grid K} {p : SimParam K} {tol : K} (S : Setup g p tol)
    (hc : 1 ≤ roundAway (g.cellXY * Transc.tan p.reposeAngle / g.cellZ)) (body : Body K)
    (s : SimOut K) (hs : Sound g s) :
    ∃ N : ℕ, ∀ ws : ℕ → World K, (ws 0).out = s →
      (∀ n, relaxOnce g body p tol (ws n) = .ok (ws (n + 1))) →
      ∀ I : Finset ℕ, (∀ n ∈ I, ¬ SameSoil (ws n).out (ws (n + 1)).out) → I.card ≤ N := by
  have hdh : g.cellZ ≤ dhMax g p := by
    unfold dhMax
    simp only [ex_mul, ex_round, ex_div, ex_tan]
    have : (1 : K) ≤ (roundAway (g.cellXY * Transc.tan p.reposeAngle / g.cellZ) : K) := by
      exact_mod_cast hc
    nlinarith [S.tolOK.cpos]
  have hpos : 0 < g.cellZ ^ 2 := pow_pos S.tolOK.cpos 2
  obtain ⟨N, hN⟩ : ∃ N : ℕ, (energy s - floorEnergy s) / g.cellZ ^ 2 < N :=
    exists_nat_gt _
  rw [div_lt_iff₀ hpos] at hN
  refine ⟨N, fun ws h0 hr I hI => ?_⟩
  have inv : ∀ n, Sound g (ws n).out ∧ SameBody s (ws n).out := by
    intro n
    induction n with
    | zero => rw [h0]; exact ⟨hs, SameBody.refl s⟩
    | succ n ih =>
      exact ⟨(relaxOnce_sound S body _ ih.1 _ (hr n)).1,
        ih.2.trans (relaxOnce_frame _ _ _ _ _ _ (hr n)).1⟩
  have fall := fun n => relaxOnce_falls S body hdh _ (inv n).1 _ (hr n)
  have := card_drops (E := fun n => energy (ws n).out) (L := floorEnergy s) hpos
    (fun n => by rw [← floorEnergy_congr (inv n).2]; exact floorEnergy_le (inv n).1.wf.soilOK)
    (fun n => (fall n).le) I (fun n hn => ((fall n).lt.resolve_left (hI n hn)))
  rw [h0] at this
  have : (I.card : K) * g.cellZ ^ 2 < N * g.cellZ ^ 2 := by linarith
  exact_mod_cast (lt_of_mul_lt_mul_right this hpos.le).le

end Exact

/-! ## The hypotheses of C35 -/

theorem acSetup : Setup acGrid acParam (1 / 100) where
  zgrid := ⟨by norm_num [acGrid], fun k _ _ => by simp [acGrid]⟩
  cellXY := by norm_num [acGrid]
  level := ⟨-7, by norm_num [acGrid]⟩
  tolPos := by norm_num
  tolThird := by norm_num
  tolCell := by norm_num [acGrid]
  buffer := by norm_num [acParam]
  repose := by decide +kernel

theorem acRepose :
    1 ≤ roundAway (acGrid.cellXY * Transc.tan acParam.reposeAngle / acGrid.cellZ) := by decide +kernel

/-- The hypotheses of `C35_converges` and `C35_settles` hold for a peak of eight cells in the middle of
a flat terrain, which is not in equilibrium. -/
example : Setup acGrid acParam (1 / 100) ∧ Sound acGrid (acState 4) ∧
    (∀ k i j, (acState 4).InGrid i j → k = 0 ∨ k = 2 → ¬ HasBody (acState 4) k i j) ∧
    Unstable (acState 4) 1 (1 / 100) 4 4 := by
  refine ⟨acSetup, ⟨acState_wf 4 (.inr rfl), ?_, ?_, ?_, ?_⟩, ?_, ?_⟩
  · rintro k i j - - h
    exact absurd h (by simp [HasBody, acState])
  · simp [AreaInside, acState]
  · simp [AreaInside, acState]
  · exact ⟨rfl, rfl⟩
  · rintro k i j - - h
    exact absurd h (by simp [HasBody, acState])
  · exact ⟨5, 4, .inr (.inl ⟨by norm_num, rfl⟩), by norm_num [acState]⟩

/-! ## With a body, equilibrium may never be reported -/

/-- The claim of `C35_converges` fails in the presence of a body. In the state `lvState`, soil on the
body is higher than a neighbouring column whose terrain touches the body above it; the simulator takes
that column as able to receive soil, moves nothing, and never sets the equilibrium flag: every call
performs the maximum number of rounds, however large, for every random stream. -/
theorem C35_livelock (ia : Area) (rng : Rng) (log : List (Warn ℚ)) (m fuel : ℕ) (hf : m ≤ fuel) :
    Setup acGrid acParam (1 / 100) ∧ Sound acGrid (lvState false ⟨1, 8, 1, 8⟩ ia) ∧
    ∃ w', relaxLoop acGrid exBody { acParam with maxIterations := m } (1 / 100) fuel 0
        ⟨lvState false ⟨1, 8, 1, 8⟩ ia, rng, log⟩ = .ok (w', m) ∧
      w'.out.equilibrium = false ∧ SameSoil (lvState false ⟨1, 8, 1, 8⟩ ia) w'.out := by
  refine ⟨acSetup, lvState_sound _ _ _ (by simp [AreaInside, lvState]), ?_⟩
  have S : Setup acGrid { acParam with maxIterations := m } (1 / 100) :=
    ⟨acSetup.zgrid, acSetup.cellXY, acSetup.level, acSetup.tolPos, acSetup.tolThird, acSetup.tolCell,
      acSetup.buffer, acSetup.repose⟩
  have loop : ∀ (fuel : ℕ) (it : ℤ) (w : World ℚ) (ra ia : Area), it ≤ m → m ≤ it + fuel →
      w.out = lvState false ra ia → AreaInside ra (lvState false ra ia) →
      ∃ w', relaxLoop acGrid exBody { acParam with maxIterations := m } (1 / 100) fuel it w =
        .ok (w', m) ∧ ∃ ra' ia', w'.out = lvState false ra' ia' := by
    intro fuel
    induction fuel with
    | zero =>
      intro it w ra ia h1 h2 hw hra
      unfold relaxLoop
      have : it = m := by push_cast at h2; omega
      subst this
      simp only [lt_self_iff_false, decide_false, Bool.and_false, Bool.false_eq_true, if_false]
      exact ⟨w, rfl, ra, ia, hw⟩
    | succ n ih =>
      intro it w ra ia h1 h2 hw hra
      unfold relaxLoop
      have he : w.out.equilibrium = false := by rw [hw]; rfl
      rw [he]
      by_cases hlt : it < m
      · simp only [Bool.not_false, hlt, decide_true, Bool.and_true, if_true]
        have hs : Sound acGrid w.out := by rw [hw]; exact lvState_sound _ _ _ hra
        obtain ⟨w1, e1⟩ := relaxOnce_ok S exBody w hs
        obtain ⟨ra', ia', e2⟩ := lvOnce m w false ra ia hw hra w1 e1
        have s1 := (relaxOnce_sound S exBody w hs w1 e1).1
        rw [e1, ok_bind]
        refine ih (it + 1) w1 ra' ia' (by omega) (by push_cast at h2; omega) e2 ?_
        have := s1.relax
        rw [e2] at this
        exact this
      · have : it = m := by omega
        subst this
        simp only [lt_self_iff_false, decide_false, Bool.and_false, Bool.false_eq_true, if_false]
        exact ⟨w, rfl, ra, ia, hw⟩
  obtain ⟨w', e1, ra', ia', e2⟩ := loop fuel 0 ⟨lvState false ⟨1, 8, 1, 8⟩ ia, rng, log⟩ ⟨1, 8, 1, 8⟩ ia
    (by omega) (by omega) rfl (by simp [AreaInside, lvState])
  exact ⟨w', e1, by rw [e2]; rfl, by rw [e2]; exact ⟨rfl, fun _ _ _ _ => rfl⟩⟩

end Soil
