import Verif.Proof.SimPos
import Verif.Proof.History

/-!
# Simulation by exact arithmetic with cells of height one: steps and histories
-/

set_option linter.unusedSectionVars false
set_option linter.unusedVariables false

namespace Soil

open FOps

variable {F : Type} [FOps F] {cell tol : F} {N C : ℤ}
  {P : Pair F ℚ cell tol (1 : ℚ) (1 / 4) N C}

/-- The exact simulator's body plays no part: placement and transport follow the other arithmetic. -/
def anyBody : Body ℚ := ⟨.bucket, ⟨0, 0, 0⟩, ⟨0, 0, 0⟩, ⟨0, 0, 0⟩, 0, ⟨0, 0, 0⟩, ⟨1, 0, 0, 0⟩⟩

/-- The exact grid and parameters that accompany those of the other arithmetic -/
structure Shadow (P : Pair F ℚ cell tol (1 : ℚ) (1 / 4) N C) (lo hi vol : ℤ) (g : Grid F)
    (p : SimParam F) (g' : Grid ℚ) (p' : SimParam ℚ) : Prop where
  emb : ∀ n, P.B.emb n = (n : ℚ)
  budget : Budget lo hi (2 * vol) P.H
  vol : 0 ≤ vol
  grid : GRep P g g'
  z : ZRep P g g'
  setup : Setup g' p' (1 / 4)
  bottom : ∀ k, 0 ≤ k → k ≤ 2 * g'.halfZ → (lo : ℚ) ≤ g'.vectZ k - 1
  top : ∀ k, 0 ≤ k → k ≤ 2 * g'.halfZ → g'.vectZ k ≤ hi
  buffer : p.cellBuffer = p'.cellBuffer
  passes : p.maxIterations = p'.maxIterations
  slope : V P 1 (dhMax g p) (dhMax g' p')
  slope0 : 0 ≤ dhMax g' p'

section

variable {lo hi vol : ℤ} {g : Grid F} {p : SimParam F} {g' : Grid ℚ} {p' : SimParam ℚ}
  (S : Shadow P lo hi vol g p g' p')

theorem Shadow.budget1 (S : Shadow P lo hi vol g p g' p') : Budget lo hi vol P.H :=
  ⟨S.budget.lo_le, S.budget.hi_ge, S.vol, by have := S.budget.le; have := S.vol; omega⟩

/-- What holds of a state and the exact state that accompanies it -/
structure HInv (P : Pair F ℚ cell tol (1 : ℚ) (1 / 4) N C) (lo hi vol : ℤ) (g' : Grid ℚ) (w : World F)
    (v : World ℚ) : Prop where
  rep : WRep P (RInv P lo hi vol) w v
  sound : Sound g' v.out

theorem checkBodyMovement_log (pos : Vec3 F) (ori : Quat F) (g : Grid F) (body : Body F) :
    (checkBodyMovement pos ori g body).2 = [] ∨ (checkBodyMovement pos ori g body).2 = [.largeMovement] := by
  unfold checkBodyMovement
  dsimp only
  split_ifs <;> simp

include S

theorem step_shadow (fuel : ℕ) (pos : Vec3 F) (ori : Quat F) (body : Body F)
    (hfit : PoseFits fuel g p tol body (pos, ori)) {w : World F} {v : World ℚ}
    (h : HInv P lo hi vol g' w v) :
    Post (step fuel pos ori g body p tol w) fun r => ∃ v', HInv P lo hi vol g' r.world v' ∧
      ∃ m, v'.log = v.log ++ m ∧ (∀ x, .soilRemoved x ∈ m → 0 < x) ∧
        totalSoil v'.out + removedSoil m = totalSoil v.out := by
  have hb := S.budget1
  have hP := S.emb
  have hc1 : g'.cellZ = 1 := S.grid.cellZ'
  intro r hr
  unfold step at hr
  have hlog := checkBodyMovement_log pos ori g body
  rcases hc : checkBodyMovement pos ori g body with ⟨moved, warns⟩
  rw [hc] at hr hlog
  dsimp only at hr hlog
  obtain ⟨warns', hw1, hw2, hw3⟩ : ∃ warns' : List (Warn ℚ), WRep P (RInv P lo hi vol)
      { w with log := w.log ++ warns } { v with log := v.log ++ warns' } ∧ removedSoil warns' = 0 ∧
      ∀ x, .soilRemoved x ∉ warns' := by
    rcases hlog with rfl | rfl
    · exact ⟨[], by simpa using h.rep, by simp [removedSoil], by simp⟩
    · exact ⟨[.largeMovement], ⟨h.rep.out, h.rep.rng, List.rel_append h.rep.log (.cons trivial .nil)⟩,
        by simp [removedSoil], by simp⟩
  cases moved with
  | false =>
    simp only [Bool.not_false, if_true, pure_eq_ok, Except.ok.injEq] at hr
    subst hr
    exact ⟨_, ⟨hw1, h.sound⟩, warns', rfl, fun x hx => absurd hx (hw3 x), by rw [hw2, add_zero]⟩
  | true =>
    simp only [Bool.not_true, Bool.false_eq_true, if_false] at hr
    obtain ⟨s, h1, hr⟩ := bind_eq_ok.mp hr
    obtain ⟨⟨w2, b2⟩, h2, hr⟩ := bind_eq_ok.mp hr
    obtain ⟨w3, h3, hr⟩ := bind_eq_ok.mp hr
    obtain ⟨⟨w4, it⟩, h4, hr⟩ := bind_eq_ok.mp hr
    simp only [pure_eq_ok, Except.ok.injEq] at hr
    subst hr
    have hl0 : (lo : ℚ) ≤ 0 := by exact_mod_cast hb.lo_le
    have hh0 : (0 : ℚ) ≤ hi := by exact_mod_cast hb.hi_ge
    -- the body
    obtain ⟨z1, D1, N1⟩ := calcBodyPos_shadow S.z S.setup.zgrid hc1 S.grid.halfX S.grid.halfY
      (by rw [← hc1]; exact S.setup.level) ⟨hl0, S.bottom⟩ ⟨hh0, S.top⟩ hfit h.rep.out h.sound _ h1
    have r1 : WRep P (DInv P lo hi vol) { w with log := w.log ++ warns, out := s }
        { v with log := v.log ++ warns', out := z1 } := ⟨D1, hw1.rng, hw1.log⟩
    have t1 : totalSoil z1 = totalSoil v.out := by
      obtain ⟨b, a, rfl⟩ : ∃ b a, z1 = { v.out with body := b, bodyArea := a } := ⟨_, _, N1.eq⟩
      rfl
    have sz1 : SameSize g' z1 := by
      obtain ⟨b, a, rfl⟩ : ∃ b a, z1 = { v.out with body := b, bodyArea := a } := ⟨_, _, N1.eq⟩
      exact h.sound.size
    have ra1 : AreaInside z1.relaxArea z1 := by
      obtain ⟨b, a, rfl⟩ : ∃ b a, z1 = { v.out with body := b, bodyArea := a } := ⟨_, _, N1.eq⟩
      exact h.sound.relax
    -- transport
    obtain ⟨v2, r2, t2, sb2, n2⟩ := updateBodySoil_shadow hP hb S.grid.cellZ r1 _ h2
    dsimp only at t2 sb2 r2
    have lc2 := (updateBodySoil_loc _ _ _ _ _ _ _ h2).1
    have ra2 : v2.out.relaxArea = z1.relaxArea := by
      rw [← r2.out.rep.relaxArea, ← D1.rep.relaxArea]; exact lc2.relaxArea
    have A2 : BodyInArea v2.out := by
      intro k i j hij hk hB
      obtain ⟨c1, c2, c3, c4⟩ := sb2
      rw [c2]
      refine N1.inArea k i j ?_ hk ?_
      · unfold SimOut.InGrid at hij ⊢; rwa [c3, c4] at hij
      · unfold HasBody at hB ⊢; rwa [c1] at hB
    -- intersecting cells
    obtain ⟨v3, e3, r3⟩ := (moveIntersectingCells_sim (g := g) (g' := g') (body := b2)
      (body' := anyBody) hP hb S.budget fuel w2 v2 r2).of_ok h3
    have tq : TolOK g'.cellZ (1 / 4) := by rw [hc1]; exact tolQ
    obtain ⟨W3, m, l3, hm, t3⟩ := moveIntersectingCells_post tq (by rw [hc1]; exact r2.out.body)
      (by rw [hc1]; exact r2.out.soil) A2 e3
    have lc3 := moveIntersectingCells_loc _ _ _ _ _ _ e3
    have h23 : SameBody z1 v3.out := SameBody.trans sb2 lc3.body
    have s3 : Sound g' v3.out := by
      have h23' := h23
      obtain ⟨d1, d2, d3, d4⟩ := h23
      refine ⟨W3, ?_, ?_, ?_, ?_⟩
      · intro k i j hij hk hB
        rw [d2]
        refine N1.inArea k i j ?_ hk ?_
        · unfold SimOut.InGrid at hij ⊢; rwa [d3, d4] at hij
        · unfold HasBody at hB ⊢; rwa [d1] at hB
      · have := N1.area
        unfold AreaInside at this ⊢
        rwa [d2, d3, d4]
      · rw [lc3.relaxArea, ra2]
        exact AreaInside.congr ra1 h23'
      · unfold SameSize at sz1 ⊢
        rwa [d3, d4]
    have r3' : WRep P (RInv P lo hi vol) (w3.mapOut fun s => { s with equilibrium := false })
        (v3.mapOut fun s => { s with equilibrium := false }) := by
      refine ⟨RInv.congr (s := w3.out) (z := v3.out) ⟨r3.out.rep, by rw [← hc1]; exact W3, r3.out.room⟩
        (r3.out.rep.setEq false) rfl rfl rfl rfl rfl rfl, r3.rng, r3.log⟩
    -- relaxation
    obtain ⟨⟨v4, it'⟩, e4, r4, -⟩ := (relaxLoop_sim (body := b2) (body' := anyBody) hP hb S.grid
      S.buffer S.slope S.slope0 S.passes fuel 0 r3').of_ok h4
    obtain ⟨s4, t4⟩ := relaxLoop_sound S.setup _ fuel 0 _ (s3.setEq false) _ e4
    obtain ⟨-, l4⟩ := relaxLoop_frame _ _ _ _ _ _ _ _ e4
    dsimp only at r4 s4 t4 l4
    refine ⟨v4, ⟨r4, s4⟩, ?_⟩
    obtain ⟨n, l2⟩ := n2
    refine ⟨warns' ++ List.replicate n .soilToTerrain ++ m, ?_, ?_, ?_⟩
    · rw [l4]
      show v3.log = _
      rw [l3, l2]
      simp
    · intro x hx
      simp only [List.mem_append, List.mem_replicate, reduceCtorEq, and_false, or_false] at hx
      rcases hx with hx | hx
      · exact absurd hx (hw3 x)
      · obtain ⟨y, hy, e⟩ := hm _ hx
        cases e; exact hy
    · rw [removedSoil_append, removedSoil_append, hw2, removedSoil_replicate, t4]
      show totalSoil v3.out + _ = _
      rw [zero_add, zero_add, t3, t2, t1]

theorem run_shadow (fuel : ℕ) (qs : List (Vec3 F × Quat F)) (body : Body F)
    (hfit : ∀ q ∈ qs, PoseFits fuel g p tol body q) {w : World F} {v : World ℚ}
    (h : HInv P lo hi vol g' w v) :
    Post (run fuel g p tol qs body w) fun r => ∃ v', HInv P lo hi vol g' r.2 v' ∧
      ∃ m, v'.log = v.log ++ m ∧ (∀ x, .soilRemoved x ∈ m → 0 < x) ∧
        totalSoil v'.out + removedSoil m = totalSoil v.out := by
  induction qs generalizing body w v with
  | nil => exact Post.ok ⟨v, h, [], by simp, by simp, by simp [removedSoil]⟩
  | cons q qs ih =>
    obtain ⟨pos, ori⟩ := q
    unfold run
    intro r hr
    obtain ⟨r1, h1, h2⟩ := bind_eq_ok.mp hr
    obtain ⟨v1, s1, m1, l1, p1, t1⟩ := step_shadow S fuel pos ori body (hfit _ List.mem_cons_self) h r1 h1
    have hb : ∀ q, PoseFits fuel g p tol body q → PoseFits fuel g p tol r1.body q := by
      have : r1.body = body ∨ r1.body = { body with pos := pos, ori := ori } := by
        cases hu : r1.updated with
        | false => exact .inl ((C12_step fuel pos ori g body p tol w r1 h1).1 hu).2
        | true => exact .inr ((C12_step fuel pos ori g body p tol w r1 h1).2 hu)
      intro q hq
      rcases this with e | e
      · rwa [e]
      · rw [e]; exact hq
    obtain ⟨v2, s2, m2, l2, p2, t2⟩ := ih r1.body (fun q hq => hb q (hfit q (List.mem_cons_of_mem _ hq)))
      s1 r h2
    refine ⟨v2, s2, m1 ++ m2, by rw [l2, l1, List.append_assoc], fun x hx => ?_, ?_⟩
    · exact (List.mem_append.mp hx).elim (p1 x) (p2 x)
    rw [removedSoil_append, ← t1, ← t2]
    ring

end

end Soil
