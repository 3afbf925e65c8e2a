import Verif.Proof.ChartMove
import Verif.Proof.Safe
import Verif.Props.Avalanche

/-!
# C62: the two horizontal axes are treated alike

Relaxation of terrain and of soil on the body, and the removal of soil on the body squeezed by its other layer: whatever such
a call can make of a scene, it can make of the scene with its horizontal axes exchanged, up to the exchange.  The order in
which columns and directions are visited is random, so that the statement is about the set of possible results.
-/

namespace Soil

open FOps

section

variable {K : Type} [Field K] [LinearOrder K] [IsStrictOrderedRing K] [FloorRing K] [Transc K]

/-- The frame of the mirrored body is the mirror image of the frame of the body. -/
theorem sameScene_exch (g : Grid K) (b : Body K) : SameScene exchange g g.exch b b.exch := by
  refine ⟨rfl, rfl, fun i j z _ _ _ _ => ?_⟩
  simp only [exchange, Chart.on, Chart.lin, Chart.vec, calcBodyFramePos, calcRotationQuaternion, multiplyQuaternion, Grid.exch,
    Body.exch, if_true, add_zero, ex_add, ex_sub, ex_mul, ex_div, ex_neg, ex_zero]
  have hn : b.ori.q0 * b.ori.q0 + - -b.ori.q2 * - -b.ori.q2 + - -b.ori.q1 * - -b.ori.q1 + - -b.ori.q3 * - -b.ori.q3 =
      b.ori.q0 * b.ori.q0 + -b.ori.q1 * -b.ori.q1 + -b.ori.q2 * -b.ori.q2 + -b.ori.q3 * -b.ori.q3 := by ring
  rw [hn]
  congr 1 <;> ring

end

variable {F : Type} [FOps F]

theorem LikeA.exchanged {s s' : SimOut F} (h : LikeA False exchange s s') (h' : s'.lenX = s.lenY ∧ s'.lenY = s.lenX) :
    Exchanged s s' := by
  have hg : ∀ i j, s.InGrid i j → s'.InGrid j i := fun i j hij => by
    have := (h.grid i j hij).resolve_right id
    simpa [exchange, Chart.on, Chart.lin] using this
  have on : ∀ i j, exchange.on (i, j) = (j, i) := fun i j => by simp [exchange, Chart.on, Chart.lin]
  refine ⟨h'.1, h'.2, fun i j hi => ?_, fun k i j hi => ?_, fun k i j hi => ?_, ?_, h.equilibrium, ?_, ?_⟩
  · have := h.terrain i j hi (by rw [on]; exact hg i j hi)
    rwa [on] at this
  · have := h.body k i j hi (by rw [on]; exact hg i j hi)
    rwa [on] at this
  · have := h.bodySoil k i j hi (by rw [on]; exact hg i j hi)
    rwa [on] at this
  · rw [h.entries]
    refine List.map_congr_left fun e _ => ?_
    unfold Chart.entry
    rw [on]
    rfl
  · rw [h.bodyArea]
    simp [exchange, Chart.area]
  · rw [h.relaxArea]
    simp [exchange, Chart.area]

theorem likeA_exch (s : SimOut F) : LikeA False exchange s s.exch := by
  have on : ∀ i j, exchange.on (i, j) = (j, i) := fun i j => by simp [exchange, Chart.on, Chart.lin]
  refine ⟨⟨fun i j hi => .inl ?_, fun i j _ _ => ?_, fun k i j _ _ => ?_, fun k i j _ _ => ?_, ?_, rfl⟩, ?_, ?_⟩
  · rw [on]
    exact ⟨hi.2.2.1, hi.2.2.2, hi.1, hi.2.1⟩
  · rw [on]; rfl
  · rw [on]; rfl
  · rw [on]; rfl
  · refine List.map_congr_left fun e _ => ?_
    unfold Chart.entry
    rw [on]
    rfl
  · simp [exchange, Chart.area, SimOut.exch]
  · simp [exchange, Chart.area, SimOut.exch]

theorem CorrW.exchanged {Q : SimOut F → SimOut F → Prop} {f f' : World F → M (World F)} {s : SimOut F}
    (h : CorrW False exchange (fun s1 s1' => LikeA False exchange s1 s1' ∧ Q s1 s1') f f' s s.exch)
    (hf : ∀ r log, Post (f ⟨s, r, log⟩) fun w => w.out.lenX = s.lenX ∧ w.out.lenY = s.lenY)
    (hf' : ∀ r log, Post (f' ⟨s.exch, r, log⟩) fun w => w.out.lenX = s.exch.lenX ∧ w.out.lenY = s.exch.lenY)
    (r : Rng) (log : List (Warn F)) (w1 : World F) (h1 : f ⟨s, r, log⟩ = .ok w1) :
    ∃ q w1', f' ⟨s.exch, q, log⟩ = .ok w1' ∧ Exchanged w1.out w1'.out ∧ w1'.log = w1.log := by
  rcases h r log log w1 h1 with ⟨s1', x, ⟨l, -⟩, e, res⟩ | ⟨hE, -⟩
  · obtain ⟨q, -, e1⟩ := res w1.rng (Chart.Rn.refl _ _)
    have l1 := hf r log w1 h1
    have l2 := hf' q log _ e1
    exact ⟨q, _, e1, l.exchanged ⟨l2.1.trans l1.2.symm, l2.2.trans l1.1.symm⟩, e.symm⟩
  · exact hE.elim

section

variable {K : Type} [Field K] [LinearOrder K] [IsStrictOrderedRing K] [FloorRing K] [Transc K]

/-- **C62, terrain relaxation.** For every result of `RelaxTerrain` on a scene, some random numbers give the exchanged
result on the exchanged scene. -/
theorem C62_terrain (g : Grid K) (b : Body K) (p : SimParam K) (tol : K) (hb : 0 ≤ p.cellBuffer) (s : SimOut K) (r : Rng)
    (log : List (Warn K)) (w1 : World K)
    (h : relaxTerrain g b p tol ⟨s, r, log⟩ = .ok w1) :
    ∃ q w1', relaxTerrain g.exch b.exch p tol ⟨s.exch, q, log⟩ = .ok w1' ∧
      Exchanged w1.out w1'.out ∧ w1'.log = w1.log := by
  refine CorrW.exchanged (f := relaxTerrain g b p tol) (f' := relaxTerrain g.exch b.exch p tol)
    (relaxTerrain_like (sameScene_exch g b) p tol hb (m := 0) le_rfl (likeA_exch _) ?_ ?_) ?_ ?_ r log w1 h
  · simp [exchange, Chart.area, SimOut.exch]
  · exact ⟨rfl, rfl, rfl, rfl⟩
  · exact fun r log => (relaxTerrain_frame g b p tol _).mono fun w hw => hw.1.2.2
  · exact fun r log => (relaxTerrain_frame _ _ p tol _).mono fun w hw => hw.1.2.2

/-- **C62, relaxation of soil on the body.** -/
theorem C62_bodySoil (g : Grid K) (b : Body K) (p : SimParam K) (tol : K) (s : SimOut K) (r : Rng) (log : List (Warn K))
    (w1 : World K) (h : relaxBodySoil g b p tol ⟨s, r, log⟩ = .ok w1) :
    ∃ q w1', relaxBodySoil g.exch b.exch p tol ⟨s.exch, q, log⟩ = .ok w1' ∧ Exchanged w1.out w1'.out ∧ w1'.log = w1.log :=
  CorrW.exchanged (relaxBodySoil_like (sameScene_exch g b) p tol (likeA_exch _))
    (fun _ _ => (relaxBodySoil_frame g b p tol _).mono fun _ hw => hw.1.2.2)
    (fun _ _ => (relaxBodySoil_frame _ _ p tol _).mono fun _ hw => hw.1.2.2) r log w1 h

/-- **C62, soil squeezed between the layers of the body** (`MoveIntersectingBodySoil`). -/
theorem C62_squeezed (g : Grid K) (b : Body K) (tol : K) (fuel : ℕ) (s : SimOut K) (r : Rng) (log : List (Warn K))
    (w1 : World K) (h : moveIntersectingBodySoil fuel g b tol ⟨s, r, log⟩ = .ok w1) :
    ∃ q w1', moveIntersectingBodySoil fuel g.exch b.exch tol ⟨s.exch, q, log⟩ = .ok w1' ∧ Exchanged w1.out w1'.out ∧
      w1'.log = w1.log :=
  CorrW.exchanged (moveIntersectingBodySoil_like (sameScene_exch g b) tol fuel (likeA_exch _))
    (fun _ _ => (moveIntersectingBodySoil_loc fuel g b tol _).mono fun _ hw => hw.body.2.2)
    (fun _ _ => (moveIntersectingBodySoil_loc fuel _ _ tol _).mono fun _ hw => hw.body.2.2) r log w1 h

/-- **C62.** All relaxation passes of a step: for every result on a scene, some random numbers give the exchanged result
on the exchanged scene, after the same number of passes. -/
theorem C62_relaxation (g : Grid K) (b : Body K) (p : SimParam K) (tol : K) (hb : 0 ≤ p.cellBuffer) (fuel : ℕ) (it : ℤ)
    (s : SimOut K) (r : Rng) (log : List (Warn K)) (w1 : World K) (k : ℤ)
    (h : relaxLoop g b p tol fuel it ⟨s, r, log⟩ = .ok (w1, k)) :
    ∃ q w1', relaxLoop g.exch b.exch p tol fuel it ⟨s.exch, q, log⟩ = .ok (w1', k) ∧ Exchanged w1.out w1'.out ∧
      w1'.log = w1.log := by
  rcases relaxLoop_like (sameScene_exch g b) p tol hb (p.maxIterations - it).toNat fuel it s s.exch (by omega) (likeA_exch s)
    ⟨rfl, rfl, rfl, rfl⟩ r log log w1 k h with ⟨s1', x, l, e, res⟩ | ⟨hE, -⟩
  · obtain ⟨q, -, e1⟩ := res w1.rng (Chart.Rn.refl _ _)
    have l1 := (relaxLoop_frame g b p tol fuel it _ _ h).1.2.2
    have l2 := (relaxLoop_frame _ _ p tol fuel it _ _ e1).1.2.2
    exact ⟨q, _, e1, l.exchanged ⟨l2.1.trans l1.2.symm, l2.2.trans l1.1.symm⟩, e.symm⟩
  · exact hE.elim

end

/-- The hypotheses of C62 hold in examples in which soil moves; the exchange of the state is another state. -/
example : 0 ≤ exParam.cellBuffer ∧
    (∃ w', relaxTerrain exGrid exBody exParam (1 / 100) exWorld = .ok w' ∧ w'.out.terrain 1 1 < 4) ∧
    (∃ w', relaxBodySoil exGrid exBody exParam (1 / 100) exWorld = .ok w' ∧ w'.out.bodySoil 1 2 2 < 5) ∧
    (∃ w', moveIntersectingBodySoil 20 exGrid exBody (1 / 100) exWorld2 = .ok w' ∧ w'.out.bodySoil 1 2 3 < 6) ∧
    (∃ x, relaxLoop exGrid exBody exParam (1 / 100) 20 0 (exWorld.mapOut fun s => { s with equilibrium := false }) = .ok x ∧
      x.1.out.bodySoil 1 2 2 < 5) ∧
    exState2.exch.bodySoil 1 3 2 = 6 ∧ exState2.bodySoil 1 3 2 = 0 := by
  refine ⟨by decide +kernel, exTerrain_runs, exBodySoil_runs, ?_, ?_, by decide +kernel, by decide +kernel⟩
  · have h : (match moveIntersectingBodySoil 20 exGrid exBody (1 / 100) exWorld2 with
      | .ok w' => decide (w'.out.bodySoil 1 2 3 < 6)
      | .error _ => false) = true := by decide +kernel
    revert h
    generalize moveIntersectingBodySoil 20 exGrid exBody (1 / 100) exWorld2 = r
    intro h
    match r, h with
    | .ok w', h => exact ⟨w', rfl, by simpa using h⟩
  · have h : (match relaxLoop exGrid exBody exParam (1 / 100) 20 0 (exWorld.mapOut fun s => { s with equilibrium := false }) with
      | .ok x => decide (x.1.out.bodySoil 1 2 2 < 5)
      | .error _ => false) = true := by decide +kernel
    revert h
    generalize relaxLoop exGrid exBody exParam (1 / 100) 20 0 _ = r
    intro h
    match r, h with
    | .ok w', h => exact ⟨w', rfl, by simpa using h⟩

end Soil
