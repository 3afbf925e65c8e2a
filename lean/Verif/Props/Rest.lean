import Verif.Props.Equilibrium
import Verif.Props.History
import Verif.Proof.Rest

/-! # C43: the terrain is at rest after a history that settles -/

set_option linter.unusedSectionVars false

namespace Soil

variable {K : Type} [Field K] [LinearOrder K] [FloorRing K] [Transc K] [IsStrictOrderedRing K]

/-- **C43**. The outputs start from a terrain on the lattice with the whole grid to be relaxed, and the
body is moved through poses that keep it off the border, with a buffer of at least three columns. If
every step settles, then after each step that moves the body the terrain of the whole grid is at rest,
not only that of the active area (C31); two columns next to the lower borders excepted (C34). -/
theorem C43_at_rest (hs : SqrtLaw K) (g : Grid K) (p : SimParam K) (tol : K) (S : Setup g p tol)
    (hbuf : 3 ≤ p.cellBuffer) (hp : 0 ≤ p.maxIterations) (fuel : ℕ) (qs : List (Vec3 K × Quat K))
    (q : Vec3 K × Quat K) (body body' : Body K) (hoff : ∀ x ∈ qs ++ [q], PoseOff g body x)
    (w w' : World K) (r : StepResult K) (h : Start g w.out)
    (hall : ∀ i j, Reachable g i j → w.out.relaxArea.Has i j)
    (hset : AllSettle fuel g p tol (qs ++ [q]) body w)
    (hrun : run fuel g p tol qs body w = .ok (body', w'))
    (hstep : step fuel q.1 q.2 g body' p tol w' = .ok r) (hu : r.updated = true) :
    TerrainAtRest g p tol r.world.out := by
  obtain ⟨s1, w1, o1, a1⟩ := run_watched hs S hbuf fuel qs [q] body hoff w h.sound
    (fun i j hr _ => hall i j hr) hset _ hrun
  have hst := (a1 r hstep).1
  obtain ⟨-, hi⟩ := step_watched hs S hbuf fuel q.1 q.2 body' (o1 q (by simp)) w' s1 w1 r hstep hst
  have hi := hi hu
  obtain ⟨ht, -, -⟩ := C31_equilibrium fuel q.1 q.2 g body' p tol w' r hp hstep hu (hst hu).1
  intro i j hr i' j' ha
  by_cases hun : Unstable r.world.out (reposeStep g p) tol i j
  · obtain ⟨b1, b2, b3, b4⟩ := hi i j hr (by
      have : dhMax g p = reposeStep g p := by
        unfold dhMax reposeStep
        simp only [ex_mul, ex_round, ex_div, ex_tan]
      rwa [this])
    obtain ⟨t1, t2, t3, t4⟩ := ht i j b1 b2 b3 b4
    rcases ha with ⟨rfl, rfl⟩ | ⟨rfl, rfl⟩ | ⟨rfl, rfl⟩ | ⟨rfl, rfl⟩
    · exact t2
    · exact t1
    · exact t4
    · exact t3
  · refine .inl ?_
    by_contra hc
    exact hun ⟨i', j', ha, by linarith⟩

end Soil
