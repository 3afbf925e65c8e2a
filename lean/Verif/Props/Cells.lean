import Verif.Proof.SimStart
import Verif.Proof.ExampleFlt

/-! # Property C49: floating-point histories in whole numbers of cells -/

set_option linter.unusedSectionVars false

namespace Soil

variable {F : Type} [FOps F] {cell tol : F} {N C : ℤ}

/-- **C49** (any arithmetic). In an arithmetic that is exact on whole numbers of cells and otherwise
arbitrary, after any history of poses whose columns are inside the grid: `CheckSoil` returns true, every
stored height is a whole number of cells and terrain is not below the bottom, and there is a list of
positive whole numbers of cells which are the amounts announced by the soil-removal warnings and which
`CheckVolume` finds missing from the initial volume. -/
theorem C49_history (A : CellArith F cell tol N C) {lo hi vol H : ℤ} {g : Grid F} {p : SimParam F}
    (h : CellSetup A lo hi vol H g p) {T : ℤ → ℤ → ℤ} {w : World F} (hs : CellStart A lo vol g T w.out)
    (hlog : w.log = []) (hC : vol - lo * (gridCols w.out).card ≤ C)
    (fuel : ℕ) (qs : List (Vec3 F × Quat F)) (body : Body F)
    (hfit : ∀ q ∈ qs, PoseFits fuel g p tol body q)
    (body' : Body F) (w' : World F) (hr : run fuel g p tol qs body w = .ok (body', w')) :
    checkSoil w'.out tol = .ok true ∧ CellHeights A w'.out ∧
      (∀ i j, w'.out.InGrid i j → ∃ n, lo ≤ n ∧ w'.out.terrain i j = A.emb n) ∧
      ∃ l : List ℤ, (∀ n ∈ l, 0 < n) ∧ removals w'.log = l.map A.emb ∧
        checkVolume w'.out ((∑ q ∈ gridCols w.out, T q.1 q.2) - l.sum) g tol = .ok true := by
  obtain ⟨g', p', S⟩ := h.shadow
  have emb := S.emb
  have h0 := hs.shadow h S hlog
  obtain ⟨v, hv, m, l1, m1, t1⟩ := run_shadow S fuel qs body hfit h0 _ hr
  dsimp only at hv
  have R := hv.rep.out.rep
  have wf := hv.rep.out.wf
  have iff := R.inGrid
  refine ⟨?_, ⟨?_, ?_, ?_, ?_⟩, ?_, ?_⟩
  · obtain ⟨b, e1, rfl⟩ := (checkSoil_sim R).of_ok' (hv.sound.checkSoil (by
      rw [show g'.cellZ = 1 from S.grid.cellZ']; exact tolQ))
    exact e1
  · intro i j hij
    obtain ⟨n, e, -⟩ := R.T i j ((iff i j).mp hij)
    exact ⟨n, e⟩
  · intro k i j hij hk
    obtain ⟨n, e, -⟩ := R.B k i j ((iff i j).mp hij) hk
    exact ⟨n, e⟩
  · intro k i j hij hk
    obtain ⟨n, e, -⟩ := R.S k i j ((iff i j).mp hij) hk
    exact ⟨n, e⟩
  · intro e he
    obtain ⟨f, hf, ef⟩ := forall₂_mem R.E he
    have h1 := wf.soilOK.entry_nonneg f hf
    obtain ⟨n, e1, e2, -⟩ := ef.2.2.2
    refine ⟨n, ?_, e1⟩
    rw [e2, emb] at h1
    exact_mod_cast h1
  · intro i j hij
    have hij' := (iff i j).mp hij
    obtain ⟨n, e1, e2, -⟩ := R.T i j hij'
    refine ⟨n, ?_, e1⟩
    have := hv.rep.out.room.T i j hij'
    rw [e2, emb] at this
    exact_mod_cast this
  · have l1' : v.log = m := by simpa using l1
    obtain ⟨l, p1, p2, p3⟩ := removals_shadow emb hv.rep (by rw [l1']; exact m1)
    refine ⟨l, p1, p2, ?_⟩
    have t0 := totalSoil_shadow T w.out
    have hcard : gridCols v.out = gridCols w.out := by
      have e := hv.sound.size
      unfold SameSize at e
      unfold gridCols
      rw [e.1, e.2, ← S.grid.halfX, ← S.grid.halfY, hs.lenX, hs.lenY]
    refine checkVolume_shadow emb S.budget1 S.grid.cellZ S.grid.cellZ' hv.rep.out hv.sound
      (by rw [hcard]; exact hC) ?_
    dsimp only at t1
    rw [l1'] at p3
    rw [t0, p3] at t1
    push_cast at t1 ⊢
    linarith

/-- **C49** (rounded arithmetic). The same for arithmetic in which each operation returns the exact result
rounded to `prec` binary digits, with any mathematical library: cells of height `2 ^ a`, tolerance of at
least one unit and less than half a cell by at least one unit, `2 ^ j` units in a cell. -/
theorem C49_float {R : Rounding} {prec : ℕ} (hR : R.rnd = roundBinary prec) {a : ℤ} {j : ℕ} {tol : ℚ}
    {N C : ℤ} (D : CellDigits prec a j tol N C) {lo hi vol H : ℤ} {g : Grid (Flt R)} {p : SimParam (Flt R)}
    (cellZ : g.cellZ = (2 : ℚ) ^ a)
    (heights : ∃ z0 : ℤ, ∀ k, 0 ≤ k → k ≤ 2 * g.halfZ →
      g.vectZ k = ((z0 + k : ℤ) : ℚ) * 2 ^ a ∧ lo ≤ z0 + k - 1 ∧ z0 + k ≤ hi)
    (slope : ∃ n : ℤ, dhMax g p = (n : ℚ) * 2 ^ a ∧ 0 ≤ n ∧ n ≤ H) (buffer : 2 ≤ p.cellBuffer)
    (hlo : lo ≤ 0) (hhi : 0 ≤ hi) (hvol : 0 ≤ vol) (hH : 2 * vol + hi - lo ≤ H) (hN : 16 * H ≤ N)
    {w : World (Flt R)} {T : ℤ → ℤ → ℤ}
    (terrain : ∀ i j, w.out.InGrid i j → w.out.terrain i j = (T i j : ℚ) * 2 ^ a ∧ lo ≤ T i j)
    (hbody : ∀ k i j, w.out.InGrid i j → k < 4 → w.out.body k i j = (0 : ℚ))
    (hsoil : ∀ k i j, w.out.InGrid i j → k < 4 → w.out.bodySoil k i j = (0 : ℚ))
    (hpos : w.out.bodySoilPos = []) (harea : AreaInside w.out.bodyArea w.out)
    (hrelax : AreaInside w.out.relaxArea w.out) (hX : w.out.lenX = 2 * g.halfX + 1)
    (hY : w.out.lenY = 2 * g.halfY + 1) (hV : ∑ q ∈ gridCols w.out, (T q.1 q.2 - lo) ≤ vol)
    (hlog : w.log = []) (hC : vol - lo * (gridCols w.out).card ≤ C)
    (fuel : ℕ) (qs : List (Vec3 (Flt R) × Quat (Flt R))) (body : Body (Flt R))
    (hfit : ∀ q ∈ qs, PoseFits fuel g p (tol : Flt R) body q)
    (body' : Body (Flt R)) (w' : World (Flt R))
    (hr : run fuel g p (tol : Flt R) qs body w = .ok (body', w')) :
    checkSoil w'.out (tol : Flt R) = .ok true ∧
      (∀ i j, w'.out.InGrid i j → ∃ n : ℤ, lo ≤ n ∧ w'.out.terrain i j = (n : ℚ) * 2 ^ a) ∧
      (∀ e ∈ w'.out.bodySoilPos, ∃ n : ℤ, 0 ≤ n ∧ e.h = (n : ℚ) * 2 ^ a) ∧
      ∃ l : List ℤ, (∀ n ∈ l, 0 < n) ∧ removals w'.log = (l.map fun n : ℤ => (n : ℚ) * 2 ^ a) ∧
        checkVolume w'.out ((∑ q ∈ gridCols w.out, T q.1 q.2) - l.sum) g (tol : Flt R) = .ok true := by
  have hB : Binary R.rnd prec := hR ▸ roundBinary_binary (by have := D.digits; omega)
  have z : (FOps.zero : Flt R) = (0 : ℚ) := (binaryCells hB D).zero.trans
    (show ((0 : ℤ) : ℚ) * 2 ^ a = 0 by simp)
  obtain ⟨h1, h2, h3, h4⟩ := C49_history (binaryCells hB D) (lo := lo) (hi := hi) (vol := vol) (H := H) (g := g)
    (p := p) ⟨cellZ, heights, slope, buffer, hlo, hhi, hvol, hH, hN⟩ (T := T) (w := w)
    ⟨terrain, fun k i j h hk => (hbody k i j h hk).trans z.symm,
      fun k i j h hk => (hsoil k i j h hk).trans z.symm, hpos, harea, hrelax, hX, hY, hV⟩
    hlog hC fuel qs body hfit body' w' hr
  exact ⟨h1, h3, h2.entry, h4⟩

/-! ## A concrete case -/

/-- A digging step computed with 24 binary digits meets the hypotheses of C49, it is completed, it digs, and both
checks pass afterwards. -/
example : CellDigits 24 (-3) 4 (1 / 64) 32768 (2 ^ 24) ∧ ∃ b' w',
    run 100 fltGrid fltParam (1 / 64 : ℚ) fltPoses fltBody fltWorld = .ok (b', w') ∧
      FOps.lt (w'.out.terrain 8 6) FOps.zero = true ∧ checkSoil w'.out (1 / 64 : ℚ) = .ok true ∧
      ∃ l : List ℤ, (∀ n ∈ l, 0 < n) ∧ removals w'.log = (l.map fun n : ℤ => (n : ℚ) * 2 ^ (-3 : ℤ)) ∧
        checkVolume w'.out (-l.sum) fltGrid (1 / 64 : ℚ) = .ok true := by
  have D : CellDigits 24 (-3) 4 (1 / 64) 32768 (2 ^ 24) := by
    constructor <;> norm_num
  refine ⟨D, ?_⟩
  have hrun := fltRuns
  unfold fltCheck at hrun
  split at hrun
  case h_2 => simp at hrun
  case h_1 r hr =>
    obtain ⟨b', w'⟩ := r
    simp only [Bool.and_eq_true] at hrun
    have hcard : (gridCols fltWorld.out).card = 169 := by decide +kernel
    obtain ⟨h1, -, -, l, l1, l2, l3⟩ := C49_float (R := fltR) rfl D (lo := -5) (hi := 4) (vol := 845) (H := 1699)
      (g := fltGrid) (p := fltParam) rfl
      ⟨-4, fun k k0 k1 => ⟨rfl, by simp only [fltGrid] at k1; omega, by simp only [fltGrid] at k1; omega⟩⟩
      ⟨2, fltSlope, by norm_num, by norm_num⟩ (by decide) (by norm_num) (by norm_num) (by norm_num)
      (by norm_num) (by norm_num) (w := fltWorld) (T := fun _ _ => 0)
      (fun i j _ => ⟨show (0 : ℚ) = ((0 : ℤ) : ℚ) * 2 ^ (-3 : ℤ) by simp, by norm_num⟩) (fun _ _ _ _ _ => rfl) (fun _ _ _ _ _ => rfl) rfl
      (by unfold AreaInside; decide) (by unfold AreaInside; decide) rfl rfl
      (by rw [Finset.sum_const, hcard]; norm_num) rfl (by rw [hcard]; norm_num) 100 fltPoses fltBody fltFits b' w' hr
    refine ⟨b', w', hr, hrun.1.1, h1, l, l1, l2, ?_⟩
    simpa using l3

end Soil
