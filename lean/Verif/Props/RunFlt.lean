import Verif.Props.Rounded
import Verif.Proof.TotalFlt
import Verif.Proof.BallFlt
import Verif.Proof.ExampleRun

/-! # Property C65: whole simulations under rounding -/

set_option linter.unusedSectionVars false

namespace Soil

open FOps

/-- **C65** (any arithmetic). In an arithmetic that is exact on whole numbers of cells and otherwise arbitrary: if at
each pose the cells of the body are found and off the border, and no cell of the body at one pose gets to the border or
out of the grid when it moves with the body to another pose, then the run returns normally for all sufficiently large
fuels, always with the same result, and the result passes both checks. -/
theorem C65_any {F : Type} [FOps F] {cell tol : F} {N C : ℤ} (A : CellArith F cell tol N C) (hne : ∀ x : F, FOps.ne x x = false)
    {lo hi vol H : ℤ} {g : Grid F} {p : SimParam F} (h : CellSetup A lo hi vol H g p) {T : ℤ → ℤ → ℤ} {w : World F}
    (hs : CellStart A lo vol g T w.out) (hlog : w.log = []) (hC : vol - lo * (gridCols w.out).card ≤ C)
    (fuel : ℕ) (qs : List (Vec3 F × Quat F)) (body : Body F)
    (hplace : ∀ q ∈ qs, ∀ n, fuel ≤ n → PosePlaced n g p tol body q)
    (hcarry : ∀ q ∈ qs, ∀ q' ∈ qs, CarryFits fuel g p tol body q q') :
    ∃ body' w', (∃ n, ∀ m, n ≤ m → run m g p tol qs body w = .ok (body', w')) ∧
      checkSoil w'.out tol = .ok true ∧
      ∃ l : List ℤ, (∀ n ∈ l, 0 < n) ∧ removals w'.log = l.map A.emb ∧
        checkVolume w'.out ((∑ q ∈ gridCols w.out, T q.1 q.2) - l.sum) g tol = .ok true := by
  obtain ⟨g', p', S⟩ := h.shadow
  have h0 := hs.shadow h S hlog
  obtain ⟨r, n, hr⟩ := run_total S hne hplace hcarry qs (fun _ h => h) body (fun _ _ => rfl) h0
    (fun e he => by rw [hs.noEntry] at he; cases he)
  obtain ⟨body', w'⟩ := r
  obtain ⟨h1, -, -, h2⟩ := C49_history A h hs hlog hC (max n fuel) qs body
    (fun q hq => (hplace q hq _ (le_max_right _ _)).fits) body' w' (hr _ (le_max_left _ _))
  exact ⟨body', w', ⟨n, hr⟩, h1, h2⟩

variable {R : Rounding} {prec : ℕ} {u : ℚ}

/-- **C65**. Each operation is rounded to `prec` binary digits, the square root has a relative error of at most `u`, the
height of a cell is a power of two and all heights at the start are whole numbers of cells (the setting of C49).  If at
each pose the vertices as computed are at least two cells from the edges of the grid and not too high (as in C64), the
orientations are not zero, and a disc around each position whose radius is the greatest distance of a cell of the body
from its position, enlarged by the rounding error, is two cells from the edges, then the run returns normally for
all sufficiently large fuels, always with the same result, and both checks pass afterwards. -/
theorem C65_run (hR : R.rnd = roundBinary prec) (hu : 2 ^ (-(prec : ℤ)) ≤ u) (hs : SqrtAccurate R u) {a : ℤ} {j : ℕ} {tol : ℚ}
    {N C : ℤ} (D : CellDigits prec a j tol N C) {lo hi vol H B Z : ℤ} {g : Grid (Flt R)} {p : SimParam (Flt R)}
    (P : PoseSetup prec u B Z g p) (cellZ : g.cellZ = (2 : ℚ) ^ a)
    (heights : ∃ z0 : ℤ, ∀ k, 0 ≤ k → k ≤ 2 * g.halfZ →
      g.vectZ k = ((z0 + k : ℤ) : ℚ) * 2 ^ a ∧ lo ≤ z0 + k - 1 ∧ z0 + k ≤ hi)
    (slope : ∃ n : ℤ, dhMax g p = (n : ℚ) * 2 ^ a ∧ 0 ≤ n ∧ n ≤ H)
    (hlo : lo ≤ 0) (hhi : 0 ≤ hi) (hvol : 0 ≤ vol) (hH : 2 * vol + hi - lo ≤ H) (hN : 16 * H ≤ N)
    {w : World (Flt R)} {T : ℤ → ℤ → ℤ}
    (terrain : ∀ i j, w.out.InGrid i j → w.out.terrain i j = (T i j : ℚ) * 2 ^ a ∧ lo ≤ T i j)
    (hbody : ∀ k i j, w.out.InGrid i j → k < 4 → w.out.body k i j = (0 : ℚ))
    (hsoil : ∀ k i j, w.out.InGrid i j → k < 4 → w.out.bodySoil k i j = (0 : ℚ))
    (hpos : w.out.bodySoilPos = []) (harea : AreaInside w.out.bodyArea w.out)
    (hrelax : AreaInside w.out.relaxArea w.out) (hX : w.out.lenX = 2 * g.halfX + 1)
    (hY : w.out.lenY = 2 * g.halfY + 1) (hV : ∑ q ∈ gridCols w.out, (T q.1 q.2 - lo) ≤ vol)
    (hlog : w.log = []) (hC : vol - lo * (gridCols w.out).card ≤ C)
    (fuel : ℕ) (hfuel : 3 * B + 4 ≤ fuel) (qs : List (Vec3 (Flt R) × Quat (Flt R))) (body : Body (Flt R))
    (hq : ∀ q ∈ qs, ∀ v ∈ usedVertices g (tol : Flt R) body q, VertexFits g Z v)
    {D2 ρ : ℚ} (hρ : 0 ≤ ρ) (hD : (1 + 160 * u) * D2 ≤ ρ ^ 2)
    (hnear : ∀ q ∈ qs, CellsNear fuel g p (tol : Flt R) body D2 q) (hclear : ∀ q ∈ qs, PoseClear g ρ q) :
    ∃ body' w', (∃ n, ∀ m, n ≤ m → run m g p (tol : Flt R) qs body w = .ok (body', w')) ∧
      checkSoil w'.out (tol : Flt R) = .ok true ∧
      ∃ l : List ℤ, (∀ n ∈ l, 0 < n) ∧ removals w'.log = (l.map fun n : ℤ => (n : ℚ) * 2 ^ a) ∧
        checkVolume w'.out ((∑ q ∈ gridCols w.out, T q.1 q.2) - l.sum) g (tol : Flt R) = .ok true := by
  have htol : 0 ≤ (show Flt R from tol).val := by
    show (0 : ℚ) ≤ tol
    have := D.tol_ge
    exact le_trans (by positivity) this
  have A := P.accurate hR hu hs
  have hB : Binary R.rnd prec := A.binary
  have z : (FOps.zero : Flt R) = (0 : ℚ) := (binaryCells hB D).zero.trans
    (show ((0 : ℤ) : ℚ) * 2 ^ a = 0 by simp)
  refine C65_any (binaryCells hB D) (fun x => by show (!@decide (x.val = x.val) _) = false; simp) (lo := lo) (hi := hi) (vol := vol) (H := H) (g := g)
    (p := p) ⟨cellZ, heights, slope, by have := P.buffer; omega, hlo, hhi, hvol, hH, hN⟩ (T := T) (w := w)
    ⟨terrain, fun k i j h hk => (hbody k i j h hk).trans z.symm,
      fun k i j h hk => (hsoil k i j h hk).trans z.symm, hpos, harea, hrelax, hX, hY, hV⟩ hlog hC fuel qs body ?_ ?_
  · intro q hq' n hn
    rcases footprint_flt A P htol (hq q hq') n with ⟨-, h⟩ | ⟨r, h1, h2, h3⟩
    · omega
    exact ⟨r.1, r.2, h1, h2, fun w hw => ⟨(h3 w hw).1, fun t ht => by
      obtain ⟨a, b, c⟩ := (h3 w hw).2 t ht
      exact ⟨⟨a, b⟩, c⟩⟩⟩
  · intro q h q' h' area walls e w hw t ht
    exact lands_flt A P hρ hD (hclear q h).oriented (hclear q' h') (hnear q h area walls e w hw t ht)

/-! ## A concrete case -/

/-- A bucket that goes back and forth between two poses any number of times, with 24 binary digits: the
hypotheses of C65 are met, every such run returns normally, and the first two steps dig. -/
example (qs : List (Vec3 (Flt plcR) × Quat (Flt plcR))) (hq : ∀ q ∈ qs, q = plcPose ∨ q = plcPose2) :
    (∃ b' w', (∃ n, ∀ m, n ≤ m → run m plcGrid plcParam (1 / 64 : ℚ) qs (plcBody .bucket) plcWorld = .ok (b', w')) ∧
      checkSoil w'.out (1 / 64 : ℚ) = .ok true ∧
      ∃ l : List ℤ, (∀ n ∈ l, 0 < n) ∧ removals w'.log = (l.map fun n : ℤ => (n : ℚ) * 2 ^ (-3 : ℤ)) ∧
        checkVolume w'.out (-l.sum) plcGrid (1 / 64 : ℚ) = .ok true) ∧
    plcCheck [plcPose, plcPose2] (fun w => FOps.lt (w.out.terrain 8 6) FOps.zero) = true := by
  refine ⟨?_, plcDigs⟩
  have hcard : (gridCols plcWorld.out).card = 169 := by decide +kernel
  have h := C65_run (R := plcR) (prec := 24) (u := 2 ^ (-23 : ℤ)) rfl (by norm_num) plcR_sqrt (a := -3) (j := 4) (tol := 1 / 64)
    (N := 131072) (C := 2 ^ 24) (by constructor <;> norm_num) (lo := -15) (hi := 14) (vol := 2535) (H := 5099) plcSetup rfl
    ⟨-14, fun k k0 k1 => ⟨rfl, by simp only [plcGrid] at k1; omega, by simp only [plcGrid] at k1; omega⟩⟩
    ⟨2, plcSlope, by norm_num, by norm_num⟩ (by norm_num) (by norm_num) (by norm_num)
    (by norm_num) (by norm_num) (w := plcWorld) (T := fun _ _ => 0)
    (fun i j _ => ⟨show (0 : ℚ) = ((0 : ℤ) : ℚ) * 2 ^ (-3 : ℤ) by simp, by norm_num⟩) (fun _ _ _ _ _ => rfl) (fun _ _ _ _ _ => rfl) rfl
    (by unfold AreaInside; decide) (by unfold AreaInside; decide) rfl rfl
    (by rw [Finset.sum_const, hcard]; norm_num) rfl (by rw [hcard]; norm_num) 88 (by norm_num) qs (plcBody .bucket)
    (fun q h => by rcases hq q h with rfl | rfl; exacts [plcFits _, plcFits2]) (D2 := 7 / 10) (ρ := 85 / 100) (by norm_num) (by norm_num)
    (fun q h => by rcases hq q h with rfl | rfl; exacts [plcNear, plcNear2])
    (fun q h => by rcases hq q h with rfl | rfl; exacts [plcClear, plcClear2])
  simpa using h

end Soil
