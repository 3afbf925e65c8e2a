import Verif.Props.RunFlt
import Verif.Props.CellsInit
import Verif.Proof.ExampleStart

/-! # Property C65 from the constructors: whole programs under rounding -/

set_option linter.unusedSectionVars false

namespace Soil

open FOps

section Rounded

variable {R : Rounding} {prec : ℕ} {u : ℚ} {a : ℤ} {j : ℕ} {tol : ℚ} {N C : ℤ}

/-- **C65** (from the constructors). Build a grid with cells of height `2 ^ a` and a vertical size of `K` cells,
parameters and the initial state, call `Init` with an amplitude of at most `A` cells and any seed, all in rounded
arithmetic.  If the grid is not too large for the precision then `Init` returns normally and there is a number `V` for
which `CheckVolume` returns true; and any history of poses with room for the body, as in `C65_run`, is completed for all
sufficiently large fuels, always with the same result, after which `CheckSoil` returns true and `CheckVolume` returns
true for `V` minus the amounts announced by the soil-removal warnings. -/
theorem C65_constructed (hR : R.rnd = roundBinary prec) (hu : 2 ^ (-(prec : ℤ)) ≤ u) (hs : SqrtAccurate R u)
    (D : CellDigits prec a j tol N C) {K A L S B Z : ℤ}
    {gx gy cxy : ℚ} (dx : Digits prec gx) (dy : Digits prec gy) {g : Grid (Flt R)}
    (hg : mkGrid (F := Flt R) gx gy ((K : ℚ) * 2 ^ a : ℚ) cxy ((2 : ℚ) ^ a : ℚ) = .ok g)
    {angle : Flt R} {it buf : ℤ} {p : SimParam (Flt R)} (hp : mkSimParam angle it buf = .ok p)
    {amp : Flt R} (hamp : |amp.val| ≤ A * 2 ^ a) (rng : Rng)
    (hK : 0 ≤ K) (hKL : K ≤ L) (hAL : A ≤ L)
    (slope0 : 0 ≤ (dhMax g p).val) (slope1 : (dhMax g p).val ≤ (S : ℚ) * 2 ^ a)
    (room : 16 * (4 * ((2 * g.halfX + 1).toNat * (2 * g.halfY + 1).toNat) * L + 2 * L + 1 + S) ≤ N)
    (count : 3 * ((2 * g.halfX + 1).toNat * (2 * g.halfY + 1).toNat) * L ≤ C) (P : PoseSetup prec u B Z g p) :
    ∃ (w : World (Flt R)) (V : ℤ), init g amp ⟨mkSimOut g, rng, []⟩ = .ok w ∧
      checkVolume w.out V g (tol : Flt R) = .ok true ∧
      ∀ (fuel : ℕ) (qs : List (Vec3 (Flt R) × Quat (Flt R))) (body : Body (Flt R)) (D2 ρ : ℚ), 3 * B + 4 ≤ fuel →
        (∀ q ∈ qs, ∀ v ∈ usedVertices g (tol : Flt R) body q, VertexFits g Z v) →
        0 ≤ ρ → (1 + 160 * u) * D2 ≤ ρ ^ 2 → (∀ q ∈ qs, CellsNear fuel g p (tol : Flt R) body D2 q) →
        (∀ q ∈ qs, PoseClear g ρ q) →
        ∃ body' w', (∃ n, ∀ m, n ≤ m → run m g p (tol : Flt R) qs body w = .ok (body', w')) ∧
          checkSoil w'.out (tol : Flt R) = .ok true ∧
          ∃ l : List ℤ, (∀ n ∈ l, 0 < n) ∧ removals w'.log = (l.map fun n : ℤ => (n : ℚ) * 2 ^ a) ∧
            checkVolume w'.out (V - l.sum) g (tol : Flt R) = .ok true := by
  obtain ⟨hr0, hr1⟩ := P.sqrt_three hu hs
  obtain ⟨w, T, vol, H, hi, h1, h2, h3, h4, h5, h6, h7, h8, h9, h10, h11, h12, h13, h14, h15, h16, h17, h18⟩ :=
    constructed_start hR D hr0 hr1 dx dy hg hp hamp rng hK hKL hAL slope0 slope1 room count
  have main := fun (fuel : ℕ) (hf : 3 * B + 4 ≤ fuel) (qs : List (Vec3 (Flt R) × Quat (Flt R))) (body : Body (Flt R)) =>
    C65_run hR hu hs D P h1 ⟨_, h2⟩ h3 (by linarith) (by linarith) h5 h6 h7 h8 h9 h10 h11 h12 h13 h14 h15 h16
      h17 h18 fuel hf qs body
  refine ⟨w, ∑ q ∈ gridCols w.out, T q.1 q.2, hi, ?_, fun fuel qs body D2 ρ hf k1 k2 k3 k4 k5 =>
    main fuel hf qs body k1 k2 k3 k4 k5⟩
  obtain ⟨b', w', ⟨n, hn⟩, -, l, -, l2, l3⟩ := main (3 * B + 4).toNat (Int.self_le_toNat _) []
    ⟨.bucket, ⟨amp, amp, amp⟩, ⟨amp, amp, amp⟩, ⟨amp, amp, amp⟩, amp, ⟨amp, amp, amp⟩, ⟨amp, amp, amp, amp⟩⟩
    (by simp) (D2 := 0) (ρ := 0) le_rfl (by simp) (by simp) (by simp)
  have e : w' = w := by
    have h : (Except.ok (_, w) : M _) = .ok (b', w') := hn n le_rfl
    simp only [Except.ok.injEq, Prod.mk.injEq] at h
    exact h.2.symm
  subst e
  rw [h17] at l2
  have hl : l = [] := List.map_eq_nil_iff.mp l2.symm
  subst hl
  simpa using l3

end Rounded

/-! ## A concrete case -/

/-- The grid, the parameters and the state are built by the constructors with 24 binary digits, and `Init` makes
uneven ground of up to four cells from any seed: a bucket that goes back and forth between two poses any number of times
is simulated to the end, and both checks pass. -/
example (rng : Rng) (qs : List (Vec3 (Flt plcR) × Quat (Flt plcR))) (hq : ∀ q ∈ qs, q = plcPose ∨ q = plcPose2) :
    ∃ (w : World (Flt plcR)) (V : ℤ),
      mkGrid (F := Flt plcR) (3 / 2 : ℚ) (3 / 2 : ℚ) (((14 : ℤ) : ℚ) * 2 ^ (-3 : ℤ) : ℚ) (1 / 4 : ℚ)
        ((2 : ℚ) ^ (-3 : ℤ) : ℚ) = .ok cstGrid ∧ mkSimParam (F := Flt plcR) (1 : ℚ) 1 3 = .ok plcParam ∧
      init cstGrid ((1 / 2 : ℚ) : Flt plcR) ⟨mkSimOut cstGrid, rng, []⟩ = .ok w ∧
      checkVolume w.out V cstGrid (1 / 64 : ℚ) = .ok true ∧
      ∃ b' w', (∃ n, ∀ m, n ≤ m → run m cstGrid plcParam (1 / 64 : ℚ) qs (plcBody .bucket) w = .ok (b', w')) ∧
        checkSoil w'.out (1 / 64 : ℚ) = .ok true ∧
        ∃ l : List ℤ, (∀ n ∈ l, 0 < n) ∧ removals w'.log = (l.map fun n : ℤ => (n : ℚ) * 2 ^ (-3 : ℤ)) ∧
          checkVolume w'.out (V - l.sum) cstGrid (1 / 64 : ℚ) = .ok true := by
  obtain ⟨w, V, hi, hv, main⟩ := C65_constructed (R := plcR) (prec := 24) (u := 2 ^ (-23 : ℤ)) rfl (by norm_num) plcR_sqrt
    (a := -3) (j := 4) (tol := 1 / 64) (N := 262144) (C := 2 ^ 24) (by constructor <;> norm_num) (K := 14) (A := 4) (L := 14)
    (S := 2) conDigits conDigits cstGrid_ok cstParam_ok (amp := ((1 / 2 : ℚ) : Flt plcR))
    (by show |(1 / 2 : ℚ)| ≤ _; norm_num) rng (by norm_num) le_rfl (by norm_num)
    (by rw [cstSlope]; norm_num) (by rw [cstSlope]; norm_num)
    (by show 16 * (4 * (((13 : ℤ).toNat : ℤ) * ((13 : ℤ).toNat : ℤ)) * 14 + 2 * 14 + 1 + 2) ≤ (262144 : ℤ); norm_num)
    (by show 3 * (((13 : ℤ).toNat : ℤ) * ((13 : ℤ).toNat : ℤ)) * 14 ≤ (2 ^ 24 : ℤ); norm_num) cstSetup
  exact ⟨w, V, cstGrid_ok, cstParam_ok, hi, hv, main 88 qs (plcBody .bucket) (7 / 10) (85 / 100) (by norm_num)
    (fun q h => cstFits q (hq q h)) (by norm_num) (by norm_num) (fun q h => cstNear q (hq q h))
    fun q h => cstClear q (hq q h)⟩

end Soil
