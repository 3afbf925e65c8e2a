import Verif.Props.Cells
import Verif.Props.InitFlt
import Verif.Proof.ExampleCon

/-! # Property C49 from the constructors: cells whose height is a power of two -/

set_option linter.unusedSectionVars false

namespace Soil

open FOps

section Rounded

variable {R : Rounding} {prec : ℕ} {a : ℤ} {j : ℕ} {tol : ℚ} {N C : ℤ}

/-- A whole number of cells, computed as the code does, is exact when the result is not too large. -/
theorem cells_exact (hB : Binary R.rnd prec) (n : ℤ) {H : ℤ} (hH : H < 2 ^ prec)
    (h : |R.rnd (2 ^ a * n)| ≤ (H : ℚ) * 2 ^ a) : R.rnd (2 ^ a * n) = (n : ℚ) * 2 ^ a ∧ |n| ≤ H := by
  have ha := two_zpow_pos a
  have big : (H : ℚ) < 2 ^ prec := by exact_mod_cast hH
  have hn : |n| ≤ 2 ^ prec := by
    by_contra hc
    rcases le_total 0 n with h0 | h0
    · have h1 : (2 : ℤ) ^ prec ≤ n := by rw [abs_of_nonneg h0] at hc; omega
      have h2 : ((2 ^ prec : ℤ) : ℚ) * 2 ^ a ≤ 2 ^ a * n := by
        rw [mul_comm]
        exact mul_le_mul_of_nonneg_left (by exact_mod_cast h1) ha.le
      have h3 := hB.mono h2
      rw [hB.fix _ _ (by rw [abs_of_nonneg (by positivity)])] at h3
      have h4 := (le_abs_self _).trans h
      have h5 := h3.trans h4
      have h6 := le_of_mul_le_mul_right h5 ha
      push_cast at h6
      linarith
    · have h1 : n ≤ -(2 : ℤ) ^ prec := by rw [abs_of_nonpos h0] at hc; omega
      have h2 : (2 : ℚ) ^ a * n ≤ ((-2 ^ prec : ℤ) : ℚ) * 2 ^ a := by
        rw [mul_comm _ ((2 : ℚ) ^ a)]
        exact mul_le_mul_of_nonneg_left (by exact_mod_cast h1) ha.le
      have h3 := hB.mono h2
      rw [hB.fix _ _ (by rw [abs_neg, abs_of_nonneg (by positivity)])] at h3
      have h4 := (neg_abs_le (R.rnd (2 ^ a * n)))
      have h5 : ((-2 ^ prec : ℤ) : ℚ) * 2 ^ a ≥ -((H : ℚ) * 2 ^ a) := by linarith
      have h6 : (((2 ^ prec : ℤ) : ℚ)) * 2 ^ a ≤ (H : ℚ) * 2 ^ a := by push_cast at h5 ⊢; linarith
      have h7 := le_of_mul_le_mul_right h6 ha
      push_cast at h7
      linarith
  have e : R.rnd (2 ^ a * n) = (n : ℚ) * 2 ^ a := by rw [mul_comm]; exact hB.fix n a hn
  refine ⟨e, ?_⟩
  rw [e, abs_mul, abs_of_pos ha] at h
  have := le_of_mul_le_mul_right h ha
  exact_mod_cast this

/-- The heights of a grid whose vertical size is a whole number of cells -/
theorem accVect_cells (hB : Binary R.rnd prec) (z0 : ℤ) (n : ℕ) (h : |z0| + n ≤ 2 ^ prec) :
    accVect (F := Flt R) ((z0 : ℚ) * 2 ^ a : ℚ) ((2 : ℚ) ^ a : ℚ) n = (((z0 + n : ℤ) : ℚ) * 2 ^ a : ℚ) := by
  induction n with
  | zero =>
    show ((z0 : ℚ) * 2 ^ a : ℚ) = (((z0 + (0 : ℕ) : ℤ) : ℚ) * 2 ^ a : ℚ)
    simp
  | succ n ih =>
    have h' : |z0| + ((n : ℤ) + 1) ≤ 2 ^ prec := by exact_mod_cast h
    show FOps.add (F := Flt R) (accVect (F := Flt R) ((z0 : ℚ) * 2 ^ a : ℚ) ((2 : ℚ) ^ a : ℚ) n) ((2 : ℚ) ^ a : ℚ) = _
    rw [ih (by omega)]
    show R.rnd (((z0 + n : ℤ) : ℚ) * 2 ^ a + 2 ^ a) = _
    rw [show ((z0 + n : ℤ) : ℚ) * 2 ^ a + 2 ^ a = ((z0 + n + 1 : ℤ) : ℚ) * 2 ^ a by push_cast; ring,
      hB.fix _ _ (by
        have := abs_add_le z0 ((n : ℤ) + 1)
        rw [abs_of_nonneg (by omega : (0 : ℤ) ≤ (n : ℤ) + 1)] at this
        rw [show z0 + n + 1 = z0 + ((n : ℤ) + 1) by ring]
        omega)]
    push_cast
    ring

/-- The state made by the constructors and `Init` meets the conditions of C49 and C65 on the starting state. -/
theorem constructed_start (hR : R.rnd = roundBinary prec) (D : CellDigits prec a j tol N C)
    (hr0 : 1 ≤ R.sqrt 3) (hr1 : R.sqrt 3 ≤ 2) {K A L S : ℤ}
    {gx gy cxy : ℚ} (dx : Digits prec gx) (dy : Digits prec gy) {g : Grid (Flt R)}
    (hg : mkGrid (F := Flt R) gx gy ((K : ℚ) * 2 ^ a : ℚ) cxy ((2 : ℚ) ^ a : ℚ) = .ok g)
    {angle : Flt R} {it buf : ℤ} {p : SimParam (Flt R)} (hp : mkSimParam angle it buf = .ok p)
    {amp : Flt R} (hamp : |amp.val| ≤ A * 2 ^ a) (rng : Rng)
    (hK : 0 ≤ K) (hKL : K ≤ L) (hAL : A ≤ L)
    (slope0 : 0 ≤ (dhMax g p).val) (slope1 : (dhMax g p).val ≤ (S : ℚ) * 2 ^ a)
    (room : 16 * (4 * ((2 * g.halfX + 1).toNat * (2 * g.halfY + 1).toNat) * L + 2 * L + 1 + S) ≤ N)
    (count : 3 * ((2 * g.halfX + 1).toNat * (2 * g.halfY + 1).toNat) * L ≤ C) :
    ∃ (w : World (Flt R)) (T : ℤ → ℤ → ℤ) (vol H : ℤ), init g amp ⟨mkSimOut g, rng, []⟩ = .ok w ∧
      g.cellZ = (2 : ℚ) ^ a ∧
      (∀ k, 0 ≤ k → k ≤ 2 * g.halfZ → g.vectZ k = (((1 - g.halfZ + k : ℤ) : ℚ) * 2 ^ a : ℚ) ∧
        -L ≤ 1 - g.halfZ + k - 1 ∧ 1 - g.halfZ + k ≤ L + 1) ∧
      (∃ n : ℤ, dhMax g p = ((n : ℚ) * 2 ^ a : ℚ) ∧ 0 ≤ n ∧ n ≤ H) ∧
      0 ≤ L ∧ 0 ≤ vol ∧ 2 * vol + (L + 1) - -L ≤ H ∧ 16 * H ≤ N ∧
      (∀ i j, w.out.InGrid i j → w.out.terrain i j = (T i j : ℚ) * 2 ^ a ∧ -L ≤ T i j) ∧
      (∀ k i j, w.out.InGrid i j → k < 4 → w.out.body k i j = (0 : ℚ)) ∧
      (∀ k i j, w.out.InGrid i j → k < 4 → w.out.bodySoil k i j = (0 : ℚ)) ∧
      w.out.bodySoilPos = [] ∧ AreaInside w.out.bodyArea w.out ∧ AreaInside w.out.relaxArea w.out ∧
      w.out.lenX = 2 * g.halfX + 1 ∧ w.out.lenY = 2 * g.halfY + 1 ∧
      ∑ q ∈ gridCols w.out, (T q.1 q.2 - -L) ≤ vol ∧ w.log = [] ∧ vol - -L * (gridCols w.out).card ≤ C := by
  have hB : Binary R.rnd prec := hR ▸ roundBinary_binary (by have := D.digits; omega)
  have ha := two_zpow_pos a
  have hL0 : 0 ≤ L := hK.trans hKL
  have hS0 : 0 ≤ S := by
    have h := slope0.trans slope1
    have := nonneg_of_mul_nonneg_left h ha
    exact_mod_cast this
  set c : ℕ := (2 * g.halfX + 1).toNat * (2 * g.halfY + 1).toNat with hc
  have hcL : (0 : ℤ) ≤ c * L := mul_nonneg (by positivity) hL0
  have room' : 16 * (4 * (c * L) + 2 * L + 1 + S) ≤ N := by
    have : (c : ℤ) = ((2 * g.halfX + 1).toNat : ℤ) * (2 * g.halfY + 1).toNat := by rw [hc]; push_cast; ring
    rw [this]
    linarith [room]
  have hN : N < 2 ^ prec := by
    have h1 := D.heights
    have h2 : (1 : ℤ) ≤ 2 ^ j := by exact_mod_cast Nat.one_le_two_pow
    have h3 : 0 ≤ N := by linarith
    nlinarith
  obtain ⟨⟨g1, g2, g3⟩, -⟩ := mkGrid_any hg
  obtain ⟨w, hi, t1, ⟨t, t2⟩, t3⟩ := C41_float hR D.digits hr0 hr1 dx dy hg (A := A) (by linarith) hamp rng []
  -- the grid
  have e1 : (FOps.div (F := Flt R) ((K : ℚ) * 2 ^ a : ℚ) ((2 : ℚ) ^ a : ℚ)) = ((K : ℤ) : ℚ) := by
    show R.rnd ((K : ℚ) * 2 ^ a / 2 ^ a) = _
    rw [mul_div_assoc, div_self ha.ne', mul_one]
    have := hB.fix K 0 (by rw [abs_of_nonneg hK]; linarith)
    simpa using this
  have hz : g.halfZ = K := by
    rw [e1] at g1
    have e2 : (FOps.round (F := Flt R) ((K : ℤ) : ℚ)) = ((K : ℤ) : ℚ) := by
      show ((roundAway ((K : ℤ) : ℚ) : ℤ) : ℚ) = _
      rw [roundAway_intCast]
    rw [e2] at g1
    unfold castInt at g1
    have e3 : FOps.toInt (F := Flt R) (((K : ℤ) : ℚ) : Flt R) =
        if |((K : ℤ) : ℚ)| < 2 ^ 31 then some (truncZ ((K : ℤ) : ℚ)) else none := rfl
    rw [e3] at g1
    by_cases h31 : |((K : ℤ) : ℚ)| < 2 ^ 31
    · rw [if_pos h31] at g1
      simp only [truncZ_intCast, Except.ok.injEq] at g1
      exact g1.symm
    · rw [if_neg h31] at g1
      exact absurd g1 (by simp)
  have hz0 : (FOps.add (F := Flt R) (FOps.neg (F := Flt R) ((K : ℚ) * 2 ^ a : ℚ)) ((2 : ℚ) ^ a : ℚ)) =
      (((1 - K : ℤ) : ℚ) * 2 ^ a : ℚ) := by
    show R.rnd (-((K : ℚ) * 2 ^ a) + 2 ^ a) = _
    rw [show -((K : ℚ) * 2 ^ a) + 2 ^ a = ((1 - K : ℤ) : ℚ) * 2 ^ a by push_cast; ring]
    exact hB.fix _ _ (by rw [abs_le]; constructor <;> linarith)
  -- the heights
  have heights : ∀ k, 0 ≤ k → k ≤ 2 * g.halfZ → g.vectZ k = (((1 - g.halfZ + k : ℤ) : ℚ) * 2 ^ a : ℚ) ∧
      -L ≤ 1 - g.halfZ + k - 1 ∧ 1 - g.halfZ + k ≤ L + 1 := by
    refine fun k k0 k1 => ⟨?_, by omega, by omega⟩
    rw [hz, g3]
    dsimp only
    rw [hz0, accVect_cells hB _ _ (by
      have : |1 - K| ≤ K + 1 := by rw [abs_le]; constructor <;> linarith
      have h4 : ((k.toNat : ℕ) : ℤ) = k := Int.toNat_of_nonneg k0
      rw [h4]
      linarith)]
    rw [Int.toNat_of_nonneg k0]
  -- the slope
  have hslope : ∃ n : ℤ, dhMax g p = ((n : ℚ) * 2 ^ a : ℚ) ∧ 0 ≤ n ∧
      n ≤ 4 * (c * L) + 2 * L + 1 + S := by
    have e : ∃ n : ℤ, dhMax g p = R.rnd ((2 : ℚ) ^ a * n) := by
      unfold dhMax
      rw [g2]
      exact ⟨_, rfl⟩
    obtain ⟨n, hn⟩ := e
    have hn' : (dhMax g p).val = R.rnd ((2 : ℚ) ^ a * n) := hn
    rw [hn'] at slope0 slope1
    obtain ⟨q1, q2⟩ := cells_exact hB n (H := S) (by linarith) (by
      rw [abs_of_nonneg slope0]; exact slope1)
    refine ⟨n, hn.trans q1, ?_, ?_⟩
    · rw [q1] at slope0
      have := nonneg_of_mul_nonneg_left slope0 ha
      exact_mod_cast this
    · have := (abs_le.mp q2).2
      linarith
  -- the terrain
  have hT : ∀ i j, ∃ n : ℤ, w.out.InGrid i j → w.out.terrain i j = ((n : ℚ) * 2 ^ a : ℚ) ∧ |n| ≤ L := by
    intro i j
    by_cases h : w.out.InGrid i j
    · obtain ⟨n, hn, hb⟩ := t1 i j h
      exact ⟨n, fun _ => ⟨hn, hb.trans hAL⟩⟩
    · exact ⟨0, fun h' => absurd h' h⟩
  choose T hT using hT
  have hcard : (gridCols w.out).card = c := by
    unfold gridCols
    rw [Finset.card_product, Int.card_Ico, Int.card_Ico, sub_zero, sub_zero, t2]
    rfl
  refine ⟨w, T, 2 * (c * L), 4 * (c * L) + 2 * L + 1 + S, hi, g2, heights, hslope, hL0, by linarith, by linarith, room',
    fun i j h => ⟨(hT i j h).1, (abs_le.mp (hT i j h).2).1⟩, ?_, ?_, by rw [t2]; rfl, ?_, ?_, by rw [t2]; rfl,
    by rw [t2]; rfl, ?_, t3, ?_⟩
  · intro k i j h hk
    rw [t2]
    show R.rnd 0 = (0 : ℚ)
    have := hB.fix 0 0 (by simp)
    simpa using this
  · intro k i j h hk
    rw [t2]
    show R.rnd 0 = (0 : ℚ)
    have := hB.fix 0 0 (by simp)
    simpa using this
  · rw [t2]; refine ⟨?_, ?_, ?_, ?_⟩ <;> simp [mkSimOut]
  · rw [t2]; refine ⟨?_, ?_, ?_, ?_⟩ <;> simp [mkSimOut]
  · calc ∑ q ∈ gridCols w.out, (T q.1 q.2 - -L) ≤ ∑ q ∈ gridCols w.out, 2 * L := by
          apply Finset.sum_le_sum
          intro q hq
          unfold gridCols at hq
          rw [Finset.mem_product, Finset.mem_Ico, Finset.mem_Ico] at hq
          have := (abs_le.mp (hT q.1 q.2 ⟨hq.1.1, hq.1.2, hq.2.1, hq.2.2⟩).2).2
          linarith
      _ = 2 * (c * L) := by rw [Finset.sum_const, hcard, nsmul_eq_mul]; ring
  · rw [hcard]
    have : (c : ℤ) = ((2 * g.halfX + 1).toNat : ℤ) * (2 * g.halfY + 1).toNat := by rw [hc]; push_cast; ring
    rw [← this] at count
    linarith

/-- **C49** (from the constructors). Build a grid with cells of height `2 ^ a` and a vertical size of `K` cells,
parameters and the initial state, call `Init` with an amplitude of at most `A` cells, all in rounded arithmetic.
If `K` and `A` are at most `L` and the number of columns is small enough for the precision, then `Init` returns
normally and there is a number `V` for which `CheckVolume` returns true; and after any history of poses
whose columns are inside the grid `CheckSoil` returns true, every height is a whole number of cells, and
`CheckVolume` returns true for `V` minus the amounts announced by the soil-removal warnings. -/
theorem C49_constructed (hR : R.rnd = roundBinary prec) (D : CellDigits prec a j tol N C)
    (hr0 : 1 ≤ R.sqrt 3) (hr1 : R.sqrt 3 ≤ 2) {K A L S : ℤ}
    {gx gy cxy : ℚ} (dx : Digits prec gx) (dy : Digits prec gy) {g : Grid (Flt R)}
    (hg : mkGrid (F := Flt R) gx gy ((K : ℚ) * 2 ^ a : ℚ) cxy ((2 : ℚ) ^ a : ℚ) = .ok g)
    {angle : Flt R} {it buf : ℤ} {p : SimParam (Flt R)} (hp : mkSimParam angle it buf = .ok p)
    {amp : Flt R} (hamp : |amp.val| ≤ A * 2 ^ a) (rng : Rng)
    (hK : 0 ≤ K) (hKL : K ≤ L) (hAL : A ≤ L)
    (slope0 : 0 ≤ (dhMax g p).val) (slope1 : (dhMax g p).val ≤ (S : ℚ) * 2 ^ a)
    (room : 16 * (4 * ((2 * g.halfX + 1).toNat * (2 * g.halfY + 1).toNat) * L + 2 * L + 1 + S) ≤ N)
    (count : 3 * ((2 * g.halfX + 1).toNat * (2 * g.halfY + 1).toNat) * L ≤ C) :
    ∃ (w : World (Flt R)) (V : ℤ), init g amp ⟨mkSimOut g, rng, []⟩ = .ok w ∧
      checkVolume w.out V g (tol : Flt R) = .ok true ∧
      ∀ (fuel : ℕ) (qs : List (Vec3 (Flt R) × Quat (Flt R))) (body : Body (Flt R)),
        (∀ q ∈ qs, PoseFits fuel g p (tol : Flt R) body q) →
        ∀ (body' : Body (Flt R)) (w' : World (Flt R)), run fuel g p (tol : Flt R) qs body w = .ok (body', w') →
          checkSoil w'.out (tol : Flt R) = .ok true ∧
          (∀ i j, w'.out.InGrid i j → ∃ n : ℤ, w'.out.terrain i j = ((n : ℚ) * 2 ^ a : ℚ)) ∧
          (∀ e ∈ w'.out.bodySoilPos, ∃ n : ℤ, 0 ≤ n ∧ e.h = ((n : ℚ) * 2 ^ a : ℚ)) ∧
          ∃ l : List ℤ, (∀ n ∈ l, 0 < n) ∧ removals w'.log = (l.map fun n : ℤ => (n : ℚ) * 2 ^ a) ∧
            checkVolume w'.out (V - l.sum) g (tol : Flt R) = .ok true := by
  obtain ⟨w, T, vol, H, hi, h1, h2, h3, h4, h5, h6, h7, h8, h9, h10, h11, h12, h13, h14, h15, h16, h17, h18⟩ :=
    constructed_start hR D hr0 hr1 dx dy hg hp hamp rng hK hKL hAL slope0 slope1 room count
  have main := fun (fuel : ℕ) (qs : List (Vec3 (Flt R) × Quat (Flt R))) (body : Body (Flt R))
      (hfit : ∀ q ∈ qs, PoseFits fuel g p (tol : Flt R) body q) (body' : Body (Flt R)) (w' : World (Flt R))
      (hr : run fuel g p (tol : Flt R) qs body w = .ok (body', w')) =>
    C49_float hR D h1 ⟨_, h2⟩ h3 (mkSimParam_any hp) (by linarith) (by linarith) h5 h6 h7 h8 h9 h10 h11 h12 h13 h14 h15 h16
      h17 h18 fuel qs body hfit body' w' hr
  obtain ⟨-, -, -, l0, n4, n5, n6⟩ := main 0 [] ⟨.bucket, ⟨amp, amp, amp⟩, ⟨amp, amp, amp⟩, ⟨amp, amp, amp⟩, amp,
    ⟨amp, amp, amp⟩, ⟨amp, amp, amp, amp⟩⟩ (by simp) _ w rfl
  have hl0 : l0 = [] := by
    rw [h17] at n5
    have : removals ([] : List (Warn (Flt R))) = [] := rfl
    rw [this] at n5
    exact List.map_eq_nil_iff.mp n5.symm
  subst hl0
  rw [List.sum_nil, sub_zero] at n6
  refine ⟨w, _, hi, n6, fun fuel qs body hfit body' w' hr => ?_⟩
  obtain ⟨m1, m2, m3, l, m4, m5, m6⟩ := main fuel qs body hfit body' w' hr
  exact ⟨m1, fun i j h => (m2 i j h).imp fun n hn => hn.2, m3, l, m4, m5, m6⟩

end Rounded

/-! ## A concrete case -/

theorem conDigits : Digits 24 (3 / 2 : ℚ) := ⟨3, -1, by norm_num, by norm_num⟩

/-- `Init` with amplitude zero makes flat ground. -/
theorem conInit : init conGrid ((0 : ℚ) : Flt fltR) ⟨mkSimOut conGrid, fun _ => 0, []⟩ = .ok conWorld := by
  have h := init_heights (R := fltR) (prec := 24) rfl (by norm_num) conRoot.1 conRoot.2 (a := -3) (A := 0) conDigits
    conDigits conGrid_ok (amp := ((0 : ℚ) : Flt fltR)) (by norm_num)
    (by show |(0 : ℚ)| ≤ _; simp) (fun _ => 0)
  have hz : (FOps.zero : Flt fltR) = (0 : ℚ) := (roundBinary_binary (prec := 24) (by norm_num)).zero
  have e := initCells_flat conGrid ((0 : ℚ) : Flt fltR) (permTable fun _ => 0).1 (mkSimOut conGrid).allCells
    (mkSimOut conGrid) rfl
    (fun p hp => ⟨SimOut.mem_allCells.mp hp, (SimOut.mem_allCells.mp hp).2.1, (SimOut.mem_allCells.mp hp).2.2.2⟩)
    (fun p hp => by
      obtain ⟨i0, i1, j0, j1⟩ := SimOut.mem_allCells.mp hp
      obtain ⟨v, hv, n, hn, hn0⟩ := h p.1 p.2 i0 (Int.lt_add_one_iff.mp i1) j0 (Int.lt_add_one_iff.mp j1)
      rw [hv]
      have : n = 0 := by simpa using hn0
      subst this
      have hv0 : v.val = 0 := by simpa using hn
      have : v = FOps.zero := hv0.trans hz.symm
      rw [this])
  unfold init
  dsimp only
  rw [e, ok_bind]
  unfold conWorld permTable shuffle
  rw [shuffleFrom_rng]
  rfl

/-- A digging step after the constructors and `Init`, computed with 24 binary digits, meets the hypotheses of C49; it
is completed, it digs, and both checks pass afterwards. -/
example : ∃ (V : ℤ) (b' : Body (Flt fltR)) (w' : World (Flt fltR)),
    mkGrid (F := Flt fltR) (3 / 2 : ℚ) (3 / 2 : ℚ) (((4 : ℤ) : ℚ) * 2 ^ (-3 : ℤ) : ℚ) (1 / 4 : ℚ)
      ((2 : ℚ) ^ (-3 : ℤ) : ℚ) = .ok conGrid ∧
    init conGrid ((0 : ℚ) : Flt fltR) ⟨mkSimOut conGrid, fun _ => 0, []⟩ = .ok conWorld ∧
    checkVolume conWorld.out V conGrid (1 / 64 : ℚ) = .ok true ∧
    run 100 conGrid fltParam (1 / 64 : ℚ) fltPoses fltBody conWorld = .ok (b', w') ∧
    FOps.lt (w'.out.terrain 8 6) FOps.zero = true ∧ checkSoil w'.out (1 / 64 : ℚ) = .ok true ∧
    ∃ l : List ℤ, (∀ n ∈ l, 0 < n) ∧ removals w'.log = (l.map fun n : ℤ => (n : ℚ) * 2 ^ (-3 : ℤ)) ∧
      checkVolume w'.out (V - l.sum) conGrid (1 / 64 : ℚ) = .ok true := by
  have D : CellDigits 24 (-3) 4 (1 / 64) 65536 (2 ^ 24) := by constructor <;> norm_num
  obtain ⟨w, V, hi, hv, main⟩ := C49_constructed (R := fltR) rfl D conRoot.1 conRoot.2 (K := 4) (A := 0) (L := 4)
    (S := 2) conDigits conDigits conGrid_ok conParam_ok (amp := ((0 : ℚ) : Flt fltR))
    (by show |(0 : ℚ)| ≤ _; simp) (fun _ => 0) (by norm_num) le_rfl (by norm_num)
    (by rw [conSlope]; norm_num) (by rw [conSlope]; norm_num)
    (by show 16 * (4 * (((13 : ℤ).toNat : ℤ) * ((13 : ℤ).toNat : ℤ)) * 4 + 2 * 4 + 1 + 2) ≤ (65536 : ℤ); norm_num)
    (by show 3 * (((13 : ℤ).toNat : ℤ) * ((13 : ℤ).toNat : ℤ)) * 4 ≤ (2 ^ 24 : ℤ); norm_num)
  rw [conInit] at hi
  cases hi
  have hrun := conRuns
  unfold conCheck at hrun
  split at hrun
  case h_2 => simp at hrun
  case h_1 r hr =>
    obtain ⟨m1, -, -, l, m4, m5, m6⟩ := main 100 fltPoses fltBody conFits r.1 r.2 hr
    exact ⟨V, r.1, r.2, conGrid_ok, conInit, hv, hr, hrun, m1, l, m4, m5, m6⟩

end Soil
