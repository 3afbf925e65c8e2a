import Verif.Proof.InitFlt
import Verif.Proof.ExampleCon

/-! # Property C41 in rounded arithmetic -/

set_option linter.unusedSectionVars false

namespace Soil

variable {R : Rounding} {prec : ℕ}

/-- The height of every column is computed, a whole number of cells, and at most the amplitude. -/
theorem init_heights (hR : R.rnd = roundBinary prec) (hp : 3 ≤ prec) (hr0 : 1 ≤ R.sqrt 3) (hr1 : R.sqrt 3 ≤ 2)
    {a A : ℤ} {gx gy gz cxy : ℚ} (dx : Digits prec gx) (dy : Digits prec gy) {g : Grid (Flt R)}
    (hg : mkGrid (F := Flt R) gx gy gz cxy ((2 : ℚ) ^ a : ℚ) = .ok g) {amp : Flt R} (hA : A ≤ 2 ^ prec)
    (hamp : |amp.val| ≤ A * 2 ^ a) (rng : Rng) : ∀ i j, 0 ≤ i → i ≤ 2 * g.halfX → 0 ≤ j → j ≤ 2 * g.halfY →
      ∃ v : Flt R, initHeight g amp (permTable rng).1 i j = .ok v ∧
        ∃ n : ℤ, v.val = n * 2 ^ a ∧ |n| ≤ A := by
  have hB : Binary R.rnd prec := hR ▸ roundBinary_binary (by omega)
  obtain ⟨⟨-, hz, -⟩, ⟨hx, vx⟩, ⟨hy, vy⟩, n1, n2, n3⟩ := mkGrid_any hg
  have c0 : 0 < cxy := by
    have : ¬ decide (cxy ≤ R.rnd 0) = true := n1
    rw [hB.zero] at this
    simpa using this
  have cx : cxy ≤ gx := by
    have : ¬ decide (gx < cxy) = true := n2
    simpa using this
  have cy : cxy ≤ gy := by
    have : ¬ decide (gy < cxy) = true := n3
    simpa using this
  have hA0 : 0 ≤ A := by
    have h := (abs_nonneg amp.val).trans hamp
    have := nonneg_of_mul_nonneg_left h (two_zpow_pos a)
    exact_mod_cast this
  have three : R.rnd 3 = 3 := by simpa using hB.nat 3 (small_le hB hp (by norm_num))
  intro i j i0 i1 j0 j1
  obtain ⟨x0, x1⟩ := coord_flt hR hp dx c0 cx hx i0 i1 (v0 := g.vectX 0) (vi := g.vectX i)
    (by rw [vx]; rfl) (by rw [vx])
  obtain ⟨y0, y1⟩ := coord_flt hR hp dy c0 cy hy j0 j1 (v0 := g.vectY 0) (vi := g.vectY j)
    (by rw [vy]; rfl) (by rw [vy])
  exact initHeight_flt hB hp (r3 := R.sqrt 3) (by rw [three]) hr0 hr1 (permTable_isPermTable rng) hz
    (by rw [abs_of_nonneg hA0]; exact hA) hamp x0 x1 y0 y1

/-- **C41** (rounded arithmetic). On every grid that can be built with arguments of `prec` binary digits and cells of
height `2 ^ a`, for every random stream and every amplitude of at most `A` cells, `Init` returns normally and
gives every column a height that is a whole number of cells and at most `A` cells from zero, all computed with
`prec` binary digits.  Of the mathematical library only the square root of 3 is used, which has to be between 1
and 2. -/
theorem C41_float (hR : R.rnd = roundBinary prec) (hp : 3 ≤ prec) (hr0 : 1 ≤ R.sqrt 3) (hr1 : R.sqrt 3 ≤ 2)
    {a A : ℤ} {gx gy gz cxy : ℚ} (dx : Digits prec gx) (dy : Digits prec gy) {g : Grid (Flt R)}
    (hg : mkGrid (F := Flt R) gx gy gz cxy ((2 : ℚ) ^ a : ℚ) = .ok g) {amp : Flt R} (hA : A ≤ 2 ^ prec)
    (hamp : |amp.val| ≤ A * 2 ^ a) (rng : Rng) (log : List (Warn (Flt R))) :
    ∃ w', init g amp ⟨mkSimOut g, rng, log⟩ = .ok w' ∧
      (∀ i j, w'.out.InGrid i j → ∃ n : ℤ, (w'.out.terrain i j).val = n * 2 ^ a ∧ |n| ≤ A) ∧
      (∃ t, w'.out = { mkSimOut g with terrain := t }) ∧ w'.log = log := by
  have hheight := init_heights hR hp hr0 hr1 dx dy hg hA hamp rng
  have hcells : ∀ (l : List (ℤ × ℤ)) (s : SimOut (Flt R)),
      s.lenX = 2 * g.halfX + 1 → s.lenY = 2 * g.halfY + 1 → (∀ p ∈ l, s.InGrid p.1 p.2) →
      ∃ s', initCells g amp (permTable rng).1 l s = .ok s' ∧ (∃ t, s' = { s with terrain := t }) ∧
        (∀ p : ℤ × ℤ, s'.terrain p.1 p.2 = s.terrain p.1 p.2 ∨
          ∃ n : ℤ, (s'.terrain p.1 p.2).val = n * 2 ^ a ∧ |n| ≤ A) ∧
        (∀ p ∈ l, ∃ n : ℤ, (s'.terrain p.1 p.2).val = n * 2 ^ a ∧ |n| ≤ A) := by
    intro l
    induction l with
    | nil => intro s _ _ _; exact ⟨s, rfl, ⟨s.terrain, rfl⟩, fun p => .inl rfl, by simp⟩
    | cons p l ih =>
      intro s hx hy hl
      have hp := hl p List.mem_cons_self
      unfold initCells
      rw [guardOob_of ⟨hp, by have := hp.2.1; omega, by have := hp.2.2.2; omega⟩, ok_bind]
      obtain ⟨v, hv, hn⟩ := hheight p.1 p.2 hp.1 (by have := hp.2.1; omega) hp.2.2.1
        (by have := hp.2.2.2; omega)
      rw [hv, ok_bind]
      obtain ⟨s', e, ⟨t, ht⟩, h2, h3⟩ := ih (s.setT p.1 p.2 v) hx hy fun q hq => hl q (List.mem_cons_of_mem _ hq)
      have hpp : ∃ n : ℤ, (s'.terrain p.1 p.2).val = n * 2 ^ a ∧ |n| ≤ A := by
        rcases h2 p with h | h
        · rw [h, show (s.setT p.1 p.2 v).terrain p.1 p.2 = v from upd2_same _ _ _ _]
          exact hn
        · exact h
      refine ⟨s', e, ⟨t, ht⟩, fun q => ?_, fun q hq => ?_⟩
      · rcases h2 q with h | h
        · by_cases hq : q = p
          · exact .inr (hq ▸ hpp)
          · refine .inl (h.trans ?_)
            show upd2 s.terrain p.1 p.2 v q.1 q.2 = _
            unfold upd2
            rw [if_neg fun h => hq (Prod.ext h.1 h.2)]
        · exact .inr h
      · rcases List.mem_cons.mp hq with rfl | hq
        · exact hpp
        · exact h3 q hq
  obtain ⟨s', hs', ht, -, hall⟩ := hcells (mkSimOut g).allCells (mkSimOut g) rfl rfl
    fun p hp => SimOut.mem_allCells.mp hp
  have hi : init g amp ⟨mkSimOut g, rng, log⟩ = .ok ⟨s', (permTable rng).2, log⟩ := by
    unfold init
    dsimp only
    rw [hs', ok_bind]
    rfl
  refine ⟨_, hi, fun i j hij => ?_, ht, rfl⟩
  refine hall (i, j) (SimOut.mem_allCells.mpr ?_)
  obtain ⟨t, ht⟩ := ht
  dsimp only at hij ht ⊢
  rw [ht] at hij
  exact hij

/-- Thirteen by thirteen columns with cells of 1/8, 24 binary digits and an amplitude of 20 meet the hypotheses. -/
example (rng : Rng) : ∃ w' : World (Flt fltR), init conGrid ((20 : ℚ) : Flt fltR) ⟨mkSimOut conGrid, rng, []⟩ = .ok w' ∧
    ∀ i j, w'.out.InGrid i j → ∃ n : ℤ, (w'.out.terrain i j).val = n * 2 ^ (-3 : ℤ) ∧ |n| ≤ 160 := by
  have d : Digits 24 (3 / 2 : ℚ) := ⟨3, -1, by norm_num, by norm_num⟩
  obtain ⟨w', h, hn, -⟩ := C41_float (R := fltR) (prec := 24) rfl (by norm_num) conRoot.1 conRoot.2 (a := -3)
    (A := 160) d d conGrid_ok (amp := ((20 : ℚ) : Flt fltR)) (by norm_num)
    (by show |(20 : ℚ)| ≤ _; norm_num) rng []
  exact ⟨w', h, hn⟩

end Soil
