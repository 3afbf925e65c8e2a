import Verif.Spec.CellStart
import Verif.Proof.SimCheck
import Verif.Proof.SimStep

/-!
# Histories from a start in whole numbers of cells
-/

set_option linter.unusedSectionVars false

namespace Soil

open FOps

variable {F : Type} [FOps F] {cell tol : F} {N C : ℤ}

theorem forall₂_mem {α β : Type} {R : α → β → Prop} {l : List α} {m : List β} (h : List.Forall₂ R l m)
    {a : α} (ha : a ∈ l) : ∃ b ∈ m, R a b := by
  induction h with
  | nil => simp at ha
  | @cons x y l m hxy _ ih =>
    rcases List.mem_cons.mp ha with rfl | ha
    · exact ⟨y, List.mem_cons_self, hxy⟩
    · obtain ⟨b, h1, h2⟩ := ih ha
      exact ⟨b, List.mem_cons_of_mem _ h1, h2⟩

/-- Whole numbers of cells beside cells of height one in exact arithmetic -/
def cellPair (A : CellArith F cell tol N C) (H : ℤ) (h0 : 0 ≤ H) (h : 16 * H ≤ N) :
    Pair F ℚ cell tol (1 : ℚ) (1 / 4) N C :=
  ⟨A, exactCells (1 : ℚ) (1 / 4) tolQ N C, H, h0, h⟩

theorem cellPair_emb (A : CellArith F cell tol N C) (H : ℤ) (h0 : 0 ≤ H) (h : 16 * H ≤ N) (n : ℤ) :
    (cellPair A H h0 h).B.emb n = (n : ℚ) := by
  simp [cellPair, exactCells]

/-- The exact grid -/
def shadowGrid (g : Grid F) (z0 : ℤ) : Grid ℚ :=
  ⟨g.halfX, g.halfY, g.halfZ, 1, 1, 1, 1, fun k => k, fun k => k, fun k => z0 + k⟩

/-- The exact parameters (the tangent on `ℚ` is the identity) -/
def shadowParam (p : SimParam F) (n : ℤ) : SimParam ℚ := ⟨n, p.maxIterations, p.cellBuffer⟩

theorem dhMax_shadow (g : Grid F) (p : SimParam F) (z0 n : ℤ) :
    dhMax (shadowGrid g z0) (shadowParam p n) = n := by
  unfold dhMax shadowGrid shadowParam
  have h : FOps.round (((1 : ℚ) *ᶠ FOps.tan (n : ℚ)) /ᶠ 1) = n := by
    have : ((1 : ℚ) *ᶠ FOps.tan (n : ℚ)) /ᶠ 1 = n := by
      simp only [ex_mul, ex_div, one_mul, div_one]
      rfl
    rw [this]
    simp
  dsimp only
  rw [h]
  simp [ex_mul]

variable {A : CellArith F cell tol N C} {lo hi vol H : ℤ} {g : Grid F} {p : SimParam F}

theorem CellSetup.H0 (h : CellSetup A lo hi vol H g p) : 0 ≤ H := by
  have := h.lo_le; have := h.hi_ge; have := h.vol_ge; have := h.bound; omega

theorem CellSetup.shadow (h : CellSetup A lo hi vol H g p) : ∃ g' p',
    Shadow (cellPair A H h.H0 h.exact) lo hi vol g p g' p' := by
  obtain ⟨z0, hz⟩ := h.heights
  obtain ⟨n, hn, n0, n1⟩ := h.slope
  have b1 := h.lo_le
  have b2 := h.hi_ge
  have b3 := h.vol_ge
  have b4 := h.bound
  have hd := dhMax_shadow g p z0 n
  have emb := cellPair_emb A H h.H0 h.exact
  have hN := h.exact
  have hH := h.H0
  refine ⟨shadowGrid g z0, shadowParam p n, emb, ⟨b1, b2, by omega, b4⟩, b3, ⟨h.cellZ, rfl, rfl, rfl⟩,
    ⟨rfl, ?_, ?_⟩, ?_, ?_, ?_, rfl, rfl, ?_, ?_⟩
  · intro k k0 k1
    obtain ⟨e, l, u⟩ := hz k k0 (by simp only [shadowGrid] at k1; omega)
    refine ⟨z0 + k, e, ?_, ?_⟩
    · rw [emb]; simp [shadowGrid]
    · show |z0 + k| ≤ ((1 : ℕ) : ℤ) * H
      rw [abs_le]; push_cast; omega
  · intro k k0 k1
    obtain ⟨e, l, u⟩ := hz k k0 (by simp only [shadowGrid] at k1; omega)
    refine ⟨z0 + k - 1, ?_, ?_, ?_⟩
    · have : A.emb (z0 + k) -ᶠ A.emb 1 = A.emb (z0 + k - 1) := by
        refine A.sub _ _ ?_ ?_ ?_ <;> rw [abs_le] <;> omega
      rw [e, h.cellZ]
      exact (congrArg (A.emb (z0 + k) -ᶠ ·) A.one).trans this
    · rw [emb]; simp [shadowGrid, ex_sub]
    · show |z0 + k - 1| ≤ ((1 : ℕ) : ℤ) * H
      rw [abs_le]; push_cast; omega
  · refine ⟨⟨by simp [shadowGrid], ?_⟩, by simp [shadowGrid], ⟨z0, by simp [shadowGrid]⟩, by norm_num,
      by norm_num, by norm_num [shadowGrid], h.buffer, ?_⟩
    · intro k _ _; simp [shadowGrid]
    · show (0 : ℚ) ≤ n
      exact_mod_cast n0
  · intro k k0 k1
    obtain ⟨e, l, u⟩ := hz k k0 (by simp only [shadowGrid] at k1; omega)
    simp only [shadowGrid]
    exact_mod_cast l
  · intro k k0 k1
    obtain ⟨e, l, u⟩ := hz k k0 (by simp only [shadowGrid] at k1; omega)
    simp only [shadowGrid]
    exact_mod_cast u
  · refine ⟨n, hn, by rw [emb, hd], ?_⟩
    show |n| ≤ ((1 : ℕ) : ℤ) * H
    rw [abs_le]; push_cast; omega
  · rw [hd]; exact_mod_cast n0

/-- The exact start -/
def shadowOut (T : ℤ → ℤ → ℤ) (s : SimOut F) : SimOut ℚ :=
  ⟨s.lenX, s.lenY, s.equilibrium, fun i j => T i j, fun _ _ _ => 0, fun _ _ _ => 0, [], s.bodyArea,
    s.relaxArea, s.impactArea⟩

theorem totalSoil_shadow (T : ℤ → ℤ → ℤ) (s : SimOut F) :
    totalSoil (shadowOut T s) = ((∑ p ∈ gridCols s, T p.1 p.2 : ℤ) : ℚ) := by
  unfold totalSoil columnSoil layerSoil
  push_cast
  have : gridCols (shadowOut T s) = gridCols s := rfl
  rw [this]
  refine Finset.sum_congr rfl fun x _ => ?_
  simp [shadowOut]

theorem CellStart.shadow (h : CellSetup A lo hi vol H g p) {g' : Grid ℚ} {p' : SimParam ℚ}
    (S : Shadow (cellPair A H h.H0 h.exact) lo hi vol g p g' p') {T : ℤ → ℤ → ℤ} {w : World F}
    (hs : CellStart A lo vol g T w.out) (hl : w.log = []) :
    HInv (cellPair A H h.H0 h.exact) lo hi vol g' w ⟨shadowOut T w.out, w.rng, []⟩ := by
  have b1 := h.lo_le
  have b2 := h.hi_ge
  have b3 := h.vol_ge
  have b4 := h.bound
  have emb := cellPair_emb A H h.H0 h.exact
  have hc1 : g'.cellZ = 1 := S.grid.cellZ'
  have st : Start g' (shadowOut T w.out) := by
    refine ⟨fun i j _ => ⟨T i j, ?_⟩, fun _ _ _ => rfl, fun _ _ _ => rfl, rfl, hs.area, hs.relax, ?_, ?_⟩
    · rw [hc1]; simp [shadowOut]
    · rw [← S.grid.halfX]; exact hs.lenX
    · rw [← S.grid.halfY]; exact hs.lenY
  have snd := st.sound
  have vz : V (cellPair A H h.H0 h.exact) 1 (FOps.zero : F) (0 : ℚ) := by
    have : V (cellPair A H h.H0 h.exact) 1 (FOps.zero : F) (FOps.zero : ℚ) := V.zero
    simpa [FOps.zero] using this
  refine ⟨⟨⟨⟨rfl, rfl, rfl, rfl, rfl, rfl, ?_, ?_, ?_, ?_⟩, by rw [← hc1]; exact snd.wf, ⟨?_, ?_, ?_⟩⟩, rfl,
    by rw [hl]; exact .nil⟩, snd⟩
  · intro i j hij
    have hij' : w.out.InGrid i j := hij
    obtain ⟨e, l⟩ := hs.terrain i j hij'
    refine ⟨T i j, e, by rw [emb]; rfl, ?_⟩
    have h1 : T i j - lo ≤ ∑ p ∈ gridCols w.out, (T p.1 p.2 - lo) := by
      refine Finset.single_le_sum (f := fun p : ℤ × ℤ => T p.1 p.2 - lo) (fun q hq => ?_)
        (a := (i, j)) ?_
      · simp only [gridCols, Finset.mem_product, Finset.mem_Ico] at hq
        have := (hs.terrain q.1 q.2 ⟨hq.1.1, hq.1.2, hq.2.1, hq.2.2⟩).2
        omega
      · simp only [gridCols, Finset.mem_product, Finset.mem_Ico]
        exact ⟨⟨hij'.1, hij'.2.1⟩, hij'.2.2.1, hij'.2.2.2⟩
    have h2 := hs.volume
    show |T i j| ≤ ((1 : ℕ) : ℤ) * H
    rw [abs_le]; push_cast; omega
  · intro k i j hij hk
    rw [hs.body k i j hij hk]; exact vz
  · intro k i j hij hk
    rw [hs.bodySoil k i j hij hk]; exact vz
  · rw [hs.noEntry]; exact .nil
  · intro i j hij
    have := (hs.terrain i j hij).2
    show (lo : ℚ) ≤ (T i j : ℚ)
    exact_mod_cast this
  · intro k i j _ _
    show (lo : ℚ) ≤ 0 ∧ (0 : ℚ) ≤ hi
    exact ⟨by exact_mod_cast b1, by exact_mod_cast b2⟩
  · rw [totalSoil_shadow]
    have h2 := hs.volume
    rw [Finset.sum_sub_distrib, Finset.sum_const, nsmul_eq_mul] at h2
    have : (∑ p ∈ gridCols w.out, T p.1 p.2) ≤ vol + lo * ((gridCols w.out).card : ℤ) := by
      linarith [mul_comm lo ((gridCols w.out).card : ℤ)]
    show ((∑ p ∈ gridCols w.out, T p.1 p.2 : ℤ) : ℚ) ≤ (vol : ℚ) + lo * ((gridCols w.out).card : ℚ)
    exact_mod_cast this

/-- The amounts reported, in whole numbers of cells -/
theorem removals_shadow {P : Pair F ℚ cell tol (1 : ℚ) (1 / 4) N C} (hP : ∀ n, P.B.emb n = (n : ℚ))
    {I : SimOut F → SimOut ℚ → Prop} {w : World F} {v : World ℚ} (h : WRep P I w v)
    (hm : ∀ x, .soilRemoved x ∈ v.log → 0 < x) :
    ∃ l : List ℤ, (∀ n ∈ l, 0 < n) ∧ removals w.log = l.map P.A.emb ∧ removedSoil v.log = (l.sum : ℚ) := by
  have hl := h.log
  clear h
  revert hm hl
  generalize w.log = a
  generalize v.log = b
  intro hm hl
  induction hl with
  | nil => exact ⟨[], by simp, rfl, by simp [removedSoil]⟩
  | @cons x y a b hxy hl ih =>
    obtain ⟨l, l1, l2, l3⟩ := ih fun z hz => hm z (List.mem_cons_of_mem _ hz)
    cases x <;> cases y <;> simp only at hxy
    case soilRemoved.soilRemoved x y =>
      obtain ⟨n, rfl, rfl, -⟩ := hxy
      have hp := hm _ List.mem_cons_self
      rw [hP] at hp
      refine ⟨n :: l, ?_, ?_, ?_⟩
      · intro k hk
        rcases List.mem_cons.mp hk with rfl | hk
        · exact_mod_cast hp
        · exact l1 k hk
      · simp only [removals, List.filterMap_cons, List.map_cons] at l2 ⊢
        rw [l2]
      · simp only [removedSoil, List.map_cons, List.sum_cons] at l3 ⊢
        rw [l3, hP]; push_cast; ring
    all_goals
      refine ⟨l, l1, ?_, ?_⟩
      · simpa [removals] using l2
      · simpa [removedSoil] using l3

end Soil
