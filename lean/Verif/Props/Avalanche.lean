import Verif.Proof.RelaxB
import Verif.Proof.Example
import Verif.Model.Real

/-!
# C27, C28, C29, C30: avalanches conserve soil, make pairs stable, never bury a body wall
-/

set_option linter.unusedSectionVars false

namespace Soil

section Exact
variable {K : Type} [Field K] [LinearOrder K] [FloorRing K] [Transc K] [IsStrictOrderedRing K]

/-- **C27.** Terrain relaxation conserves the total amount of soil and keeps a correct bookkeeping
correct.  Nothing is assumed about the state: heights may be off the lattice, the body and its soil
may be anywhere. -/
theorem C27_relaxTerrain (g : Grid K) (body : Body K) (p : SimParam K) (tol : K) (w w' : World K)
    (h : relaxTerrain g body p tol w = .ok w') :
    totalSoil w'.out = totalSoil w.out ∧ (Booked w.out → Booked w'.out) := by
  have hc := relaxTerrain_conserves g body p tol w w' h
  exact ⟨hc.total, hc.toBooked⟩

/-- C27, per column and layer: the difference between the soil resting on a layer and what the
bookkeeping records for it never changes. -/
theorem C27_columns (g : Grid K) (body : Body K) (p : SimParam K) (tol : K) (w w' : World K)
    (h : relaxTerrain g body p tol w = .ok w') (k : ℕ) (hk : k = 0 ∨ k = 2) (i j : ℤ) :
    layerSoil w'.out k i j - entrySum w'.out.bodySoilPos k i j =
      layerSoil w.out k i j - entrySum w.out.bodySoilPos k i j :=
  (relaxTerrain_conserves g body p tol w w' h).booked i j k hk

example : Booked exWorld.out ∧ ∃ w', relaxTerrain exGrid exBody exParam (1 / 100) exWorld = .ok w' ∧
    w'.out.terrain 1 1 < exWorld.out.terrain 1 1 :=
  ⟨exState_wf.soilOK.booked, exTerrain_runs⟩

/-- **C28.** One avalanche between two columns without body, on the lattice: afterwards the height
difference is the repose height or one cell less, the sum is unchanged, both heights are on the
lattice and no other column changed. -/
theorem C28_pair (s s' : SimOut K) (dh tol : K) (ii jj ic jc : ℤ) (g : Grid K) (body : Body K)
    (htol : 0 < tol) (htol' : 2 * tol < g.cellZ) (hd : Al g.cellZ dh)
    (h1 : Al g.cellZ (s.terrain ii jj)) (h2 : Al g.cellZ (s.terrain ic jc))
    (hne : ¬ (ic = ii ∧ jc = jj))
    (hcode : checkUnstableTerrainCell s ic jc (s.terrain ii jj - dh) tol = 40)
    (hs : relaxUnstableTerrainCell s 40 dh ii jj ic jc g body tol = .ok s') :
    (s'.terrain ii jj - s'.terrain ic jc = dh ∨
      s'.terrain ii jj - s'.terrain ic jc = dh - g.cellZ) ∧
    s'.terrain ii jj + s'.terrain ic jc = s.terrain ii jj + s.terrain ic jc ∧
    Al g.cellZ (s'.terrain ii jj) ∧ Al g.cellZ (s'.terrain ic jc) ∧
    (∀ a b, ¬ (a = ii ∧ b = jj) → ¬ (a = ic ∧ b = jc) → s'.terrain a b = s.terrain a b) ∧
    s'.terrain ii jj < s.terrain ii jj ∧ s.terrain ic jc < s'.terrain ic jc := by
  have t : TolOK g.cellZ tol := ⟨htol, htol'⟩
  have hlow : s.terrain ic jc + tol < s.terrain ii jj - dh := by
    obtain ⟨c, x, ht, he⟩ := checkUnstableTerrainCell_spec s ic jc (s.terrain ii jj - dh) tol
    rw [he] at hcode
    split_ifs at hcode with hc
    exact hc.1
  obtain ⟨hal, hnew⟩ := newHeight_spec t hd h1 h2
  have hlt : s.terrain ic jc + g.cellZ ≤ s.terrain ii jj - dh :=
    Al.add_le t.cpos h2 (h1.sub hd) ((t.add_lt h2 (h1.sub hd)).mp hlow)
  have hs' : s' = (s.setT ii jj (newHeight g tol dh (s.terrain ii jj) (s.terrain ic jc))).setT ic jc
      (s.terrain ii jj + s.terrain ic jc -
        newHeight g tol dh (s.terrain ii jj) (s.terrain ic jc)) := by
    have : relaxUnstableTerrainCell s 40 dh ii jj ic jc g body tol = .ok _ := rfl
    rw [this] at hs
    exact (Except.ok.inj hs).symm
  generalize newHeight g tol dh (s.terrain ii jj) (s.terrain ic jc) = hN at *
  have e1 : s'.terrain ii jj = hN := by
    rw [hs']
    show upd2 (upd2 s.terrain ii jj _) ic jc _ ii jj = _
    unfold upd2
    rw [if_neg (by rintro ⟨rfl, rfl⟩; exact hne ⟨rfl, rfl⟩), if_pos ⟨rfl, rfl⟩]
  have e2 : s'.terrain ic jc = s.terrain ii jj + s.terrain ic jc - hN := by
    rw [hs']
    show upd2 (upd2 s.terrain ii jj _) ic jc _ ic jc = _
    unfold upd2
    rw [if_pos ⟨rfl, rfl⟩]
  have hcp := t.cpos
  refine ⟨?_, ?_, ?_, ?_, ?_, ?_, ?_⟩
  · rw [e1, e2]
    rcases hnew with h | h
    · left; linarith
    · right; linarith
  · rw [e1, e2]; ring
  · rw [e1]; exact hal
  · rw [e2]; exact (h1.add h2).sub hal
  · intro a b ha hb
    rw [hs']
    show upd2 (upd2 s.terrain ii jj _) ic jc _ a b = _
    unfold upd2
    rw [if_neg hb, if_neg ha]
  · rw [e1]; rcases hnew with h | h <;> linarith
  · rw [e2]; rcases hnew with h | h <;> linarith

example : checkUnstableTerrainCell exState 1 2 (exState.terrain 1 1 - 1) (1 / 100) = 40 := by
  decide +kernel

/-- C28, repose height zero: if the two columns differ by one cell, the avalanche exchanges their
heights; the pair is then unstable in the other direction, and relaxing it restores the original
terrain.  Relaxation never settles. -/
theorem C28_swap_forever (s s' : SimOut K) (tol : K) (ii jj ic jc : ℤ) (g : Grid K) (body : Body K)
    (htol : 0 < tol) (htol' : 2 * tol < g.cellZ)
    (h1 : Al g.cellZ (s.terrain ii jj)) (h2 : Al g.cellZ (s.terrain ic jc))
    (hne : ¬ (ic = ii ∧ jc = jj)) (hone : s.terrain ii jj = s.terrain ic jc + g.cellZ)
    (hfree : ¬ HasBody s 0 ii jj ∧ ¬ HasBody s 2 ii jj)
    (hcode : checkUnstableTerrainCell s ic jc (s.terrain ii jj - 0) tol = 40)
    (hs : relaxUnstableTerrainCell s 40 0 ii jj ic jc g body tol = .ok s') :
    s'.terrain ii jj = s.terrain ic jc ∧ s'.terrain ic jc = s.terrain ii jj ∧
    checkUnstableTerrainCell s' ii jj (s'.terrain ic jc - 0) tol = 40 ∧
    ∀ s'', relaxUnstableTerrainCell s' 40 0 ic jc ii jj g body tol = .ok s'' →
      s''.terrain = s.terrain := by
  have t : TolOK g.cellZ tol := ⟨htol, htol'⟩
  obtain ⟨a1, a2, a3, a4, a5, a6, a7⟩ :=
    C28_pair s s' 0 tol ii jj ic jc g body htol htol' .zero h1 h2 hne hcode hs
  have hcp := t.cpos
  have q : s'.terrain ii jj = s.terrain ic jc ∧ s'.terrain ic jc = s.terrain ii jj := by
    rcases a1 with a1 | a1
    · exfalso
      have h3 : s.terrain ii jj - s'.terrain ii jj < g.cellZ := by linarith
      have := Al.add_le hcp a3 h1 a6
      linarith
    · constructor <;> linarith
  have hbody : s'.body = s.body := by
    have : relaxUnstableTerrainCell s 40 0 ii jj ic jc g body tol = .ok _ := rfl
    rw [this] at hs
    rw [← Except.ok.inj hs]
    rfl
  have hfree' : ¬ HasBody s' 0 ii jj ∧ ¬ HasBody s' 2 ii jj := by
    unfold HasBody at hfree ⊢
    rw [hbody]
    exact hfree
  have hcode' : checkUnstableTerrainCell s' ii jj (s'.terrain ic jc - 0) tol = 40 := by
    obtain ⟨c, x, ht, he⟩ := checkUnstableTerrainCell_spec s' ii jj (s'.terrain ic jc - 0) tol
    obtain ⟨rfl, rfl⟩ := ht.unique (.free hfree'.1 hfree'.2)
    rw [he, if_pos]
    rw [q.1, q.2, hone]
    constructor <;> linarith
  refine ⟨q.1, q.2, hcode', ?_⟩
  intro s'' hs''
  have hne' : ¬ (ii = ic ∧ jj = jc) := by rintro ⟨rfl, rfl⟩; exact hne ⟨rfl, rfl⟩
  obtain ⟨b1, b2, b3, b4, b5, b6, b7⟩ :=
    C28_pair s' s'' 0 tol ic jc ii jj g body htol htol' .zero a4 a3 hne' hcode' hs''
  have q' : s''.terrain ic jc = s.terrain ic jc ∧ s''.terrain ii jj = s.terrain ii jj := by
    rcases b1 with b1 | b1
    · exfalso
      have := Al.add_le hcp b3 a4 b6
      rw [q.2] at this
      rw [q.1, q.2] at b2
      linarith
    · rw [q.1, q.2] at b2
      constructor <;> linarith
  funext a b
  by_cases c1 : a = ii ∧ b = jj
  · obtain ⟨rfl, rfl⟩ := c1; exact q'.2
  · by_cases c2 : a = ic ∧ b = jc
    · obtain ⟨rfl, rfl⟩ := c2; exact q'.1
    · rw [b5 a b c2 c1, a5 a b c1 c2]

/-- **C29, terrain relaxation.** A well-formed state stays well-formed: in particular no terrain
reaches into a body wall, no body soil reaches into the wall above it, and soil lies only on body
layers that exist. -/
theorem C29_relaxTerrain (g : Grid K) (body : Body K) (p : SimParam K) (tol : K) (w w' : World K)
    (htol : 0 < tol) (htol' : 2 * tol < g.cellZ) (hw : WellFormed g.cellZ w.out)
    (h : relaxTerrain g body p tol w = .ok w') : WellFormed g.cellZ w'.out :=
  relaxTerrain_wf g body p tol ⟨htol, htol'⟩ w hw w' h

/-- the repose height is not negative -/
theorem dhMax_nonneg (g : Grid K) (p : SimParam K) (hz : 0 < g.cellZ) (hxy : 0 ≤ g.cellXY)
    (ht : 0 ≤ Transc.tan p.reposeAngle) : 0 ≤ dhMax g p := by
  unfold dhMax
  simp only [ex_mul, ex_round, ex_div, ex_tan]
  refine mul_nonneg hz.le ?_
  have : 0 ≤ g.cellXY * Transc.tan p.reposeAngle / g.cellZ := by positivity
  unfold roundAway
  rw [if_pos this]
  exact_mod_cast Int.floor_nonneg.mpr (by linarith)

/-- **C29, body-soil relaxation.** -/
theorem C29_relaxBodySoil (g : Grid K) (body : Body K) (p : SimParam K) (tol : K) (w w' : World K)
    (htol : 0 < tol) (htol' : 2 * tol < g.cellZ) (hxy : 0 ≤ g.cellXY)
    (ht : 0 ≤ Transc.tan p.reposeAngle) (hw : WellFormed g.cellZ w.out)
    (h : relaxBodySoil g body p tol w = .ok w') : WellFormed g.cellZ w'.out :=
  (relaxBodySoil_wf g body p tol ⟨htol, htol'⟩ (dhMax_nonneg g p (by linarith) hxy ht) w hw w' h).1

/-- C29 in the words of the property. -/
theorem C29_never_bury (g : Grid K) (body : Body K) (p : SimParam K) (tol : K) (w w' : World K)
    (htol : 0 < tol) (htol' : 2 * tol < g.cellZ) (hxy : 0 ≤ g.cellXY)
    (ht : 0 ≤ Transc.tan p.reposeAngle) (hw : WellFormed g.cellZ w.out)
    (h : relaxTerrain g body p tol w = .ok w' ∨ relaxBodySoil g body p tol w = .ok w')
    (k : ℕ) (hk : k = 0 ∨ k = 2) (i j : ℤ) (hij : w'.out.InGrid i j) :
    (HasBody w'.out k i j → w'.out.terrain i j ≤ w'.out.body k i j) ∧
    (HasSoil w'.out k i j → HasBody w'.out k i j ∧
      (HasBody w'.out (otherLayer k) i j → w'.out.body k i j < w'.out.body (otherLayer k) i j →
        w'.out.bodySoil (k + 1) i j ≤ w'.out.body (otherLayer k) i j)) := by
  have hw' : WellFormed g.cellZ w'.out := by
    rcases h with h | h
    · exact C29_relaxTerrain g body p tol w w' htol htol' hw h
    · exact C29_relaxBodySoil g body p tol w w' htol htol' hxy ht hw h
  exact ⟨hw'.terrainFree k i j hij hk, fun hs => ⟨(hw'.soilOK.rest k i j hij hk hs).1,
    hw'.soilFree k i j hij hk hs⟩⟩

/-- **C30.** Body-soil relaxation conserves the total amount of soil and keeps the bookkeeping
equal to the amount resting on each layer. -/
theorem C30_relaxBodySoil (g : Grid K) (body : Body K) (p : SimParam K) (tol : K) (w w' : World K)
    (htol : 0 < tol) (htol' : 2 * tol < g.cellZ) (hxy : 0 ≤ g.cellXY)
    (ht : 0 ≤ Transc.tan p.reposeAngle) (hw : WellFormed g.cellZ w.out)
    (h : relaxBodySoil g body p tol w = .ok w') :
    totalSoil w'.out = totalSoil w.out ∧ Booked w'.out := by
  obtain ⟨h1, h2⟩ :=
    relaxBodySoil_wf g body p tol ⟨htol, htol'⟩ (dhMax_nonneg g p (by linarith) hxy ht) w hw w' h
  exact ⟨h2, h1.soilOK.booked⟩

end Exact

/-- the hypotheses of C29 and C30 hold in the example, where soil moves -/
example : (0 : ℚ) < 1 / 100 ∧ 2 * (1 / 100 : ℚ) < exGrid.cellZ ∧ 0 ≤ exGrid.cellXY ∧
    0 ≤ Transc.tan exParam.reposeAngle ∧ WellFormed exGrid.cellZ exWorld.out ∧
    (∃ w', relaxTerrain exGrid exBody exParam (1 / 100) exWorld = .ok w' ∧
      w'.out.terrain 1 1 < exWorld.out.terrain 1 1) ∧
    (∃ w', relaxBodySoil exGrid exBody exParam (1 / 100) exWorld = .ok w' ∧
      w'.out.bodySoil 1 2 2 < exWorld.out.bodySoil 1 2 2) := by
  refine ⟨by norm_num, exTol.2, by decide +kernel, by decide +kernel, exState_wf, exTerrain_runs,
    exBodySoil_runs⟩

/-- For accepted simulation parameters the repose condition holds on the reals. -/
theorem C30_tan_nonneg (p : SimParam ℝ) (h0 : 0 ≤ p.reposeAngle) (h1 : p.reposeAngle ≤ Real.pi / 2) :
    0 ≤ Transc.tan p.reposeAngle :=
  Real.tan_nonneg_of_nonneg_of_le_pi_div_two h0 h1

end Soil
