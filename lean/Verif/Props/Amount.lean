import Verif.Proof.Avalanche
import Verif.Props.Avalanche
import Verif.Props.Converge

/-!
# C50, C51: what a single avalanche moves, and what sequences of avalanches cannot do
-/

set_option linter.unusedSectionVars false

namespace Soil

section Exact

variable {K : Type} [Field K] [LinearOrder K] [FloorRing K] [Transc K] [IsStrictOrderedRing K]

/-- **C50, terrain.** When the stability test of a pair of columns asks for an avalanche of terrain,
the avalanche moves a whole number of cells, at least one, from the terrain to the surface designated
by the code: it never overshoots by more than a cell, stops only because the slope is at most the
repose height or because the space below a body wall is full, and leaves every other surface alone. -/
theorem C50_terrain (s s' : SimOut K) (dh tol : K) (ii jj ic jc : ℤ) (g : Grid K) (body : Body K)
    (htol : 0 < tol) (htol' : 2 * tol < g.cellZ) (hd : Al g.cellZ dh) (hs : WellFormed g.cellZ s)
    (h1 : s.InGrid ii jj) (h2 : s.InGrid ic jc) (hne : ¬ (ic = ii ∧ jc = jj)) (code : ℕ)
    (hcode : checkUnstableTerrainCell s ic jc (s.terrain ii jj - dh) tol = code) (h0 : code ≠ 0)
    (h : relaxUnstableTerrainCell s code dh ii jj ic jc g body tol = .ok s') :
    WellFormed g.cellZ s' ∧
      ∃ m, Avalanche g.cellZ dh none s s' (.ground ii jj) (landing code ic jc) m := by
  obtain ⟨hw, m, hm, hf⟩ := relaxUnstableTerrainCell_fall s dh ii jj ic jc g body tol ⟨htol, htol'⟩ hd
    hs h1 h2 hne code hcode.symm h0 s' h
  exact ⟨hw, m, hf.slide hm⟩

/-- **C50, body soil.** When the stability test of a pair of columns asks for an avalanche of an entry
`e` of the body soil, the same is true, with the amount of the entry as a further reason to stop; or
nothing moves, and then the entry is empty or the designated surface already touches a body wall above
it. Returned are the state and the new entries, to be appended to `body_soil_pos_`. -/
theorem C50_body (s : SimOut K) (dh tol : K) (n : ℕ) (e : BodySoil K) (ic jc : ℤ) (g : Grid K)
    (body : Body K) (htol : 0 < tol) (htol' : 2 * tol < g.cellZ) (hd : Al g.cellZ dh) (hd0 : 0 ≤ dh)
    (hs : WellFormed g.cellZ s) (he : s.bodySoilPos[n]? = some e) (h2 : s.InGrid ic jc)
    (hne : ¬ (ic = e.ii ∧ jc = e.jj)) (code : ℕ)
    (hcode : checkUnstableBodyCell s e.ii e.jj e.ind ic jc
      (s.bodySoil (e.ind + 1) e.ii e.jj - dh) tol = code) (h0 : code ≠ 0)
    (s' : SimOut K) (new : List (BodySoil K))
    (h : relaxUnstableBodyCell s code dh n e.ii e.jj e.ind ic jc g body tol = (s', new)) :
    WellFormed g.cellZ { s' with bodySoilPos := s'.bodySoilPos ++ new } ∧
    totalSoil s' = totalSoil s ∧
    ((SameSoil s s' ∧ ((landing code ic jc).Filled s ∨ e.h = 0)) ∨
      ∃ m, Avalanche g.cellZ dh (some e.h) s s' (.layer e.ind e.ii e.jj) (landing code ic jc) m) := by
  have hm := relaxUnstableBodyCell_wf s dh n e ic jc g body tol ⟨htol, htol'⟩ hd hd0 hs he h2 hne code
    hcode.symm h0
  rw [h] at hm
  obtain ⟨m, hf, -⟩ := hm.fall
  refine ⟨hm.wf, hm.total, ?_⟩
  rcases hf.nonneg.eq_or_lt with hz | hp
  · left
    obtain ⟨h3, h4⟩ := hf.still hz.symm
    exact ⟨⟨h3.1, h3.2⟩, h4.imp id fun h => by simpa using h⟩
  · right
    have a := hf.slide hp
    refine ⟨m, a.source, a.target, a.steep, a.pos, a.cells, a.enough, ?_, ?_, ?_, a.body, ?_, ?_⟩
    · exact a.left
    · exact a.right
    · exact a.others
    · exact a.gentle
    · exact a.stop

/-- **C50, relaxation.** Each of the two relaxations, and all rounds of one step, are a sequence of such
avalanches between columns sharing a side: the first of avalanches of terrain, the second of soil on the body. -/
theorem C50_relax {g : Grid K} {p : SimParam K} {tol : K} (htol : 0 < tol) (htol' : 2 * tol < g.cellZ)
    (hxy : 0 ≤ g.cellXY) (ht : 0 ≤ Transc.tan p.reposeAngle) (body : Body K) (w : World K)
    (hw : WellFormed g.cellZ w.out) :
    (∀ w', relaxTerrain g body p tol w = .ok w' →
      Avalanches Place.OnGround g.cellZ (dhMax g p) w.out w'.out) ∧
    (∀ w', relaxBodySoil g body p tol w = .ok w' →
      Avalanches Place.OnBody g.cellZ (dhMax g p) w.out w'.out) ∧
    (∀ fuel it w' n, relaxLoop g body p tol fuel it w = .ok (w', n) →
      Avalanches (fun _ => True) g.cellZ (dhMax g p) w.out w'.out) := by
  have hd0 := dhMax_nonneg g p (by linarith) hxy ht
  refine ⟨fun w' h => ?_, fun w' h => ?_, fun fuel it w' n h => ?_⟩
  · exact relaxTerrain_avalanches g body p tol ⟨htol, htol'⟩ w hw w' h
  · exact relaxBodySoil_avalanches g body p tol ⟨htol, htol'⟩ hd0 w hw w' h
  · exact (relaxLoop_avalanches ⟨htol, htol'⟩ hd0 body fuel it w hw _ h).2

/-- **C51, highest soil.** Relaxation never piles soil up: after the rounds of relaxation of a step,
no terrain and no body soil is higher than the highest terrain or body soil before. -/
theorem C51_highest {g : Grid K} {p : SimParam K} {tol : K} (htol : 0 < tol)
    (htol' : 2 * tol < g.cellZ) (hxy : 0 ≤ g.cellXY) (ht : 0 ≤ Transc.tan p.reposeAngle)
    (body : Body K) (fuel : ℕ) (it n : ℤ) (w w' : World K) (hw : WellFormed g.cellZ w.out)
    (h : relaxLoop g body p tol fuel it w = .ok (w', n)) (H : K)
    (hT : ∀ i j, w.out.InGrid i j → w.out.terrain i j ≤ H)
    (hB : ∀ k i j, w.out.InGrid i j → k = 0 ∨ k = 2 →
      w.out.bodySoil k i j < w.out.bodySoil (k + 1) i j → w.out.bodySoil (k + 1) i j ≤ H) :
    (∀ i j, w'.out.InGrid i j → w'.out.terrain i j ≤ H) ∧
    (∀ k i j, w'.out.InGrid i j → k = 0 ∨ k = 2 →
      w'.out.bodySoil k i j < w'.out.bodySoil (k + 1) i j → w'.out.bodySoil (k + 1) i j ≤ H) := by
  have hd0 := dhMax_nonneg g p (by linarith) hxy ht
  have hcp : 0 < g.cellZ := by linarith
  obtain ⟨hw', ha⟩ := relaxLoop_avalanches ⟨htol, htol'⟩ hd0 body fuel it w hw _ h
  -- where soil lies, the lower height is the top of the wall
  have base : ∀ {s : SimOut K}, WellFormed g.cellZ s → ∀ {k i j}, s.InGrid i j → k = 0 ∨ k = 2 →
      s.bodySoil k i j < s.bodySoil (k + 1) i j →
      HasBody s k i j ∧ (Place.layer k i j).height s = s.bodySoil (k + 1) i j := by
    intro s hs k i j hij hk hlt
    have hh : HasSoil s k i j := by
      by_contra hn
      unfold HasSoil at hn
      push Not at hn
      rw [hn.1, hn.2] at hlt
      exact absurd hlt (lt_irrefl _)
    obtain ⟨r1, r2, -⟩ := hs.soilOK.rest k i j hij hk hh
    refine ⟨r1, ?_⟩
    show s.body (k + 1) i j + (s.bodySoil (k + 1) i j - s.bodySoil k i j) = _
    rw [r2]; ring
  have key := ha.highest hcp hd0 H (by
    intro q hq hs
    cases q with
    | ground i j => exact hT i j hq
    | layer k i j =>
      have hlt : w.out.bodySoil k i j < w.out.bodySoil (k + 1) i j := sub_pos.mp hs
      rw [(base hw hq.1 hq.2.1 hlt).2]
      exact hB k i j hq.1 hq.2.1 hlt)
  refine ⟨fun i j hij => key (.ground i j) hij trivial, fun k i j hij hk hlt => ?_⟩
  obtain ⟨r1, r2⟩ := base hw' hij hk hlt
  exact r2 ▸ key (.layer k i j) ⟨hij, hk, r1⟩ (sub_pos.mpr hlt)

/-- **C51, lowest terrain.** Relaxation never digs: no terrain gets lower than the lowest terrain
before. -/
theorem C51_lowest {g : Grid K} {p : SimParam K} {tol : K} (htol : 0 < tol)
    (htol' : 2 * tol < g.cellZ) (hxy : 0 ≤ g.cellXY) (ht : 0 ≤ Transc.tan p.reposeAngle)
    (body : Body K) (fuel : ℕ) (it n : ℤ) (w w' : World K) (hw : WellFormed g.cellZ w.out)
    (h : relaxLoop g body p tol fuel it w = .ok (w', n)) (L : K)
    (hT : ∀ i j, w.out.InGrid i j → L ≤ w.out.terrain i j) :
    ∀ i j, w'.out.InGrid i j → L ≤ w'.out.terrain i j := by
  have hd0 := dhMax_nonneg g p (by linarith) hxy ht
  have hcp : 0 < g.cellZ := by linarith
  exact (relaxLoop_avalanches ⟨htol, htol'⟩ hd0 body fuel it w hw _ h).2.lowest hcp hd0 L hT

end Exact

/-! ## The hypotheses of C50 and C51 -/

/-- C50: terrain falls four cells from a peak to its foot, half of it moves; soil of the body slides
into the gap between the two layers of the neighbouring column, which is three cells lower. -/
example : WellFormed exGrid.cellZ exState ∧ Al exGrid.cellZ (1 : ℚ) ∧
    checkUnstableTerrainCell exState 1 2 (exState.terrain 1 1 - 1) (1 / 100) = 40 ∧
    (∃ s', relaxUnstableTerrainCell exState 40 1 1 1 1 2 exGrid exBody (1 / 100) = .ok s' ∧
      s'.terrain 1 1 = 2 ∧ s'.terrain 1 2 = 2) ∧
    exState.bodySoilPos[0]? = some ⟨0, 2, 2, 0, 0, 0, 2⟩ ∧
    checkUnstableBodyCell exState 2 2 0 2 3 (exState.bodySoil 1 2 2 - 1) (1 / 100) = 34 ∧
    (relaxUnstableBodyCell exState 34 1 0 2 2 0 2 3 exGrid exBody (1 / 100)).1.bodySoil 1 2 3 = 3 := by
  refine ⟨exState_wf, ⟨1, by norm_num [exGrid]⟩, by decide +kernel, ⟨_, rfl, ?_⟩, rfl, ?_, ?_⟩ <;>
    decide +kernel

/-- C50 and C51: terrain between -2 and 4, soil of the body up to 5; relaxation lowers the soil, and
raises terrain. -/
example : 0 ≤ exGrid.cellXY ∧ 0 ≤ Transc.tan exParam.reposeAngle ∧
    WellFormed exGrid.cellZ exWorld.out ∧
    (∀ i j, exState.InGrid i j → exState.terrain i j ≤ 5 ∧ -2 ≤ exState.terrain i j) ∧
    (∀ k i j, k = 0 ∨ k = 2 → exState.bodySoil k i j < exState.bodySoil (k + 1) i j →
      exState.bodySoil (k + 1) i j ≤ 5) ∧
    ∃ w' n, relaxLoop exGrid exBody exParam (1 / 100) 4 0 exWorld = .ok (w', n) ∧
      w'.out.bodySoil 1 2 2 < exState.bodySoil 1 2 2 ∧ exState.terrain 3 3 < w'.out.terrain 3 3 := by
  refine ⟨by decide +kernel, by decide +kernel, exState_wf, ?_, ?_, ?_⟩
  · intro i j _
    simp only [exState]
    split_ifs <;> norm_num
  · rintro k i j (rfl | rfl)
    all_goals
      simp only [exState, exSoil]
      (try split_ifs) <;> norm_num
  · have : (match relaxLoop exGrid exBody exParam (1 / 100) 4 0 exWorld with
        | .ok x => decide (x.1.out.bodySoil 1 2 2 < exState.bodySoil 1 2 2 ∧
            exState.terrain 3 3 < x.1.out.terrain 3 3)
        | .error _ => false) = true := by decide +kernel
    split at this
    · rename_i x hx
      exact ⟨x.1, x.2, hx, of_decide_eq_true this⟩
    · exact absurd this (by decide)

end Soil
