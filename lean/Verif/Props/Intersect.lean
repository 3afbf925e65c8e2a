import Verif.Proof.InterB
import Verif.Proof.InterS
import Verif.Proof.Example

/-!
# C21, C22, C23, C24: soil is pushed out of the body
-/

set_option linter.unusedSectionVars false

namespace Soil

section Any
variable {F : Type} [FOps F]

/-- **C21**, any arithmetic. When the active area lies in the grid, detection returns a list without
repetition containing exactly the pairs of a layer and a column of the active area where the layer is
present and its bottom is lower than the terrain minus the tolerance. -/
theorem C21_locate (s : SimOut F) (tol : F)
    (ha : ∀ i j, s.bodyArea.minX ≤ i → i < s.bodyArea.maxX → s.bodyArea.minY ≤ j →
      j < s.bodyArea.maxY → s.InGrid i j) :
    ∃ cs, locateIntersectingCells s tol = .ok cs ∧ cs.Nodup ∧ ∀ k i j, (k, i, j) ∈ cs ↔
      (k = 0 ∨ k = 2) ∧
      (s.bodyArea.minX ≤ i ∧ i < s.bodyArea.maxX ∧ s.bodyArea.minY ≤ j ∧ j < s.bodyArea.maxY) ∧
      ¬ (FOps.eq (s.body k i j) FOps.zero = true ∧ FOps.eq (s.body (k + 1) i j) FOps.zero = true) ∧
      FOps.lt (s.body k i j) (FOps.sub (s.terrain i j) tol) = true := by
  obtain ⟨cs, h1, h2, h3⟩ := locateIntersectingIn_spec s tol s.bodyArea.cells (by
    rintro ⟨i, j⟩ hp
    obtain ⟨a, b, c, d⟩ := Area.mem_cells.mp hp
    exact ha i j a b c d) (Area.nodup_cells _)
  refine ⟨cs, h1, h2, fun k i j => ?_⟩
  rw [h3, Area.mem_cells]
  unfold intersectingAt SimOut.bodyAbs
  simp only [Bool.and_eq_true, Bool.not_eq_true', Bool.and_eq_false_iff]
  have : ∀ b : Bool, b = false ↔ ¬ b = true := by simp
  rw [this, this, not_and_or]

/-- C21: detection reads outside the grid exactly when the active area is not in the grid. -/
theorem C21_safe_iff (s : SimOut F) (tol : F) :
    (∃ cs, locateIntersectingCells s tol = .ok cs) ↔
      ∀ i j, s.bodyArea.minX ≤ i → i < s.bodyArea.maxX → s.bodyArea.minY ≤ j →
        j < s.bodyArea.maxY → s.InGrid i j := by
  constructor
  · rintro ⟨cs, h⟩ i j a b c d
    exact locateIntersectingIn_guard s tol _ cs h (i, j) (Area.mem_cells.mpr ⟨a, b, c, d⟩)
  · intro h
    obtain ⟨cs, h1, -⟩ := C21_locate s tol h
    exact ⟨cs, h1⟩

/-- **C24**, any arithmetic. If no body layer touches the outermost ring, the active area and the
bookkeeping refer to the grid and the tolerance is not below zero, then intersection resolution has
no undefined behaviour: it returns, or the loop over the body-soil entries is still running when the
given fuel is used up (never, in exact arithmetic: `C24_terminates`). -/
theorem C24_safe (fuel : ℕ) (g : Grid F) (body : Body F) (tol : F) (w : World F)
    (htol : FOps.lt tol FOps.zero = false)
    (hb : ∀ i j, w.out.InGrid i j → OnBorder w.out i j → ∀ k, k = 0 ∨ k = 2 →
      FOps.eq (w.out.body k i j) FOps.zero = true ∧
        FOps.eq (w.out.body (k + 1) i j) FOps.zero = true)
    (he : EntriesInGrid w.out) (ha : AreaInside w.out.bodyArea w.out)
    (hf : w.out.lenX + w.out.lenY ≤ fuel) :
    (∃ w', moveIntersectingCells fuel g body tol w = .ok w') ∨
      moveIntersectingCells fuel g body tol w = .error .fuel := by
  have hB : BorderFree w.out := by
    intro i j hij ho
    have h0 := hb i j hij ho 0 (.inl rfl)
    have h2 := hb i j hij ho 2 (.inr rfl)
    simp only [SimOut.bodyAbs, Bool.and_eq_true]
    exact ⟨h0, h2⟩
  have : Tame (moveIntersectingCells fuel g body tol w) fun _ => True := by
    unfold moveIntersectingCells moveIntersectingBodySoil
    refine (moveIntersectingEntries_tame fuel g body tol htol fuel 0 directions8 (fun _ h => h) w hB
      he).bind ?_
    intro w1 h1
    refine .of_ok ((moveIntersectingBody_ok fuel tol htol w1 (h1.1.borderFree hB) ?_ ?_).mono
      fun _ _ => trivial)
    · rintro ⟨i, j⟩ hp
      rw [h1.1.body.2.1] at hp
      obtain ⟨a1, a2, a3, a4⟩ := Area.mem_cells.mp hp
      obtain ⟨b1, b2, b3, b4⟩ := ha
      rw [h1.1.inGrid]
      unfold SimOut.InGrid
      dsimp only at a1 a2 a3 a4 ⊢
      omega
    · rw [h1.1.body.2.2.1, h1.1.body.2.2.2]; exact hf
  rcases this with ⟨w', h, -⟩ | h
  · exact .inl ⟨w', h⟩
  · exact .inr h

/-- **C24**, any arithmetic: the search for room for terrain terminates within a number of rings not
exceeding the size of the grid, and stays in the grid. -/
theorem C24_terrain_terminates (fuel : ℕ) (tol : F) (w : World F)
    (htol : FOps.lt tol FOps.zero = false)
    (hb : ∀ i j, w.out.InGrid i j → OnBorder w.out i j → ∀ k, k = 0 ∨ k = 2 →
      FOps.eq (w.out.body k i j) FOps.zero = true ∧
        FOps.eq (w.out.body (k + 1) i j) FOps.zero = true)
    (ha : AreaInside w.out.bodyArea w.out) (hf : w.out.lenX + w.out.lenY ≤ fuel) :
    ∃ w', moveIntersectingBody fuel tol w = .ok w' := by
  obtain ⟨w', h, -⟩ := moveIntersectingBody_ok fuel tol htol w (by
    intro i j hij ho
    have h0 := hb i j hij ho 0 (.inl rfl)
    have h2 := hb i j hij ho 2 (.inr rfl)
    simp only [SimOut.bodyAbs, Bool.and_eq_true]
    exact ⟨h0, h2⟩) (by
    rintro ⟨i, j⟩ hp
    obtain ⟨a1, a2, a3, a4⟩ := Area.mem_cells.mp hp
    obtain ⟨b1, b2, b3, b4⟩ := ha
    unfold SimOut.InGrid
    dsimp only at a1 a2 a3 a4 ⊢
    omega) hf
  exact ⟨w', h⟩

/-- C24: the fuel is only a device of the model, a result does not depend on it. -/
theorem C24_fuel_irrelevant (g : Grid F) (body : Body F) (tol : F) (w w' : World F)
    (fuel fuel' : ℕ) (hf : fuel ≤ fuel') (h : moveIntersectingCells fuel g body tol w = .ok w') :
    moveIntersectingCells fuel' g body tol w = .ok w' :=
  moveIntersectingCells_fuel hf h

end Any

section Exact
variable {K : Type} [Field K] [LinearOrder K] [FloorRing K] [Transc K] [IsStrictOrderedRing K]

/-- **C21** in exact arithmetic. -/
theorem C21_locate_exact (s : SimOut K) (tol : K) (cs : List (ℕ × ℤ × ℤ))
    (h : locateIntersectingCells s tol = .ok cs) (k : ℕ) (i j : ℤ) :
    (k, i, j) ∈ cs ↔ (k = 0 ∨ k = 2) ∧
      (s.bodyArea.minX ≤ i ∧ i < s.bodyArea.maxX ∧ s.bodyArea.minY ≤ j ∧ j < s.bodyArea.maxY) ∧
      HasBody s k i j ∧ s.body k i j + tol < s.terrain i j := by
  obtain ⟨cs', h1, -, h3⟩ := C21_locate s tol ((C21_safe_iff s tol).mp ⟨cs, h⟩)
  rw [h1] at h
  cases h
  rw [h3]
  simp only [ex_eq, ex_zero, ex_lt, ex_sub, decide_eq_true_eq, lt_sub_iff_add_lt]
  unfold HasBody
  rw [not_and_or]

/-- **C22.** Pushing terrain out of the body, for lattice heights: afterwards no column of the active
area has terrain above the bottom of a body layer; the total amount of soil is the same; nothing but
the terrain changed; terrain was lowered only where it intersected, down to the bottom of a layer;
terrain was not raised above the bottom of any layer anywhere. -/
theorem C22_push_terrain (fuel : ℕ) (c tol : K) (w w' : World K) (htol : 0 < tol)
    (htol' : 2 * tol < c) (hB : ∀ k i j, w.out.InGrid i j → Al c (w.out.body k i j))
    (hT : ∀ i j, w.out.InGrid i j → Al c (w.out.terrain i j))
    (h : moveIntersectingBody fuel tol w = .ok w') :
    (∀ i j, w.out.bodyArea.minX ≤ i → i < w.out.bodyArea.maxX → w.out.bodyArea.minY ≤ j →
      j < w.out.bodyArea.maxY → ∀ k, k = 0 ∨ k = 2 → HasBody w.out k i j →
      w'.out.terrain i j ≤ w'.out.body k i j) ∧
    totalSoil w'.out = totalSoil w.out ∧
    w'.out = { w.out with terrain := w'.out.terrain } ∧ w'.log = w.log ∧
    (∀ i j, w.out.InGrid i j → w'.out.terrain i j < w.out.terrain i j →
      ∃ k, (k = 0 ∨ k = 2) ∧ HasBody w.out k i j ∧ w.out.body k i j < w.out.terrain i j ∧
        w'.out.terrain i j = w.out.body k i j) ∧
    (∀ i j, w.out.InGrid i j → w.out.terrain i j < w'.out.terrain i j → ∀ k, k = 0 ∨ k = 2 →
      HasBody w.out k i j → w'.out.terrain i j ≤ w.out.body k i j) ∧
    (∀ i j, w.out.InGrid i j → Al c (w'.out.terrain i j)) := by
  obtain ⟨p, hl, q⟩ := moveIntersectingBody_pushed ⟨htol, htol'⟩ fuel w hB hT w' h
  exact ⟨fun i j a1 a2 a3 a4 k hk hb => q (i, j) (Area.mem_cells.mpr ⟨a1, a2, a3, a4⟩) k hk hb,
    p.total, p.eq, hl, fun i j => p.lower i j,
    fun i j hij hlt k hk hb => p.raise k i j hij hk hb hlt, p.al hT⟩

/-- C22 for states whose body lies in the active area: terrain is nowhere above the bottom of a
body layer. -/
theorem C22_terrain_free (fuel : ℕ) (c tol : K) (w w' : World K) (htol : 0 < tol)
    (htol' : 2 * tol < c) (hB : ∀ k i j, w.out.InGrid i j → Al c (w.out.body k i j))
    (hT : ∀ i j, w.out.InGrid i j → Al c (w.out.terrain i j))
    (hA : ∀ k i j, w.out.InGrid i j → k = 0 ∨ k = 2 → HasBody w.out k i j →
      w.out.bodyArea.minX ≤ i ∧ i < w.out.bodyArea.maxX ∧ w.out.bodyArea.minY ≤ j ∧
        j < w.out.bodyArea.maxY)
    (h : moveIntersectingBody fuel tol w = .ok w') : TerrainFree w'.out := by
  obtain ⟨p, hl, q⟩ := moveIntersectingBody_pushed ⟨htol, htol'⟩ fuel w hB hT w' h
  intro k i j hij hk hb
  have hij' := (p.inGrid i j).mp hij
  have hb' := (p.hasBody k i j).mp hb
  exact q (i, j) (Area.mem_cells.mpr (hA k i j hij' hk hb')) k hk hb'

theorem moveIntersectingBodySoil_post (fuel : ℕ) (g : Grid K) (body : Body K) {c tol : K}
    (t : TolOK c tol) (w w' : World K) (hB : BodyOK c w.out) (hS : SoilOK c w.out)
    (h : moveIntersectingBodySoil fuel g body tol w = .ok w') :
      Loc w.out w'.out ∧ SoilOK c w'.out ∧ SoilFree w'.out ∧
      ∃ m, w'.log = w.log ++ m ∧ (∀ x ∈ m, ∃ h, 0 < h ∧ x = .soilRemoved h) ∧
        totalSoil w'.out + removedSoil m = totalSoil w.out := by
  have h' : moveIntersectingBodySoil (Max.max fuel (pushFuel w.out)) g body tol w = .ok w' :=
    moveIntersectingEntries_fuel (le_max_left _ _) (le_max_left _ _) h
  exact (moveIntersectingBodySoil_ok (g := g) (body := body) t _ w hB hS (le_max_right _ _)).post _ h'

/-- **C23.** Pushing body soil out of the body: afterwards no body soil reaches into the layer above
it, the soil conventions and the bookkeeping hold, the body is untouched, and the total amount of
soil dropped by exactly the amounts for which a removal warning was issued. -/
theorem C23_push_body_soil (fuel : ℕ) (g : Grid K) (body : Body K) (c tol : K) (w w' : World K)
    (htol : 0 < tol) (htol' : 2 * tol < c) (hB : BodyOK c w.out) (hS : SoilOK c w.out)
    (h : moveIntersectingBodySoil fuel g body tol w = .ok w') :
    SoilFree w'.out ∧ SoilOK c w'.out ∧ SameBody w.out w'.out ∧
      ∃ m, w'.log = w.log ++ m ∧ (∀ x ∈ m, ∃ h, 0 < h ∧ x = .soilRemoved h) ∧
        totalSoil w'.out + removedSoil m = totalSoil w.out := by
  obtain ⟨a, b, d, e⟩ := moveIntersectingBodySoil_post fuel g body ⟨htol, htol'⟩ w w' hB hS h
  exact ⟨d, b, a.body, e⟩

/-- C23: without a removal warning the total amount of soil is unchanged. -/
theorem C23_no_warning (fuel : ℕ) (g : Grid K) (body : Body K) (c tol : K) (w w' : World K)
    (htol : 0 < tol) (htol' : 2 * tol < c) (hB : BodyOK c w.out) (hS : SoilOK c w.out)
    (h : moveIntersectingBodySoil fuel g body tol w = .ok w') (hl : w'.log = w.log) :
    totalSoil w'.out = totalSoil w.out := by
  obtain ⟨-, -, -, m, e1, -, e3⟩ := C23_push_body_soil fuel g body c tol w w' htol htol' hB hS h
  rw [hl] at e1
  have : m = [] := by simpa using e1.symm
  subst this
  simpa [removedSoil] using e3

/-- **C24**, exact arithmetic: intersection resolution terminates normally, with an explicit bound on
the number of iterations. -/
theorem C24_terminates (fuel : ℕ) (g : Grid K) (body : Body K) (c tol : K) (w : World K)
    (htol : 0 < tol) (htol' : 2 * tol < c) (hB : BodyOK c w.out) (hS : SoilOK c w.out)
    (ha : AreaInside w.out.bodyArea w.out)
    (hf : (w.out.bodySoilPos.length + 1) * (1 + 8 * (w.out.lenX + w.out.lenY).toNat) ≤ fuel) :
    ∃ w', moveIntersectingCells fuel g body tol w = .ok w' := by
  have t : TolOK c tol := ⟨htol, htol'⟩
  obtain ⟨w1, h1, l1, -⟩ :=
    moveIntersectingBodySoil_ok (g := g) (body := body) t fuel w hB hS (by unfold pushFuel; exact hf)
  unfold moveIntersectingCells
  rw [h1, ok_bind]
  have hbf : BorderFree w1.out := l1.borderFree (borderFree_of hB)
  obtain ⟨w', h, -⟩ := moveIntersectingBody_ok fuel tol (by simp [htol.le]) w1 hbf (by
    rintro ⟨i, j⟩ hp
    rw [l1.body.2.1] at hp
    obtain ⟨a1, a2, a3, a4⟩ := Area.mem_cells.mp hp
    obtain ⟨b1, b2, b3, b4⟩ := ha
    rw [l1.inGrid]
    unfold SimOut.InGrid
    dsimp only at a1 a2 a3 a4 ⊢
    omega) (by
    rw [l1.body.2.2.1, l1.body.2.2.2]
    have : (w.out.lenX + w.out.lenY).toNat ≤ fuel := by
      generalize (w.out.lenX + w.out.lenY).toNat = L at *
      nlinarith
    omega)
  exact ⟨w', h⟩

end Exact

/-! ## The hypotheses are met by a state in which soil is pushed out -/

/-- the intersecting columns of the example -/
example : locateIntersectingCells exState2 (1 / 100) = .ok [(0, 2, 2)] := by
  decide +kernel

theorem exPush_runs : ∃ w1 w', moveIntersectingBodySoil 1000 exGrid exBody (1 / 100) exWorld2 = .ok w1
    ∧ moveIntersectingBody 1000 (1 / 100) w1 = .ok w' ∧ w1.log = [] ∧
    w1.out.bodySoil 1 2 3 = 4 ∧ w'.out.terrain 2 2 = 1 := by
  have h : (match moveIntersectingBodySoil 1000 exGrid exBody (1 / 100) exWorld2 with
    | .ok w1 => match moveIntersectingBody 1000 (1 / 100) w1 with
      | .ok w' => decide (w1.log = [] ∧ w1.out.bodySoil 1 2 3 = 4 ∧ w'.out.terrain 2 2 = 1)
      | .error _ => false
    | .error _ => false) = true := by decide +kernel
  cases h1 : moveIntersectingBodySoil 1000 exGrid exBody (1 / 100) exWorld2 with
  | error e => rw [h1] at h; cases h
  | ok w1 =>
    rw [h1] at h
    dsimp only at h
    cases h2 : moveIntersectingBody 1000 (1 / 100) w1 with
    | error e => rw [h2] at h; cases h
    | ok w' =>
      rw [h2] at h
      dsimp only at h
      exact ⟨w1, w', rfl, h2, by simpa using h⟩

example : (0 : ℚ) < 1 / 100 ∧ 2 * (1 / 100 : ℚ) < 1 ∧ BodyOK 1 exWorld2.out ∧ SoilOK 1 exWorld2.out ∧
    AreaInside exWorld2.out.bodyArea exWorld2.out ∧ EntriesInGrid exWorld2.out ∧
    (∀ k i j, exWorld2.out.InGrid i j → k = 0 ∨ k = 2 → HasBody exWorld2.out k i j →
      exWorld2.out.bodyArea.minX ≤ i ∧ i < exWorld2.out.bodyArea.maxX ∧
      exWorld2.out.bodyArea.minY ≤ j ∧ j < exWorld2.out.bodyArea.maxY) := by
  refine ⟨by norm_num, by norm_num, exState2_ok.1, exState2_ok.2, ?_, exState2_ok.2.entries, ?_⟩
  · unfold AreaInside; decide +kernel
  · have : ∀ k ∈ [0, 2], ∀ i ∈ Finset.Ico 0 exState2.lenX, ∀ j ∈ Finset.Ico 0 exState2.lenY,
        HasBody exState2 k i j → exState2.bodyArea.minX ≤ i ∧ i < exState2.bodyArea.maxX ∧
        exState2.bodyArea.minY ≤ j ∧ j < exState2.bodyArea.maxY := by decide +kernel
    intro k i j hij hk
    exact this k (by simpa using hk) i (inGridMem hij).1 j (inGridMem hij).2

end Soil
