import Verif.Proof.Basic
import Verif.Model.Relax
import Verif.Spec.Stability

/-! # Stability codes -/

set_option linter.unusedSectionVars false
set_option linter.unusedSimpArgs false

namespace Soil

variable {K : Type} [Field K] [LinearOrder K] [FloorRing K] [Transc K] [IsStrictOrderedRing K]

theorem bodyAbs_iff (s : SimOut K) (k : ℕ) (i j : ℤ) :
    s.bodyAbs k i j = true ↔ ¬ HasBody s k i j := by
  simp [SimOut.bodyAbs, HasBody]

theorem bodyAbs_false_iff (s : SimOut K) (k : ℕ) (i j : ℤ) :
    s.bodyAbs k i j = false ↔ HasBody s k i j := by
  rw [← Bool.not_eq_true, bodyAbs_iff, not_not]

theorem soilPres_iff (s : SimOut K) (k : ℕ) (i j : ℤ) :
    s.soilPres k i j = true ↔ HasSoil s k i j := by
  simp [SimOut.soilPres, HasSoil]

theorem lowEnough_eq (st : ℕ) (x tol hMin : K) :
    lowEnough st x tol hMin = if x + tol < hMin then st else 0 := by
  unfold lowEnough; simp

theorem BottomTop.exists (s : SimOut K) (i j : ℤ) : ∃ b t, BottomTop s i j b t := by
  rcases lt_or_ge (s.body 0 i j) (s.body 2 i j) with h | h
  · exact ⟨0, 2, .inl ⟨rfl, rfl, h⟩⟩
  · exact ⟨2, 0, .inr ⟨rfl, rfl, h⟩⟩

/-- the two-layer part of `checkUnstableTerrainCell` for given layers -/
theorem checkUnstableTerrainCell_spec (s : SimOut K) (i j : ℤ) (hMin tol : K) :
    ∃ c x, TerrainTarget s tol i j c x ∧
      checkUnstableTerrainCell s i j hMin tol =
        if s.terrain i j + tol < hMin ∧ x + tol < hMin then c else 0 := by
  classical
  unfold checkUnstableTerrainCell
  simp only [Bool.and_eq_true, bodyAbs_iff, soilPres_iff, ex_add, ex_lt, decide_eq_true_eq,
    lowEnough_eq]
  by_cases h0 : HasBody s 0 i j
  · by_cases h2 : HasBody s 2 i j
    · simp only [h0, h2, not_true_eq_false, and_self, if_false]
      by_cases hlt : s.body 0 i j < s.body 2 i j
      · simp only [hlt, if_true]
        have bt : BottomTop s i j 0 2 := .inl ⟨rfl, rfl, hlt⟩
        by_cases hu : s.terrain i j + tol < s.body 0 i j
        · exact ⟨30, _, .under h0 h2 bt hu, by simp [hu]⟩
        · have hu' := not_lt.mp hu
          by_cases hs : HasSoil s 0 i j
          · by_cases hf : s.body 2 i j < s.bodySoil 1 i j + tol
            · by_cases hst : HasSoil s 2 i j
              · exact ⟨31, _, .onTop h0 h2 bt hu' hs hf (.soil2 hst), by
                  simp [hu, hs, hf, hst, ite_and]⟩
              · exact ⟨32, _, .onTop h0 h2 bt hu' hs hf (.bare2 hst), by
                  simp [hu, hs, hf, hst, ite_and]⟩
            · exact ⟨33, _, .onBottom h0 h2 bt hu' (fun _ => not_lt.mp hf) (.soil0 hs), by
                simp [hu, hs, hf, ite_and]⟩
          · exact ⟨34, _, .onBottom h0 h2 bt hu' (fun h => absurd h hs) (.bare0 hs), by
              simp [hu, hs, ite_and]⟩
      · simp only [hlt, if_false]
        have bt : BottomTop s i j 2 0 := .inr ⟨rfl, rfl, not_lt.mp hlt⟩
        by_cases hu : s.terrain i j + tol < s.body 2 i j
        · exact ⟨30, _, .under h0 h2 bt hu, by simp [hu]⟩
        · have hu' := not_lt.mp hu
          by_cases hs : HasSoil s 2 i j
          · by_cases hf : s.body 0 i j < s.bodySoil 3 i j + tol
            · by_cases hst : HasSoil s 0 i j
              · exact ⟨33, _, .onTop h0 h2 bt hu' hs hf (.soil0 hst), by
                  simp [hu, hs, hf, hst, ite_and]⟩
              · exact ⟨34, _, .onTop h0 h2 bt hu' hs hf (.bare0 hst), by
                  simp [hu, hs, hf, hst, ite_and]⟩
            · exact ⟨31, _, .onBottom h0 h2 bt hu' (fun _ => not_lt.mp hf) (.soil2 hs), by
                simp [hu, hs, hf, ite_and]⟩
          · exact ⟨32, _, .onBottom h0 h2 bt hu' (fun h => absurd h hs) (.bare2 hs), by
              simp [hu, hs, ite_and]⟩
    · simp only [h0, h2, not_true_eq_false, not_false_eq_true, false_and, if_false, if_true]
      by_cases hu : s.terrain i j + tol < s.body 0 i j
      · exact ⟨10, _, .under0 h0 h2 hu, by simp [hu]⟩
      · have hu' := not_lt.mp hu
        by_cases hs : HasSoil s 0 i j
        · exact ⟨13, _, .on0 h0 h2 hu' (.soil0 hs), by simp [hu, hs, ite_and]⟩
        · exact ⟨14, _, .on0 h0 h2 hu' (.bare0 hs), by simp [hu, hs, ite_and]⟩
  · by_cases h2 : HasBody s 2 i j
    · simp only [h0, h2, not_true_eq_false, not_false_eq_true, and_false, if_false, if_true]
      by_cases hu : s.terrain i j + tol < s.body 2 i j
      · exact ⟨20, _, .under2 h0 h2 hu, by simp [hu]⟩
      · have hu' := not_lt.mp hu
        by_cases hs : HasSoil s 2 i j
        · exact ⟨21, _, .on2 h0 h2 hu' (.soil2 hs), by simp [hu, hs, ite_and]⟩
        · exact ⟨22, _, .on2 h0 h2 hu' (.bare2 hs), by simp [hu, hs, ite_and]⟩
    · exact ⟨40, _, .free h0 h2, by simp [h0, h2]⟩

theorem checkUnstableBodyCell_spec (s : SimOut K) (ii jj : ℤ) (ind : ℕ) (i j : ℤ) (hMin tol : K) :
    ∃ c x, BodyTarget s tol (s.body (ind + 1) ii jj) i j c x ∧
      checkUnstableBodyCell s ii jj ind i j hMin tol = if x + tol < hMin then c else 0 := by
  classical
  unfold checkUnstableBodyCell
  simp only [Bool.and_eq_true, bodyAbs_iff, soilPres_iff, ex_add, ex_lt, decide_eq_true_eq,
    lowEnough_eq]
  by_cases h0 : HasBody s 0 i j
  · by_cases h2 : HasBody s 2 i j
    · simp only [h0, h2, not_true_eq_false, and_self, if_false]
      by_cases hlt : s.body 0 i j < s.body 2 i j
      · simp only [hlt, if_true]
        have bt : BottomTop s i j 0 2 := .inl ⟨rfl, rfl, hlt⟩
        have top : (s.body 2 i j ≤ s.body (ind + 1) ii jj + tol ∨
            HasSoil s 0 i j ∧ s.body 2 i j ≤ s.bodySoil 1 i j + tol) →
            ∃ c x, BodyTarget s tol (s.body (ind + 1) ii jj) i j c x ∧
            (if HasSoil s 2 i j then if s.bodySoil 3 i j + tol < hMin then 31 else 0
              else if s.body 3 i j + tol < hMin then 32 else 0) =
                if x + tol < hMin then c else 0 := by
          intro h
          by_cases hst : HasSoil s 2 i j
          · exact ⟨31, _, .onTop h0 h2 bt h (.soil2 hst), by simp [hst]⟩
          · exact ⟨32, _, .onTop h0 h2 bt h (.bare2 hst), by simp [hst]⟩
        by_cases hz : s.body (ind + 1) ii jj + tol < s.body 2 i j
        · have hz' : ¬ s.body 2 i j < s.body (ind + 1) ii jj + tol := not_lt.mpr hz.le
          by_cases hs : HasSoil s 0 i j
          · by_cases hf : s.bodySoil 1 i j + tol < s.body 2 i j
            · exact ⟨33, _, .onBottom h0 h2 bt hz (fun _ => hf) (.soil0 hs), by
                simp [hz, hz', hs, hf]⟩
            · simpa [hz, hz', hs, hf] using top (.inr ⟨hs, not_lt.mp hf⟩)
          · exact ⟨34, _, .onBottom h0 h2 bt hz (fun h => absurd h hs) (.bare0 hs), by
              simp [hz, hz', hs]⟩
        · simpa [hz] using top (.inl (not_lt.mp hz))
      · simp only [hlt, if_false]
        have bt : BottomTop s i j 2 0 := .inr ⟨rfl, rfl, not_lt.mp hlt⟩
        have top : (s.body 0 i j ≤ s.body (ind + 1) ii jj + tol ∨
            HasSoil s 2 i j ∧ s.body 0 i j ≤ s.bodySoil 3 i j + tol) →
            ∃ c x, BodyTarget s tol (s.body (ind + 1) ii jj) i j c x ∧
            (if HasSoil s 0 i j then if s.bodySoil 1 i j + tol < hMin then 33 else 0
              else if s.body 1 i j + tol < hMin then 34 else 0) =
                if x + tol < hMin then c else 0 := by
          intro h
          by_cases hst : HasSoil s 0 i j
          · exact ⟨33, _, .onTop h0 h2 bt h (.soil0 hst), by simp [hst]⟩
          · exact ⟨34, _, .onTop h0 h2 bt h (.bare0 hst), by simp [hst]⟩
        by_cases hz : s.body (ind + 1) ii jj + tol < s.body 0 i j
        · have hz' : ¬ s.body 0 i j < s.body (ind + 1) ii jj + tol := not_lt.mpr hz.le
          by_cases hs : HasSoil s 2 i j
          · by_cases hf : s.bodySoil 3 i j + tol < s.body 0 i j
            · exact ⟨31, _, .onBottom h0 h2 bt hz (fun _ => hf) (.soil2 hs), by
                simp [hz, hz', hs, hf]⟩
            · simpa [hz, hz', hs, hf] using top (.inr ⟨hs, not_lt.mp hf⟩)
          · exact ⟨32, _, .onBottom h0 h2 bt hz (fun h => absurd h hs) (.bare2 hs), by
              simp [hz, hz', hs]⟩
        · simpa [hz] using top (.inl (not_lt.mp hz))
    · simp only [h0, h2, not_true_eq_false, not_false_eq_true, false_and, if_false, if_true]
      by_cases hu : s.body (ind + 1) ii jj + tol < s.body 0 i j
      · exact ⟨10, _, .under0 h0 h2 hu, by simp [hu]⟩
      · have hu' := not_lt.mp hu
        by_cases hs : HasSoil s 0 i j
        · exact ⟨13, _, .on0 h0 h2 hu' (.soil0 hs), by simp [hu, hs]⟩
        · exact ⟨14, _, .on0 h0 h2 hu' (.bare0 hs), by simp [hu, hs]⟩
  · by_cases h2 : HasBody s 2 i j
    · simp only [h0, h2, not_true_eq_false, not_false_eq_true, and_false, if_false, if_true]
      by_cases hu : s.body (ind + 1) ii jj + tol < s.body 2 i j
      · exact ⟨20, _, .under2 h0 h2 hu, by simp [hu]⟩
      · have hu' := not_lt.mp hu
        by_cases hs : HasSoil s 2 i j
        · exact ⟨21, _, .on2 h0 h2 hu' (.soil2 hs), by simp [hu, hs]⟩
        · exact ⟨22, _, .on2 h0 h2 hu' (.bare2 hs), by simp [hu, hs]⟩
    · exact ⟨40, _, .free h0 h2, by simp [h0, h2]⟩

/-- The layout determines the code and the surface. -/
theorem LandsOn.unique {s : SimOut K} {i j : ℤ} {k d d' : ℕ} {h h' : K} (a : LandsOn s i j k d h)
    (b : LandsOn s i j k d' h') : d = d' ∧ h = h' := by
  cases a <;> cases b <;> first | exact ⟨rfl, rfl⟩ | contradiction

theorem BottomTop.unique {s : SimOut K} {i j : ℤ} {b t b' t' : ℕ} (h : BottomTop s i j b t)
    (h' : BottomTop s i j b' t') : b = b' ∧ t = t' := by
  rcases h with ⟨rfl, rfl, h⟩ | ⟨rfl, rfl, h⟩ <;> rcases h' with ⟨rfl, rfl, h'⟩ | ⟨rfl, rfl, h'⟩
  · exact ⟨rfl, rfl⟩
  · exact absurd h (not_lt.mpr h')
  · exact absurd h' (not_lt.mpr h)
  · exact ⟨rfl, rfl⟩

theorem LandsOn.digit {s : SimOut K} {i j : ℤ} {k d : ℕ} {h : K} (a : LandsOn s i j k d h) :
    1 ≤ d ∧ d ≤ 4 := by cases a <;> omega

theorem LandsOn.soil {s : SimOut K} {i j : ℤ} {k d : ℕ} {h : K} (a : LandsOn s i j k d h)
    (hs : HasSoil s k i j) : h = s.bodySoil (k + 1) i j := by
  cases a <;> first | rfl | contradiction

theorem TerrainTarget.unique {s : SimOut K} {tol : K} {i j : ℤ} {c c' : ℕ} {x x' : K}
    (a : TerrainTarget s tol i j c x) (b : TerrainTarget s tol i j c' x') : c = c' ∧ x = x' := by
  cases a <;> cases b <;> first
    | exact ⟨rfl, rfl⟩
    | contradiction
    | (exfalso; linarith)
    | grind [LandsOn.unique, BottomTop.unique]

theorem BodyTarget.unique {s : SimOut K} {tol z : K} {i j : ℤ} {c c' : ℕ} {x x' : K}
    (a : BodyTarget s tol z i j c x) (b : BodyTarget s tol z i j c' x') : c = c' ∧ x = x' := by
  cases a <;> cases b <;> first
    | exact ⟨rfl, rfl⟩
    | contradiction
    | (exfalso; linarith)
    | grind [LandsOn.unique, BottomTop.unique]

theorem TerrainTarget.code {s : SimOut K} {tol : K} {i j : ℤ} {c : ℕ} {x : K}
    (a : TerrainTarget s tol i j c x) :
    c ∈ [10, 13, 14, 20, 21, 22, 30, 31, 32, 33, 34, 40] := by
  cases a
  all_goals first
    | simp; done
    | (rename_i l; cases l <;> simp)

theorem BodyTarget.code {s : SimOut K} {tol z : K} {i j : ℤ} {c : ℕ} {x : K}
    (a : BodyTarget s tol z i j c x) :
    c ∈ [10, 13, 14, 20, 21, 22, 31, 32, 33, 34, 40] := by
  cases a
  all_goals first
    | simp; done
    | (rename_i l; cases l <;> simp)

end Soil
