import Verif.Proof.Sums
import Verif.Spec.Checks
import Verif.Model.Utils

/-! # Lemmas for the two consistency checks -/

set_option linter.unusedSectionVars false
set_option linter.unusedSimpArgs false

namespace Soil

open FOps

section AnyArith
variable {F : Type} [FOps F]

theorem checkSoilCell_iff (s : SimOut F) (tol : F) (i j : ℤ) :
    checkSoilCell s tol i j = true ↔ ColumnConv s tol i j := by
  have key : ∀ P : ℕ → Prop, (∀ k, k = 0 ∨ k = 2 → P k) ↔ (P 0 ∧ P 2) := by
    intro P
    constructor
    · intro h; exact ⟨h 0 (Or.inl rfl), h 2 (Or.inr rfl)⟩
    · rintro ⟨h0, h2⟩ k (rfl | rfl)
      · exact h0
      · exact h2
  constructor
  · intro h
    unfold checkSoilCell at h
    simp only [Bool.and_eq_true, Bool.or_eq_true, Bool.not_eq_true', Bool.or_eq_false_iff,
      Bool.if_false_left, decide_eq_true_eq, Bool.not_eq_true, decide_eq_false_iff_not] at h
    constructor <;> (try rw [key]) <;> (try dsimp only [Nat.reduceAdd]) <;> grind
  · intro h
    obtain ⟨h1, h2, h3, h4, h5, h6, h7, h8, h9⟩ := h
    rw [key] at h1 h2 h6 h7 h8 h9
    dsimp only [Nat.reduceAdd] at h1 h2 h6 h7 h8 h9
    unfold checkSoilCell
    simp only [Bool.and_eq_true, Bool.or_eq_true, Bool.not_eq_true', Bool.or_eq_false_iff,
      Bool.if_false_left, decide_eq_true_eq, Bool.not_eq_true, decide_eq_false_iff_not]
    clear key
    repeat' constructor
    all_goals grind

theorem checkSoilCells_iff (s : SimOut F) (tol : F) (l : List (ℤ × ℤ))
    (hl : ∀ p ∈ l, s.InGrid p.1 p.2) :
    ∃ b, checkSoilCells s tol l = .ok b ∧ (b = true ↔ ∀ p ∈ l, ColumnConv s tol p.1 p.2) := by
  induction l with
  | nil => exact ⟨true, rfl, by simp⟩
  | cons p l ih =>
    obtain ⟨b, hb, hb'⟩ := ih fun q hq => hl q (List.mem_cons_of_mem _ hq)
    unfold checkSoilCells
    rw [guardOob_of (hl p (List.mem_cons_self ..))]
    simp only [ok_bind]
    by_cases hc : checkSoilCell s tol p.1 p.2 = true
    · refine ⟨b, by simp [hc, hb], ?_⟩
      rw [hb']; simp [(checkSoilCell_iff s tol p.1 p.2).mp hc]
    · refine ⟨false, by simp [hc], ?_⟩
      simp only [Bool.false_eq_true, false_iff]
      intro h
      exact hc ((checkSoilCell_iff _ _ _ _).mpr (h p (List.mem_cons_self ..)))

end AnyArith

section Exact
variable {K : Type} [Field K] [LinearOrder K] [FloorRing K] [Transc K] [IsStrictOrderedRing K]

theorem columnConv_iff_ex (s : SimOut K) (tol : K) (i j : ℤ) :
    ColumnConv s tol i j ↔ ColumnConvEx s tol i j := by
  constructor
  · rintro ⟨h1, h2, h3, h4, h5, h6, h7, h8, h9⟩
    simp only [ex_lt, ex_ne, ex_add, ex_sub, ex_zero, decide_eq_true_eq, decide_eq_false_iff_not,
      not_lt, not_and_or, not_not] at *
    exact ⟨h1, h2, h3, h4, h5, h6, h7, h8, h9⟩
  · rintro ⟨h1, h2, h3, h4, h5, h6, h7, h8, h9⟩
    constructor <;> (simp only [ex_lt, ex_ne, ex_add, ex_sub, ex_zero, decide_eq_true_eq,
      decide_eq_false_iff_not, not_lt, not_and_or, not_not]; assumption)

theorem subtractEntries_eq (s : SimOut K) (l : List (BodySoil K))
    (hl : ∀ e ∈ l, s.InGrid e.ii e.jj ∧ (e.ind = 0 ∨ e.ind = 2)) (m : ℕ → ℤ → ℤ → K) :
    ∃ m', subtractEntries s l m = .ok m' ∧
      (∀ i j, m' 0 i j = m 0 i j ∧ m' 2 i j = m 2 i j) ∧
      (∀ k i j, k = 0 ∨ k = 2 → m' (k + 1) i j = m (k + 1) i j - entrySum l k i j) := by
  induction l generalizing m with
  | nil => exact ⟨m, rfl, by simp, by simp⟩
  | cons e l ih =>
    obtain ⟨hg, hk⟩ := hl e (List.mem_cons_self ..)
    unfold subtractEntries
    rw [guardOob_of ⟨hg, by omega⟩]
    simp only [ok_bind]
    obtain ⟨m', hm, h1, h2⟩ := ih (fun q hq => hl q (List.mem_cons_of_mem _ hq))
      (upd3 m (e.ind + 1) e.ii e.jj (m (e.ind + 1) e.ii e.jj -ᶠ e.h))
    refine ⟨m', hm, ?_, ?_⟩
    · intro i j
      obtain ⟨ha, hb⟩ := h1 i j
      rw [ha, hb]
      constructor <;> apply upd3_ne <;> omega
    · intro k i j hk'
      rw [h2 k i j hk', entrySum_cons]
      by_cases h : e.ind = k ∧ e.ii = i ∧ e.jj = j
      · obtain ⟨rfl, rfl, rfl⟩ := h
        rw [upd3_same]; simp [sub_sub]
      · rw [upd3_ne _ _ (by omega), if_neg h, zero_add]

theorem addRounded_eq (acc : ℤ) (x : K) : addRounded acc x = .ok (acc + roundAway x) := by
  unfold addRounded
  have : (FOps.ofInt acc +ᶠ FOps.round x : K) = ((acc + roundAway x : ℤ) : K) := by simp
  rw [this, castInt_exact, truncZ_intCast]

theorem terrainVolume_eq (s : SimOut K) (g : Grid K) :
    terrainVolume s g = .ok (∑ p ∈ gridCols s, roundAway (s.terrain p.1 p.2 / g.cellZ)) := by
  unfold terrainVolume
  rw [← sum_allCells]
  suffices h : ∀ (l : List (ℤ × ℤ)) (a : ℤ),
      l.foldlM (fun acc p => addRounded acc (s.terrain p.1 p.2 /ᶠ g.cellZ)) a =
        (.ok (a + (l.map fun p => roundAway (s.terrain p.1 p.2 / g.cellZ)).sum) : M ℤ) by
    rw [h]; simp
  intro l
  induction l with
  | nil => simp
  | cons p l ih =>
    intro a
    rw [List.foldlM_cons, addRounded_eq, ok_bind, ih]
    simp [add_assoc]

@[simp] theorem roundAway_zero : roundAway (0 : K) = 0 := by
  have := roundAway_intCast (K := K) 0
  simpa using this

theorem addLayerVolume_eq (s : SimOut K) (g : Grid K) (k : ℕ) (p : ℤ × ℤ) (acc : ℤ) :
    addLayerVolume s g k p acc = .ok (acc + roundAway (layerSoil s k p.1 p.2 / g.cellZ)) := by
  unfold addLayerVolume
  split_ifs with h
  · rw [addRounded_eq]; rfl
  · simp only [SimOut.soilPres, ex_ne, ex_zero, ne_eq, decide_not, Bool.or_eq_true,
      Bool.not_eq_true', decide_eq_false_iff_not, not_or, not_not] at h
    simp [layerSoil, h.1, h.2]

theorem bodySoilVolume_eq (s : SimOut K) (g : Grid K) :
    bodySoilVolume s g = .ok (∑ p ∈ gridCols s, (roundAway (layerSoil s 0 p.1 p.2 / g.cellZ) +
      roundAway (layerSoil s 2 p.1 p.2 / g.cellZ))) := by
  unfold bodySoilVolume
  rw [← sum_allCells]
  suffices h : ∀ (l : List (ℤ × ℤ)) (a : ℤ),
      l.foldlM (fun acc p => do addLayerVolume s g 2 p (← addLayerVolume s g 0 p acc)) a =
        (.ok (a + (l.map fun p => roundAway (layerSoil s 0 p.1 p.2 / g.cellZ) +
          roundAway (layerSoil s 2 p.1 p.2 / g.cellZ)).sum) : M ℤ) by
    rw [h]; simp
  intro l
  induction l with
  | nil => simp
  | cons p l ih =>
    intro a
    rw [List.foldlM_cons, addLayerVolume_eq, ok_bind, addLayerVolume_eq, ok_bind, ih]
    simp [add_assoc]

theorem columnCells_eq (s : SimOut K) (c : K) (i j : ℤ) :
    columnCells s c i j = roundAway (s.terrain i j / c) + roundAway (layerSoil s 0 i j / c) +
      roundAway (layerSoil s 2 i j / c) := rfl

theorem checkVolume_iff (s : SimOut K) (v : ℤ) (g : Grid K) (tol : K) (he : EntriesInGrid s) :
    ∃ b, checkVolume s v g tol = .ok b ∧
      (b = true ↔ (∀ i j, s.InGrid i j → ∀ k, k = 0 ∨ k = 2 →
          |layerSoil s k i j - entrySum s.bodySoilPos k i j| ≤ tol) ∧
        totalCells s g.cellZ = v) := by
  obtain ⟨m, hm, h1, h2⟩ := subtractEntries_eq s s.bodySoilPos he s.bodySoil
  unfold checkVolume
  rw [hm, ok_bind, terrainVolume_eq, bodySoilVolume_eq]
  have hd : ∀ k i j, k = 0 ∨ k = 2 →
      |m k i j - m (k + 1) i j| = |layerSoil s k i j - entrySum s.bodySoilPos k i j| := by
    intro k i j hk
    rw [h2 k i j hk, abs_sub_comm]
    congr 1
    have : m k i j = s.bodySoil k i j := by
      rcases hk with rfl | rfl
      · exact (h1 i j).1
      · exact (h1 i j).2
    rw [this]; unfold layerSoil; ring
  have hall : (s.allCells.any fun p =>
      tol <ᶠ FOps.abs (m 0 p.1 p.2 -ᶠ m 1 p.1 p.2) ||
        tol <ᶠ FOps.abs (m 2 p.1 p.2 -ᶠ m 3 p.1 p.2)) = true ↔
      ¬ (∀ i j, s.InGrid i j → ∀ k, k = 0 ∨ k = 2 →
          |layerSoil s k i j - entrySum s.bodySoilPos k i j| ≤ tol) := by
    simp only [List.any_eq_true, SimOut.mem_allCells, ex_lt, ex_abs, ex_sub, Bool.or_eq_true,
      decide_eq_true_eq, hd 0 _ _ (Or.inl rfl), hd 2 _ _ (Or.inr rfl), Prod.exists]
    push Not
    constructor
    · rintro ⟨i, j, hg, h | h⟩
      · exact ⟨i, j, hg, 0, Or.inl rfl, h⟩
      · exact ⟨i, j, hg, 2, Or.inr rfl, h⟩
    · rintro ⟨i, j, hg, k, rfl | rfl, h⟩
      · exact ⟨i, j, hg, Or.inl h⟩
      · exact ⟨i, j, hg, Or.inr h⟩
  by_cases hc : ∀ i j, s.InGrid i j → ∀ k, k = 0 ∨ k = 2 →
      |layerSoil s k i j - entrySum s.bodySoilPos k i j| ≤ tol
  · rw [if_neg (by rw [hall]; exact not_not.mpr hc)]
    refine ⟨_, rfl, ?_⟩
    rw [decide_eq_true_eq]
    have : totalCells s g.cellZ = (∑ p ∈ gridCols s, roundAway (s.terrain p.1 p.2 / g.cellZ)) +
        ∑ p ∈ gridCols s, (roundAway (layerSoil s 0 p.1 p.2 / g.cellZ) +
          roundAway (layerSoil s 2 p.1 p.2 / g.cellZ)) := by
      unfold totalCells
      rw [← Finset.sum_add_distrib]
      exact Finset.sum_congr rfl fun p _ => by rw [columnCells_eq]; ring
    rw [this]
    exact ⟨fun h => ⟨hc, h⟩, fun h => h.2⟩
  · rw [if_pos (hall.mpr hc)]
    exact ⟨false, rfl, ⟨fun h => (Bool.false_ne_true h).elim, fun h => (hc h.1).elim⟩⟩

end Exact

end Soil
