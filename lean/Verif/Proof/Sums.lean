import Verif.Proof.Basic
import Verif.Spec.State
import Mathlib.Algebra.BigOperators.Ring.Finset

/-! # Sums over the grid and over the bookkeeping list -/

namespace Soil

section
variable {F : Type}

theorem allCells_toFinset (s : SimOut F) : s.allCells.toFinset = gridCols s := by
  ext p
  simp only [List.mem_toFinset, SimOut.mem_allCells, gridCols, Finset.mem_product, Finset.mem_Ico,
    SimOut.InGrid]
  tauto

theorem sum_allCells {A : Type} [AddCommMonoid A] (s : SimOut F) (f : ℤ × ℤ → A) :
    (s.allCells.map f).sum = ∑ p ∈ gridCols s, f p := by
  rw [← allCells_toFinset, List.sum_toFinset f (show s.allCells.Nodup from Area.nodup_cells _)]

theorem mem_gridCols {s : SimOut F} {p : ℤ × ℤ} : p ∈ gridCols s ↔ s.InGrid p.1 p.2 := by
  rw [← allCells_toFinset, List.mem_toFinset, SimOut.mem_allCells]

end

section
variable {K : Type} [AddCommGroup K]

@[simp] theorem entrySum_nil (k : ℕ) (i j : ℤ) : entrySum ([] : List (BodySoil K)) k i j = 0 := by
  simp [entrySum]

theorem entrySum_cons (e : BodySoil K) (l : List (BodySoil K)) (k : ℕ) (i j : ℤ) :
    entrySum (e :: l) k i j =
      (if e.ind = k ∧ e.ii = i ∧ e.jj = j then e.h else 0) + entrySum l k i j := by
  unfold entrySum
  split_ifs with h
  · simp [h]
  · rw [List.filter_cons_of_neg (by simpa using h), zero_add]

theorem entrySum_append (l m : List (BodySoil K)) (k : ℕ) (i j : ℤ) :
    entrySum (l ++ m) k i j = entrySum l k i j + entrySum m k i j := by
  simp [entrySum]

theorem entrySum_perm {l m : List (BodySoil K)} (h : l.Perm m) (k : ℕ) (i j : ℤ) :
    entrySum l k i j = entrySum m k i j := by
  unfold entrySum
  exact ((h.filter _).map _).sum_eq

theorem entrySum_single (e : BodySoil K) (k : ℕ) (i j : ℤ) :
    entrySum [e] k i j = if e.ind = k ∧ e.ii = i ∧ e.jj = j then e.h else 0 := by
  rw [entrySum_cons]; simp

theorem entrySum_eq_zero {l : List (BodySoil K)} {k : ℕ} {i j : ℤ}
    (h : ∀ e ∈ l, ¬(e.ind = k ∧ e.ii = i ∧ e.jj = j)) : entrySum l k i j = 0 := by
  unfold entrySum
  rw [List.filter_eq_nil_iff.mpr (by simpa using h)]
  simp

/-- Changing the height of one entry -/
theorem entrySum_modify (l : List (BodySoil K)) (n : ℕ) (v : K) (e : BodySoil K)
    (he : l[n]? = some e) (k : ℕ) (i j : ℤ) :
    entrySum (l.modify n fun e => { e with h := v }) k i j =
      entrySum l k i j + if e.ind = k ∧ e.ii = i ∧ e.jj = j then v - e.h else 0 := by
  induction l generalizing n with
  | nil => simp at he
  | cons a l ih =>
    cases n with
    | zero =>
      simp at he; subst he
      rw [List.modify_zero_cons, entrySum_cons, entrySum_cons]
      dsimp only
      split_ifs <;> abel
    | succ n =>
      simp at he
      rw [List.modify_succ_cons, entrySum_cons, entrySum_cons, ih n he]
      abel

end

end Soil
