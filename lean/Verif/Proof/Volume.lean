import Verif.Proof.Sums
import Verif.Proof.Frame

/-! # How array assignments change the total amount of soil and the bookkeeping -/

set_option linter.unusedSectionVars false

namespace Soil

section
variable {K : Type} [AddCommGroup K]

theorem totalSoil_delta (s s' : SimOut K) (i j : ℤ) (δ : K) (hx : s'.lenX = s.lenX)
    (hy : s'.lenY = s.lenY) (hij : s.InGrid i j)
    (h : ∀ a b, columnSoil s' a b = columnSoil s a b + if a = i ∧ b = j then δ else 0) :
    totalSoil s' = totalSoil s + δ := by
  unfold totalSoil
  have hg : gridCols s' = gridCols s := by unfold gridCols; rw [hx, hy]
  rw [hg]
  have : ∀ p ∈ gridCols s, columnSoil s' p.1 p.2 =
      columnSoil s p.1 p.2 + if p = (i, j) then δ else 0 := by
    intro p _
    rw [h p.1 p.2]
    simp only [Prod.ext_iff]
  rw [Finset.sum_congr rfl this, Finset.sum_add_distrib, Finset.sum_ite_eq' (gridCols s) (i, j)]
  rw [if_pos (mem_gridCols.mpr hij)]

theorem totalSoil_setT (s : SimOut K) {i j : ℤ} (v : K) (h : s.InGrid i j) :
    totalSoil (s.setT i j v) = totalSoil s + (v - s.terrain i j) := by
  refine totalSoil_delta s _ i j _ rfl rfl h fun a b => ?_
  simp only [columnSoil, layerSoil, SimOut.setT, upd2]
  split_ifs with hc
  · obtain ⟨rfl, rfl⟩ := hc; abel
  · abel

theorem totalSoil_setBS0 (s : SimOut K) {k : ℕ} {i j : ℤ} (v : K) (h : s.InGrid i j)
    (hk : k = 0 ∨ k = 2) :
    totalSoil (s.setBS k i j v) = totalSoil s - (v - s.bodySoil k i j) := by
  rw [sub_eq_add_neg]
  refine totalSoil_delta s _ i j _ rfl rfl h fun a b => ?_
  rcases hk with rfl | rfl <;> simp only [columnSoil, layerSoil, SimOut.setBS, upd3] <;>
    by_cases hc : a = i ∧ b = j <;> simp [hc] <;> abel

theorem totalSoil_setBS1 (s : SimOut K) {k : ℕ} {i j : ℤ} (v : K) (h : s.InGrid i j)
    (hk : k = 0 ∨ k = 2) :
    totalSoil (s.setBS (k + 1) i j v) = totalSoil s + (v - s.bodySoil (k + 1) i j) := by
  refine totalSoil_delta s _ i j _ rfl rfl h fun a b => ?_
  rcases hk with rfl | rfl <;> simp only [columnSoil, layerSoil, SimOut.setBS, upd3] <;>
    by_cases hc : a = i ∧ b = j <;> simp [hc] <;> abel

@[simp] theorem totalSoil_pushPos (s : SimOut K) (e : BodySoil K) :
    totalSoil (s.pushPos e) = totalSoil s := rfl

@[simp] theorem totalSoil_setH (s : SimOut K) (n : ℕ) (v : K) :
    totalSoil (s.setH n v) = totalSoil s := rfl

/-- soil resting on a layer minus what the bookkeeping says -/
def imb (s : SimOut K) (k : ℕ) (i j : ℤ) : K := layerSoil s k i j - entrySum s.bodySoilPos k i j

theorem booked_iff (s : SimOut K) :
    Booked s ↔ ∀ i j, s.InGrid i j → ∀ k, k = 0 ∨ k = 2 → imb s k i j = 0 := by
  unfold Booked imb
  simp only [sub_eq_zero]

@[simp] theorem imb_setT (s : SimOut K) (i j : ℤ) (v : K) (k : ℕ) (a b : ℤ) :
    imb (s.setT i j v) k a b = imb s k a b := rfl

theorem imb_setBS0 (s : SimOut K) {k k' : ℕ} (i j : ℤ) (v : K) (a b : ℤ) (hk : k = 0 ∨ k = 2)
    (hk' : k' = 0 ∨ k' = 2) :
    imb (s.setBS k i j v) k' a b =
      imb s k' a b - if k' = k ∧ a = i ∧ b = j then v - s.bodySoil k i j else 0 := by
  rcases hk with rfl | rfl <;> rcases hk' with rfl | rfl <;>
    simp only [imb, layerSoil, SimOut.setBS, upd3] <;>
    by_cases hc : a = i ∧ b = j <;> simp [hc] <;> abel

theorem imb_setBS1 (s : SimOut K) {k k' : ℕ} (i j : ℤ) (v : K) (a b : ℤ) (hk : k = 0 ∨ k = 2)
    (hk' : k' = 0 ∨ k' = 2) :
    imb (s.setBS (k + 1) i j v) k' a b =
      imb s k' a b + if k' = k ∧ a = i ∧ b = j then v - s.bodySoil (k + 1) i j else 0 := by
  rcases hk with rfl | rfl <;> rcases hk' with rfl | rfl <;>
    simp only [imb, layerSoil, SimOut.setBS, upd3] <;>
    by_cases hc : a = i ∧ b = j <;> simp [hc] <;> abel

theorem imb_pushPos (s : SimOut K) (e : BodySoil K) (k : ℕ) (a b : ℤ) :
    imb (s.pushPos e) k a b =
      imb s k a b - if e.ind = k ∧ e.ii = a ∧ e.jj = b then e.h else 0 := by
  simp only [imb, SimOut.pushPos, entrySum_append, entrySum_single, layerSoil]
  abel

theorem imb_setH (s : SimOut K) (n : ℕ) (v : K) (e : BodySoil K) (he : s.bodySoilPos[n]? = some e)
    (k : ℕ) (a b : ℤ) :
    imb (s.setH n v) k a b =
      imb s k a b - if e.ind = k ∧ e.ii = a ∧ e.jj = b then v - e.h else 0 := by
  simp only [imb, SimOut.setH, layerSoil, entrySum_modify _ _ _ _ he]
  abel

end

end Soil
