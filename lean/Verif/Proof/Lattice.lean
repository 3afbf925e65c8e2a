import Verif.Spec.WellFormed
import Verif.Proof.Basic
import Verif.Model.Relax
import Mathlib.Tactic.LinearCombination

/-! # Whole numbers of cells -/

set_option linter.unusedSectionVars false

namespace Soil

variable {K : Type} [Field K] [LinearOrder K] [IsStrictOrderedRing K]

namespace Al
variable {c x y : K}

theorem zero : Al c (0 : K) := ⟨0, by simp⟩
theorem add (hx : Al c x) (hy : Al c y) : Al c (x + y) := by
  obtain ⟨n, rfl⟩ := hx; obtain ⟨m, rfl⟩ := hy; exact ⟨n + m, by push_cast; ring⟩
theorem neg (hx : Al c x) : Al c (-x) := by
  obtain ⟨n, rfl⟩ := hx; exact ⟨-n, by push_cast; ring⟩
theorem sub (hx : Al c x) (hy : Al c y) : Al c (x - y) := by
  obtain ⟨n, rfl⟩ := hx; obtain ⟨m, rfl⟩ := hy; exact ⟨n - m, by push_cast; ring⟩

theorem min (hx : Al c x) (hy : Al c y) : Al c (Min.min x y) := by
  rcases min_choice x y with h | h <;> rw [h] <;> assumption

/-- two different heights on the lattice differ by at least one cell -/
theorem add_le (hc : 0 < c) (hx : Al c x) (hy : Al c y) (h : x < y) : x + c ≤ y := by
  obtain ⟨n, rfl⟩ := hx; obtain ⟨m, rfl⟩ := hy
  have : n < m := by
    by_contra hn
    have : (m : K) ≤ n := by exact_mod_cast not_lt.mp hn
    exact absurd h (not_lt.mpr (mul_le_mul_of_nonneg_right this hc.le))
  have h1 : (n : K) + 1 ≤ m := by exact_mod_cast this
  nlinarith [mul_le_mul_of_nonneg_right h1 hc.le]

end Al

/-- The tolerance is positive and less than half a cell -/
structure TolOK (c tol : K) : Prop where
  pos : 0 < tol
  lt : 2 * tol < c

namespace TolOK
variable {c tol x y : K} (t : TolOK c tol)
include t

theorem cpos : 0 < c := by have := t.pos; have := t.lt; linarith

theorem add_lt (hx : Al c x) (hy : Al c y) : x + tol < y ↔ x < y := by
  have := t.pos; have := t.lt
  constructor
  · intro h; linarith
  · intro h; have := Al.add_le t.cpos hx hy h; linarith

theorem lt_sub (hx : Al c x) (hy : Al c y) : x < y - tol ↔ x < y := by
  rw [lt_sub_iff_add_lt]; exact t.add_lt hx hy

theorem lt_add (hx : Al c x) (hy : Al c y) : x < y + tol ↔ x ≤ y := by
  have := t.pos; have := t.lt
  constructor
  · intro h
    by_contra hn
    have := Al.add_le t.cpos hy hx (not_le.mp hn); linarith
  · intro h; linarith

theorem sub_lt (hx : Al c x) (hy : Al c y) : x - tol < y ↔ x ≤ y := by
  rw [sub_lt_iff_lt_add]; exact t.lt_add hx hy

theorem add_le (hx : Al c x) (hy : Al c y) : x + tol ≤ y ↔ x < y := by
  rw [← not_lt, t.lt_add hy hx, not_le]

theorem le_add (hx : Al c x) (hy : Al c y) : x ≤ y + tol ↔ x ≤ y := by
  rw [← not_lt, t.add_lt hy hx, not_lt]

theorem tol_lt (hx : Al c x) : tol < x ↔ 0 < x := by
  simpa using t.add_lt Al.zero hx

theorem lt_tol (hx : Al c x) : x < tol ↔ x ≤ 0 := by
  simpa using t.lt_add hx Al.zero

end TolOK

section NewHeight
variable [FloorRing K] [Transc K]

theorem dhMax_al (g : Grid K) (p : SimParam K) : Al g.cellZ (dhMax g p) :=
  ⟨roundAway ((g.cellXY * Transc.tan p.reposeAngle) / g.cellZ), by
    unfold dhMax; simp only [ex_mul, ex_round, ex_div, ex_tan]; ring⟩

/-- The new height of the higher column is on the lattice, and it is the mean of the two heights
plus half the repose height, rounded down by at most half a cell. -/
theorem newHeight_spec {g : Grid K} {tol dh a b : K} (t : TolOK g.cellZ tol) (hd : Al g.cellZ dh)
    (ha : Al g.cellZ a) (hb : Al g.cellZ b) :
    Al g.cellZ (newHeight g tol dh a b) ∧
      (2 * newHeight g tol dh a b = dh + a + b ∨
        2 * newHeight g tol dh a b = dh + a + b - g.cellZ) := by
  obtain ⟨n1, rfl⟩ := hd; obtain ⟨n2, rfl⟩ := ha; obtain ⟨n3, rfl⟩ := hb
  unfold newHeight
  simp only [ex_mul, ex_floor, ex_div, ex_add, ex_ofRat]
  have hc := t.cpos
  have h1 := t.pos; have h2 := t.lt
  refine ⟨⟨_, mul_comm _ _⟩, ?_⟩
  have hd0 : 0 < tol / g.cellZ := div_pos h1 hc
  have hd1 : tol / g.cellZ < 1 / 2 := by rw [div_lt_iff₀ hc]; linarith
  have he : ((((1 / 2 : ℚ) : K)) * ((n1 : K) * g.cellZ + n2 * g.cellZ + n3 * g.cellZ) + tol) / g.cellZ
      = ((n1 + n2 + n3 : ℤ) : K) / 2 + tol / g.cellZ := by
    push_cast; field_simp
  rw [he]
  rcases Int.even_or_odd' (n1 + n2 + n3) with ⟨m, hm | hm⟩
  · left
    have : ⌊((n1 + n2 + n3 : ℤ) : K) / 2 + tol / g.cellZ⌋ = m := by
      rw [Int.floor_eq_iff, hm]; push_cast; constructor <;> linarith
    rw [this]
    have hm' : (n1 : K) + n2 + n3 = 2 * m := by exact_mod_cast hm
    linear_combination (-g.cellZ) * hm'
  · right
    have : ⌊((n1 + n2 + n3 : ℤ) : K) / 2 + tol / g.cellZ⌋ = m := by
      rw [Int.floor_eq_iff, hm]; push_cast; constructor <;> linarith
    rw [this]
    have hm' : (n1 : K) + n2 + n3 = 2 * m + 1 := by exact_mod_cast hm
    linear_combination (-g.cellZ) * hm'

end NewHeight

end Soil
