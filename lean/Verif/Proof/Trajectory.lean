import Verif.Model.Example
import Verif.Proof.Basic
import Verif.Props.Quaternion
import Verif.Props.Construct

/-! # The trajectory of the example program -/

namespace Soil

theorem trajX_eq (xi xmin : ℝ) (nn k : ℕ) :
    trajX xi xmin nn k = xi + k * (2 * (xmin - xi) / ((nn - 1 : ℤ) : ℝ)) := by
  simp [trajX, ex_add, ex_mul, ex_div, ex_sub]

/-- The parabola in vertex form -/
theorem parabola_eq {xi zi xmin zmin : ℝ} (hx : xi ≠ xmin) (hz : xmin = 0 ∨ zi ≠ zmin) (x : ℝ) :
    (parabola xi zi xmin zmin).1 * x * x + (parabola xi zi xmin zmin).2.1 * x + (parabola xi zi xmin zmin).2.2 =
      zmin + (zi - zmin) * ((x - xmin) / (xi - xmin)) ^ 2 ∧
    2 * (parabola xi zi xmin zmin).1 * x + (parabola xi zi xmin zmin).2.1 =
      2 * (zi - zmin) * (x - xmin) / (xi - xmin) ^ 2 := by
  have hd : xi - xmin ≠ 0 := sub_ne_zero.mpr hx
  by_cases h0 : xmin = 0
  · subst h0
    have hxi : xi ≠ 0 := hx
    simp [parabola, ex_sub, ex_mul, ex_div]
    constructor <;> field_simp
    ring
  · have hz' : zi - zmin ≠ 0 := sub_ne_zero.mpr (hz.resolve_left h0)
    have hz'' : zmin - zi ≠ 0 := by rw [← neg_sub]; exact neg_ne_zero.mpr hz'
    simp [parabola, ex_sub, ex_mul, ex_div, ex_neg, ex_add, h0]
    constructor
    · field_simp
      ring
    · field_simp
      ring

theorem shippedBody_bucket : (shippedBody .bucket : M (Body ℝ)) = .ok
    ⟨.bucket, ⟨0, 0, 0⟩, ⟨0, 0, -1 / 2⟩, ⟨7 / 10, 0, -1 / 2⟩, 1 / 2, ⟨0, 0, 0⟩, ⟨0, 0, 0, 0⟩⟩ := by
  have h := C02_body_accepts (K := ℝ) .bucket ⟨0, 0, 0⟩ ⟨0, 0, 0⟩ ⟨0, 0, -1 / 2⟩ ⟨7 / 10, 0, -1 / 2⟩ (1 / 2)
    (by constructor <;> norm_num)
  unfold shippedBody
  norm_num at h ⊢
  rw [h]

theorem shippedBody_blade : (shippedBody .blade : M (Body ℝ)) = .ok
    ⟨.blade, ⟨9 / 10, 0, 1 / 5⟩, ⟨3 / 4, 0, 3 / 2⟩, ⟨8 / 5, 0, -2 / 5⟩, 9 / 2, ⟨0, 0, 0⟩, ⟨0, 0, 0, 0⟩⟩ := by
  have h := C02_body_accepts (K := ℝ) .blade ⟨0, 0, 0⟩ ⟨9 / 10, 0, 1 / 5⟩ ⟨3 / 4, 0, 3 / 2⟩ ⟨8 / 5, 0, -2 / 5⟩ (9 / 2)
    (by constructor <;> norm_num)
  unfold shippedBody
  norm_num at h ⊢
  rw [h]

end Soil
