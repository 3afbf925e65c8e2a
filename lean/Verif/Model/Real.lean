import Verif.Model.Num
import Mathlib.Analysis.SpecialFunctions.Trigonometric.Basic
import Mathlib.Analysis.SpecialFunctions.Sqrt
import Mathlib.Algebra.Order.Floor.Ring
import Mathlib.Algebra.Order.Archimedean.Real.Basic

/-! # Real-number instance of the transcendental functions -/

namespace Soil

/-- The real functions -/
noncomputable instance : Transc ℝ := ⟨Real.sqrt, Real.sin, Real.cos, Real.tan, Real.pi⟩

end Soil
