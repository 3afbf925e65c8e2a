import Verif.Model.Utils
import Verif.Model.Real
import Mathlib.Algebra.Quaternion

/-! # Geometric vocabulary -/

namespace Soil

open Quaternion

variable {K : Type} [Field K]

/-- sum of two vectors -/
def vadd (a b : Vec3 K) : Vec3 K := ⟨a.x + b.x, a.y + b.y, a.z + b.z⟩

/-- difference of two vectors -/
def vsub (a b : Vec3 K) : Vec3 K := ⟨a.x - b.x, a.y - b.y, a.z - b.z⟩

/-- multiple of a vector -/
def vsmul (k : K) (a : Vec3 K) : Vec3 K := ⟨k * a.x, k * a.y, k * a.z⟩

/-- dot product -/
def dot (a b : Vec3 K) : K := a.x * b.x + a.y * b.y + a.z * b.z

/-- cross product -/
def cross (a b : Vec3 K) : Vec3 K :=
  ⟨a.y * b.z - a.z * b.y, a.z * b.x - a.x * b.z, a.x * b.y - a.y * b.x⟩

/-- squared norm of a quaternion -/
def qnormSq (q : Quat K) : K := q.q0 ^ 2 + q.q1 ^ 2 + q.q2 ^ 2 + q.q3 ^ 2

/-- conjugate quaternion -/
def qconj (q : Quat K) : Quat K := ⟨q.q0, -q.q1, -q.q2, -q.q3⟩

/-- multiple of a quaternion -/
def qsmul (k : K) (q : Quat K) : Quat K := ⟨k * q.q0, k * q.q1, k * q.q2, k * q.q3⟩

/-- sum of two quaternions -/
def qadd (a b : Quat K) : Quat K := ⟨a.q0 + b.q0, a.q1 + b.q1, a.q2 + b.q2, a.q3 + b.q3⟩

/-- the unit quaternion -/
def qone : Quat K := ⟨1, 0, 0, 0⟩

/-- Mathlib's Hamilton quaternion with the same components -/
def toHamilton (q : Quat K) : ℍ[K] := ⟨q.q0, q.q1, q.q2, q.q3⟩

/-- Euclidean distance -/
noncomputable def edist3 (a b : Vec3 ℝ) : ℝ := Real.sqrt (dot (vsub a b) (vsub a b))

/-- rotation by `θ` about the X axis -/
noncomputable def rotX (θ : ℝ) (p : Vec3 ℝ) : Vec3 ℝ :=
  ⟨p.x, Real.cos θ * p.y - Real.sin θ * p.z, Real.sin θ * p.y + Real.cos θ * p.z⟩

/-- rotation by `θ` about the Y axis -/
noncomputable def rotY (θ : ℝ) (p : Vec3 ℝ) : Vec3 ℝ :=
  ⟨Real.cos θ * p.x + Real.sin θ * p.z, p.y, -Real.sin θ * p.x + Real.cos θ * p.z⟩

/-- rotation by `θ` about the Z axis -/
noncomputable def rotZ (θ : ℝ) (p : Vec3 ℝ) : Vec3 ℝ :=
  ⟨Real.cos θ * p.x - Real.sin θ * p.y, Real.sin θ * p.x + Real.cos θ * p.y, p.z⟩

/-- The six corners of a body -/
noncomputable def cornerFns : List (Corners ℝ → Vec3 ℝ) :=
  [Corners.jr, Corners.jl, Corners.br, Corners.bl, Corners.tr, Corners.tl]

end Soil
