import Verif.Spec.Line

/-! # Parallelograms and triangles, in index coordinates -/

namespace Soil

variable {K : Type} [Field K] [LinearOrder K]

/-- The point `a + u • ab + v • ad` -/
def planePoint (a ab ad : Vec3 K) (u v : K) : Vec3 K :=
  ⟨a.x + u * ab.x + v * ad.x, a.y + u * ab.y + v * ad.y, a.z + u * ab.z + v * ad.z⟩

/-- Horizontal area spanned by two vectors; it vanishes when the plane is vertical -/
def hDet (ab ad : Vec3 K) : K := ab.x * ad.y - ab.y * ad.x

/-- Coefficients of the points of a parallelogram, up to a margin -/
def RectMargin (tol u v : K) : Prop := tol < u ∧ u < 1 - tol ∧ tol < v ∧ v < 1 - tol

/-- Coefficients of the points of a triangle, up to a margin -/
def TriMargin (tol u v : K) : Prop := tol < u ∧ tol < v ∧ u + v < 1 - tol

/-- Edge between two positions in index coordinates -/
def edgeIdx (g : Grid K) (a b : Vec3 K) : Vec3 K :=
  ⟨(idx g b).x - (idx g a).x, (idx g b).y - (idx g a).y, (idx g b).z - (idx g a).z⟩

/-- Cell `c` is one of the four cells around the vertical line through `(m + 1/2, n + 1/2)` and `z` is
one of its heights -/
def Around (m n : ℤ) (z : K) (c : ℤ × ℤ × ℤ) : Prop :=
  (c.1 = m ∨ c.1 = m + 1) ∧ (c.2.1 = n ∨ c.2.1 = n + 1) ∧ c.2.2 - 1 < z ∧ z ≤ c.2.2

end Soil
