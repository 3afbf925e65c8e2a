import Verif.Spec.Footprint
import Verif.Spec.Plane
import Verif.Spec.Column

/-! # Faces of the body -/

namespace Soil

variable {K : Type} [Field K] [LinearOrder K]

/-- A face: the quadrilateral `abcd` or the triangle `abc` -/
inductive Face (K : Type) where
  | quad (a b c d : Vec3 K)
  | tri (a b c : Vec3 K)

/-- The sides of a face -/
def Face.edges : Face K → List (Vec3 K × Vec3 K)
  | .quad a b c d => [(a, b), (b, c), (c, d), (d, a)]
  | .tri a b c => [(a, b), (b, c), (c, a)]

/-- The corners of a face -/
def Face.vertices : Face K → List (Vec3 K)
  | .quad a b c d => [a, b, c, d]
  | .tri a b c => [a, b, c]

/-- The two edges at the first corner, in index coordinates -/
def Face.span (g : Grid K) : Face K → Vec3 K × Vec3 K
  | .quad a b _ d => (edgeIdx g a b, edgeIdx g a d)
  | .tri a b c => (edgeIdx g a b, edgeIdx g a c)

/-- The face is not vertical -/
def Face.Flat (g : Grid K) (f : Face K) : Prop := hDet (f.span g).1 (f.span g).2 ≠ 0

/-- Points on the sides of a face, in index coordinates -/
def Face.OnEdge (g : Grid K) (f : Face K) (P : Vec3 K) : Prop :=
  ∃ e ∈ f.edges, ∃ u, 0 ≤ u ∧ u ≤ 1 ∧ P = segPoint (idx g e.1) (idx g e.2) u

/-- Points inside a face, by a margin, in index coordinates. A quadrilateral is identified with the
parallelogram spanned by the edges at its first corner. -/
inductive Face.Inner (g : Grid K) (tol : K) : Face K → Vec3 K → Prop
  | quad {a b c d u v} : RectMargin tol u v →
      Face.Inner g tol (.quad a b c d) (planePoint (idx g a) (edgeIdx g a b) (edgeIdx g a d) u v)
  | tri {a b c u v} : TriMargin tol u v →
      Face.Inner g tol (.tri a b c) (planePoint (idx g a) (edgeIdx g a b) (edgeIdx g a c) u v)

/-- The point is horizontally in the bounding box of the corners, or outside it by less than half a
cell. (This only matters for quadrilaterals that are not parallelograms.) -/
def Face.InBox (g : Grid K) (f : Face K) (P : Vec3 K) : Prop :=
  ((∃ v ∈ f.vertices, (idx g v).x < P.x + 1 / 2) ∧ ∃ v ∈ f.vertices, P.x < (idx g v).x + 1 / 2) ∧
  ((∃ v ∈ f.vertices, (idx g v).y < P.y + 1 / 2) ∧ ∃ v ∈ f.vertices, P.y < (idx g v).y + 1 / 2)

/-- Bucket: base, back, right and left side -/
def bucketFaces (c : Corners K) : List (Face K) :=
  [.quad c.br c.bl c.tl c.tr, .quad c.br c.bl c.jl c.jr, .tri c.jr c.br c.tr, .tri c.jl c.bl c.tl]

/-- Blade: from joint to base and from joint to teeth, in front (`c`) and behind (`b`) -/
def bladeFaces (c b : Corners K) : List (Face K) :=
  [.quad c.br c.bl c.jl c.jr, .quad b.br b.bl b.jl b.jr,
    .quad c.tr c.tl c.jl c.jr, .quad b.tr b.tl b.jl b.jr]

variable [FloorRing K] [Transc K]

/-- The faces of the body in a pose. The vertices are first moved inwards by a multiple of the
tolerance (C44_nudge). -/
def bodyFaces (g : Grid K) (tol : K) (pos : Vec3 K) (ori : Quat K) (body : Body K) : List (Face K) :=
  let c := calcBodyCornerPos pos ori body
  match body.kind with
  | .bucket => bucketFaces (nudge tol c)
  | .blade => bladeFaces (nudge tol c) (nudge tol (bladeBack g c))

/-- The height of index coordinate `z` -/
def heightOf (g : Grid K) (z : K) : K := g.vectZ 0 + z * g.cellZ

end Soil
