import Verif.Proof.BodyPos
import Verif.Props.Quaternion

/-! # A body inside a grid, over any numbers with a square root -/

set_option linter.unusedSectionVars false

namespace Soil

variable {K : Type} [Field K] [LinearOrder K] [FloorRing K] [Transc K] [IsStrictOrderedRing K]

/-- 17 × 17 columns of unit cells, heights from -10 to 10 -/
def rGrid (K : Type) [Field K] : Grid K :=
  { halfX := 8, halfY := 8, halfZ := 10, cellXY := 1, cellZ := 1, cellArea := 1, cellVolume := 1,
    vectX := fun i => -8 + i, vectY := fun i => -8 + i, vectZ := fun i => -9 + i }

/-- a bucket or blade two cells wide -/
def rBody (K : Type) [Field K] (kind : BodyKind) : Body K :=
  ⟨kind, ⟨0, 0, 0⟩, ⟨0, 0, -2⟩, ⟨2, 0, -2⟩, 2, ⟨0, 0, 0⟩, ⟨1, 0, 0, 0⟩⟩

/-- parameters -/
def rParam (K : Type) [Field K] : SimParam K := ⟨0, 5, 2⟩

theorem rGrid_z : ZGrid (rGrid K) :=
  ⟨by show (0 : K) < 1; norm_num, fun k _ _ => by simp [rGrid]⟩

theorem rGrid_al : Al (rGrid K).cellZ ((rGrid K).vectZ 0) := ⟨-9, by simp [rGrid]⟩

theorem sqrt_of_sq (hs : SqrtLaw K) {x y : K} (hy : 0 ≤ y) (h : x = y * y) : Transc.sqrt x = y := by
  subst h
  obtain ⟨h1, h2⟩ := hs (y * y) (mul_self_nonneg y)
  nlinarith

theorem rot_one (p : Vec3 K) : calcRotationQuaternion ⟨1, 0, 0, 0⟩ p = p := C05_identity p

theorem rBody_corners (hs : SqrtLaw K) (kind : BodyKind) (a b c : K) :
    calcBodyCornerPos ⟨a, b, c⟩ ⟨1, 0, 0, 0⟩ (rBody K kind) =
      ⟨⟨a, b - 1, c⟩, ⟨a, b + 1, c⟩, ⟨a, b - 1, c - 2⟩, ⟨a, b + 1, c - 2⟩, ⟨a + 2, b - 1, c - 2⟩,
        ⟨a + 2, b + 1, c - 2⟩⟩ := by
  have hn : calcNormal (⟨0, 0, 0⟩ : Vec3 K) ⟨0, 0, -2⟩ ⟨2, 0, -2⟩ = ⟨0, -1, 0⟩ := by
    unfold calcNormal
    simp only [ex_add, ex_sub, ex_mul, ex_div, ex_sqrt]
    have : Transc.sqrt (((0 - 0) * (-2 - 0) - (-2 - 0) * (0 - 0)) *
        ((0 - 0) * (-2 - 0) - (-2 - 0) * (0 - 0)) +
        ((-2 - 0) * (2 - 0) - (0 - 0) * (-2 - 0)) * ((-2 - 0) * (2 - 0) - (0 - 0) * (-2 - 0)) +
        ((0 - 0) * (0 - 0) - (0 - 0) * (2 - 0)) * ((0 - 0) * (0 - 0) - (0 - 0) * (2 - 0)) : K) = 4 :=
      sqrt_of_sq hs (by norm_num) (by norm_num)
    rw [this]
    norm_num
  unfold calcBodyCornerPos
  simp only [rBody, rot_one, hn]
  simp only [Vec3.addF, Vec3.subF, Vec3.smulF, ex_add, ex_sub, ex_mul, ex_ofRat]
  norm_num
  refine ⟨?_, ?_, ?_, ?_⟩ <;> ring_nf <;> simp

theorem rBody_back (hs : SqrtLaw K) (a b c : K) :
    bladeBack (rGrid K) ⟨⟨a, b - 1, c⟩, ⟨a, b + 1, c⟩, ⟨a, b - 1, c - 2⟩, ⟨a, b + 1, c - 2⟩,
      ⟨a + 2, b - 1, c - 2⟩, ⟨a + 2, b + 1, c - 2⟩⟩ =
      ⟨⟨a - 1, b - 1, c⟩, ⟨a - 1, b + 1, c⟩, ⟨a - 1, b - 1, c - 2⟩, ⟨a - 1, b + 1, c - 2⟩,
        ⟨a + 1, b - 1, c - 2⟩, ⟨a + 1, b + 1, c - 2⟩⟩ := by
  have hn : calcNormal (⟨a, b - 1, c⟩ : Vec3 K) ⟨a, b + 1, c⟩ ⟨a, b + 1, c - 2⟩ = ⟨-1, 0, 0⟩ := by
    unfold calcNormal
    simp only [ex_add, ex_sub, ex_mul, ex_div, ex_sqrt, sub_self, sub_zero, zero_mul, mul_zero,
      zero_add, add_zero]
    have : Transc.sqrt ((b + 1 - (b - 1)) * (c - 2 - c) * ((b + 1 - (b - 1)) * (c - 2 - c))) = (4 : K) :=
      sqrt_of_sq hs (by norm_num) (by ring)
    rw [this]
    have : (b + 1 - (b - 1)) * (c - 2 - c) = (-4 : K) := by ring
    rw [this]
    norm_num
  unfold bladeBack
  dsimp only
  rw [hn]
  simp only [Vec3.addF, Vec3.smulF, ex_add, ex_mul, rGrid, mul_zero, add_zero, one_mul]
  simp only [Corners.mk.injEq, Vec3.mk.injEq, and_true]
  refine ⟨?_, ?_, ?_, ?_, ?_, ?_⟩ <;> ring

theorem rBody_vertices (hs : SqrtLaw K) (kind : BodyKind) (a b c : K) :
    ∀ v ∈ bodyVertices (rGrid K) ⟨a, b, c⟩ ⟨1, 0, 0, 0⟩ (rBody K kind),
      (a - 1 ≤ v.x ∧ v.x ≤ a + 2) ∧ (b - 1 ≤ v.y ∧ v.y ≤ b + 1) ∧ (c - 2 ≤ v.z ∧ v.z ≤ c) := by
  unfold bodyVertices
  rw [rBody_corners hs]
  dsimp only
  rw [rBody_back hs]
  unfold Corners.toList
  intro v hv
  cases kind with
  | bucket =>
    simp only [rBody, List.mem_cons, List.not_mem_nil, or_false] at hv
    rcases hv with rfl | rfl | rfl | rfl | rfl | rfl <;> dsimp only <;>
      refine ⟨⟨?_, ?_⟩, ⟨?_, ?_⟩, ⟨?_, ?_⟩⟩ <;> linarith
  | blade =>
    simp only [rBody, List.mem_cons, List.mem_append, List.not_mem_nil, or_false] at hv
    rcases hv with (rfl | rfl | rfl | rfl | rfl | rfl) | (rfl | rfl | rfl | rfl | rfl | rfl) <;>
      dsimp only <;> refine ⟨⟨?_, ?_⟩, ⟨?_, ?_⟩, ⟨?_, ?_⟩⟩ <;> linarith

/-- the body is inside the grid for all positions near the centre -/
theorem rBody_inside (hs : SqrtLaw K) (kind : BodyKind) (a b c : K) (ha : |a| ≤ 4) (hb : |b| ≤ 5)
    (hc : |c| ≤ 6) :
    ∀ v ∈ bodyVertices (rGrid K) ⟨a, b, c⟩ ⟨1, 0, 0, 0⟩ (rBody K kind),
      OffBorder (rGrid K) v ∧ InsideZ (rGrid K) v := by
  intro v hv
  obtain ⟨⟨x1, x2⟩, ⟨y1, y2⟩, ⟨z1, z2⟩⟩ := rBody_vertices hs kind a b c v hv
  rw [abs_le] at ha hb hc
  unfold OffBorder InsideZ idx rGrid
  norm_num
  refine ⟨⟨⟨?_, ?_⟩, ⟨?_, ?_⟩⟩, ⟨?_, ?_⟩⟩ <;> linarith

end Soil
