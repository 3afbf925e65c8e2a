import Verif.Proof.BodyExample
import Verif.Props.Line
import Verif.Props.Walls

/-!
# C18: recomputing the position of the body
-/

set_option linter.unusedSectionVars false

namespace Soil

variable {K : Type} [Field K] [LinearOrder K] [FloorRing K] [Transc K] [IsStrictOrderedRing K]

/-- **C18.** For any previous state and any pose for which `CalcBodyPos` returns, and any box
containing the vertices of the body (in index coordinates): only the body heights and the active area
change; the active area lies in `[1, 2 * half_length]` and in the box extended by the buffer; a column
more than a cell and a half outside the box holds no body if it was in the previous active area, and
keeps what it held otherwise. -/
theorem C18_erases (hs : SqrtLaw K) (fuel : ℕ) (s s' : SimOut K) (pos : Vec3 K) (ori : Quat K)
    (g : Grid K) (body : Body K) (p : SimParam K) (tol : K) (hc : 0 < g.cellXY) (hz : 0 < g.cellZ)
    (ht : 0 ≤ tol) (ht' : tol ≤ 1 / 3) (B : Box3 K)
    (hB : ∀ v ∈ bodyVertices g pos ori body, B.Has (idx g v))
    (h : calcBodyPos fuel s pos ori g body p tol = .ok s') :
    s' = { s with body := s'.body, bodyArea := s'.bodyArea } ∧
    (1 ≤ s'.bodyArea.minX ∧ s'.bodyArea.maxX ≤ 2 * g.halfX ∧
      1 ≤ s'.bodyArea.minY ∧ s'.bodyArea.maxY ≤ 2 * g.halfY) ∧
    (B.xlo - p.cellBuffer - 1 / 2 ≤ s'.bodyArea.minX ∧
      s'.bodyArea.maxX ≤ B.xhi + p.cellBuffer + 1 / 2 ∧
      B.ylo - p.cellBuffer - 1 / 2 ≤ s'.bodyArea.minY ∧
      s'.bodyArea.maxY ≤ B.yhi + p.cellBuffer + 1 / 2) ∧
    ∀ i j : ℤ, ¬ ((B.xlo - 3 / 2 ≤ i ∧ i ≤ B.xhi + 3 / 2) ∧ (B.ylo - 3 / 2 ≤ j ∧ j ≤ B.yhi + 3 / 2)) →
      (s.bodyArea.Has i j → ∀ k, k < 4 → s'.body k i j = 0) ∧
      (¬ s.bodyArea.Has i j → ∀ k, s'.body k i j = s.body k i j) := by
  obtain ⟨zlo, zhi, hzb⟩ := exists_bounds
    ((nudgedVertices g tol pos ori body).map (fun v => (idx g v).z) ++
      (cornerSets g pos ori body).flatMap fun c => paraZ g (nudge tol c))
  obtain ⟨N, walls, xlo, xhi, ylo, yhi, -, hrun, hne, hf, ⟨-, v1, m1, e1⟩, ⟨-, v2, m2, e2⟩,
    ⟨-, v3, m3, e3⟩, ⟨-, v4, m4, e4⟩⟩ := calcBodyPos_struct hs pos ori g body p tol ht hc zlo zhi
    (fun v hv => hzb _ (List.mem_append_left _ (List.mem_map_of_mem hv)))
    (fun c hc z hz => by
      have := hzb z (List.mem_append_right _ (List.mem_flatMap.mpr ⟨c, hc, hz⟩))
      constructor <;> linarith)
  have hB' := nudgedVertices_in hc hz ht ht' hB
  obtain ⟨s1, h1, -, h2⟩ := hrun s fuel s' h
  obtain ⟨r1, r2, r3, r4⟩ := resetBody_spec _ _ _ h1
  have hx1 : B.xlo ≤ xlo := by rw [← e1]; exact (hB' v1 m1).1.1
  have hx2 : xhi ≤ B.xhi := by rw [← e2]; exact (hB' v2 m2).1.2
  have hy1 : B.ylo ≤ ylo := by rw [← e3]; exact (hB' v3 m3).2.1.1
  have hy2 : yhi ≤ B.yhi := by rw [← e4]; exact (hB' v4 m4).2.1.2
  obtain ⟨o1, o2⟩ := updateWalls_only (P := fun i j => (B.xlo - 3 / 2 ≤ (i : K) ∧ (i : K) ≤ B.xhi + 3 / 2) ∧
    (B.ylo - 3 / 2 ≤ (j : K) ∧ (j : K) ≤ B.yhi + 3 / 2)) walls _ s' (by
      intro w hw x hx
      obtain ⟨q, rfl, ⟨a1, a2⟩, ⟨b1, b2⟩, -⟩ := hf w hw x hx
      have c1 := abs_le.mp (abs_roundAway_sub_le q.x)
      have c2 := abs_le.mp (abs_roundAway_sub_le q.y)
      dsimp only at a1 a2 b1 b2 ⊢
      constructor <;> constructor <;> linarith) h2
  have hba : s'.bodyArea = ⟨max (roundAway (xlo - p.cellBuffer)) 1,
        min (roundAway (xhi + p.cellBuffer)) (2 * g.halfX),
        max (roundAway (ylo - p.cellBuffer)) 1, min (roundAway (yhi + p.cellBuffer)) (2 * g.halfY)⟩ := by
    rw [o1]
  refine ⟨?_, ?_, ?_, ?_⟩
  · conv_lhs => rw [o1, r1]
    rw [hba]
  · rw [hba]
    exact ⟨le_max_right _ _, min_le_right _ _, le_max_right _ _, min_le_right _ _⟩
  · rw [hba]
    have c1 := abs_le.mp (abs_roundAway_sub_le (xlo - p.cellBuffer))
    have c2 := abs_le.mp (abs_roundAway_sub_le (xhi + p.cellBuffer))
    have c3 := abs_le.mp (abs_roundAway_sub_le (ylo - p.cellBuffer))
    have c4 := abs_le.mp (abs_roundAway_sub_le (yhi + p.cellBuffer))
    dsimp only
    push_cast
    refine ⟨le_max_of_le_left ?_, min_le_of_left_le ?_, le_max_of_le_left ?_, min_le_of_left_le ?_⟩ <;>
      linarith
  · intro i j hij
    constructor
    · intro hin k hk
      rw [o2 k i j hij]
      exact r2 (i, j) (Area.mem_cells.mpr hin) k hk
    · intro hout k
      rw [o2 k i j hij]
      exact r3 (i, j) (fun hm => hout (Area.mem_cells.mp hm)) k

/-- **C18**, body away from the border of the grid: if the previous body lay in the previous active
area, so does the new body in the new one, and it satisfies the conventions: heights on the lattice,
layers of positive thickness, separated, and not on the border of the grid. -/
theorem C18_new_body (hs : SqrtLaw K) (fuel : ℕ) (s s' : SimOut K) (pos : Vec3 K) (ori : Quat K)
    (g : Grid K) (body : Body K) (p : SimParam K) (tol : K) (hzg : ZGrid g) (hc : 0 < g.cellXY)
    (hA : Al g.cellZ (g.vectZ 0)) (ht : 0 < tol) (ht' : tol ≤ 1 / 3) (hb : 2 ≤ p.cellBuffer)
    (hsz : SameSize g s) (hIn : BodyInArea s)
    (hal : ∀ k i j, s.InGrid i j → Al g.cellZ (s.body k i j))
    (hoff : ∀ v ∈ bodyVertices g pos ori body, OffBorder g v)
    (h : calcBodyPos fuel s pos ori g body p tol = .ok s') :
    BodyOK g.cellZ s' ∧ BodyInArea s' ∧ AreaInside s'.bodyArea s' := by
  have := calcBodyPos_post hs hzg hc hA ht ht' hb hsz hIn hal hoff h
  exact ⟨this.bodyOK, this.inArea, this.area⟩

/-- **C18**: `CalcBodyPos` returns normally, after finitely many iterations, for every pose that
leaves the body inside the grid. -/
theorem C18_safe (hs : SqrtLaw K) (s : SimOut K) (pos : Vec3 K) (ori : Quat K)
    (g : Grid K) (body : Body K) (p : SimParam K) (tol : K) (hzg : ZGrid g) (hc : 0 < g.cellXY)
    (hA : Al g.cellZ (g.vectZ 0)) (ht : 0 < tol) (ht' : tol ≤ 1 / 3)
    (hsm : 18 * tol * g.halfZ ≤ 1) (hb : 2 ≤ p.cellBuffer)
    (hsz : SameSize g s) (hIn : BodyInArea s) (harea : AreaInside s.bodyArea s)
    (hal : ∀ k i j, s.InGrid i j → Al g.cellZ (s.body k i j))
    (hoff : ∀ v ∈ bodyVertices g pos ori body, OffBorder g v)
    (hin : ∀ v ∈ bodyVertices g pos ori body, InsideZ g v) :
    ∃ N, ∀ fuel, N ≤ fuel → ∃ s', calcBodyPos fuel s pos ori g body p tol = .ok s' :=
  calcBodyPos_ok hs hzg hc hA ht ht' hsm hb hsz hIn harea hal hoff hin

/-! ## The hypotheses can be met: a bucket or a blade anywhere near the centre of a grid -/

theorem fresh_bodyInArea (g : Grid K) : BodyInArea (mkSimOut g) := by
  rintro k i j - - (h | h) <;> exact absurd (by simp [mkSimOut]) h

theorem fresh_area (g : Grid K) : AreaInside (mkSimOut g).bodyArea (mkSimOut g) := by
  unfold AreaInside mkSimOut
  dsimp only
  omega

theorem fresh_al (g : Grid K) (c : K) : ∀ k i j, (mkSimOut g).InGrid i j →
    Al c ((mkSimOut g).body k i j) := fun _ _ _ _ => ⟨0, by simp [mkSimOut]⟩

example (kind : BodyKind) (a b c : ℝ) (ha : |a| ≤ 4) (hb : |b| ≤ 5) (hc : |c| ≤ 6) :
    ∃ N, ∀ fuel, N ≤ fuel → ∃ s', calcBodyPos fuel (mkSimOut (rGrid ℝ)) ⟨a, b, c⟩ ⟨1, 0, 0, 0⟩
      (rGrid ℝ) (rBody ℝ kind) (rParam ℝ) (1 / 100000) = .ok s' ∧ BodyOK 1 s' ∧ BodyInArea s' := by
  have hin := rBody_inside sqrtLaw_real kind a b c ha hb hc
  obtain ⟨N, hN⟩ := C18_safe sqrtLaw_real (mkSimOut (rGrid ℝ)) ⟨a, b, c⟩ ⟨1, 0, 0, 0⟩ (rGrid ℝ)
    (rBody ℝ kind) (rParam ℝ) (1 / 100000) rGrid_z (by norm_num [rGrid]) rGrid_al (by norm_num)
    (by norm_num) (by norm_num [rGrid]) (by norm_num [rParam]) ⟨rfl, rfl⟩ (fresh_bodyInArea _)
    (fresh_area _) (fresh_al _ _) (fun v hv => (hin v hv).1) (fun v hv => (hin v hv).2)
  refine ⟨N, fun fuel hf => ?_⟩
  obtain ⟨s', hs'⟩ := hN fuel hf
  have := C18_new_body sqrtLaw_real fuel _ s' _ _ _ _ (rParam ℝ) _ rGrid_z (by norm_num [rGrid]) rGrid_al
    (by norm_num) (by norm_num) (by norm_num [rParam]) ⟨rfl, rfl⟩ (fresh_bodyInArea _) (fresh_al _ _)
    (fun v hv => (hin v hv).1) hs'
  exact ⟨s', hs', this.1, this.2.1⟩

/-- the box of C18 exists -/
example (g : Grid ℝ) (pos : Vec3 ℝ) (ori : Quat ℝ) (body : Body ℝ) :
    ∃ B : Box3 ℝ, ∀ v ∈ bodyVertices g pos ori body, B.Has (idx g v) := exists_box g _

end Soil
