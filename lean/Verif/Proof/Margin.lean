import Verif.Proof.Near
import Verif.Proof.Reach

/-! # The rasterised body and its soil stay within a margin of the body -/

set_option linter.unusedSectionVars false
set_option linter.unusedSimpArgs false

namespace Soil

/-- Position with the given index coordinates -/
noncomputable def unidx (g : Grid ℝ) (P : Vec3 ℝ) : Vec3 ℝ :=
  ⟨(P.x - g.halfX) * g.cellXY, (P.y - g.halfY) * g.cellXY, (P.z + 1 - g.halfZ) * g.cellZ⟩

theorem dot_seg {g : Grid ℝ} (hc : 0 < g.cellXY) (hz : 0 < g.cellZ) (n a b : Vec3 ℝ) (u : ℝ) :
    dot n (unidx g (segPoint (idx g a) (idx g b) u)) = (1 - u) * dot n a + u * dot n b := by
  unfold unidx segPoint idx dot
  dsimp only
  field_simp
  ring

theorem dot_plane {g : Grid ℝ} (hc : 0 < g.cellXY) (hz : 0 < g.cellZ) (n a b d : Vec3 ℝ) (u v : ℝ) :
    dot n (unidx g (planePoint (idx g a) (edgeIdx g a b) (edgeIdx g a d) u v)) =
      dot n a + u * (dot n b - dot n a) + v * (dot n d - dot n a) := by
  unfold unidx planePoint edgeIdx idx dot
  dsimp only
  field_simp
  ring

theorem dot_nudge (n : Vec3 ℝ) (tol : ℝ) (c : Corners ℝ) :
    (dot n (nudge tol c).jr, dot n (nudge tol c).jl, dot n (nudge tol c).br, dot n (nudge tol c).bl,
      dot n (nudge tol c).tr, dot n (nudge tol c).tl) =
    nudge1 tol (dot n c.jr) (dot n c.jl) (dot n c.br) (dot n c.bl) (dot n c.tr) (dot n c.tl) := by
  unfold nudge nudge1 dot
  simp only [ex_add, ex_sub, ex_mul, Prod.mk.injEq]
  refine ⟨?_, ?_, ?_, ?_, ?_, ?_⟩ <;> ring

/-- In every direction, the three edges along the width are parallel. -/
def Par3 (n : Vec3 ℝ) (c : Corners ℝ) : Prop :=
  dot n c.bl - dot n c.br = dot n c.jl - dot n c.jr ∧ dot n c.tl - dot n c.tr = dot n c.jl - dot n c.jr

theorem cornerSets_par3 (g : Grid ℝ) (pos : Vec3 ℝ) (ori : Quat ℝ) (body : Body ℝ) (n : Vec3 ℝ) :
    ∀ c ∈ cornerSets g pos ori body, Par3 n c := by
  have h0 : Par3 n (calcBodyCornerPos pos ori body) := by
    unfold Par3 calcBodyCornerPos Vec3.addF Vec3.subF dot
    simp only [ex_add, ex_sub]
    constructor <;> ring
  have h1 : Par3 n (bladeBack g (calcBodyCornerPos pos ori body)) := by
    generalize calcBodyCornerPos pos ori body = c at h0 ⊢
    unfold Par3 dot at h0 ⊢
    unfold bladeBack Vec3.addF
    simp only [ex_add, ex_sub]
    constructor
    · linear_combination h0.1
    · linear_combination h0.2
  unfold cornerSets
  cases body.kind <;> simp [h0, h1]

theorem quad_le {M E a b d u v a0 b0 c0 d0 : ℝ} (hE : 0 ≤ E) (hu : 0 ≤ u ∧ u ≤ 1)
    (hv : 0 ≤ v ∧ v ≤ 1) (ha : a ≤ M) (hb : b ≤ M) (hd : d ≤ M) (hc : c0 ≤ M)
    (ea : |a - a0| ≤ E) (eb : |b - b0| ≤ E) (ed : |d - d0| ≤ E) (hp : b0 + d0 - a0 = c0) :
    a + u * (b - a) + v * (d - a) ≤ M + 3 * E := by
  have e : a + u * (b - a) + v * (d - a) =
      (1 - u) * (1 - v) * a + u * (1 - v) * b + (1 - u) * v * d + u * v * (b + d - a) := by ring
  have h4 : b + d - a ≤ M + 3 * E := by
    have := abs_le.mp ea; have := abs_le.mp eb; have := abs_le.mp ed
    linarith
  have w1 : 0 ≤ (1 - u) * (1 - v) := mul_nonneg (by linarith [hu.2]) (by linarith [hv.2])
  have w2 : 0 ≤ u * (1 - v) := mul_nonneg hu.1 (by linarith [hv.2])
  have w3 : 0 ≤ (1 - u) * v := mul_nonneg (by linarith [hu.2]) hv.1
  have w4 : 0 ≤ u * v := mul_nonneg hu.1 hv.1
  rw [e]
  have k1 := mul_le_mul_of_nonneg_left (show a ≤ M + 3 * E by linarith) w1
  have k2 := mul_le_mul_of_nonneg_left (show b ≤ M + 3 * E by linarith) w2
  have k3 := mul_le_mul_of_nonneg_left (show d ≤ M + 3 * E by linarith) w3
  have k4 := mul_le_mul_of_nonneg_left h4 w4
  have : (1 - u) * (1 - v) * (M + 3 * E) + u * (1 - v) * (M + 3 * E) + (1 - u) * v * (M + 3 * E) +
      u * v * (M + 3 * E) = M + 3 * E := by ring
  linarith

/-- A quadrilateral with sides along the width -/
theorem quad_support {g : Grid ℝ} (hc : 0 < g.cellXY) (hz : 0 < g.cellZ) {tol : ℝ} (ht : 0 ≤ tol)
    {n a b c d a0 b0 c0 d0 : Vec3 ℝ} {M E : ℝ} (hE : 0 ≤ E) (ha : dot n a ≤ M) (hb : dot n b ≤ M)
    (hc1 : dot n c ≤ M) (hd : dot n d ≤ M) (hc0 : dot n c0 ≤ M) (ea : |dot n a - dot n a0| ≤ E)
    (eb : |dot n b - dot n b0| ≤ E) (ed : |dot n d - dot n d0| ≤ E)
    (hp : dot n b0 + dot n d0 - dot n a0 = dot n c0) {P : Vec3 ℝ}
    (hP : (Face.quad a b c d).OnEdge g P ∨ (Face.quad a b c d).Inner g tol P) :
    dot n (unidx g P) ≤ M + 3 * E := by
  have conv : ∀ {x y u : ℝ}, x ≤ M → y ≤ M → 0 ≤ u → u ≤ 1 → (1 - u) * x + u * y ≤ M + 3 * E := by
    intro x y u hx hy h0 h1
    have k1 := mul_le_mul_of_nonneg_left hx (sub_nonneg.mpr h1)
    have k2 := mul_le_mul_of_nonneg_left hy h0
    linarith
  rcases hP with ⟨e, he, u, u0, u1, rfl⟩ | hP
  · rw [dot_seg hc hz]
    simp only [Face.edges, List.mem_cons, List.not_mem_nil, or_false] at he
    rcases he with rfl | rfl | rfl | rfl <;> exact conv (by assumption) (by assumption) u0 u1
  · cases hP with
    | quad h =>
      rw [dot_plane hc hz]
      obtain ⟨h1, h2, h3, h4⟩ := h
      exact quad_le hE ⟨by linarith, by linarith⟩ ⟨by linarith, by linarith⟩ ha hb hd hc0
        ea eb ed hp

theorem tri_support {g : Grid ℝ} (hc : 0 < g.cellXY) (hz : 0 < g.cellZ) {tol : ℝ} (ht : 0 ≤ tol)
    {n a b c : Vec3 ℝ} {M E : ℝ} (hE : 0 ≤ E) (ha : dot n a ≤ M) (hb : dot n b ≤ M)
    (hc1 : dot n c ≤ M) {P : Vec3 ℝ}
    (hP : (Face.tri a b c).OnEdge g P ∨ (Face.tri a b c).Inner g tol P) :
    dot n (unidx g P) ≤ M + 3 * E := by
  have conv : ∀ {x y u : ℝ}, x ≤ M → y ≤ M → 0 ≤ u → u ≤ 1 → (1 - u) * x + u * y ≤ M + 3 * E := by
    intro x y u hx hy h0 h1
    have k1 := mul_le_mul_of_nonneg_left hx (sub_nonneg.mpr h1)
    have k2 := mul_le_mul_of_nonneg_left hy h0
    linarith
  rcases hP with ⟨e, he, u, u0, u1, rfl⟩ | hP
  · rw [dot_seg hc hz]
    simp only [Face.edges, List.mem_cons, List.not_mem_nil, or_false] at he
    rcases he with rfl | rfl | rfl <;> exact conv (by assumption) (by assumption) u0 u1
  · cases hP with
    | @tri a b c u v h =>
      rw [dot_plane hc hz]
      obtain ⟨h1, h2, h3⟩ := h
      have k1 := mul_le_mul_of_nonneg_left ha (show 0 ≤ 1 - u - v by linarith)
      have k2 := mul_le_mul_of_nonneg_left hb (show 0 ≤ u by linarith)
      have k3 := mul_le_mul_of_nonneg_left hc1 (show 0 ≤ v by linarith)
      linarith

/-- The faces extend in every direction as far as the vertices, up to a multiple of the tolerance. -/
theorem face_support {g : Grid ℝ} (hc : 0 < g.cellXY) (hz : 0 < g.cellZ) {tol : ℝ} (ht : 0 ≤ tol)
    (ht' : tol ≤ 1 / 3) {pos : Vec3 ℝ} {ori : Quat ℝ} {body : Body ℝ} {n : Vec3 ℝ} {m M : ℝ}
    (hv : ∀ v ∈ bodyVertices g pos ori body, m ≤ dot n v ∧ dot n v ≤ M) {f : Face ℝ}
    (hf : f ∈ bodyFaces g tol pos ori body) {P : Vec3 ℝ} (hP : f.OnEdge g P ∨ f.Inner g tol P) :
    dot n (unidx g P) ≤ M + 9 * tol * (M - m) := by
  have key : ∀ c : Corners ℝ, c ∈ cornerSets g pos ori body →
      let c' := nudge tol c
      let E := 3 * tol * (M - m)
      Par3 n c ∧ 0 ≤ E ∧ (dot n c.jl ≤ M ∧ dot n c.tl ≤ M) ∧
      ((dot n c'.jr ≤ M ∧ dot n c'.jl ≤ M) ∧ (dot n c'.br ≤ M ∧ dot n c'.bl ≤ M) ∧
        (dot n c'.tr ≤ M ∧ dot n c'.tl ≤ M)) ∧
      (|dot n c'.jr - dot n c.jr| ≤ E ∧ |dot n c'.br - dot n c.br| ≤ E ∧ |dot n c'.bl - dot n c.bl| ≤ E ∧
        |dot n c'.tr - dot n c.tr| ≤ E ∧ |dot n c'.tl - dot n c.tl| ≤ E) := by
    intro c hcm
    have h : ∀ v ∈ c.toList, m ≤ dot n v ∧ dot n v ≤ M := fun v hv' => hv v (by
      rw [bodyVertices_eq]; exact List.mem_flatMap.mpr ⟨c, hcm, hv'⟩)
    unfold Corners.toList at h
    simp only [List.mem_cons, List.not_mem_nil, or_false, forall_eq_or_imp, forall_eq] at h
    obtain ⟨h1, h2, h3, h4, h5, h6⟩ := h
    have A := nudge1_mem ht ht' h1 h2 h3 h4 h5 h6
    have B := nudge1_move ht ht' h1 h2 h3 h4 h5 h6
    rw [← dot_nudge] at A B
    dsimp only at A B ⊢
    refine ⟨cornerSets_par3 g pos ori body n c hcm, ?_, ⟨h2.2, h6.2⟩, ⟨⟨A.1.2, A.2.1.2⟩,
      ⟨A.2.2.1.2, A.2.2.2.1.2⟩, ⟨A.2.2.2.2.1.2, A.2.2.2.2.2.2⟩⟩, B.1, B.2.2.1, B.2.2.2.1, B.2.2.2.2.1,
      B.2.2.2.2.2⟩
    exact mul_nonneg (by linarith) (by linarith [h1.1, h1.2])
  have e9 : M + 9 * tol * (M - m) = M + 3 * (3 * tol * (M - m)) := by ring
  rw [e9]
  unfold bodyFaces at hf
  unfold cornerSets at key
  cases hk : body.kind with
  | bucket =>
    rw [hk] at hf key
    dsimp only at hf
    obtain ⟨p3, hE, ⟨jl, tl⟩, ⟨⟨a1, a2⟩, ⟨a3, a4⟩, a5, a6⟩, b1, b3, b4, b5, b6⟩ :=
      key _ (List.mem_cons_self)
    simp only [bucketFaces, List.mem_cons, List.not_mem_nil, or_false] at hf
    rcases hf with rfl | rfl | rfl | rfl
    · exact quad_support hc hz ht hE a3 a4 a6 a5 tl b3 b4 b5 (by linarith [p3.1, p3.2]) hP
    · exact quad_support hc hz ht hE a3 a4 a2 a1 jl b3 b4 b1 (by linarith [p3.1, p3.2]) hP
    · exact tri_support hc hz ht hE a1 a3 a5 hP
    · exact tri_support hc hz ht hE a2 a4 a6 hP
  | blade =>
    rw [hk] at hf key
    dsimp only at hf
    obtain ⟨p3, hE, ⟨jl, tl⟩, ⟨⟨a1, a2⟩, ⟨a3, a4⟩, a5, a6⟩, b1, b3, b4, b5, b6⟩ :=
      key _ (List.mem_cons_self)
    obtain ⟨p3', -, ⟨jl', tl'⟩, ⟨⟨a1', a2'⟩, ⟨a3', a4'⟩, a5', a6'⟩, b1', b3', b4', b5', b6'⟩ :=
      key _ (List.mem_cons_of_mem _ List.mem_cons_self)
    simp only [bladeFaces, List.mem_cons, List.not_mem_nil, or_false] at hf
    rcases hf with rfl | rfl | rfl | rfl
    · exact quad_support hc hz ht hE a3 a4 a2 a1 jl b3 b4 b1 (by linarith [p3.1, p3.2]) hP
    · exact quad_support hc hz ht hE a3' a4' a2' a1' jl' b3' b4' b1' (by linarith [p3'.1, p3'.2]) hP
    · exact quad_support hc hz ht hE a5 a6 a2 a1 jl b5 b6 b1 (by linarith [p3.1, p3.2]) hP
    · exact quad_support hc hz ht hE a5' a6' a2' a1' jl' b5' b6' b1' (by linarith [p3'.1, p3'.2]) hP

/-! ## The cells -/

theorem dot_add_right (n a b : Vec3 ℝ) : dot n (vadd a b) = dot n a + dot n b := by
  unfold dot vadd; ring

theorem len_le_margin {d : Vec3 ℝ} {c z : ℝ} (hc : 0 < c) (hz : 0 < z) (hx : |d.x| ≤ 2 * c)
    (hy : |d.y| ≤ 2 * c) (hd : |d.z| ≤ 5 / 2 * z) : len d ≤ 3 * c + 5 / 2 * z := by
  refine abs_le_of_sq_le_sq' (a := len d) ?_ (by positivity) |>.2
  rw [len_sq]
  unfold dot
  have a := sq_le_sq' (abs_le.mp hx).1 (abs_le.mp hx).2
  have b := sq_le_sq' (abs_le.mp hy).1 (abs_le.mp hy).2
  have e := sq_le_sq' (abs_le.mp hd).1 (abs_le.mp hd).2
  nlinarith [mul_pos hc hz]

/-- A height of a cell of the walls -/
theorem cell_dot {g : Grid ℝ} (hzg : ZGrid g) (hc : 0 < g.cellXY) (C : Centred g) {i j k : ℤ} {y : ℝ}
    (hi : 0 ≤ i) (hj : 0 ≤ j) (hk : 0 ≤ k) (hk' : k ≤ 2 * g.halfZ) (hy : InCell g k y) {P : Vec3 ℝ}
    (hP : NearCell (i, j, k) P) (n : Vec3 ℝ) :
    dot n ⟨g.vectX i, g.vectY j, y⟩ ≤ dot n (unidx g P) + len n * (3 * g.cellXY + 5 / 2 * g.cellZ) := by
  have hz := hzg.pos
  obtain ⟨px, py, p1, p2⟩ := hP
  dsimp only at px py p1 p2
  have e : (⟨g.vectX i, g.vectY j, y⟩ : Vec3 ℝ) =
      vadd (unidx g P) (vsub ⟨g.vectX i, g.vectY j, y⟩ (unidx g P)) := by
    unfold vadd vsub; apply Vec3.ext' <;> dsimp only <;> ring
  have col : ∀ {v x half : ℝ} {i : ℤ}, |v - (i - half) * g.cellXY| ≤ g.cellXY / 2 → |x - i| ≤ 3 / 2 →
      |v - (x - half) * g.cellXY| ≤ 2 * g.cellXY := by
    intro v x half i h1 h2
    obtain ⟨a1, a2⟩ := abs_le.mp h1
    obtain ⟨b1, b2⟩ := abs_le.mp h2
    have c1 := mul_le_mul_of_nonneg_right b1 hc.le
    have c2 := mul_le_mul_of_nonneg_right b2 hc.le
    rw [abs_le]; constructor <;> linarith
  have hl : len (vsub ⟨g.vectX i, g.vectY j, y⟩ (unidx g P)) ≤ 3 * g.cellXY + 5 / 2 * g.cellZ := by
    refine len_le_margin hc hz (col (C.x i hi) px) (col (C.y j hj) py) ?_
    obtain ⟨y1, y2⟩ := hy
    rw [hzg.step k hk hk'] at y1 y2
    obtain ⟨d1, d2⟩ := abs_le.mp C.z
    have c1 := mul_le_mul_of_nonneg_right p1 hz.le
    have c2 := mul_le_mul_of_nonneg_right p2 hz.le
    unfold vsub unidx
    dsimp only
    rw [abs_le]; constructor <;> linarith
  calc dot n ⟨g.vectX i, g.vectY j, y⟩
      = dot n (unidx g P) + dot n (vsub ⟨g.vectX i, g.vectY j, y⟩ (unidx g P)) := by
        rw [← dot_add_right, ← e]
    _ ≤ dot n (unidx g P) + len n * len (vsub ⟨g.vectX i, g.vectY j, y⟩ (unidx g P)) := by
        linarith [dot_le_len n (vsub ⟨g.vectX i, g.vectY j, y⟩ (unidx g P))]
    _ ≤ _ := by linarith [mul_le_mul_of_nonneg_left hl (len_nonneg n)]

theorem exists_max (f : Vec3 ℝ → ℝ) (l : List (Vec3 ℝ)) (hl : l ≠ []) :
    ∃ v ∈ l, ∃ w ∈ l, ∀ u ∈ l, f w ≤ f u ∧ f u ≤ f v := by
  cases l with
  | nil => exact absurd rfl hl
  | cons a l =>
    have h1 := maxL_mem (f a) (l.map f)
    have h2 := minL_mem (f a) (l.map f)
    rw [← List.map_cons] at h1 h2
    obtain ⟨v, hv, ev⟩ := List.mem_map.mp h1
    obtain ⟨w, hw, ew⟩ := List.mem_map.mp h2
    refine ⟨v, hv, w, hw, fun u hu => ?_⟩
    have : f u ∈ f a :: l.map f := by rw [← List.map_cons]; exact List.mem_map_of_mem hu
    exact ⟨ew ▸ minL_le this, ev ▸ le_maxL this⟩

theorem bodyVertices_ne (g : Grid ℝ) (pos : Vec3 ℝ) (ori : Quat ℝ) (body : Body ℝ) :
    bodyVertices g pos ori body ≠ [] := by
  unfold bodyVertices Corners.toList
  cases body.kind <;> simp

/-- Every occupied height of the rasterised body is within the margin of the vertices, in every
direction. -/
theorem raster_support {g : Grid ℝ} {p : SimParam ℝ} {tol : ℝ} (S : Setup g p tol) (C : Centred g)
    (hsm : 18 * tol * ((g.halfX + g.halfY) * g.cellXY + g.halfZ * g.cellZ) ≤ g.cellZ)
    {pos : Vec3 ℝ} {ori : Quat ℝ} {body : Body ℝ}
    (hbx : ∀ v ∈ bodyVertices g pos ori body, |v.x| ≤ g.halfX * g.cellXY ∧ |v.y| ≤ g.halfY * g.cellXY ∧
      |v.z| ≤ g.halfZ * g.cellZ)
    (hoff : PoseOff g body (pos, ori)) {fuel : ℕ} {s s' : SimOut ℝ} (hs : Sound g s)
    (h : calcBodyPos fuel s pos ori g body p tol = .ok s') {i j : ℤ} {x : ℝ} (hij : s'.InGrid i j)
    (ho : Occ s' i j x) (n : Vec3 ℝ) :
    ∃ v ∈ bodyVertices g pos ori body,
      dot n ⟨g.vectX i, g.vectY j, x⟩ ≤ dot n v + margin g * len n := by
  have hc := S.cellXY
  have hz := S.zgrid.pos
  obtain ⟨v, hv, w, hw, hvw⟩ := exists_max (dot n) _ (bodyVertices_ne g pos ori body)
  refine ⟨v, hv, ?_⟩
  obtain ⟨zlo, zhi, hzb⟩ := exists_bounds
    ((nudgedVertices g tol pos ori body).map (fun v => (idx g v).z) ++
      (cornerSets g pos ori body).flatMap fun c => paraZ g (nudge tol c))
  obtain ⟨-, walls, hwl, hcell, hull, -⟩ := calcBodyPos_full sqrtLaw_real S.zgrid hc S.level S.tolPos
    S.tolThird S.buffer hs.size hs.inArea hs.wf.bodyOK.al hoff (zlo := zlo) (zhi := zhi)
    (fun v hv => hzb _ (List.mem_append_left _ (List.mem_map_of_mem hv)))
    (fun c hc z hz => by
      have := hzb z (List.mem_append_right _ (List.mem_flatMap.mpr ⟨c, hc, hz⟩))
      constructor <;> linarith) h
  have hdiam : dot n v - dot n w ≤ len n * (2 * ((g.halfX + g.halfY) * g.cellXY + g.halfZ * g.cellZ)) := by
    have e : dot n v - dot n w = dot n (vsub v w) := by unfold dot vsub; ring
    rw [e]
    refine (dot_le_len n _).trans (mul_le_mul_of_nonneg_left ?_ (len_nonneg n))
    obtain ⟨vx, vy, vz⟩ := hbx v hv
    obtain ⟨wx, wy, wz⟩ := hbx w hw
    have b : ∀ {a b r : ℝ}, |a| ≤ r → |b| ≤ r → |a - b| ≤ 2 * r := by
      intro a b r ha hb
      have := abs_sub a b
      linarith
    have l1 : len (vsub v w) ≤ |(vsub v w).x| + |(vsub v w).y| + |(vsub v w).z| := by
      refine abs_le_of_sq_le_sq' (a := len _) ?_ (by positivity) |>.2
      rw [len_sq]
      unfold dot
      nlinarith [sq_abs (vsub v w).x, sq_abs (vsub v w).y, sq_abs (vsub v w).z, abs_nonneg (vsub v w).x,
        abs_nonneg (vsub v w).y, abs_nonneg (vsub v w).z,
        mul_nonneg (abs_nonneg (vsub v w).x) (abs_nonneg (vsub v w).y),
        mul_nonneg (abs_nonneg (vsub v w).x) (abs_nonneg (vsub v w).z),
        mul_nonneg (abs_nonneg (vsub v w).y) (abs_nonneg (vsub v w).z)]
    have := b vx wx
    have := b vy wy
    have := b vz wz
    unfold vsub at l1 ⊢
    dsimp only at l1
    linarith
  have hn := len_nonneg n
  have hnud : 9 * tol * (dot n v - dot n w) ≤ len n * g.cellZ := by
    have h1 := mul_le_mul_of_nonneg_left hdiam (show 0 ≤ 9 * tol by linarith [S.tolPos])
    have h2 := mul_le_mul_of_nonneg_left hsm hn
    nlinarith
  have key : ∀ y, (∃ n, (∃ w ∈ walls, (i, j, n) ∈ w) ∧ InCell g n y) →
      dot n ⟨g.vectX i, g.vectY j, y⟩ ≤ dot n v + margin g * len n := by
    rintro y ⟨k, ⟨wl, hwm, hm⟩, hy⟩
    obtain ⟨f, hf, P, hP, near⟩ := walls_near sqrtLaw_real S.tolPos.le hwl wl hwm _ hm
    have hC := (hcell wl hwm _ hm).1
    have h1 := face_support hc hz S.tolPos.le S.tolThird hvw hf hP
    have h2 := cell_dot S.zgrid hc C hij.1 hij.2.2.1 hC.2.1 hC.2.2 hy near n
    unfold margin
    nlinarith [mul_nonneg hn hz.le]
  obtain ⟨a, b, ha, hb, h1, h2⟩ := hull i j x hij ho
  have k1 := key a h1
  have k2 := key b h2
  unfold dot at k1 k2 ⊢
  dsimp only at k1 k2 ⊢
  rcases le_total 0 n.z with h0 | h0
  · have := mul_le_mul_of_nonneg_left hb h0
    linarith
  · have := mul_le_mul_of_nonpos_left ha h0
    linarith

/-! ## Poses -/

theorem bodyVertices_posed (g : Grid ℝ) (pos : Vec3 ℝ) {ori : Quat ℝ} (hq : qnormSq ori ≠ 0)
    (body : Body ℝ) :
    bodyVertices g pos ori body = (bodyVertices g ⟨0, 0, 0⟩ qone body).map (posed pos ori) := by
  have h1 : qnormSq (qone : Quat ℝ) ≠ 0 := by simp [qnormSq, qone]
  have p0 : ∀ v, posed ⟨0, 0, 0⟩ qone v = v := by
    intro v
    unfold posed
    rw [C05_identity]
    unfold vadd
    apply Vec3.ext' <;> simp
  have hc : calcBodyCornerPos pos ori body =
      ⟨posed pos ori (calcBodyCornerPos ⟨0, 0, 0⟩ qone body).jr,
        posed pos ori (calcBodyCornerPos ⟨0, 0, 0⟩ qone body).jl,
        posed pos ori (calcBodyCornerPos ⟨0, 0, 0⟩ qone body).br,
        posed pos ori (calcBodyCornerPos ⟨0, 0, 0⟩ qone body).bl,
        posed pos ori (calcBodyCornerPos ⟨0, 0, 0⟩ qone body).tr,
        posed pos ori (calcBodyCornerPos ⟨0, 0, 0⟩ qone body).tl⟩ := by
    rw [C09_rigid pos ori body hq, C09_rigid ⟨0, 0, 0⟩ qone body h1]
    simp only [p0]
  unfold bodyVertices
  dsimp only
  rw [hc]
  generalize calcBodyCornerPos ⟨0, 0, 0⟩ qone body = c
  have hb : ∀ v, (posed pos ori v).addF (Vec3.smulF g.cellXY (calcNormal (posed pos ori c.jr)
      (posed pos ori c.jl) (posed pos ori c.bl))) =
      posed pos ori (v.addF (Vec3.smulF g.cellXY (calcNormal c.jr c.jl c.bl))) := by
    intro v
    have e : calcNormal (posed pos ori c.jr) (posed pos ori c.jl) (posed pos ori c.bl) =
        calcRotationQuaternion ori (calcNormal c.jr c.jl c.bl) := C08_equivariant ori hq pos _ _ _
    rw [e]
    have a : ∀ u w : Vec3 ℝ, u.addF w = vadd u w := fun _ _ => rfl
    have b : ∀ (k : ℝ) (w : Vec3 ℝ), Vec3.smulF k w = vsmul k w := fun _ _ => rfl
    rw [a, a, b, b, ← (C05_linear ori hq _ ⟨0, 0, 0⟩ _).2]
    unfold posed
    rw [(C05_linear ori hq _ _ 0).1]
    unfold vadd
    apply Vec3.ext' <;> dsimp only <;> ring
  cases body.kind with
  | bucket => simp [Corners.toList]
  | blade =>
    simp only [Corners.toList, bladeBack, hb, List.map_append, List.map_cons, List.map_nil]

theorem dot_posed {ori : Quat ℝ} (hq : qnormSq ori ≠ 0) (pos n v : Vec3 ℝ) :
    dot (calcRotationQuaternion ori n) (posed pos ori v) =
      dot n v + dot (calcRotationQuaternion ori n) pos := by
  unfold posed
  rw [dot_add_right, C05_dot ori hq]

/-- Rotations are onto. -/
theorem rot_surj {ori : Quat ℝ} (hq : qnormSq ori ≠ 0) (m : Vec3 ℝ) :
    ∃ n, calcRotationQuaternion ori n = m := by
  have hc : qnormSq (qconj ori) ≠ 0 := by
    have : qnormSq (qconj ori) = qnormSq ori := by simp [qnormSq, qconj]
    rwa [this]
  refine ⟨calcRotationQuaternion (qconj ori) m, ?_⟩
  rw [C05_compose _ _ hc hq, (C04_laws ori ori ori 0).2.2.2.2.2.2.2.2.2]
  have : (⟨qnormSq ori, 0, 0, 0⟩ : Quat ℝ) = qsmul (qnormSq ori) qone := by
    simp [qsmul, qone]
  rw [this, C05_scale qone (by simp [qnormSq, qone]) _ hq, C05_identity]

/-- In the frame of the body, the entry is within the margin of the vertices in every direction. -/
def Close (g : Grid ℝ) (body : Body ℝ) (e : BodySoil ℝ) : Prop :=
  ∀ n, ∃ v ∈ bodyVertices g ⟨0, 0, 0⟩ qone body, dot n ⟨e.xb, e.yb, e.zb⟩ ≤ dot n v + margin g * len n

theorem movedTo_eq (pos : Vec3 ℝ) (ori : Quat ℝ) (e : BodySoil ℝ) :
    movedTo pos ori e = posed pos ori ⟨e.xb, e.yb, e.zb⟩ := rfl

theorem close_of {g : Grid ℝ} {body : Body ℝ} {e : BodySoil ℝ} {pos : Vec3 ℝ} {ori : Quat ℝ}
    (hq : qnormSq ori ≠ 0) (h : ∀ n, ∃ v ∈ bodyVertices g pos ori body,
      dot n (movedTo pos ori e) ≤ dot n v + margin g * len n) : Close g body e := by
  intro n
  obtain ⟨v, hv, hn⟩ := h (calcRotationQuaternion ori n)
  rw [bodyVertices_posed g pos hq] at hv
  obtain ⟨v0, hv0, rfl⟩ := List.mem_map.mp hv
  refine ⟨v0, hv0, ?_⟩
  rw [movedTo_eq, dot_posed hq, dot_posed hq, len_rot hq] at hn
  linarith

theorem Close.moved {g : Grid ℝ} {body : Body ℝ} {e : BodySoil ℝ} {pos : Vec3 ℝ} {ori : Quat ℝ}
    (hq : qnormSq ori ≠ 0) (h : Close g body e) (n : Vec3 ℝ) : ∃ v ∈ bodyVertices g pos ori body,
      dot n (movedTo pos ori e) ≤ dot n v + margin g * len n := by
  obtain ⟨n, rfl⟩ := rot_surj hq n
  obtain ⟨v, hv, hn⟩ := h n
  refine ⟨posed pos ori v, ?_, ?_⟩
  · rw [bodyVertices_posed g pos hq]; exact List.mem_map_of_mem hv
  · rw [movedTo_eq, dot_posed hq, dot_posed hq, len_rot hq]
    linarith

theorem margin_pos {g : Grid ℝ} (_ : 0 < g.cellXY) (hz : 0 < g.cellZ) :
    3 * g.cellXY ≤ margin g := by unfold margin; linarith

theorem off_of' {c v k half : ℝ} (hc : 0 < c) (hd : |v| < (half - k) * c) :
    k < v / c + half ∧ v / c + half < 2 * half - k :=
  off_of (p := 0) (r := |v|) hc (by simp) (by simpa using hd)

theorem Clear.poseOff {g : Grid ℝ} {body : Body ℝ} (hc : 0 < g.cellXY) (hz : 0 < g.cellZ)
    {q : Vec3 ℝ × Quat ℝ} (hq : Clear g body q) : PoseOff g body q := by
  intro v hv
  have hm := margin_pos hc hz
  have a := off_of' (k := 3 / 2) (half := g.halfX) hc (v := v.x) (by linarith [hq.x v hv])
  have b := off_of' (k := 3 / 2) (half := g.halfY) hc (v := v.y) (by linarith [hq.y v hv])
  exact ⟨⟨a.1.le, a.2⟩, ⟨b.1.le, b.2⟩⟩

theorem Clear.insideZ {g : Grid ℝ} {body : Body ℝ} (hz : 0 < g.cellZ)
    {q : Vec3 ℝ × Quat ℝ} (hq : Clear g body q) : ∀ v ∈ bodyVertices g q.1 q.2 body, InsideZ g v := by
  intro v hv
  have a := off_of' (k := 1) (half := g.halfZ) hz (v := v.z) (hq.z v hv)
  unfold InsideZ idx
  dsimp only
  constructor <;> linarith

theorem Clear.box {g : Grid ℝ} {body : Body ℝ} (hc : 0 < g.cellXY) (hz : 0 < g.cellZ)
    {q : Vec3 ℝ × Quat ℝ} (hq : Clear g body q) : ∀ v ∈ bodyVertices g q.1 q.2 body,
      |v.x| ≤ g.halfX * g.cellXY ∧ |v.y| ≤ g.halfY * g.cellXY ∧ |v.z| ≤ g.halfZ * g.cellZ := by
  intro v hv
  have hm := margin_pos hc hz
  exact ⟨by linarith [hq.x v hv], by linarith [hq.y v hv], by linarith [hq.z v hv]⟩

theorem len_unit : len ⟨1, 0, 0⟩ = 1 ∧ len ⟨-1, 0, 0⟩ = 1 ∧ len ⟨0, 1, 0⟩ = 1 ∧ len ⟨0, -1, 0⟩ = 1 := by
  unfold len dot; simp

theorem Clear.carried {g : Grid ℝ} {body : Body ℝ} (hc : 0 < g.cellXY) {q : Vec3 ℝ × Quat ℝ}
    (hq : Clear g body q) {l : List (BodySoil ℝ)} (hl : ∀ e ∈ l, 0 < e.h → Close g body e) :
    CarriedInside g q.1 q.2 l := by
  intro e he hp
  have h := (hl e he hp).moved (pos := q.1) hq.ori
  obtain ⟨l1, l2, l3, l4⟩ := len_unit
  set X := movedTo q.1 q.2 e
  have hx : |X.x| < (g.halfX - 1 / 2) * g.cellXY := by
    obtain ⟨v, hv, h1⟩ := h ⟨1, 0, 0⟩
    obtain ⟨w, hw, h2⟩ := h ⟨-1, 0, 0⟩
    have a := hq.x v hv
    have b := hq.x w hw
    rw [l1] at h1
    rw [l2] at h2
    unfold dot at h1 h2
    dsimp only at h1 h2
    rw [abs_lt]
    constructor
    · linarith [neg_abs_le w.x]
    · linarith [le_abs_self v.x]
  have hy : |X.y| < (g.halfY - 1 / 2) * g.cellXY := by
    obtain ⟨v, hv, h1⟩ := h ⟨0, 1, 0⟩
    obtain ⟨w, hw, h2⟩ := h ⟨0, -1, 0⟩
    have a := hq.y v hv
    have b := hq.y w hw
    rw [l3] at h1
    rw [l4] at h2
    unfold dot at h1 h2
    dsimp only at h1 h2
    rw [abs_lt]
    constructor
    · linarith [neg_abs_le w.y]
    · linarith [le_abs_self v.y]
  have a := off_of' hc hx
  have b := off_of' hc hy
  unfold idx
  dsimp only
  exact ⟨⟨a.1.le, a.2⟩, b.1.le, b.2⟩

/-- The invariant of the records over one step -/
theorem step_close {g : Grid ℝ} {p : SimParam ℝ} {tol : ℝ} (S : Setup g p tol) (C : Centred g)
    (hsm : 18 * tol * ((g.halfX + g.halfY) * g.cellXY + g.halfZ * g.cellZ) ≤ g.cellZ) {body : Body ℝ}
    {pos : Vec3 ℝ} {ori : Quat ℝ} (hq : Clear g body (pos, ori)) {fuel : ℕ} {w : World ℝ}
    (hs : Sound g w.out) (hl : ∀ e ∈ w.out.bodySoilPos, 0 < e.h → Close g body e) {r : StepResult ℝ}
    (hr : step fuel pos ori g body p tol w = .ok r) :
    ∀ e ∈ r.world.out.bodySoilPos, 0 < e.h → Close g body e := by
  intro e he hp
  have hoff := hq.poseOff S.cellXY S.zgrid.pos
  rcases C47_step sqrtLaw_real g p tol S fuel pos ori hq.ori body hoff w hs r hr e he hp with
    ⟨e0, m0, p0, hx, hy, hz⟩ | hon
  · have := hl e0 m0 p0
    unfold Close at this ⊢
    rwa [hx, hy, hz]
  · have hS' := (step_sound sqrtLaw_real S fuel pos ori body hoff w hs r hr).1
    rcases step_raster hr with heq | ⟨s, h1, hb, hg⟩
    · rw [heq] at he
      exact hl e he hp
    · have hord := hS'.wf.bodyOK.order _ _ _ hon.inGrid hon.layer hon.present
      have hpr : HasBody s e.ind e.ii e.jj := by
        have := hon.present
        unfold HasBody at this ⊢
        rwa [hb] at this
      refine close_of (pos := pos) hq.ori fun n => ?_
      have hpl := hon.place
      dsimp only at hpl
      rw [hpl]
      refine raster_support S C hsm (hq.box S.cellXY S.zgrid.pos) hoff hs h1 (hg _ _ hon.inGrid) ?_ n
      rw [hb] at hord ⊢
      exact ⟨e.ind, hon.layer, hpr, hord.le, le_rfl⟩

/-- A history of clear poses returns. -/
theorem run_clear {g : Grid ℝ} {p : SimParam ℝ} {tol : ℝ} (S : Setup g p tol) (C : Centred g)
    (hsm : 18 * tol * ((g.halfX + g.halfY) * g.cellXY + g.halfZ * g.cellZ) ≤ g.cellZ)
    (qs : List (Vec3 ℝ × Quat ℝ)) {body : Body ℝ} (hq : ∀ q ∈ qs, Clear g body q) {w : World ℝ}
    (hs : Sound g w.out) (hl : ∀ e ∈ w.out.bodySoilPos, 0 < e.h → Close g body e) :
    ∃ r N, ∀ fuel, N ≤ fuel → run fuel g p tol qs body w = .ok r := by
  have hsz : 0 ≤ g.halfX → 0 ≤ g.halfY → 18 * tol * g.halfZ ≤ 1 := by
    intro hx hy
    have hz := S.zgrid.pos
    have e1 : (0 : ℝ) ≤ (g.halfX + g.halfY) * g.cellXY := mul_nonneg (by exact_mod_cast add_nonneg hx hy) S.cellXY.le
    have e2 : 18 * tol * g.halfZ * g.cellZ ≤ 1 * g.cellZ := by
      have := mul_nonneg (show 0 ≤ 18 * tol by linarith [S.tolPos]) e1
      linarith
    exact le_of_mul_le_mul_right e2 hz
  induction qs generalizing body w with
  | nil => exact ⟨_, 0, fun _ _ => rfl⟩
  | cons q qs ih =>
    obtain ⟨pos, ori⟩ := q
    have hd := hq _ List.mem_cons_self
    have hoff := hd.poseOff S.cellXY S.zgrid.pos
    have hX : 0 ≤ g.halfX ∧ 0 ≤ g.halfY := by
      obtain ⟨v, hv⟩ := List.exists_mem_of_ne_nil _ (bodyVertices_ne g pos ori body)
      have hm := margin_pos S.cellXY S.zgrid.pos
      have a := hd.x v hv
      have b := hd.y v hv
      have c : ∀ {x h : ℝ}, |x| + margin g < (h - 1 / 2) * g.cellXY → 0 ≤ h := by
        intro x h hlt
        by_contra hn
        push Not at hn
        have := S.cellXY
        nlinarith [abs_nonneg x]
      exact ⟨by exact_mod_cast c a, by exact_mod_cast c b⟩
    obtain ⟨N, hN⟩ := step_ok sqrtLaw_real S (hsz hX.1 hX.2) pos ori body hoff
      (hd.insideZ S.zgrid.pos) w hs (hd.carried S.cellXY hl)
    obtain ⟨r, hr⟩ := hN N le_rfl
    have hw := step_close S C hsm hd hs hl hr
    have hS := (step_sound sqrtLaw_real S N pos ori body hoff w hs r hr).1
    have Hb : ∀ pos ori, bodyVertices g pos ori r.body = bodyVertices g pos ori body := by
      intro pos' ori'
      cases hu : r.updated with
      | false => rw [((C12_step N pos ori g body p tol w r hr).1 hu).2]
      | true =>
        rw [(C12_step N pos ori g body p tol w r hr).2 hu]
        rfl
    obtain ⟨r', N', h'⟩ := ih (body := r.body) (fun q hm => by
      have := hq q (List.mem_cons_of_mem _ hm)
      exact ⟨this.ori, by rw [Hb]; exact this.x, by rw [Hb]; exact this.y, by rw [Hb]; exact this.z⟩) hS
      (fun e he hp => by
        unfold Close
        rw [Hb]
        exact hw e he hp)
    refine ⟨r', max N N', fun fuel hf => ?_⟩
    unfold run
    rw [step_ext (le_trans (le_max_left _ _) hf) pos ori g body p tol w r hr, ok_bind]
    exact h' fuel (le_trans (le_max_right _ _) hf)

end Soil
