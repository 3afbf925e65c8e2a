import Verif.Props.BodyPos
import Verif.Props.Walls
import Verif.Proof.Shape

/-! # C44: the rasterised body follows the faces of the body -/

set_option linter.unusedSectionVars false
set_option linter.unusedSimpArgs false

namespace Soil

variable {K : Type} [Field K] [LinearOrder K] [FloorRing K] [Transc K] [IsStrictOrderedRing K]

theorem inCell_height {g : Grid K} (hz : ZGrid g) {n : ℤ} (h0 : 0 ≤ n) (h1 : n ≤ 2 * g.halfZ) {z : K}
    (hl : (n : K) - 1 ≤ z) (hu : z ≤ n) : InCell g n (heightOf g z) := by
  unfold InCell heightOf
  rw [hz.step n h0 h1]
  have a := mul_le_mul_of_nonneg_right hl hz.pos.le
  have b := mul_le_mul_of_nonneg_right hu hz.pos.le
  rw [sub_mul, one_mul] at a
  constructor <;> linarith

/-- **C44**, sides. When `CalcBodyPos` returns, each point of each side of each face of the body is in
the body written to one of the columns that it touches (side starting in general position, as in
C16). -/
theorem C44_edges (hs : SqrtLaw K) (fuel : ℕ) (s s' : SimOut K) (pos : Vec3 K) (ori : Quat K)
    (g : Grid K) (body : Body K) (p : SimParam K) (tol : K) (hzg : ZGrid g) (hc : 0 < g.cellXY)
    (hA : Al g.cellZ (g.vectZ 0)) (ht : 0 < tol) (ht' : tol ≤ 1 / 3) (hb : 2 ≤ p.cellBuffer)
    (hsz : SameSize g s) (hIn : BodyInArea s)
    (hal : ∀ k i j, s.InGrid i j → Al g.cellZ (s.body k i j))
    (hoff : ∀ v ∈ bodyVertices g pos ori body, OffBorder g v)
    (h : calcBodyPos fuel s pos ori g body p tol = .ok s') :
    ∀ f ∈ bodyFaces g tol pos ori body, ∀ e ∈ f.edges, StartGeneric (idx g e.1) (idx g e.2) →
      ∀ u, 0 ≤ u → u ≤ 1 → ∃ i j : ℤ, |(segPoint (idx g e.1) (idx g e.2) u).x - i| ≤ 1 / 2 ∧
        |(segPoint (idx g e.1) (idx g e.2) u).y - j| ≤ 1 / 2 ∧
        Occ s' i j (heightOf g (segPoint (idx g e.1) (idx g e.2) u).z) := by
  obtain ⟨zlo, zhi, hzb⟩ := exists_bounds
    ((nudgedVertices g tol pos ori body).map (fun v => (idx g v).z) ++
      (cornerSets g pos ori body).flatMap fun c => paraZ g (nudge tol c))
  obtain ⟨-, walls, hw, hcell, -, hcov⟩ := calcBodyPos_full hs hzg hc hA ht ht' hb hsz hIn hal hoff
    (zlo := zlo) (zhi := zhi)
    (fun v hv => hzb _ (List.mem_append_left _ (List.mem_map_of_mem hv)))
    (fun c hc z hz => by
      have := hzb z (List.mem_append_right _ (List.mem_flatMap.mpr ⟨c, hc, hz⟩))
      constructor <;> linarith) h
  intro f hf e he hg u hu hu'
  obtain ⟨w, hwm, hF⟩ := forall₂_left (wallsOf_faces hs ht.le hw) f hf
  obtain ⟨c, hcm, t1, t2, t3, t4⟩ := hF.edge e he hg u hu hu'
  have hC := (hcell w hwm c hcm).1
  exact ⟨c.1, c.2.1, t1, t2, hcov w hwm c hcm _ (inCell_height hzg hC.2.1 hC.2.2 t3 t4)⟩

/-- **C44**, inside. Where the vertical line between four columns meets a face (by the margin), its four
columns hold body at that height. -/
theorem C44_inside (hs : SqrtLaw K) (fuel : ℕ) (s s' : SimOut K) (pos : Vec3 K) (ori : Quat K)
    (g : Grid K) (body : Body K) (p : SimParam K) (tol : K) (hzg : ZGrid g) (hc : 0 < g.cellXY)
    (hA : Al g.cellZ (g.vectZ 0)) (ht : 0 < tol) (ht' : tol ≤ 1 / 3) (hb : 2 ≤ p.cellBuffer)
    (hsz : SameSize g s) (hIn : BodyInArea s)
    (hal : ∀ k i j, s.InGrid i j → Al g.cellZ (s.body k i j))
    (hoff : ∀ v ∈ bodyVertices g pos ori body, OffBorder g v)
    (h : calcBodyPos fuel s pos ori g body p tol = .ok s') :
    ∀ f ∈ bodyFaces g tol pos ori body, f.Flat g → ∀ P, f.Inner g tol P → f.InBox g P →
      ∀ m n : ℤ, P.x = m + 1 / 2 → P.y = n + 1 / 2 → ∀ i j, (i = m ∨ i = m + 1) → (j = n ∨ j = n + 1) →
        Occ s' i j (heightOf g P.z) := by
  obtain ⟨zlo, zhi, hzb⟩ := exists_bounds
    ((nudgedVertices g tol pos ori body).map (fun v => (idx g v).z) ++
      (cornerSets g pos ori body).flatMap fun c => paraZ g (nudge tol c))
  obtain ⟨-, walls, hw, hcell, -, hcov⟩ := calcBodyPos_full hs hzg hc hA ht ht' hb hsz hIn hal hoff
    (zlo := zlo) (zhi := zhi)
    (fun v hv => hzb _ (List.mem_append_left _ (List.mem_map_of_mem hv)))
    (fun c hc z hz => by
      have := hzb z (List.mem_append_right _ (List.mem_flatMap.mpr ⟨c, hc, hz⟩))
      constructor <;> linarith) h
  intro f hf hflat P hP hbox m n hx hy i j hi hj
  obtain ⟨w, hwm, hF⟩ := forall₂_left (wallsOf_faces hs ht.le hw) f hf
  have hm := hF.inner hflat P hP hbox m n hx hy i j hi hj
  have hC := (hcell w hwm _ hm).1
  refine hcov w hwm _ hm _ (inCell_height hzg hC.2.1 hC.2.2 ?_ (Int.le_ceil _))
  have := Int.ceil_lt_add_one P.z
  dsimp only
  linarith

/-- **C44**, nothing else. If all sides start in general position, then below and above each height of
the body written to a column there are points of the faces over that column, at most one cell
away. -/
theorem C44_only (hs : SqrtLaw K) (fuel : ℕ) (s s' : SimOut K) (pos : Vec3 K) (ori : Quat K)
    (g : Grid K) (body : Body K) (p : SimParam K) (tol : K) (hzg : ZGrid g) (hc : 0 < g.cellXY)
    (hA : Al g.cellZ (g.vectZ 0)) (ht : 0 < tol) (ht' : tol ≤ 1 / 3) (hb : 2 ≤ p.cellBuffer)
    (hsz : SameSize g s) (hIn : BodyInArea s)
    (hal : ∀ k i j, s.InGrid i j → Al g.cellZ (s.body k i j))
    (hoff : ∀ v ∈ bodyVertices g pos ori body, OffBorder g v)
    (hgen : ∀ f ∈ bodyFaces g tol pos ori body, ∀ e ∈ f.edges, StartGeneric (idx g e.1) (idx g e.2))
    (h : calcBodyPos fuel s pos ori g body p tol = .ok s') :
    ∀ i j x, s'.InGrid i j → Occ s' i j x →
      (∃ f ∈ bodyFaces g tol pos ori body, ∃ P, (f.OnEdge g P ∨ f.Inner g tol P) ∧
        |P.x - i| ≤ 1 / 2 ∧ |P.y - j| ≤ 1 / 2 ∧ heightOf g P.z ≤ x + g.cellZ) ∧
      (∃ f ∈ bodyFaces g tol pos ori body, ∃ P, (f.OnEdge g P ∨ f.Inner g tol P) ∧
        |P.x - i| ≤ 1 / 2 ∧ |P.y - j| ≤ 1 / 2 ∧ x ≤ heightOf g P.z + g.cellZ) := by
  obtain ⟨zlo, zhi, hzb⟩ := exists_bounds
    ((nudgedVertices g tol pos ori body).map (fun v => (idx g v).z) ++
      (cornerSets g pos ori body).flatMap fun c => paraZ g (nudge tol c))
  obtain ⟨-, walls, hw, hcell, hull, -⟩ := calcBodyPos_full hs hzg hc hA ht ht' hb hsz hIn hal hoff
    (zlo := zlo) (zhi := zhi)
    (fun v hv => hzb _ (List.mem_append_left _ (List.mem_map_of_mem hv)))
    (fun c hc z hz => by
      have := hzb z (List.mem_append_right _ (List.mem_flatMap.mpr ⟨c, hc, hz⟩))
      constructor <;> linarith) h
  have key : ∀ i j y, (∃ n, (∃ w ∈ walls, (i, j, n) ∈ w) ∧ InCell g n y) →
      ∃ f ∈ bodyFaces g tol pos ori body, ∃ P, (f.OnEdge g P ∨ f.Inner g tol P) ∧
        |P.x - i| ≤ 1 / 2 ∧ |P.y - j| ≤ 1 / 2 ∧ heightOf g P.z ≤ y + g.cellZ ∧
        y ≤ heightOf g P.z + g.cellZ := by
    rintro i j y ⟨n, ⟨w, hwm, hm⟩, y1, y2⟩
    obtain ⟨f, hf, hF⟩ := forall₂_right (wallsOf_faces hs ht.le hw) w hwm
    obtain ⟨P, hP, t1, t2, t3, t4⟩ := hF.only (hgen f hf) _ hm
    have hC := (hcell w hwm _ hm).1
    obtain ⟨z1, z2⟩ := inCell_height hzg hC.2.1 hC.2.2 t3 t4
    refine ⟨f, hf, P, ?_, t1, t2, ?_, ?_⟩
    · rcases hP with q | q
      · exact .inl q
      · exact .inr q.2
    · dsimp only at z1 z2; linarith
    · dsimp only at z1 z2; linarith
  intro i j x hij hocc
  obtain ⟨a, b, ha, hb', h1, h2⟩ := hull i j x hij hocc
  obtain ⟨f, hf, P, hP, p1, p2, p3, -⟩ := key i j a h1
  obtain ⟨f', hf', P', hP', q1, q2, -, q3⟩ := key i j b h2
  exact ⟨⟨f, hf, P, hP, p1, p2, by linarith⟩, ⟨f', hf', P', hP', q1, q2, by linarith⟩⟩

/-- **C44**, heights. The body written to the columns is at most two cells below the lowest vertex and
two cells above the highest one, in any pose. -/
theorem C44_heights (hs : SqrtLaw K) (fuel : ℕ) (s s' : SimOut K) (pos : Vec3 K) (ori : Quat K)
    (g : Grid K) (body : Body K) (p : SimParam K) (tol : K) (hzg : ZGrid g) (hc : 0 < g.cellXY)
    (hA : Al g.cellZ (g.vectZ 0)) (ht : 0 < tol) (ht' : tol ≤ 1 / 3) (hb : 2 ≤ p.cellBuffer)
    (hsz : SameSize g s) (hIn : BodyInArea s)
    (hal : ∀ k i j, s.InGrid i j → Al g.cellZ (s.body k i j))
    (hoff : ∀ v ∈ bodyVertices g pos ori body, OffBorder g v) (zlo zhi : K)
    (hz : ∀ v ∈ bodyVertices g pos ori body, zlo ≤ (idx g v).z ∧ (idx g v).z ≤ zhi)
    (hsm : 9 * tol * (zhi - zlo) ≤ 1)
    (h : calcBodyPos fuel s pos ori g body p tol = .ok s') :
    ∀ i j x, s'.InGrid i j → Occ s' i j x → heightOf g (zlo - 2) ≤ x ∧ x < heightOf g (zhi + 2) := by
  obtain ⟨B, hB⟩ := exists_box g (bodyVertices g pos ori body)
  have hnv := nudgedVertices_in (tol := tol) (B := ⟨B.xlo, B.xhi, B.ylo, B.yhi, zlo, zhi⟩)
    hc hzg.pos ht.le ht' (fun v hv => ⟨(hB v hv).1, (hB v hv).2.1, hz v hv⟩)
  obtain ⟨-, walls, hw, hcell, hull, -⟩ := calcBodyPos_full hs hzg hc hA ht ht' hb hsz hIn hal hoff
    (zlo := zlo) (zhi := zhi) (fun v hv => (hnv v hv).2.2)
    (fun c hcm => paraZ_in hzg.pos ht.le ht' hsm (cornerSets_parallel g pos ori body c hcm)
      (fun v hv => hz v (by
        rw [bodyVertices_eq]; exact List.mem_flatMap.mpr ⟨c, hcm, hv⟩))) h
  intro i j x hij hocc
  obtain ⟨a, b, ha, hb', ⟨n, ⟨w, hwm, hm⟩, y1, y2⟩, ⟨n', ⟨w', hwm', hm'⟩, y1', y2'⟩⟩ := hull i j x hij hocc
  obtain ⟨c1, c2, -⟩ := hcell w hwm _ hm
  obtain ⟨c1', -, c3⟩ := hcell w' hwm' _ hm'
  dsimp only at c2 c3
  unfold heightOf
  rw [hzg.step n c1.2.1 c1.2.2] at y1
  rw [hzg.step n' c1'.2.1 c1'.2.2] at y2'
  have q1 : (zlo - 1) * g.cellZ ≤ n * g.cellZ := mul_le_mul_of_nonneg_right c2 hzg.pos.le
  have q2 : n' * g.cellZ < (zhi + 2) * g.cellZ := mul_lt_mul_of_pos_right c3 hzg.pos
  constructor
  · have : (zlo - 2) * g.cellZ = (zlo - 1) * g.cellZ - g.cellZ := by ring
    rw [this]; linarith
  · linarith

/-- **C44**. The vertices of the faces are those of the body up to three times the tolerance times the
extent of the body, in each coordinate. -/
theorem C44_nudge (tol : K) (ht : 0 ≤ tol) (ht' : tol ≤ 1 / 3) (c : Corners K) (m M : Vec3 K)
    (h : ∀ v ∈ c.toList, (m.x ≤ v.x ∧ v.x ≤ M.x) ∧ (m.y ≤ v.y ∧ v.y ≤ M.y) ∧ (m.z ≤ v.z ∧ v.z ≤ M.z)) :
    List.Forall₂ (fun v v' => |v'.x - v.x| ≤ 3 * tol * (M.x - m.x) ∧
      |v'.y - v.y| ≤ 3 * tol * (M.y - m.y) ∧ |v'.z - v.z| ≤ 3 * tol * (M.z - m.z))
      c.toList (nudge tol c).toList := by
  unfold Corners.toList at h ⊢
  simp only [List.mem_cons, List.not_mem_nil, or_false, forall_eq_or_imp, forall_eq] at h
  obtain ⟨h1, h2, h3, h4, h5, h6⟩ := h
  obtain ⟨x1, x2, x3, x4, x5, x6⟩ := nudge1_move ht ht' h1.1 h2.1 h3.1 h4.1 h5.1 h6.1
  obtain ⟨y1, y2, y3, y4, y5, y6⟩ := nudge1_move ht ht' h1.2.1 h2.2.1 h3.2.1 h4.2.1 h5.2.1 h6.2.1
  obtain ⟨z1, z2, z3, z4, z5, z6⟩ := nudge1_move ht ht' h1.2.2 h2.2.2 h3.2.2 h4.2.2 h5.2.2 h6.2.2
  exact .cons ⟨x1, y1, z1⟩ (.cons ⟨x2, y2, z2⟩ (.cons ⟨x3, y3, z3⟩ (.cons ⟨x4, y4, z4⟩
    (.cons ⟨x5, y5, z5⟩ (.cons ⟨x6, y6, z6⟩ .nil)))))

/-- **C44**. In a grid made by the constructor, the height of the index coordinate of a vertex is the
height of the vertex, up to half a cell; exactly if the extent of the grid is a multiple of the cell
height. -/
theorem C44_heightOf {gx gy gz cxy cz : K} {g : Grid K} (hv : ValidGridArgs gx gy gz cxy cz)
    (h : mkGrid gx gy gz cxy cz = .ok g) (v : Vec3 K) :
    |heightOf g (idx g v).z - v.z| ≤ cz / 2 ∧
    ((∃ n : ℤ, gz = n * cz) → heightOf g (idx g v).z = v.z) := by
  obtain ⟨g', hg, hs⟩ := C01_grid_accepts hv
  rw [h] at hg; cases hg
  have hc : 0 < cz := hv.1
  have e : heightOf g (idx g v).z = v.z + (g.halfZ * cz - gz) := by
    unfold heightOf idx
    dsimp only
    rw [hs.vectZ 0 le_rfl, hs.cellZ]
    field_simp
    push_cast
    ring
  have h3 : gz / cz * cz = gz := div_mul_cancel₀ _ hc.ne'
  rw [e, add_sub_cancel_left, hs.halfZ]
  refine ⟨?_, ?_⟩
  · have h1 := Int.floor_le (gz / cz + 1 / 2)
    have h2 := Int.lt_floor_add_one (gz / cz + 1 / 2)
    have a := mul_le_mul_of_nonneg_right h1 hc.le
    have b := mul_le_mul_of_nonneg_right h2.le hc.le
    rw [abs_le]
    constructor <;> linarith
  · rintro ⟨n, rfl⟩
    rw [mul_div_cancel_right₀ _ hc.ne']
    have : ⌊(n : K) + 1 / 2⌋ = n := by
      rw [Int.floor_eq_iff]; constructor <;> linarith
    rw [this]; ring

/-! ## The hypotheses can be met -/

/-- Bucket and blade near the centre of a grid, anywhere: the body is between its lowest and highest
vertices. -/
example (kind : BodyKind) (a b c : ℝ) (ha : |a| ≤ 4) (hb : |b| ≤ 5) (hc : |c| ≤ 6) :
    ∃ N, ∀ fuel, N ≤ fuel → ∃ s', calcBodyPos fuel (mkSimOut (rGrid ℝ)) ⟨a, b, c⟩ ⟨1, 0, 0, 0⟩
      (rGrid ℝ) (rBody ℝ kind) (rParam ℝ) (1 / 100000) = .ok s' ∧
      ∀ i j x, s'.InGrid i j → Occ s' i j x →
        heightOf (rGrid ℝ) (0 - 2) ≤ x ∧ x < heightOf (rGrid ℝ) (19 + 2) := by
  have hin := rBody_inside sqrtLaw_real kind a b c ha hb hc
  obtain ⟨N, hN⟩ := C18_safe sqrtLaw_real (mkSimOut (rGrid ℝ)) ⟨a, b, c⟩ ⟨1, 0, 0, 0⟩ (rGrid ℝ)
    (rBody ℝ kind) (rParam ℝ) (1 / 100000) rGrid_z (by norm_num [rGrid]) rGrid_al (by norm_num)
    (by norm_num) (by norm_num [rGrid]) (by norm_num [rParam]) ⟨rfl, rfl⟩ (fresh_bodyInArea _)
    (fresh_area _) (fresh_al _ _) (fun v hv => (hin v hv).1) (fun v hv => (hin v hv).2)
  refine ⟨N, fun fuel hf => ?_⟩
  obtain ⟨s', hs'⟩ := hN fuel hf
  refine ⟨s', hs', C44_heights sqrtLaw_real fuel _ s' _ _ _ _ (rParam ℝ) _ rGrid_z
    (by norm_num [rGrid]) rGrid_al (by norm_num) (by norm_num) (by norm_num [rParam]) ⟨rfl, rfl⟩
    (fresh_bodyInArea _) (fresh_al _ _) (fun v hv => (hin v hv).1) 0 19 (fun v hv => ?_) (by norm_num) hs'⟩
  have := (hin v hv).2
  unfold InsideZ at this
  norm_num [rGrid] at this ⊢
  constructor <;> linarith [this.1, this.2]

theorem startGeneric_of_near {p q : Vec3 K} (l m n : ℤ) (hx : |p.x - l| ≤ 1 / 4) (hy : |p.y - m| ≤ 1 / 4)
    (hz : |p.z - (n + 1 / 2)| ≤ 1 / 4) : StartGeneric p q := by
  rw [abs_le] at hx hy hz
  have key : ∀ (x : K) (a b : ℤ), -(1 / 4) ≤ x - a → x - a ≤ 1 / 4 → ((b : K) + 1 / 2 ≤ x) → b + 1 ≤ a := by
    intro x a b h1 h2 h3
    have : (b : K) < a := by linarith
    exact_mod_cast this
  have key' : ∀ (x : K) (a b : ℤ), -(1 / 4) ≤ x - a → x - a ≤ 1 / 4 → (x ≤ (b : K) + 1 / 2) → a ≤ b := by
    intro x a b h1 h2 h3
    have : (a : K) < b + 1 := by linarith
    exact_mod_cast Int.lt_add_one_iff.mp (by exact_mod_cast this)
  have kz : ∀ b : ℤ, ((b : K) ≤ p.z) → b ≤ n := by
    intro b h3
    have : (b : K) < n + 1 := by linarith
    exact_mod_cast Int.lt_add_one_iff.mp (by exact_mod_cast this)
  have kz' : ∀ b : ℤ, (p.z ≤ b) → n + 1 ≤ b := by
    intro b h3
    have : (n : K) < b := by linarith
    exact_mod_cast this
  have far : ∀ (x : K) (a b : ℤ), -(1 / 4) ≤ x - a → x - a ≤ 1 / 4 → ((b : K) + 1 / 2 < x) →
      (b : K) + 1 / 2 + 1 / 10000000000 < x := by
    intro x a b h1 h2 h3
    have := key x a b h1 h2 h3.le
    have : (b : K) + 1 ≤ a := by exact_mod_cast this
    norm_num
    linarith
  refine ⟨fun b h => ?_, fun b h => ?_, fun _ b h => ?_, fun _ b h => far _ l b hx.1 hx.2 h,
    fun _ b h => far _ m b hy.1 hy.2 h, fun _ b h => ?_⟩
  · have := key _ l b hx.1 hx.2 h.ge; have := key' _ l b hx.1 hx.2 h.le; omega
  · have := key _ m b hy.1 hy.2 h.ge; have := key' _ m b hy.1 hy.2 h.le; omega
  · have := kz b h.ge; have := kz' b h.le; omega
  · have := kz b h.le
    have : (b : K) ≤ n := by exact_mod_cast this
    norm_num
    linarith

/-- All sides of the example body start in general position in this pose. -/
theorem rBody_generic (hs : SqrtLaw K) (kind : BodyKind) :
    ∀ f ∈ bodyFaces (rGrid K) (1 / 100000) ⟨0, 0, 1 / 2⟩ ⟨1, 0, 0, 0⟩ (rBody K kind), ∀ e ∈ f.edges,
      StartGeneric (idx (rGrid K) e.1) (idx (rGrid K) e.2) := by
  have near : ∀ (c : Corners K),
      (∀ v ∈ c.toList, (-1 ≤ v.x ∧ v.x ≤ 2) ∧ (-1 ≤ v.y ∧ v.y ≤ 1) ∧ (-(3 / 2) ≤ v.z ∧ v.z ≤ 1 / 2)) →
      (∀ v ∈ c.toList, ∃ l m n : ℤ, v.x = l ∧ v.y = m ∧ v.z = n + 1 / 2) →
      ∀ v ∈ (nudge (1 / 100000) c).toList, ∀ q, StartGeneric (idx (rGrid K) v) q := by
    intro c h1 h2 v hv q
    obtain ⟨v0, hv0, hx, hy, hz⟩ := forall₂_right
      (C44_nudge (1 / 100000) (by norm_num) (by norm_num) c ⟨-1, -1, -(3 / 2)⟩ ⟨2, 1, 1 / 2⟩ h1) v hv
    obtain ⟨l, m, n, e1, e2, e3⟩ := h2 v0 hv0
    rw [e1] at hx; rw [e2] at hy; rw [e3] at hz
    norm_num at hx hy hz
    refine startGeneric_of_near (l + 8) (m + 8) (n + 9) ?_ ?_ ?_
    all_goals
      norm_num [idx, rGrid]
      rw [abs_le] at hx hy hz ⊢
      constructor <;> linarith [hx.1, hx.2, hy.1, hy.2, hz.1, hz.2]
  have hf : ∀ v ∈ (nudge (1 / 100000)
      (calcBodyCornerPos ⟨0, 0, 1 / 2⟩ ⟨1, 0, 0, 0⟩ (rBody K kind))).toList, ∀ q,
      StartGeneric (idx (rGrid K) v) q := by
    refine near _ ?_ ?_
    all_goals
      rw [rBody_corners hs]
      simp only [Corners.toList, List.mem_cons, List.not_mem_nil, or_false, forall_eq_or_imp, forall_eq]
    · norm_num
    · refine ⟨⟨0, -1, 0, ?_⟩, ⟨0, 1, 0, ?_⟩, ⟨0, -1, -2, ?_⟩, ⟨0, 1, -2, ?_⟩, ⟨2, -1, -2, ?_⟩,
        ⟨2, 1, -2, ?_⟩⟩ <;> norm_num
  have hb : ∀ v ∈ (nudge (1 / 100000) (bladeBack (rGrid K)
      (calcBodyCornerPos ⟨0, 0, 1 / 2⟩ ⟨1, 0, 0, 0⟩ (rBody K kind)))).toList, ∀ q,
      StartGeneric (idx (rGrid K) v) q := by
    refine near _ ?_ ?_
    all_goals
      rw [rBody_corners hs, rBody_back hs]
      simp only [Corners.toList, List.mem_cons, List.not_mem_nil, or_false, forall_eq_or_imp, forall_eq]
    · norm_num
    · refine ⟨⟨-1, -1, 0, ?_⟩, ⟨-1, 1, 0, ?_⟩, ⟨-1, -1, -2, ?_⟩, ⟨-1, 1, -2, ?_⟩, ⟨1, -1, -2, ?_⟩,
        ⟨1, 1, -2, ?_⟩⟩ <;> norm_num
  simp only [Corners.toList, List.mem_cons, List.not_mem_nil, or_false, forall_eq_or_imp, forall_eq] at hf hb
  obtain ⟨f1, f2, f3, f4, f5, f6⟩ := hf
  obtain ⟨b1, b2, b3, b4, b5, b6⟩ := hb
  unfold bodyFaces
  cases kind
  · simp only [rBody, bucketFaces, List.mem_cons, List.not_mem_nil, or_false, forall_eq_or_imp, forall_eq,
      Face.edges]
    exact ⟨⟨f3 _, f4 _, f6 _, f5 _⟩, ⟨f3 _, f4 _, f2 _, f1 _⟩, ⟨f1 _, f3 _, f5 _⟩, f2 _, f4 _, f6 _⟩
  · simp only [rBody, bladeFaces, List.mem_cons, List.not_mem_nil, or_false, forall_eq_or_imp, forall_eq,
      Face.edges]
    exact ⟨⟨f3 _, f4 _, f2 _, f1 _⟩, ⟨b3 _, b4 _, b2 _, b1 _⟩, ⟨f5 _, f6 _, f2 _, f1 _⟩,
      b5 _, b6 _, b2 _, b1 _⟩

/-- The base of the example bucket is not vertical, and the line between the columns 8 and 9 and the
columns 7 and 8 meets it by the margin. -/
theorem rBody_base (hs : SqrtLaw K) :
    ∃ f ∈ bodyFaces (rGrid K) (1 / 100000) ⟨0, 0, 1 / 2⟩ ⟨1, 0, 0, 0⟩ (rBody K .bucket), f.Flat (rGrid K) ∧
      ∃ P, f.Inner (rGrid K) (1 / 100000) P ∧ f.InBox (rGrid K) P ∧
        P.x = (8 : ℤ) + 1 / 2 ∧ P.y = (7 : ℤ) + 1 / 2 := by
  set c := nudge (1 / 100000 : K) (calcBodyCornerPos ⟨0, 0, 1 / 2⟩ ⟨1, 0, 0, 0⟩ (rBody K .bucket)) with hc
  have hf : (Face.quad c.br c.bl c.tl c.tr) ∈
      bodyFaces (rGrid K) (1 / 100000) ⟨0, 0, 1 / 2⟩ ⟨1, 0, 0, 0⟩ (rBody K .bucket) := by
    rw [hc]
    unfold bodyFaces
    simp only [rBody, bucketFaces, List.mem_cons, true_or]
  rw [rBody_corners hs] at hc
  simp only [nudge, nudge1, ex_add, ex_sub, ex_mul] at hc
  norm_num at hc
  refine ⟨_, hf, ?_, _, .quad (u := 1249912501000015000000000 / 4999750003000019999499999)
    (v := 416641666750006666700000 / 1666583334333339999833333) ?_, ?_, ?_, ?_⟩
  · simp only [Face.Flat, Face.span, hDet, edgeIdx, idx, rGrid, hc]
    norm_num
  · unfold RectMargin
    norm_num
  · refine ⟨⟨⟨c.br, by simp [Face.vertices], ?_⟩, ⟨c.tr, by simp [Face.vertices], ?_⟩⟩,
      ⟨c.br, by simp [Face.vertices], ?_⟩, ⟨c.bl, by simp [Face.vertices], ?_⟩⟩
    all_goals
      simp only [planePoint, edgeIdx, idx, rGrid, hc]
      norm_num
  · simp only [planePoint, edgeIdx, idx, rGrid, hc]
    norm_num
  · simp only [planePoint, edgeIdx, idx, rGrid, hc]
    norm_num

/-- Bucket and blade: `CalcBodyPos` returns, and the theorems on sides, on the inside and on nothing else
apply. -/
example (kind : BodyKind) :
    ∃ N, ∀ fuel, N ≤ fuel → ∃ s', calcBodyPos fuel (mkSimOut (rGrid ℝ)) ⟨0, 0, 1 / 2⟩ ⟨1, 0, 0, 0⟩
      (rGrid ℝ) (rBody ℝ kind) (rParam ℝ) (1 / 100000) = .ok s' ∧
      (∀ f ∈ bodyFaces (rGrid ℝ) (1 / 100000) ⟨0, 0, 1 / 2⟩ ⟨1, 0, 0, 0⟩ (rBody ℝ kind),
        ∀ e ∈ f.edges, ∃ i j : ℤ, Occ s' i j (heightOf (rGrid ℝ) (idx (rGrid ℝ) e.1).z)) ∧
      (kind = .bucket → ∃ x, Occ s' 8 7 x ∧ Occ s' 9 8 x) := by
  have hin := rBody_inside sqrtLaw_real kind 0 0 (1 / 2) (by norm_num) (by norm_num)
    (by rw [abs_le]; constructor <;> norm_num)
  obtain ⟨N, hN⟩ := C18_safe sqrtLaw_real (mkSimOut (rGrid ℝ)) ⟨0, 0, 1 / 2⟩ ⟨1, 0, 0, 0⟩ (rGrid ℝ)
    (rBody ℝ kind) (rParam ℝ) (1 / 100000) rGrid_z (by norm_num [rGrid]) rGrid_al (by norm_num)
    (by norm_num) (by norm_num [rGrid]) (by norm_num [rParam]) ⟨rfl, rfl⟩ (fresh_bodyInArea _)
    (fresh_area _) (fresh_al _ _) (fun v hv => (hin v hv).1) (fun v hv => (hin v hv).2)
  refine ⟨N, fun fuel hf => ?_⟩
  obtain ⟨s', hs'⟩ := hN fuel hf
  refine ⟨s', hs', fun f hf e he => ?_, fun hk => ?_⟩
  · obtain ⟨i, j, -, -, h⟩ := C44_edges sqrtLaw_real fuel _ s' _ _ _ _ (rParam ℝ) _ rGrid_z
      (by norm_num [rGrid]) rGrid_al (by norm_num) (by norm_num) (by norm_num [rParam]) ⟨rfl, rfl⟩
      (fresh_bodyInArea _) (fresh_al _ _) (fun v hv => (hin v hv).1) hs' f hf e he
      (rBody_generic sqrtLaw_real kind f hf e he) 0 le_rfl zero_le_one
    refine ⟨i, j, ?_⟩
    simpa [segPoint] using h
  · subst hk
    obtain ⟨f, hf, hflat, P, hP, hbox, hx, hy⟩ := rBody_base sqrtLaw_real
    have := C44_inside sqrtLaw_real fuel _ s' _ _ _ _ (rParam ℝ) _ rGrid_z
      (by norm_num [rGrid]) rGrid_al (by norm_num) (by norm_num) (by norm_num [rParam]) ⟨rfl, rfl⟩
      (fresh_bodyInArea _) (fresh_al _ _) (fun v hv => (hin v hv).1) hs' f hf hflat P hP hbox 8 7 hx hy
    exact ⟨_, this 8 7 (.inl rfl) (.inl rfl), this 9 8 (.inr rfl) (.inr rfl)⟩

end Soil
