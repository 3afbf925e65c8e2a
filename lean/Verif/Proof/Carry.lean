import Verif.Spec.Carry
import Verif.Proof.Cover
import Verif.Proof.Tops
import Verif.Proof.Margin
import Verif.Props.Shape

/-! # Soil carried by the body stays next to the face it was put on -/

set_option linter.unusedSectionVars false
set_option linter.unusedSimpArgs false

namespace Soil

/-! ## Poses of faces -/

def Face.map (T : Vec3 ℝ → Vec3 ℝ) : Face ℝ → Face ℝ
  | .quad a b c d => .quad (T a) (T b) (T c) (T d)
  | .tri a b c => .tri (T a) (T b) (T c)

def Corners.mapc (T : Vec3 ℝ → Vec3 ℝ) (c : Corners ℝ) : Corners ℝ :=
  ⟨T c.jr, T c.jl, T c.br, T c.bl, T c.tr, T c.tl⟩

/-- An affine map of space -/
structure Affine (T : Vec3 ℝ → Vec3 ℝ) (a b c p : Vec3 ℝ) : Prop where
  eq : ∀ v, T v = ⟨v.x * a.x + v.y * b.x + v.z * c.x + p.x, v.x * a.y + v.y * b.y + v.z * c.y + p.y,
    v.x * a.z + v.y * b.z + v.z * c.z + p.z⟩

theorem posed_affine (pos : Vec3 ℝ) {ori : Quat ℝ} (hq : qnormSq ori ≠ 0) :
    ∃ a b c, Affine (posed pos ori) a b c pos := by
  refine ⟨calcRotationQuaternion ori ⟨1, 0, 0⟩, calcRotationQuaternion ori ⟨0, 1, 0⟩,
    calcRotationQuaternion ori ⟨0, 0, 1⟩, ⟨fun v => ?_⟩⟩
  have e : v = vadd (vadd (vsmul v.x ⟨1, 0, 0⟩) (vsmul v.y ⟨0, 1, 0⟩)) (vsmul v.z ⟨0, 0, 1⟩) := by
    unfold vadd vsmul; apply Vec3.ext' <;> simp
  have h : calcRotationQuaternion ori v = vadd (vadd (vsmul v.x (calcRotationQuaternion ori ⟨1, 0, 0⟩))
      (vsmul v.y (calcRotationQuaternion ori ⟨0, 1, 0⟩)))
      (vsmul v.z (calcRotationQuaternion ori ⟨0, 0, 1⟩)) := by
    rw [← (C05_linear ori hq _ ⟨0, 0, 0⟩ _).2, ← (C05_linear ori hq _ ⟨0, 0, 0⟩ _).2,
      ← (C05_linear ori hq _ ⟨0, 0, 0⟩ _).2, ← (C05_linear ori hq _ _ 0).1,
      ← (C05_linear ori hq _ _ 0).1, ← e]
  unfold posed
  rw [h]
  rfl

theorem nudge_affine {T : Vec3 ℝ → Vec3 ℝ} {a b c p : Vec3 ℝ} (h : Affine T a b c p) (tol : ℝ)
    (k : Corners ℝ) : nudge tol (k.mapc T) = (nudge tol k).mapc T := by
  unfold nudge nudge1 Corners.mapc
  simp only [ex_add, ex_sub, ex_mul, h.eq, Corners.mk.injEq, Vec3.mk.injEq]
  refine ⟨⟨?_, ?_, ?_⟩, ⟨?_, ?_, ?_⟩, ⟨?_, ?_, ?_⟩, ⟨?_, ?_, ?_⟩, ⟨?_, ?_, ?_⟩, ?_, ?_, ?_⟩ <;> ring

theorem posed_origin (v : Vec3 ℝ) : posed ⟨0, 0, 0⟩ qone v = v := by
  unfold posed
  rw [C05_identity]
  unfold vadd
  apply Vec3.ext' <;> simp

theorem calcBodyCornerPos_posed (pos : Vec3 ℝ) {ori : Quat ℝ} (hq : qnormSq ori ≠ 0) (body : Body ℝ) :
    calcBodyCornerPos pos ori body = (calcBodyCornerPos ⟨0, 0, 0⟩ qone body).mapc (posed pos ori) := by
  have h1 : qnormSq (qone : Quat ℝ) ≠ 0 := by simp [qnormSq, qone]
  unfold Corners.mapc
  rw [C09_rigid pos ori body hq, C09_rigid ⟨0, 0, 0⟩ qone body h1]
  simp only [posed_origin]

theorem bladeBack_posed (g : Grid ℝ) (pos : Vec3 ℝ) {ori : Quat ℝ} (hq : qnormSq ori ≠ 0)
    (c : Corners ℝ) : bladeBack g (c.mapc (posed pos ori)) = (bladeBack g c).mapc (posed pos ori) := by
  have hb : ∀ v, (posed pos ori v).addF (Vec3.smulF g.cellXY (calcNormal (posed pos ori c.jr)
      (posed pos ori c.jl) (posed pos ori c.bl))) =
      posed pos ori (v.addF (Vec3.smulF g.cellXY (calcNormal c.jr c.jl c.bl))) := by
    intro v
    have e : calcNormal (posed pos ori c.jr) (posed pos ori c.jl) (posed pos ori c.bl) =
        calcRotationQuaternion ori (calcNormal c.jr c.jl c.bl) := C08_equivariant ori hq pos _ _ _
    rw [e]
    have a : ∀ u w : Vec3 ℝ, u.addF w = vadd u w := fun _ _ => rfl
    have b : ∀ (k : ℝ) (w : Vec3 ℝ), Vec3.smulF k w = vsmul k w := fun _ _ => rfl
    rw [a, a, b, b, ← (C05_linear ori hq _ ⟨0, 0, 0⟩ _).2]
    unfold posed
    rw [(C05_linear ori hq _ _ 0).1]
    unfold vadd
    apply Vec3.ext' <;> dsimp only <;> ring
  unfold bladeBack Corners.mapc
  simp only [hb]

/-- The faces in a pose are the posed faces. -/
theorem bodyFaces_posed (g : Grid ℝ) (tol : ℝ) (pos : Vec3 ℝ) {ori : Quat ℝ} (hq : qnormSq ori ≠ 0)
    (body : Body ℝ) :
    bodyFaces g tol pos ori body = (bodyFaces g tol ⟨0, 0, 0⟩ qone body).map (Face.map (posed pos ori)) := by
  obtain ⟨a, b, c, hT⟩ := posed_affine pos hq
  unfold bodyFaces
  dsimp only
  rw [calcBodyCornerPos_posed pos hq, bladeBack_posed g pos hq, nudge_affine hT, nudge_affine hT]
  cases body.kind <;> simp [bucketFaces, bladeFaces, Face.map, Corners.mapc]

/-- A point of a face, in index coordinates -/
def Face.Has (g : Grid ℝ) (tol : ℝ) (f : Face ℝ) (P : Vec3 ℝ) : Prop := f.OnEdge g P ∨ f.Inner g tol P

theorem Face.Has.whole {g : Grid ℝ} {tol : ℝ} (ht : 0 ≤ tol) {f : Face ℝ} {P : Vec3 ℝ}
    (h : f.Has g tol P) : f.Whole g P := by
  rcases h with h | h
  · exact .edge h
  · cases h with
    | quad h =>
      obtain ⟨h1, h2, h3, h4⟩ := h
      exact .quad ⟨by linarith, by linarith⟩ ⟨by linarith, by linarith⟩
    | tri h =>
      obtain ⟨h1, h2, h3⟩ := h
      exact .tri (by linarith) (by linarith) (by linarith)

theorem idx_affine_seg {g : Grid ℝ} (hc : 0 < g.cellXY) (hz : 0 < g.cellZ) {T : Vec3 ℝ → Vec3 ℝ}
    {a b c p : Vec3 ℝ} (h : Affine T a b c p) (v w : Vec3 ℝ) (u : ℝ) :
    unidx g (segPoint (idx g (T v)) (idx g (T w)) u) = T (unidx g (segPoint (idx g v) (idx g w) u)) := by
  rw [h.eq, h.eq, h.eq]
  unfold unidx segPoint idx
  dsimp only
  apply Vec3.ext' <;> dsimp only <;> field_simp <;> ring

theorem idx_affine_plane {g : Grid ℝ} (hc : 0 < g.cellXY) (hz : 0 < g.cellZ) {T : Vec3 ℝ → Vec3 ℝ}
    {a b c p : Vec3 ℝ} (h : Affine T a b c p) (k l m : Vec3 ℝ) (u v : ℝ) :
    unidx g (planePoint (idx g (T k)) (edgeIdx g (T k) (T l)) (edgeIdx g (T k) (T m)) u v) =
      T (unidx g (planePoint (idx g k) (edgeIdx g k l) (edgeIdx g k m) u v)) := by
  rw [h.eq, h.eq, h.eq, h.eq]
  unfold unidx planePoint edgeIdx idx
  dsimp only
  apply Vec3.ext' <;> dsimp only <;> field_simp <;> ring

/-- Points of a face and of the posed face correspond. -/
theorem Face.Has.map {g : Grid ℝ} (hc : 0 < g.cellXY) (hz : 0 < g.cellZ) {tol : ℝ} {T : Vec3 ℝ → Vec3 ℝ}
    {a b c p : Vec3 ℝ} (hT : Affine T a b c p) {f : Face ℝ} {P : Vec3 ℝ} (h : f.Has g tol P) :
    ∃ P', (f.map T).Has g tol P' ∧ unidx g P' = T (unidx g P) := by
  rcases h with ⟨e, he, u, u0, u1, rfl⟩ | h
  · refine ⟨_, .inl ⟨(T e.1, T e.2), ?_, u, u0, u1, rfl⟩, idx_affine_seg hc hz hT _ _ _⟩
    cases f <;> simp only [Face.edges, Face.map, List.mem_cons, List.not_mem_nil, or_false] at he ⊢
    · rcases he with rfl | rfl | rfl | rfl <;> simp
    · rcases he with rfl | rfl | rfl <;> simp
  · cases h with
    | quad h => exact ⟨_, .inr (.quad h), idx_affine_plane hc hz hT _ _ _ _ _⟩
    | tri h => exact ⟨_, .inr (.tri h), idx_affine_plane hc hz hT _ _ _ _ _⟩

theorem Face.Has.unmap {g : Grid ℝ} (hc : 0 < g.cellXY) (hz : 0 < g.cellZ) {tol : ℝ} {T : Vec3 ℝ → Vec3 ℝ}
    {a b c p : Vec3 ℝ} (hT : Affine T a b c p) {f : Face ℝ} {P' : Vec3 ℝ} (h : (f.map T).Has g tol P') :
    ∃ P, f.Has g tol P ∧ unidx g P' = T (unidx g P) := by
  rcases h with ⟨e, he, u, u0, u1, rfl⟩ | h
  · cases f with
    | quad k l m n =>
      simp only [Face.edges, Face.map, List.mem_cons, List.not_mem_nil, or_false] at he
      rcases he with rfl | rfl | rfl | rfl <;>
        exact ⟨_, .inl ⟨(_, _), by simp [Face.edges], u, u0, u1, rfl⟩, idx_affine_seg hc hz hT _ _ _⟩
    | tri k l m =>
      simp only [Face.edges, Face.map, List.mem_cons, List.not_mem_nil, or_false] at he
      rcases he with rfl | rfl | rfl <;>
        exact ⟨_, .inl ⟨(_, _), by simp [Face.edges], u, u0, u1, rfl⟩, idx_affine_seg hc hz hT _ _ _⟩
  · cases f with
    | quad k l m n =>
      cases h with
      | quad h => exact ⟨_, .inr (.quad h), idx_affine_plane hc hz hT _ _ _ _ _⟩
    | tri k l m =>
      cases h with
      | tri h => exact ⟨_, .inr (.tri h), idx_affine_plane hc hz hT _ _ _ _ _⟩

/-! ## The faces are almost parallelograms -/

def Face.TightDir (n : Vec3 ℝ) (W E : ℝ) : Face ℝ → Prop
  | .quad a b c d => |dot n c - dot n b - dot n d + dot n a| ≤ 4 * E ∧ |dot n b - dot n a| ≤ W ∧
      |dot n d - dot n a| ≤ W
  | .tri a b c => |dot n b - dot n a| ≤ W ∧ |dot n c - dot n a| ≤ W

theorem quad_tight {n a b c d a0 b0 c0 d0 : Vec3 ℝ} {m M E : ℝ} (ha : m ≤ dot n a ∧ dot n a ≤ M)
    (hb : m ≤ dot n b ∧ dot n b ≤ M) (hd : m ≤ dot n d ∧ dot n d ≤ M)
    (ea : |dot n a - dot n a0| ≤ E) (eb : |dot n b - dot n b0| ≤ E) (ec : |dot n c - dot n c0| ≤ E)
    (ed : |dot n d - dot n d0| ≤ E) (hp : dot n b0 + dot n d0 - dot n a0 = dot n c0) :
    (Face.quad a b c d).TightDir n (M - m) E := by
  rw [abs_le] at ea eb ec ed
  refine ⟨?_, ?_, ?_⟩ <;> rw [abs_le] <;> constructor <;>
    linarith [ea.1, ea.2, eb.1, eb.2, ec.1, ec.2, ed.1, ed.2, ha.1, ha.2, hb.1, hb.2, hd.1, hd.2]

theorem tri_tight {n a b c : Vec3 ℝ} {m M E : ℝ} (ha : m ≤ dot n a ∧ dot n a ≤ M)
    (hb : m ≤ dot n b ∧ dot n b ≤ M) (hd : m ≤ dot n c ∧ dot n c ≤ M) :
    (Face.tri a b c).TightDir n (M - m) E := by
  refine ⟨?_, ?_⟩ <;> rw [abs_le] <;> constructor <;>
    linarith [ha.1, ha.2, hb.1, hb.2, hd.1, hd.2]

theorem face_tight {g : Grid ℝ} {tol : ℝ} (ht : 0 ≤ tol)
    (ht' : tol ≤ 1 / 3) {pos : Vec3 ℝ} {ori : Quat ℝ} {body : Body ℝ} {n : Vec3 ℝ} {m M : ℝ}
    (hv : ∀ v ∈ bodyVertices g pos ori body, m ≤ dot n v ∧ dot n v ≤ M) {f : Face ℝ}
    (hf : f ∈ bodyFaces g tol pos ori body) : f.TightDir n (M - m) (3 * tol * (M - m)) := by
  have key : ∀ c : Corners ℝ, c ∈ cornerSets g pos ori body →
      let c' := nudge tol c
      let E := 3 * tol * (M - m)
      Par3 n c ∧
      (((m ≤ dot n c'.jr ∧ dot n c'.jr ≤ M) ∧ (m ≤ dot n c'.jl ∧ dot n c'.jl ≤ M)) ∧
        ((m ≤ dot n c'.br ∧ dot n c'.br ≤ M) ∧ (m ≤ dot n c'.bl ∧ dot n c'.bl ≤ M)) ∧
        ((m ≤ dot n c'.tr ∧ dot n c'.tr ≤ M) ∧ (m ≤ dot n c'.tl ∧ dot n c'.tl ≤ M))) ∧
      (|dot n c'.jr - dot n c.jr| ≤ E ∧ |dot n c'.jl - dot n c.jl| ≤ E ∧
        |dot n c'.br - dot n c.br| ≤ E ∧ |dot n c'.bl - dot n c.bl| ≤ E ∧
        |dot n c'.tr - dot n c.tr| ≤ E ∧ |dot n c'.tl - dot n c.tl| ≤ E) := by
    intro c hcm
    have h : ∀ v ∈ c.toList, m ≤ dot n v ∧ dot n v ≤ M := fun v hv' => hv v (by
      rw [bodyVertices_eq]; exact List.mem_flatMap.mpr ⟨c, hcm, hv'⟩)
    unfold Corners.toList at h
    simp only [List.mem_cons, List.not_mem_nil, or_false, forall_eq_or_imp, forall_eq] at h
    obtain ⟨h1, h2, h3, h4, h5, h6⟩ := h
    have A := nudge1_mem ht ht' h1 h2 h3 h4 h5 h6
    have B := nudge1_move ht ht' h1 h2 h3 h4 h5 h6
    rw [← dot_nudge] at A B
    dsimp only at A B ⊢
    exact ⟨cornerSets_par3 g pos ori body n c hcm, ⟨⟨A.1, A.2.1⟩, ⟨A.2.2.1, A.2.2.2.1⟩, A.2.2.2.2.1,
      A.2.2.2.2.2⟩, B⟩
  unfold bodyFaces at hf
  unfold cornerSets at key
  cases hk : body.kind with
  | bucket =>
    rw [hk] at hf key
    dsimp only at hf
    obtain ⟨p3, ⟨⟨a1, a2⟩, ⟨a3, a4⟩, a5, a6⟩, b1, b2, b3, b4, b5, b6⟩ := key _ (List.mem_cons_self)
    simp only [bucketFaces, List.mem_cons, List.not_mem_nil, or_false] at hf
    rcases hf with rfl | rfl | rfl | rfl
    · exact quad_tight a3 a4 a5 b3 b4 b6 b5 (by linarith [p3.1, p3.2])
    · exact quad_tight a3 a4 a1 b3 b4 b2 b1 (by linarith [p3.1, p3.2])
    · exact tri_tight a1 a3 a5
    · exact tri_tight a2 a4 a6
  | blade =>
    rw [hk] at hf key
    dsimp only at hf
    obtain ⟨p3, ⟨⟨a1, a2⟩, ⟨a3, a4⟩, a5, a6⟩, b1, b2, b3, b4, b5, b6⟩ := key _ (List.mem_cons_self)
    obtain ⟨p3', ⟨⟨a1', a2'⟩, ⟨a3', a4'⟩, a5', a6'⟩, b1', b2', b3', b4', b5', b6'⟩ :=
      key _ (List.mem_cons_of_mem _ List.mem_cons_self)
    simp only [bladeFaces, List.mem_cons, List.not_mem_nil, or_false] at hf
    rcases hf with rfl | rfl | rfl | rfl
    · exact quad_tight a3 a4 a1 b3 b4 b2 b1 (by linarith [p3.1, p3.2])
    · exact quad_tight a3' a4' a1' b3' b4' b2' b1' (by linarith [p3'.1, p3'.2])
    · exact quad_tight a5 a6 a1 b5 b6 b2 b1 (by linarith [p3.1, p3.2])
    · exact quad_tight a5' a6' a1' b5' b6' b2' b1' (by linarith [p3'.1, p3'.2])

/-- In index coordinates -/
theorem face_tight_idx {g : Grid ℝ} (hc : 0 < g.cellXY) {tol : ℝ} (ht : 0 ≤ tol) (ht' : tol ≤ 1 / 3)
    (hX : 0 ≤ g.halfX) (hY : 0 ≤ g.halfY)
    {pos : Vec3 ℝ} {ori : Quat ℝ} {body : Body ℝ}
    (hbx : ∀ v ∈ bodyVertices g pos ori body, |v.x| ≤ g.halfX * g.cellXY ∧ |v.y| ≤ g.halfY * g.cellXY)
    {f : Face ℝ} (hf : f ∈ bodyFaces g tol pos ori body) :
    f.Tight g tol (24 * tol * (g.halfX + g.halfY)) (28 * tol * (g.halfX + g.halfY)) := by
  have dx : ∀ v : Vec3 ℝ, dot ⟨1, 0, 0⟩ v = v.x := by intro v; unfold dot; ring
  have dy : ∀ v : Vec3 ℝ, dot ⟨0, 1, 0⟩ v = v.y := by intro v; unfold dot; ring
  have hx0 : (0 : ℝ) ≤ g.halfX := by exact_mod_cast hX
  have hy0 : (0 : ℝ) ≤ g.halfY := by exact_mod_cast hY
  have X := face_tight (n := ⟨1, 0, 0⟩) (m := -(g.halfX * g.cellXY)) (M := g.halfX * g.cellXY) ht ht'
    (fun v hv => by rw [dx]; exact abs_le.mp (hbx v hv).1) hf
  have Y := face_tight (n := ⟨0, 1, 0⟩) (m := -(g.halfY * g.cellXY)) (M := g.halfY * g.cellXY) ht ht'
    (fun v hv => by rw [dy]; exact abs_le.mp (hbx v hv).2) hf
  -- divide by the cell
  have sc : ∀ {z k : ℝ}, |z| ≤ k * g.cellXY → |z / g.cellXY| ≤ k := by
    intro z k h
    rw [abs_div, abs_of_pos hc, div_le_iff₀ hc]; exact h
  have e1 : ∀ {z H H' : ℝ}, 0 ≤ H' → |z| ≤ 4 * (3 * tol * (H * g.cellXY - -(H * g.cellXY))) →
      |z / g.cellXY| ≤ 24 * tol * (H + H') := by
    intro z H H' h0 h
    refine (sc (k := 24 * tol * H) (by linarith)).trans ?_
    have := mul_nonneg ht h0
    linarith
  have e2 : ∀ {z H : ℝ}, |z| ≤ H * g.cellXY - -(H * g.cellXY) → |z / g.cellXY| ≤ 2 * H := by
    intro z H h
    exact sc (by linarith)
  have e3 : ∀ {z w H H' : ℝ}, 0 ≤ H' → |z| ≤ 2 * H → |w| ≤ 2 * H →
      tol * (|z| + |w|) ≤ 4 * tol * (H + H') := by
    intro z w H H' h0 h1 h2
    have := mul_le_mul_of_nonneg_left (add_le_add h1 h2) ht
    have := mul_nonneg ht h0
    linarith
  cases f with
  | quad a b c d =>
    obtain ⟨x1, x2, x3⟩ := X
    obtain ⟨y1, y2, y3⟩ := Y
    rw [dx, dx, dx, dx] at x1
    rw [dx, dx] at x2 x3
    rw [dy, dy, dy, dy] at y1
    rw [dy, dy] at y2 y3
    have ix : ∀ u v : Vec3 ℝ, (edgeIdx g u v).x = (v.x - u.x) / g.cellXY := by
      intro u v; unfold edgeIdx idx; dsimp only; ring
    have iy : ∀ u v : Vec3 ℝ, (edgeIdx g u v).y = (v.y - u.y) / g.cellXY := by
      intro u v; unfold edgeIdx idx; dsimp only; ring
    refine ⟨⟨?_, ?_⟩, ?_, ?_⟩
    · have e : (idx g c).x - (idx g b).x - (idx g d).x + (idx g a).x = (c.x - b.x - d.x + a.x) / g.cellXY := by
        unfold idx; dsimp only; ring
      rw [e]; exact e1 hy0 x1
    · have e : (idx g c).y - (idx g b).y - (idx g d).y + (idx g a).y = (c.y - b.y - d.y + a.y) / g.cellXY := by
        unfold idx; dsimp only; ring
      rw [e]
      exact (e1 hx0 y1).trans_eq (by ring)
    · rw [ix, ix]
      linarith [e3 hy0 (e2 x2) (e2 x3)]
    · rw [iy, iy]
      linarith [e3 hx0 (e2 y2) (e2 y3)]
  | tri a b c =>
    obtain ⟨x2, x3⟩ := X
    obtain ⟨y2, y3⟩ := Y
    rw [dx, dx] at x2 x3
    rw [dy, dy] at y2 y3
    have ix : ∀ u v : Vec3 ℝ, (edgeIdx g u v).x = (v.x - u.x) / g.cellXY := by
      intro u v; unfold edgeIdx idx; dsimp only; ring
    have iy : ∀ u v : Vec3 ℝ, (edgeIdx g u v).y = (v.y - u.y) / g.cellXY := by
      intro u v; unfold edgeIdx idx; dsimp only; ring
    have t1 := mul_nonneg ht hx0
    have t2 := mul_nonneg ht hy0
    refine ⟨?_, ?_⟩
    · rw [ix, ix]
      linarith [e3 hy0 (e2 x2) (e2 x3)]
    · rw [iy, iy]
      linarith [e3 hx0 (e2 y2) (e2 y3)]

/-! ## Tops of the rasterised body -/

theorem calcBodyPos_tops {g : Grid ℝ} {p : SimParam ℝ} {tol : ℝ} {pos : Vec3 ℝ} {ori : Quat ℝ}
    {body : Body ℝ} {fuel : ℕ} {s s' : SimOut ℝ} (hs : Sound g s)
    (h : calcBodyPos fuel s pos ori g body p tol = .ok s') :
    ∃ walls, wallsOf fuel g tol pos ori body = .ok walls ∧ ∀ k, k = 0 ∨ k = 2 → ∀ i j, s.InGrid i j →
      HasBody s' k i j → ∃ n, (∃ w ∈ walls, (i, j, n) ∈ w) ∧ s'.body (k + 1) i j = g.vectZ n := by
  have main : ∀ (s1 : SimOut ℝ) (walls : List (List Cell3)) (area : Area),
      resetBody s.bodyArea.cells s = .ok s1 → updateWalls g tol walls { s1 with bodyArea := area } = .ok s' →
      ∀ k, k = 0 ∨ k = 2 → ∀ i j, s.InGrid i j →
      HasBody s' k i j → ∃ n, (∃ w ∈ walls, (i, j, n) ∈ w) ∧ s'.body (k + 1) i j = g.vectZ n := by
    intro s1 walls area h1 h2
    obtain ⟨-, r2, r3, -⟩ := resetBody_spec _ _ _ h1
    have hT := updateWalls_tops
      (T := fun i j x => s.InGrid i j → ∃ n, (∃ w ∈ walls, (i, j, n) ∈ w) ∧ x = g.vectZ n) walls
      (fun w hw c hc _ => ⟨c.2.2, ⟨w, hw, hc⟩, rfl⟩) { s1 with bodyArea := area } (by
        intro k hk i j hb hij
        exfalso
        by_cases hm : (i, j) ∈ s.bodyArea.cells
        · rcases hb with q | q
          · exact q (r2 _ hm k (by omega))
          · exact q (r2 _ hm (k + 1) (by omega))
        · refine hm (Area.mem_cells.mpr (hs.inArea k i j hij hk ?_))
          unfold HasBody at hb ⊢
          change s1.body k i j ≠ 0 ∨ s1.body (k + 1) i j ≠ 0 at hb
          rwa [r3 (i, j) hm, r3 (i, j) hm] at hb) s' h2
    exact fun k hk i j hij hb => hT k hk i j hb hij
  unfold calcBodyPos at h
  obtain ⟨s1, h1, h⟩ := bind_eq_ok.mp h
  unfold wallsOf
  cases hk : body.kind with
  | bucket =>
    rw [hk] at h
    dsimp only at h ⊢
    obtain ⟨area, -, h⟩ := bind_eq_ok.mp h
    obtain ⟨walls, hw, h⟩ := bind_eq_ok.mp h
    exact ⟨walls, hw, main s1 walls area h1 h⟩
  | blade =>
    rw [hk] at h
    dsimp only at h ⊢
    obtain ⟨area, -, h⟩ := bind_eq_ok.mp h
    obtain ⟨walls, hw, h⟩ := bind_eq_ok.mp h
    exact ⟨walls, hw, main s1 walls area h1 h⟩

theorem Aligned.centred {g : Grid ℝ} (hc : 0 < g.cellXY) (hz : 0 < g.cellZ) (A : Aligned g) :
    Centred g := by
  refine ⟨fun i hi => ?_, fun i hi => ?_, ?_⟩
  · rw [A.x i hi, sub_self, abs_zero]; linarith
  · rw [A.y i hi, sub_self, abs_zero]; linarith
  · rw [A.z, sub_self, abs_zero]; linarith

/-- The centre of the top of each layer is near a point of a face. -/
theorem top_near {g : Grid ℝ} {p : SimParam ℝ} {tol : ℝ} (S : Setup g p tol) (A : Aligned g)
    {pos : Vec3 ℝ} {ori : Quat ℝ} {body : Body ℝ} (hoff : PoseOff g body (pos, ori))
    (hG : General g tol body (pos, ori)) {fuel : ℕ} {s s' : SimOut ℝ} (hs : Sound g s)
    (h : calcBodyPos fuel s pos ori g body p tol = .ok s') {k : ℕ} (hk : k = 0 ∨ k = 2) {i j : ℤ}
    (hij : s.InGrid i j) (hb : HasBody s' k i j) :
    ∃ f ∈ bodyFaces g tol pos ori body, ∃ P, f.Has g tol P ∧
      let d := vsub ⟨g.vectX i, g.vectY j, s'.body (k + 1) i j⟩ (unidx g P)
      |d.x| ≤ g.cellXY / 2 ∧ |d.y| ≤ g.cellXY / 2 ∧ |d.z| ≤ g.cellZ := by
  have hc := S.cellXY
  have hz := S.zgrid.pos
  obtain ⟨walls, hw, hT⟩ := calcBodyPos_tops hs h
  obtain ⟨n, ⟨w, hwm, hm⟩, ht⟩ := hT k hk i j hij hb
  obtain ⟨zlo, zhi, hzb⟩ := exists_bounds
    ((nudgedVertices g tol pos ori body).map (fun v => (idx g v).z) ++
      (cornerSets g pos ori body).flatMap fun c => paraZ g (nudge tol c))
  obtain ⟨-, walls', hwl, hcell, -, -⟩ := calcBodyPos_full sqrtLaw_real S.zgrid hc S.level S.tolPos
    S.tolThird S.buffer hs.size hs.inArea hs.wf.bodyOK.al hoff (zlo := zlo) (zhi := zhi)
    (fun v hv => hzb _ (List.mem_append_left _ (List.mem_map_of_mem hv)))
    (fun c hc z hz => by
      have := hzb z (List.mem_append_right _ (List.mem_flatMap.mpr ⟨c, hc, hz⟩))
      constructor <;> linarith) h
  rw [hw] at hwl
  cases hwl
  have hC := (hcell w hwm _ hm).1
  obtain ⟨f, hf, hF⟩ := forall₂_right (wallsOf_faces sqrtLaw_real S.tolPos.le hw) w hwm
  obtain ⟨P, hP, t1, t2, t3, t4⟩ := hF.only (hG f hf) _ hm
  refine ⟨f, hf, P, ?_, ?_⟩
  · rcases hP with q | q
    · exact .inl q
    · exact .inr q.2
  · dsimp only at t1 t2 t3 t4 ⊢
    rw [ht, S.zgrid.step n hC.2.1 hC.2.2, A.x i hij.1, A.y j hij.2.2.1, A.z]
    unfold vsub unidx
    dsimp only
    rw [abs_le] at t1 t2
    have a1 := mul_le_mul_of_nonneg_right t1.1 hc.le
    have a2 := mul_le_mul_of_nonneg_right t1.2 hc.le
    have b1 := mul_le_mul_of_nonneg_right t2.1 hc.le
    have b2 := mul_le_mul_of_nonneg_right t2.2 hc.le
    have c1 := mul_le_mul_of_nonneg_right t3 hz.le
    have c2 := mul_le_mul_of_nonneg_right t4 hz.le
    refine ⟨?_, ?_, ?_⟩ <;> rw [abs_le] <;> constructor <;> linarith

/-! ## The invariant -/

/-- In the frame of the body, the entry is near a point of a face. -/
def Anchored (g : Grid ℝ) (tol : ℝ) (body : Body ℝ) (e : BodySoil ℝ) : Prop :=
  ∃ f ∈ bodyFaces g tol ⟨0, 0, 0⟩ qone body, ∃ P, f.Has g tol P ∧
    dot (vsub ⟨e.xb, e.yb, e.zb⟩ (unidx g P)) (vsub ⟨e.xb, e.yb, e.zb⟩ (unidx g P)) ≤
      g.cellXY ^ 2 / 2 + g.cellZ ^ 2

theorem posed_distSq {ori : Quat ℝ} (hq : qnormSq ori ≠ 0) (pos v w : Vec3 ℝ) :
    dot (vsub (posed pos ori v) (posed pos ori w)) (vsub (posed pos ori v) (posed pos ori w)) =
      dot (vsub v w) (vsub v w) := by
  have e : vsub (posed pos ori v) (posed pos ori w) = calcRotationQuaternion ori (vsub v w) := by
    have h : vsub v w = vadd v (vsmul (-1) w) := by
      unfold vsub vadd vsmul; apply Vec3.ext' <;> dsimp only <;> ring
    rw [h, (C05_linear ori hq _ _ 0).1, (C05_linear ori hq w ⟨0, 0, 0⟩ _).2]
    unfold posed vsub vadd vsmul
    apply Vec3.ext' <;> dsimp only <;> ring
  rw [e, C05_dot ori hq]

theorem anchored_of {g : Grid ℝ} {p : SimParam ℝ} {tol : ℝ} (S : Setup g p tol) {body : Body ℝ}
    {pos : Vec3 ℝ} {ori : Quat ℝ} (hq : qnormSq ori ≠ 0) {e : BodySoil ℝ}
    {f : Face ℝ} (hf : f ∈ bodyFaces g tol pos ori body) {P : Vec3 ℝ} (hP : f.Has g tol P)
    (hx : |(vsub (movedTo pos ori e) (unidx g P)).x| ≤ g.cellXY / 2)
    (hy : |(vsub (movedTo pos ori e) (unidx g P)).y| ≤ g.cellXY / 2)
    (hz : |(vsub (movedTo pos ori e) (unidx g P)).z| ≤ g.cellZ) : Anchored g tol body e := by
  obtain ⟨a, b, c, hT⟩ := posed_affine pos hq
  rw [bodyFaces_posed g tol pos hq] at hf
  obtain ⟨f0, hf0, rfl⟩ := List.mem_map.mp hf
  obtain ⟨P0, hP0, e0⟩ := hP.unmap S.cellXY S.zgrid.pos hT
  refine ⟨f0, hf0, P0, hP0, ?_⟩
  rw [← posed_distSq hq pos, ← e0, ← movedTo_eq]
  generalize vsub (movedTo pos ori e) (unidx g P) = d at hx hy hz ⊢
  unfold dot
  have a := sq_le_sq' (abs_le.mp hx).1 (abs_le.mp hx).2
  have b := sq_le_sq' (abs_le.mp hy).1 (abs_le.mp hy).2
  have c := sq_le_sq' (abs_le.mp hz).1 (abs_le.mp hz).2
  nlinarith

theorem step_anchored {g : Grid ℝ} {p : SimParam ℝ} {tol : ℝ} (S : Setup g p tol) (A : Aligned g)
    {body : Body ℝ} {pos : Vec3 ℝ} {ori : Quat ℝ} (hq : Clear g body (pos, ori))
    (hG : General g tol body (pos, ori)) {fuel : ℕ} {w : World ℝ}
    (hs : Sound g w.out) (hl : ∀ e ∈ w.out.bodySoilPos, 0 < e.h → Anchored g tol body e)
    {r : StepResult ℝ} (hr : step fuel pos ori g body p tol w = .ok r) :
    ∀ e ∈ r.world.out.bodySoilPos, 0 < e.h → Anchored g tol body e := by
  intro e he hp
  have hoff := hq.poseOff S.cellXY S.zgrid.pos
  rcases C47_step sqrtLaw_real g p tol S fuel pos ori hq.ori body hoff w hs r hr e he hp with
    ⟨e0, m0, p0, hx, hy, hz⟩ | hon
  · have := hl e0 m0 p0
    unfold Anchored at this ⊢
    rwa [hx, hy, hz]
  · rcases step_raster hr with heq | ⟨s, h1, hb, hg⟩
    · rw [heq] at he
      exact hl e he hp
    · have hpr : HasBody s e.ind e.ii e.jj := by
        have := hon.present
        unfold HasBody at this ⊢
        rwa [hb] at this
      have hin : w.out.InGrid e.ii e.jj := by
        have N := calcBodyPos_post sqrtLaw_real S.zgrid S.cellXY S.level S.tolPos S.tolThird S.buffer
          hs.size hs.inArea hs.wf.bodyOK.al hoff h1
        have := hg _ _ hon.inGrid
        rw [N.eq] at this
        exact this
      obtain ⟨f, hf, P, hP, d1, d2, d3⟩ := top_near S A hoff hG hs h1 hon.layer hin hpr
      have hpl := hon.place
      dsimp only at hpl
      rw [hb] at hpl
      rw [← hpl] at d1 d2 d3
      exact anchored_of S hq.ori hf hP d1 d2 d3

/-! ## A wall is near -/

/-- Every carried entry finds a wall. -/
theorem wall_near {g : Grid ℝ} {p : SimParam ℝ} {tol : ℝ} (S : Setup g p tol) (A : Aligned g)
    (hsm : 18 * tol * ((g.halfX + g.halfY) * g.cellXY + g.halfZ * g.cellZ) ≤ g.cellZ)
    (hH : 400 * tol * (g.halfX + g.halfY) ≤ 1) (hcz : 2 * g.cellZ ≤ g.cellXY)
    (hu : g.halfZ * g.cellZ + margin g < g.halfZ) {body : Body ℝ} {pos : Vec3 ℝ} {ori : Quat ℝ}
    (hq : Clear g body (pos, ori)) (hG : General g tol body (pos, ori)) {fuel : ℕ} {s s' : SimOut ℝ}
    (hs : Sound g s) (h : calcBodyPos fuel s pos ori g body p tol = .ok s') {e : BodySoil ℝ}
    (hcl : Close g body e) (han : Anchored g tol body e) : ¬ NoWall g s' (movedTo pos ori e) := by
  have hc := S.cellXY
  have hz := S.zgrid.pos
  have ht := S.tolPos
  have hoff := hq.poseOff hc hz
  have hbx := hq.box hc hz
  have C := A.centred hc hz
  obtain ⟨v0, hv0⟩ := List.exists_mem_of_ne_nil _ (bodyVertices_ne g pos ori body)
  have hX : 0 ≤ g.halfX ∧ 0 ≤ g.halfY := by
    have hm := margin_pos hc hz
    have c : ∀ {x h : ℝ}, |x| + margin g < (h - 1 / 2) * g.cellXY → 0 ≤ h := by
      intro x h hlt
      by_contra hn
      push Not at hn
      nlinarith [abs_nonneg x]
    exact ⟨by exact_mod_cast c (hq.x v0 hv0), by exact_mod_cast c (hq.y v0 hv0)⟩
  have hH0 : (0 : ℝ) ≤ tol * (g.halfX + g.halfY) :=
    mul_nonneg ht.le (by exact_mod_cast add_nonneg hX.1 hX.2)
  -- the moved entry is inside the grid
  have hin := hq.carried hc (l := [⟨e.ind, e.ii, e.jj, e.xb, e.yb, e.zb, 1⟩]) (by
    intro x hx _
    rw [List.mem_singleton] at hx
    subst hx
    exact hcl) _ (List.mem_singleton.mpr rfl) one_pos
  change (1 / 2 ≤ (idx g (movedTo pos ori e)).x ∧ (idx g (movedTo pos ori e)).x < 2 * (g.halfX : ℝ) - 1 / 2) ∧
    (1 / 2 ≤ (idx g (movedTo pos ori e)).y ∧ (idx g (movedTo pos ori e)).y < 2 * (g.halfY : ℝ) - 1 / 2) at hin
  -- a point of a face in the new pose
  obtain ⟨f0, hf0, P0, hP0, hd⟩ := han
  obtain ⟨a, b, c, hT⟩ := posed_affine pos hq.ori
  obtain ⟨P, hP, eP⟩ := hP0.map hc hz hT
  have hf : f0.map (posed pos ori) ∈ bodyFaces g tol pos ori body := by
    rw [bodyFaces_posed g tol pos hq.ori]; exact List.mem_map_of_mem hf0
  rw [← posed_distSq hq.ori pos, ← eP, ← movedTo_eq] at hd
  have hcl' := hcl.moved (pos := pos) hq.ori
  set X := movedTo pos ori e with hXd
  -- horizontally
  have hor : ∀ {x q half : ℝ}, (x - (q - half) * g.cellXY) ^ 2 ≤ g.cellXY ^ 2 / 2 + g.cellZ ^ 2 →
      |x / g.cellXY + half - q| ≤ 9 / 10 := by
    intro x q half h
    have e : x / g.cellXY + half - q = (x - (q - half) * g.cellXY) / g.cellXY := by field_simp; ring
    rw [e, abs_div, abs_of_pos hc, div_le_iff₀ hc]
    refine abs_le_of_sq_le_sq ?_ (by positivity)
    have : g.cellZ ^ 2 ≤ (g.cellXY / 2) ^ 2 := pow_le_pow_left₀ hz.le (by linarith) 2
    nlinarith [sq_nonneg g.cellXY]
  have hdx : |(idx g X).x - P.x| ≤ 9 / 10 := by
    refine hor ?_
    unfold dot vsub unidx at hd
    dsimp only at hd
    nlinarith [sq_nonneg (X.y - (P.y - g.halfY) * g.cellXY), sq_nonneg (X.z - (P.z + 1 - g.halfZ) * g.cellZ)]
  have hdy : |(idx g X).y - P.y| ≤ 9 / 10 := by
    refine hor ?_
    unfold dot vsub unidx at hd
    dsimp only at hd
    nlinarith [sq_nonneg (X.x - (P.x - g.halfX) * g.cellXY), sq_nonneg (X.z - (P.z + 1 - g.halfZ) * g.cellZ)]
  obtain ⟨i, j, ⟨x, k, hk, hb, o1, o2⟩, ni, nj⟩ := face_cover (g := g) (f := f0.map (posed pos ori))
    (tol := tol) (η := 24 * tol * (g.halfX + g.halfY)) (δ := 28 * tol * (g.halfX + g.halfY)) ht.le
    (occ := fun i j => ∃ x, Occ s' i j x)
    (fun e he u u0 u1 => by
      obtain ⟨i, j, h1, h2, h3⟩ := C44_edges sqrtLaw_real fuel s s' pos ori g body p tol S.zgrid hc S.level ht
        S.tolThird S.buffer hs.size hs.inArea hs.wf.bodyOK.al hoff h _ hf e he (hG _ hf e he) u u0 u1
      exact ⟨i, j, h1, h2, _, h3⟩)
    (fun hfl Q hQ hbox m n h1 h2 i j h3 h4 =>
      ⟨_, C44_inside sqrtLaw_real fuel s s' pos ori g body p tol S.zgrid hc S.level ht
        S.tolThird S.buffer hs.size hs.inArea hs.wf.bodyOK.al hoff h _ hf hfl Q hQ hbox m n h1 h2 i j h3 h4⟩)
    (face_tight_idx hc ht.le S.tolThird hX.1 hX.2 (fun v hv => ⟨(hbx v hv).1, (hbx v hv).2.1⟩) hf)
    (by linarith) (by linarith) (by linarith) (by linarith) (hP.whole ht.le) hdx hdy (by linarith)
  -- the column is one of the nine
  have col : ∀ {x : ℝ} {i : ℤ}, |x - i| < 3 / 2 → roundAway x - 1 ≤ i ∧ i ≤ roundAway x + 1 := by
    intro x i h
    have r := abs_le.mp (abs_roundAway_sub_le x)
    have q := abs_lt.mp h
    have h1 : (roundAway x : ℝ) - 1 < i + 1 := by linarith
    have h2 : (i : ℝ) < roundAway x + 1 + 1 := by linarith
    constructor
    · have : roundAway x - 1 < i + 1 := by exact_mod_cast h1
      omega
    · have : i < roundAway x + 1 + 1 := by exact_mod_cast h2
      omega
  obtain ⟨i1, i2⟩ := col ni
  obtain ⟨j1, j2⟩ := col nj
  have N := calcBodyPos_post sqrtLaw_real S.zgrid hc S.level ht S.tolThird S.buffer
    hs.size hs.inArea hs.wf.bodyOK.al hoff h
  have hg : s'.InGrid i j := by
    obtain ⟨z1, z2⟩ := hs.size
    have e1 : s'.lenX = s.lenX := by rw [N.eq]
    have e2 : s'.lenY = s.lenY := by rw [N.eq]
    unfold SimOut.InGrid
    rw [e1, e2, z1, z2]
    have ni' := abs_lt.mp ni
    have nj' := abs_lt.mp nj
    obtain ⟨⟨a1, a2⟩, a3, a4⟩ := hin
    have k1 : (-1 : ℝ) < i := by linarith
    have k2 : (i : ℝ) < 2 * g.halfX + 1 := by linarith
    have k3 : (-1 : ℝ) < j := by linarith
    have k4 : (j : ℝ) < 2 * g.halfY + 1 := by linarith
    have l1 : -1 < i := by exact_mod_cast k1
    have l2 : i < 2 * g.halfX + 1 := by exact_mod_cast k2
    have l3 : -1 < j := by exact_mod_cast k3
    have l4 : j < 2 * g.halfY + 1 := by exact_mod_cast k4
    refine ⟨by omega, by omega, by omega, by omega⟩
  intro hno
  have hfar := hno k i j hk i1 i2 j1 j2 hb
  -- vertically
  have lz : len ⟨0, 0, 1⟩ = 1 ∧ len ⟨0, 0, -1⟩ = 1 := by unfold len dot; simp
  have dz : ∀ v : Vec3 ℝ, dot ⟨0, 0, 1⟩ v = v.z := by intro v; unfold dot; ring
  have dz' : ∀ v : Vec3 ℝ, dot ⟨0, 0, -1⟩ v = -v.z := by intro v; unfold dot; ring
  have up : ∀ Y : Vec3 ℝ, (∀ n, ∃ v ∈ bodyVertices g pos ori body, dot n Y ≤ dot n v + margin g * len n) →
      |Y.z| ≤ g.halfZ * g.cellZ + margin g := by
    intro Y hY
    obtain ⟨v, hv, q1⟩ := hY ⟨0, 0, 1⟩
    obtain ⟨w, hw, q2⟩ := hY ⟨0, 0, -1⟩
    rw [dz, dz, lz.1] at q1
    rw [dz', dz', lz.2] at q2
    have b1 := abs_le.mp (hbx v hv).2.2
    have b2 := abs_le.mp (hbx w hw).2.2
    rw [abs_le]; constructor <;> linarith
  have z1 := up X hcl'
  have z2 := up _ fun n => raster_support S C hsm hbx hoff hs h hg
    (x := s'.body (k + 1) i j) ⟨k, hk, hb, o1.trans o2, le_rfl⟩ n
  dsimp only at z2
  have := abs_sub X.z (s'.body (k + 1) i j)
  linarith

/-! ## Steps and histories -/

/-- Every entry that holds soil is near the body and near a face, in the frame of the body. -/
def Carried (g : Grid ℝ) (tol : ℝ) (body : Body ℝ) (s : SimOut ℝ) : Prop :=
  ∀ e ∈ s.bodySoilPos, 0 < e.h → Close g body e ∧ Anchored g tol body e

theorem stored_of_calc {g : Grid ℝ} {p : SimParam ℝ} {tol : ℝ} (S : Setup g p tol) {body : Body ℝ}
    {pos : Vec3 ℝ} {ori : Quat ℝ} (hoff : PoseOff g body (pos, ori)) {fuel : ℕ} {s s' : SimOut ℝ}
    (hs : Sound g s) (h : calcBodyPos fuel s pos ori g body p tol = .ok s') :
    Stored g.cellZ s' ∧ s'.bodySoilPos = s.bodySoilPos ∧ s'.terrain = s.terrain := by
  have N := calcBodyPos_post sqrtLaw_real S.zgrid S.cellXY S.level S.tolPos S.tolThird S.buffer hs.size
    hs.inArea hs.wf.bodyOK.al hoff h
  obtain ⟨b, a, rfl⟩ : ∃ b a, s' = { s with body := b, bodyArea := a } := ⟨_, _, N.eq⟩
  have := hs.wf.soilOK.stored
  exact ⟨⟨this.1, this.2, this.3, this.4, this.5, this.6, this.7⟩, rfl, rfl⟩

theorem transport_quiet {g : Grid ℝ} {p : SimParam ℝ} {tol : ℝ} (S : Setup g p tol) (O : CarryOK g tol)
    {body : Body ℝ} {pos : Vec3 ℝ} {ori : Quat ℝ} (hq : Clear g body (pos, ori))
    (hG : General g tol body (pos, ori)) {fuel : ℕ} {w : World ℝ} (hs : Sound g w.out)
    (hl : Carried g tol body w.out) {s : SimOut ℝ}
    (h1 : calcBodyPos fuel w.out pos ori g body p tol = .ok s) (log : List (Warn ℝ)) :
    Post (updateBodySoil pos ori g body tol { w with out := s, log := log }) fun x =>
      x.1.log = log ∧ x.1.out.terrain = w.out.terrain := by
  obtain ⟨hst, hp, hter⟩ := stored_of_calc S (hq.poseOff S.cellXY S.zgrid.pos) hs h1
  refine (updateBodySoil_quiet pos ori g body tol S.zgrid.pos { w with out := s, log := log } hst ?_).mono ?_
  · intro e he h0
    dsimp only at he ⊢
    rw [hp] at he
    exact wall_near S O.aligned O.small O.fine O.flat O.units hq hG hs h1 (hl e he h0).1 (hl e he h0).2
  · rintro x ⟨a, b⟩
    exact ⟨a, b.trans hter⟩

theorem step_carried {g : Grid ℝ} {p : SimParam ℝ} {tol : ℝ} (S : Setup g p tol) (O : CarryOK g tol)
    {body : Body ℝ} {pos : Vec3 ℝ} {ori : Quat ℝ} (hq : Clear g body (pos, ori))
    (hG : General g tol body (pos, ori)) {fuel : ℕ} {w : World ℝ} (hs : Sound g w.out)
    (hl : Carried g tol body w.out) {r : StepResult ℝ}
    (hr : step fuel pos ori g body p tol w = .ok r) :
    Carried g tol body r.world.out ∧ ∃ m, r.world.log = w.log ++ m ∧ .soilToTerrain ∉ m := by
  have hc := S.cellXY
  have hz := S.zgrid.pos
  have C := O.aligned.centred hc hz
  refine ⟨fun e he h0 => ⟨step_close S C O.small hq hs (fun e he h0 => (hl e he h0).1) hr e he h0,
    step_anchored S O.aligned hq hG hs (fun e he h0 => (hl e he h0).2) hr e he h0⟩, ?_⟩
  unfold step at hr
  rcases hcm : checkBodyMovement pos ori g body with ⟨moved, warns⟩
  rw [hcm] at hr
  dsimp only at hr
  have hw : .soilToTerrain ∉ warns := by
    unfold checkBodyMovement at hcm
    dsimp only at hcm
    split_ifs at hcm <;> cases hcm <;> simp
  cases moved with
  | false =>
    simp only [Bool.not_false, if_true, pure_eq_ok, Except.ok.injEq] at hr
    subst hr
    exact ⟨warns, rfl, hw⟩
  | true =>
    simp only [Bool.not_true, Bool.false_eq_true, if_false] at hr
    obtain ⟨s, h1, hr⟩ := bind_eq_ok.mp hr
    obtain ⟨⟨w2, b2⟩, h2, hr⟩ := bind_eq_ok.mp hr
    obtain ⟨w3, h3, hr⟩ := bind_eq_ok.mp hr
    obtain ⟨⟨w4, it⟩, h4, hr⟩ := bind_eq_ok.mp hr
    simp only [pure_eq_ok, Except.ok.injEq] at hr
    subst hr
    obtain ⟨-, n, m, l3, hm, -, -⟩ := step_mid sqrtLaw_real S pos ori body (hq.poseOff hc hz) w hs h1 h2 h3
    obtain ⟨-, l4⟩ := relaxLoop_frame _ _ _ _ _ _ _ _ h4
    have hquiet := (transport_quiet S O hq hG hs hl h1 (w.log ++ warns) _ h2).1
    dsimp only at hquiet
    -- the log of the transport and of the pushing
    have h3' : ∃ m, w3.log = w2.log ++ m ∧ ∀ x ∈ m, ∃ h, 0 < h ∧ x = .soilRemoved h := by
      have N := calcBodyPos_post sqrtLaw_real S.zgrid hc S.level S.tolPos S.tolThird S.buffer hs.size hs.inArea
        hs.wf.bodyOK.al (hq.poseOff hc hz) h1
      obtain ⟨hst, -, -⟩ := stored_of_calc S (hq.poseOff hc hz) hs h1
      obtain ⟨-, sb2, S2, -⟩ := updateBodySoil_spec pos ori g body tol hz
        { w with out := s, log := w.log ++ warns } N.bodyOK hst _ h2
      obtain ⟨c1, c2, c3, c4⟩ := sb2
      dsimp only at S2 c1 c2 c3 c4
      have A2 : BodyInArea w2.out := by
        intro k i j hij hk hb
        rw [c2]
        refine N.inArea k i j ?_ hk ?_
        · unfold SimOut.InGrid at hij ⊢; rwa [c3, c4] at hij
        · unfold HasBody at hb ⊢; rwa [c1] at hb
      obtain ⟨-, m, l, hm, -⟩ := moveIntersectingCells_post S.tolOK (N.bodyOK.congr c1 c3 c4) S2 A2 h3
      exact ⟨m, l, hm⟩
    obtain ⟨m', l', hm'⟩ := h3'
    refine ⟨warns ++ m', ?_, ?_⟩
    · dsimp only
      rw [l4]
      show w3.log = _
      rw [l', hquiet, List.append_assoc]
    · intro hx
      rcases List.mem_append.mp hx with hx | hx
      · exact hw hx
      · obtain ⟨y, -, e⟩ := hm' _ hx
        cases e

theorem step_body {g : Grid ℝ} {p : SimParam ℝ} {tol : ℝ} {body : Body ℝ} {pos : Vec3 ℝ} {ori : Quat ℝ}
    {fuel : ℕ} {w : World ℝ} {r : StepResult ℝ} (hr : step fuel pos ori g body p tol w = .ok r) :
    ∃ pos' ori', r.body = { body with pos := pos', ori := ori' } := by
  cases hu : r.updated with
  | false => exact ⟨body.pos, body.ori, ((C12_step fuel pos ori g body p tol w r hr).1 hu).2⟩
  | true => exact ⟨pos, ori, (C12_step fuel pos ori g body p tol w r hr).2 hu⟩

theorem run_carried {g : Grid ℝ} {p : SimParam ℝ} {tol : ℝ} (S : Setup g p tol) (O : CarryOK g tol)
    (qs : List (Vec3 ℝ × Quat ℝ)) {body : Body ℝ} (hq : ∀ q ∈ qs, Clear g body q ∧ General g tol body q)
    {fuel : ℕ} {w : World ℝ} (hs : Sound g w.out) (hl : Carried g tol body w.out)
    {body' : Body ℝ} {w' : World ℝ} (h : run fuel g p tol qs body w = .ok (body', w')) :
    (∃ pos ori, body' = { body with pos := pos, ori := ori }) ∧ Sound g w'.out ∧ Carried g tol body w'.out ∧
      ∃ m, w'.log = w.log ++ m ∧ .soilToTerrain ∉ m := by
  induction qs generalizing body w with
  | nil =>
    unfold run at h
    cases h
    exact ⟨⟨_, _, rfl⟩, hs, hl, [], by simp, by simp⟩
  | cons q qs ih =>
    obtain ⟨pos, ori⟩ := q
    unfold run at h
    obtain ⟨r, hr, h⟩ := bind_eq_ok.mp h
    obtain ⟨hc, hG⟩ := hq _ List.mem_cons_self
    obtain ⟨c1, m1, l1, n1⟩ := step_carried S O hc hG hs hl hr
    have s1 := (step_sound sqrtLaw_real S fuel pos ori body (hc.poseOff S.cellXY S.zgrid.pos) w hs r hr).1
    obtain ⟨pos', ori', hb⟩ := step_body hr
    rw [hb] at h
    obtain ⟨⟨p2, o2, e2⟩, s2, c2, m2, l2, n2⟩ := ih (body := { body with pos := pos', ori := ori' })
      (fun q hm => ⟨⟨(hq q (List.mem_cons_of_mem _ hm)).1.ori, (hq q (List.mem_cons_of_mem _ hm)).1.x,
        (hq q (List.mem_cons_of_mem _ hm)).1.y, (hq q (List.mem_cons_of_mem _ hm)).1.z⟩,
        (hq q (List.mem_cons_of_mem _ hm)).2⟩) s1 c1 h
    refine ⟨⟨p2, o2, e2⟩, s2, c2, m1 ++ m2, by rw [l2, l1, List.append_assoc], fun hx => ?_⟩
    exact (List.mem_append.mp hx).elim n1 n2

end Soil
