import Verif.Proof.Shape
import Verif.Spec.Reach

/-! # Rasterised cells are near the faces, without conditions -/

set_option linter.unusedSectionVars false
set_option linter.unusedSimpArgs false

namespace Soil

section Any

variable {K : Type} [Field K] [LinearOrder K] [FloorRing K] [Transc K] [IsStrictOrderedRing K]

/-- `P` is at most one cell outside the cell `c` -/
def NearCell (c : Cell3) (P : Vec3 K) : Prop :=
  |P.x - c.1| ≤ 3 / 2 ∧ |P.y - c.2.1| ≤ 3 / 2 ∧ c.2.2 - 2 ≤ P.z ∧ P.z ≤ c.2.2 + 1

theorem axO_le (p q : K) : axO p q ≤ 1 := by
  have := abs_le.mp (abs_roundAway_sub_le p)
  unfold axO; split_ifs <;> linarith

theorem axOz_le (p q : K) : axOz p q ≤ 1 := by
  have h1 := Int.ceil_lt_add_one p
  have h2 := Int.lt_floor_add_one p
  unfold axOz; split_ifs <;> linarith

theorem axis_near {p q u o : K} (ho : 0 < o) (ho1 : o ≤ 1) (h0 : 0 ≤ u) (h1 : u ≤ 1) {n : ℕ}
    (hn : ∀ m, n = m + 1 → o + m ≤ u * axD p q) (hn' : u * axD p q ≤ o + n) :
    |p + u * (q - p) - (p + axS p q * n)| ≤ 1 := by
  have hD := mul_nonneg h0 (axD_pos p q).le
  have hlow : (n : K) ≤ u * axD p q + 1 := by
    cases n with
    | zero => push_cast; linarith
    | succ m => have := hn m rfl; push_cast; linarith
  by_cases he : p = q
  · have h2 : (n : K) < 2 := by
      have : axD p q = 1 / 10000000000 := by unfold axD; rw [if_pos (by rw [he]; ring)]
      rw [this] at hlow
      have : u * (1 / 10000000000) ≤ 1 / 10000000000 := by
        have := mul_le_mul_of_nonneg_right h1 (show (0 : K) ≤ 1 / 10000000000 by norm_num)
        linarith
      have : (1 / 10000000000 : K) < 1 := by norm_num
      linarith
    have hn2 : n < 2 := by exact_mod_cast h2
    have h3 : (n : K) ≤ 1 := by exact_mod_cast Nat.lt_succ_iff.mp hn2
    have h4 : (0 : K) ≤ n := Nat.cast_nonneg n
    have e : p + u * (q - p) - (p + axS p q * n) = -(axS p q * n) := by rw [he]; ring
    rw [e, abs_neg]
    rcases axS_sq p q with e | e <;> rw [e, abs_le] <;> constructor <;> linarith
  · have hd := (axD_eq he).1
    have e : p + u * (q - p) - (p + axS p q * n) = axS p q * (u * axD p q - n) := by rw [hd]; ring
    rw [e]
    rcases axS_sq p q with e | e <;> rw [e, abs_le] <;> constructor <;> linarith

theorem In3.near {c : LineCfg K} {p q : Vec3 K} (ok : CfgOK c p q)
    {n : ℕ × ℕ × ℕ} {u : K} (h0 : 0 ≤ u) (h1 : u ≤ 1)
    (h : In3 (fun n => (axO p.x q.x + (n : K)) * c.dX) (fun n => (axO p.y q.y + (n : K)) * c.dY)
      (fun n => (axOz p.z q.z + (n : K)) * c.dZ) n (u * c.norm)) :
    NearCell (cellAt c p n) (segPoint p q u) := by
  obtain ⟨⟨x1, x2⟩, ⟨y1, y2⟩, ⟨z1, z2⟩⟩ := h.conv ok
  have X := abs_le.mp (axis_near (axO_pos _ _) (axO_le _ _) h0 h1 x1 x2)
  have Y := abs_le.mp (axis_near (axO_pos _ _) (axO_le _ _) h0 h1 y1 y2)
  have Z := abs_le.mp (axis_near (axOz_pos _ _) (axOz_le _ _) h0 h1 z1 z2)
  unfold NearCell cellAt posAt segPoint
  dsimp only
  rw [ok.sx, ok.sy, ok.sz]
  have rx := abs_le.mp (abs_roundAway_sub_le (p.x + axS p.x q.x * n.1))
  have ry := abs_le.mp (abs_roundAway_sub_le (p.y + axS p.y q.y * n.2.1))
  have c1 := Int.le_ceil (p.z + axS p.z q.z * n.2.2)
  have c2 := Int.ceil_lt_add_one (p.z + axS p.z q.z * n.2.2)
  refine ⟨?_, ?_, ?_, ?_⟩
  · rw [abs_le]; constructor <;> linarith [X.1, X.2, rx.1, rx.2]
  · rw [abs_le]; constructor <;> linarith [Y.1, Y.2, ry.1, ry.2]
  · linarith [Z.1, Z.2]
  · linarith [Z.1, Z.2]

/-- Cells of any segment -/
theorem line_near (hs : SqrtLaw K) {a b : Vec3 K} {g : Grid K} {fuel : ℕ} {r : List Cell3}
    (h : calcLinePos fuel a b g = .ok r) :
    ∀ c ∈ r, ∃ u, 0 ≤ u ∧ u ≤ 1 ∧ NearCell c (segPoint (idx g a) (idx g b) u) := by
  obtain ⟨c, l, ok, h1, tr⟩ := calcLinePos_trace hs a b g
  have e1 := calcLinePos_of_ok h (max fuel (lineFuel (idx g a) (idx g b))) (le_max_left _ _)
  rw [h1 _ (le_max_right _ _)] at e1
  have e2 : ((0, 0, 0) :: l).map (cellAt c (idx g a)) = r := by injection e1
  rw [← e2]
  set p := idx g a
  set q := idx g b
  have h0 : In3 (fun n => (axO p.x q.x + (n : K)) * c.dX) (fun n => (axO p.y q.y + (n : K)) * c.dY)
      (fun n => (axOz p.z q.z + (n : K)) * c.dZ) (0, 0, 0) 0 :=
    ⟨.zero (axO_pos _ _) ok.dx.1, .zero (axO_pos _ _) ok.dy.1, .zero (axOz_pos _ _) ok.dz.1⟩
  obtain ⟨t1, -⟩ := tr.touch (times_mono ok.dx.1) (times_mono ok.dy.1) (times_mono ok.dz.1) le_rfl h0
  have hN := ok.norm
  have scale : ∀ τ : K, τ = τ / c.norm * c.norm := fun τ => by field_simp
  intro x hx
  obtain ⟨n, hn, rfl⟩ := List.mem_map.mp hx
  have : ∃ τ, 0 ≤ τ ∧ τ ≤ c.norm ∧ In3 (fun n => (axO p.x q.x + (n : K)) * c.dX)
      (fun n => (axO p.y q.y + (n : K)) * c.dY) (fun n => (axOz p.z q.z + (n : K)) * c.dZ) n τ := by
    rcases List.mem_cons.mp hn with rfl | hn
    · exact ⟨0, le_rfl, hN.le, h0⟩
    · exact t1 n hn
  obtain ⟨τ, g0, g1, g2⟩ := this
  rw [scale τ] at g2
  have u0 : 0 ≤ τ / c.norm := div_nonneg g0 hN.le
  have u1 : τ / c.norm ≤ 1 := (div_le_one hN).mpr g1
  exact ⟨τ / c.norm, u0, u1, g2.near ok u0 u1⟩

theorem Touches.near {c : Cell3} {P : Vec3 K} (h : Touches c P) : NearCell c P := by
  obtain ⟨h1, h2, h3, h4⟩ := h
  refine ⟨h1.trans (by norm_num), h2.trans (by norm_num), by linarith, by linarith⟩

theorem rect_near (hs : SqrtLaw K) {a b c d : Vec3 K} {g : Grid K} {tol : K} (ht : 0 ≤ tol)
    {fuel : ℕ} {cells : List Cell3} (h : calcRectanglePos fuel a b c d g tol = .ok cells) :
    ∀ x ∈ cells, ∃ P, ((Face.quad a b c d).OnEdge g P ∨ (Face.quad a b c d).Inner g tol P) ∧
      NearCell x P := by
  obtain ⟨r, e1, hr⟩ := calcRectanglePos_spec a b c d g tol
  have hx' := h
  unfold calcRectanglePos at hx'
  simp only [boundingInt_eq, ok_bind] at hx'
  obtain ⟨i1, -, hx'⟩ := bind_eq_ok.mp hx'
  obtain ⟨i2, -, hx'⟩ := bind_eq_ok.mp hx'
  obtain ⟨k1, g1, hx'⟩ := bind_eq_ok.mp hx'
  obtain ⟨k2, g2, hx'⟩ := bind_eq_ok.mp hx'
  obtain ⟨k3, g3, hx'⟩ := bind_eq_ok.mp hx'
  obtain ⟨k4, g4, -⟩ := bind_eq_ok.mp hx'
  have := e1 fuel k1 k2 k3 k4 g1 g2 g3 g4
  rw [h] at this
  cases this
  intro x hx
  have hE : ∀ p q k, (p, q) ∈ (Face.quad a b c d).edges → calcLinePos fuel p q g = .ok k → x ∈ k →
      ∃ P, ((Face.quad a b c d).OnEdge g P ∨ (Face.quad a b c d).Inner g tol P) ∧ NearCell x P := by
    intro p q k hm hk hxk
    obtain ⟨u, u0, u1, t⟩ := line_near hs hk x hxk
    exact ⟨_, .inl ⟨_, hm, u, u0, u1, rfl⟩, t⟩
  simp only [List.mem_append] at hx
  rcases hx with (((hx | hx) | hx) | hx) | hx
  · obtain ⟨m, n, -, -, hi, ha⟩ := (hr x).mp hx
    by_cases hd : hDet (edgeIdx g a b) (edgeIdx g a d) = 0
    · rw [inRect_iff, (coef_det_zero hd _ _).1] at hi
      exact absurd hi.1 (not_lt.mpr ht)
    · obtain ⟨s1, s2⟩ := coef_solve hd (a := idx g a) ((m : K) + 1 / 2) ((n : K) + 1 / 2)
      exact ⟨_, .inr (.quad ((inRect_iff _ _ _).mp hi)), (around_touches ha s1 s2).near⟩
  · exact hE a b k1 (by simp [Face.edges]) g1 hx
  · exact hE b c k2 (by simp [Face.edges]) g2 hx
  · exact hE c d k3 (by simp [Face.edges]) g3 hx
  · exact hE d a k4 (by simp [Face.edges]) g4 hx

theorem tri_near (hs : SqrtLaw K) {a b c : Vec3 K} {g : Grid K} {tol : K} (ht : 0 ≤ tol)
    {fuel : ℕ} {cells : List Cell3} (h : calcTrianglePos fuel a b c g tol = .ok cells) :
    ∀ x ∈ cells, ∃ P, ((Face.tri a b c).OnEdge g P ∨ (Face.tri a b c).Inner g tol P) ∧
      NearCell x P := by
  obtain ⟨r, e1, hr⟩ := calcTrianglePos_spec a b c g tol
  have hx' := h
  unfold calcTrianglePos at hx'
  simp only [boundingInt_eq, ok_bind] at hx'
  obtain ⟨i1, -, hx'⟩ := bind_eq_ok.mp hx'
  obtain ⟨i2, -, hx'⟩ := bind_eq_ok.mp hx'
  obtain ⟨k1, g1, hx'⟩ := bind_eq_ok.mp hx'
  obtain ⟨k2, g2, hx'⟩ := bind_eq_ok.mp hx'
  obtain ⟨k3, g3, -⟩ := bind_eq_ok.mp hx'
  have := e1 fuel k1 k2 k3 g1 g2 g3
  rw [h] at this
  cases this
  intro x hx
  have hE : ∀ p q k, (p, q) ∈ (Face.tri a b c).edges → calcLinePos fuel p q g = .ok k → x ∈ k →
      ∃ P, ((Face.tri a b c).OnEdge g P ∨ (Face.tri a b c).Inner g tol P) ∧ NearCell x P := by
    intro p q k hm hk hxk
    obtain ⟨u, u0, u1, t⟩ := line_near hs hk x hxk
    exact ⟨_, .inl ⟨_, hm, u, u0, u1, rfl⟩, t⟩
  simp only [List.mem_append] at hx
  rcases hx with ((hx | hx) | hx) | hx
  · obtain ⟨m, n, -, -, hi, ha⟩ := (hr x).mp hx
    by_cases hd : hDet (edgeIdx g a b) (edgeIdx g a c) = 0
    · rw [inTri_iff, (coef_det_zero hd _ _).1] at hi
      exact absurd hi.1 (not_lt.mpr ht)
    · obtain ⟨s1, s2⟩ := coef_solve hd (a := idx g a) ((m : K) + 1 / 2) ((n : K) + 1 / 2)
      exact ⟨_, .inr (.tri ((inTri_iff _ _ _).mp hi)), (around_touches ha s1 s2).near⟩
  · exact hE a b k1 (by simp [Face.edges]) g1 hx
  · exact hE b c k2 (by simp [Face.edges]) g2 hx
  · exact hE c a k3 (by simp [Face.edges]) g3 hx

/-- Every cell of the walls is near a face. -/
theorem walls_near (hs : SqrtLaw K) {fuel : ℕ} {g : Grid K} {tol : K} (ht : 0 ≤ tol)
    {pos : Vec3 K} {ori : Quat K} {body : Body K} {walls : List (List Cell3)}
    (h : wallsOf fuel g tol pos ori body = .ok walls) :
    ∀ w ∈ walls, ∀ x ∈ w, ∃ f ∈ bodyFaces g tol pos ori body, ∃ P,
      (f.OnEdge g P ∨ f.Inner g tol P) ∧ NearCell x P := by
  unfold wallsOf at h
  unfold bodyFaces
  cases hk : body.kind with
  | bucket =>
    rw [hk] at h
    dsimp only at h ⊢
    unfold bucketWalls at h
    obtain ⟨r1, e1, h⟩ := bind_eq_ok.mp h
    obtain ⟨r2, e2, h⟩ := bind_eq_ok.mp h
    obtain ⟨r3, e3, h⟩ := bind_eq_ok.mp h
    obtain ⟨r4, e4, h⟩ := bind_eq_ok.mp h
    cases h
    intro w hw x hx
    simp only [List.mem_cons, List.not_mem_nil, or_false] at hw
    rcases hw with rfl | rfl | rfl | rfl
    · exact ⟨_, by simp [bucketFaces], rect_near hs ht e1 x hx⟩
    · exact ⟨.quad _ _ _ _, by simp [bucketFaces], rect_near hs ht e2 x hx⟩
    · exact ⟨.tri _ _ _, by simp [bucketFaces], tri_near hs ht e3 x hx⟩
    · exact ⟨.tri _ _ _, by simp [bucketFaces], tri_near hs ht e4 x hx⟩
  | blade =>
    rw [hk] at h
    dsimp only at h ⊢
    unfold bladeWalls at h
    obtain ⟨r1, e1, h⟩ := bind_eq_ok.mp h
    obtain ⟨r2, e2, h⟩ := bind_eq_ok.mp h
    obtain ⟨r3, e3, h⟩ := bind_eq_ok.mp h
    obtain ⟨r4, e4, h⟩ := bind_eq_ok.mp h
    cases h
    intro w hw x hx
    simp only [List.mem_cons, List.not_mem_nil, or_false] at hw
    rcases hw with rfl | rfl | rfl | rfl
    · exact ⟨.quad _ _ _ _, by simp [bladeFaces], rect_near hs ht e1 x hx⟩
    · exact ⟨.quad _ _ _ _, by simp [bladeFaces], rect_near hs ht e2 x hx⟩
    · exact ⟨.quad _ _ _ _, by simp [bladeFaces], rect_near hs ht e3 x hx⟩
    · exact ⟨.quad _ _ _ _, by simp [bladeFaces], rect_near hs ht e4 x hx⟩

end Any

end Soil
