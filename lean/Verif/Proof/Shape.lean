import Verif.Proof.BodyPos
import Verif.Spec.Shape

/-! # The rasterised faces -/

set_option linter.unusedSectionVars false
set_option linter.unusedSimpArgs false

namespace Soil

variable {K : Type} [Field K] [LinearOrder K] [FloorRing K] [Transc K] [IsStrictOrderedRing K]

/-- The cells listed for a face -/
structure FaceCells (g : Grid K) (tol : K) (f : Face K) (cells : List Cell3) : Prop where
  edge : ∀ e ∈ f.edges, StartGeneric (idx g e.1) (idx g e.2) → ∀ u, 0 ≤ u → u ≤ 1 →
    ∃ c ∈ cells, Touches c (segPoint (idx g e.1) (idx g e.2) u)
  inner : f.Flat g → ∀ P, f.Inner g tol P → f.InBox g P → ∀ m n : ℤ, P.x = m + 1 / 2 → P.y = n + 1 / 2 →
    ∀ i j, (i = m ∨ i = m + 1) → (j = n ∨ j = n + 1) → (i, j, ⌈P.z⌉) ∈ cells
  only : (∀ e ∈ f.edges, StartGeneric (idx g e.1) (idx g e.2)) → ∀ c ∈ cells,
    ∃ P, (f.OnEdge g P ∨ (f.Flat g ∧ f.Inner g tol P)) ∧ Touches c P

theorem line_cells (hs : SqrtLaw K) {a b : Vec3 K} {g : Grid K} {fuel : ℕ} {r : List Cell3}
    (h : calcLinePos fuel a b g = .ok r) (hg : StartGeneric (idx g a) (idx g b)) :
    (∀ c ∈ r, ∃ u, 0 ≤ u ∧ u ≤ 1 ∧ Touches c (segPoint (idx g a) (idx g b) u)) ∧
    (∀ u, 0 ≤ u → u ≤ 1 → ∃ c ∈ r, Touches c (segPoint (idx g a) (idx g b) u)) := by
  obtain ⟨cells, h1, -, -, -, h2, h3⟩ := calcLinePos_spec hs a b g hg
  have e1 := calcLinePos_of_ok h (max fuel (lineFuel (idx g a) (idx g b))) (le_max_left _ _)
  rw [h1 _ (le_max_right _ _)] at e1
  cases e1
  exact ⟨h2, h3⟩

theorem floor_le_half {x : K} {m : ℤ} (h : x < m + 1) : ⌊x⌋ ≤ m := by
  rw [← Int.lt_add_one_iff, Int.floor_lt]; push_cast; linarith

theorem half_lt_ceil {x : K} {m : ℤ} (h : (m : K) < x) : m < ⌈x⌉ := by
  rw [Int.lt_ceil]; linarith

theorem ceil_around {m n : ℤ} {z : K} {i j : ℤ} (hi : i = m ∨ i = m + 1) (hj : j = n ∨ j = n + 1) :
    Around m n z (i, j, ⌈z⌉) :=
  ⟨hi, hj, by have := Int.ceil_lt_add_one z; dsimp only; linarith, Int.le_ceil z⟩

theorem around_touches {m n : ℤ} {P : Vec3 K} {c : Cell3} (h : Around m n P.z c)
    (hx : P.x = m + 1 / 2) (hy : P.y = n + 1 / 2) : Touches c P := by
  obtain ⟨h1, h2, h3, h4⟩ := h
  refine ⟨?_, ?_, h3.le, h4⟩
  · rw [hx]
    rcases h1 with h | h <;> rw [h]
    · rw [add_sub_cancel_left, abs_of_pos (by norm_num)]
    · push_cast
      rw [show (m : K) + 1 / 2 - (m + 1) = -(1 / 2) by ring, abs_neg, abs_of_pos (by norm_num)]
  · rw [hy]
    rcases h2 with h | h <;> rw [h]
    · rw [add_sub_cancel_left, abs_of_pos (by norm_num)]
    · push_cast
      rw [show (n : K) + 1 / 2 - (n + 1) = -(1 / 2) by ring, abs_neg, abs_of_pos (by norm_num)]

theorem rect_faceCells (hs : SqrtLaw K) {a b c d : Vec3 K} {g : Grid K} {tol : K} (ht : 0 ≤ tol)
    {fuel : ℕ} {cells : List Cell3} (h : calcRectanglePos fuel a b c d g tol = .ok cells) :
    FaceCells g tol (.quad a b c d) cells := by
  obtain ⟨r, e1, hr⟩ := calcRectanglePos_spec a b c d g tol
  have hx' := h
  unfold calcRectanglePos at hx'
  simp only [boundingInt_eq, ok_bind] at hx'
  obtain ⟨i1, -, hx'⟩ := bind_eq_ok.mp hx'
  obtain ⟨i2, -, hx'⟩ := bind_eq_ok.mp hx'
  obtain ⟨k1, g1, hx'⟩ := bind_eq_ok.mp hx'
  obtain ⟨k2, g2, hx'⟩ := bind_eq_ok.mp hx'
  obtain ⟨k3, g3, hx'⟩ := bind_eq_ok.mp hx'
  obtain ⟨k4, g4, -⟩ := bind_eq_ok.mp hx'
  have := e1 fuel k1 k2 k3 k4 g1 g2 g3 g4
  rw [h] at this
  cases this
  refine ⟨?_, ?_, ?_⟩
  · intro e he hg u hu hu'
    unfold Face.edges at he
    simp only [List.mem_cons, List.not_mem_nil, or_false] at he
    rcases he with rfl | rfl | rfl | rfl
    · obtain ⟨c, hc, t⟩ := (line_cells hs g1 hg).2 u hu hu'; exact ⟨c, by simp [hc], t⟩
    · obtain ⟨c, hc, t⟩ := (line_cells hs g2 hg).2 u hu hu'; exact ⟨c, by simp [hc], t⟩
    · obtain ⟨c, hc, t⟩ := (line_cells hs g3 hg).2 u hu hu'; exact ⟨c, by simp [hc], t⟩
    · obtain ⟨c, hc, t⟩ := (line_cells hs g4 hg).2 u hu hu'; exact ⟨c, by simp [hc], t⟩
  · intro hflat P hP hbox m n hx hy i j hi hj
    cases hP with
    | @quad _ _ _ _ u v hm =>
      simp only [List.mem_append]
      refine .inl (.inl (.inl (.inl ?_)))
      obtain ⟨c1, c2⟩ := coef_unique (ab := edgeIdx g a b) (ad := edgeIdx g a d) (a := idx g a) hflat hx hy
      rw [hr]
      obtain ⟨⟨⟨v1, a1, b1⟩, ⟨v2, a2, b2⟩⟩, ⟨⟨v3, a3, b3⟩, ⟨v4, a4, b4⟩⟩⟩ := hbox
      unfold Face.vertices at a1 a2 a3 a4
      simp only [List.mem_cons, List.not_mem_nil, or_false] at a1 a2 a3 a4
      rw [hx, add_assoc, show (1 / 2 : K) + 1 / 2 = 1 by norm_num] at b1
      rw [hy, add_assoc, show (1 / 2 : K) + 1 / 2 = 1 by norm_num] at b3
      rw [hx, add_lt_add_iff_right] at b2
      rw [hy, add_lt_add_iff_right] at b4
      refine ⟨m, n, ⟨floor_le_half ?_, half_lt_ceil ?_⟩, ⟨floor_le_half ?_, half_lt_ceil ?_⟩, ?_, ?_⟩
      · rcases a1 with rfl | rfl | rfl | rfl <;> simp [b1]
      · rcases a2 with rfl | rfl | rfl | rfl <;> simp [b2]
      · rcases a3 with rfl | rfl | rfl | rfl <;> simp [b3]
      · rcases a4 with rfl | rfl | rfl | rfl <;> simp [b4]
      · rw [c1, c2]; exact (inRect_iff _ _ _).mpr hm
      · rw [c1, c2]; exact ceil_around hi hj
  · intro hgen x hx
    have hE : ∀ p q k, (p, q) ∈ (Face.quad a b c d).edges → calcLinePos fuel p q g = .ok k → x ∈ k →
        ∃ P, ((Face.quad a b c d).OnEdge g P ∨ ((Face.quad a b c d).Flat g ∧ (Face.quad a b c d).Inner g tol P)) ∧ Touches x P := by
      intro p q k hm hk hxk
      obtain ⟨u, u0, u1, t⟩ := (line_cells hs hk (hgen _ hm)).1 x hxk
      exact ⟨_, .inl ⟨_, hm, u, u0, u1, rfl⟩, t⟩
    simp only [List.mem_append] at hx
    rcases hx with (((hx | hx) | hx) | hx) | hx
    · obtain ⟨m, n, -, -, hi, ha⟩ := (hr x).mp hx
      by_cases hd : hDet (edgeIdx g a b) (edgeIdx g a d) = 0
      · rw [inRect_iff, (coef_det_zero hd _ _).1] at hi
        exact absurd hi.1 (not_lt.mpr ht)
      · obtain ⟨s1, s2⟩ := coef_solve hd (a := idx g a) ((m : K) + 1 / 2) ((n : K) + 1 / 2)
        exact ⟨_, .inr ⟨hd, .quad ((inRect_iff _ _ _).mp hi)⟩, around_touches ha s1 s2⟩
    · exact hE a b k1 (by simp [Face.edges]) g1 hx
    · exact hE b c k2 (by simp [Face.edges]) g2 hx
    · exact hE c d k3 (by simp [Face.edges]) g3 hx
    · exact hE d a k4 (by simp [Face.edges]) g4 hx

theorem tri_faceCells (hs : SqrtLaw K) {a b c : Vec3 K} {g : Grid K} {tol : K} (ht : 0 ≤ tol)
    {fuel : ℕ} {cells : List Cell3} (h : calcTrianglePos fuel a b c g tol = .ok cells) :
    FaceCells g tol (.tri a b c) cells := by
  obtain ⟨r, e1, hr⟩ := calcTrianglePos_spec a b c g tol
  have hx' := h
  unfold calcTrianglePos at hx'
  simp only [boundingInt_eq, ok_bind] at hx'
  obtain ⟨i1, -, hx'⟩ := bind_eq_ok.mp hx'
  obtain ⟨i2, -, hx'⟩ := bind_eq_ok.mp hx'
  obtain ⟨k1, g1, hx'⟩ := bind_eq_ok.mp hx'
  obtain ⟨k2, g2, hx'⟩ := bind_eq_ok.mp hx'
  obtain ⟨k3, g3, -⟩ := bind_eq_ok.mp hx'
  have := e1 fuel k1 k2 k3 g1 g2 g3
  rw [h] at this
  cases this
  refine ⟨?_, ?_, ?_⟩
  · intro e he hg u hu hu'
    unfold Face.edges at he
    simp only [List.mem_cons, List.not_mem_nil, or_false] at he
    rcases he with rfl | rfl | rfl
    · obtain ⟨c, hc, t⟩ := (line_cells hs g1 hg).2 u hu hu'; exact ⟨c, by simp [hc], t⟩
    · obtain ⟨c, hc, t⟩ := (line_cells hs g2 hg).2 u hu hu'; exact ⟨c, by simp [hc], t⟩
    · obtain ⟨c, hc, t⟩ := (line_cells hs g3 hg).2 u hu hu'; exact ⟨c, by simp [hc], t⟩
  · intro hflat P hP hbox m n hx hy i j hi hj
    cases hP with
    | @tri _ _ _ u v hm =>
      simp only [List.mem_append]
      refine .inl (.inl (.inl ?_))
      obtain ⟨c1, c2⟩ := coef_unique (ab := edgeIdx g a b) (ad := edgeIdx g a c) (a := idx g a) hflat hx hy
      rw [hr]
      obtain ⟨⟨⟨v1, a1, b1⟩, ⟨v2, a2, b2⟩⟩, ⟨⟨v3, a3, b3⟩, ⟨v4, a4, b4⟩⟩⟩ := hbox
      unfold Face.vertices at a1 a2 a3 a4
      simp only [List.mem_cons, List.not_mem_nil, or_false] at a1 a2 a3 a4
      rw [hx, add_assoc, show (1 / 2 : K) + 1 / 2 = 1 by norm_num] at b1
      rw [hy, add_assoc, show (1 / 2 : K) + 1 / 2 = 1 by norm_num] at b3
      rw [hx, add_lt_add_iff_right] at b2
      rw [hy, add_lt_add_iff_right] at b4
      refine ⟨m, n, ⟨floor_le_half ?_, half_lt_ceil ?_⟩, ⟨floor_le_half ?_, half_lt_ceil ?_⟩, ?_, ?_⟩
      · rcases a1 with rfl | rfl | rfl <;> simp [b1]
      · rcases a2 with rfl | rfl | rfl <;> simp [b2]
      · rcases a3 with rfl | rfl | rfl <;> simp [b3]
      · rcases a4 with rfl | rfl | rfl <;> simp [b4]
      · rw [c1, c2]; exact (inTri_iff _ _ _).mpr hm
      · rw [c1, c2]; exact ceil_around hi hj
  · intro hgen x hx
    have hE : ∀ p q k, (p, q) ∈ (Face.tri a b c).edges → calcLinePos fuel p q g = .ok k → x ∈ k →
        ∃ P, ((Face.tri a b c).OnEdge g P ∨ ((Face.tri a b c).Flat g ∧ (Face.tri a b c).Inner g tol P)) ∧ Touches x P := by
      intro p q k hm hk hxk
      obtain ⟨u, u0, u1, t⟩ := (line_cells hs hk (hgen _ hm)).1 x hxk
      exact ⟨_, .inl ⟨_, hm, u, u0, u1, rfl⟩, t⟩
    simp only [List.mem_append] at hx
    rcases hx with ((hx | hx) | hx) | hx
    · obtain ⟨m, n, -, -, hi, ha⟩ := (hr x).mp hx
      by_cases hd : hDet (edgeIdx g a b) (edgeIdx g a c) = 0
      · rw [inTri_iff, (coef_det_zero hd _ _).1] at hi
        exact absurd hi.1 (not_lt.mpr ht)
      · obtain ⟨s1, s2⟩ := coef_solve hd (a := idx g a) ((m : K) + 1 / 2) ((n : K) + 1 / 2)
        exact ⟨_, .inr ⟨hd, .tri ((inTri_iff _ _ _).mp hi)⟩, around_touches ha s1 s2⟩
    · exact hE a b k1 (by simp [Face.edges]) g1 hx
    · exact hE b c k2 (by simp [Face.edges]) g2 hx
    · exact hE c a k3 (by simp [Face.edges]) g3 hx

/-- The lists of cells are those of the faces, one by one. -/
theorem wallsOf_faces (hs : SqrtLaw K) {fuel : ℕ} {g : Grid K} {tol : K} (ht : 0 ≤ tol)
    {pos : Vec3 K} {ori : Quat K} {body : Body K} {walls : List (List Cell3)}
    (h : wallsOf fuel g tol pos ori body = .ok walls) :
    List.Forall₂ (FaceCells g tol) (bodyFaces g tol pos ori body) walls := by
  unfold wallsOf at h
  unfold bodyFaces
  cases hk : body.kind with
  | bucket =>
    rw [hk] at h
    dsimp only at h ⊢
    unfold bucketWalls at h
    obtain ⟨r1, e1, h⟩ := bind_eq_ok.mp h
    obtain ⟨r2, e2, h⟩ := bind_eq_ok.mp h
    obtain ⟨r3, e3, h⟩ := bind_eq_ok.mp h
    obtain ⟨r4, e4, h⟩ := bind_eq_ok.mp h
    cases h
    exact .cons (rect_faceCells hs ht e1) (.cons (rect_faceCells hs ht e2)
      (.cons (tri_faceCells hs ht e3) (.cons (tri_faceCells hs ht e4) .nil)))
  | blade =>
    rw [hk] at h
    dsimp only at h ⊢
    unfold bladeWalls at h
    obtain ⟨r1, e1, h⟩ := bind_eq_ok.mp h
    obtain ⟨r2, e2, h⟩ := bind_eq_ok.mp h
    obtain ⟨r3, e3, h⟩ := bind_eq_ok.mp h
    obtain ⟨r4, e4, h⟩ := bind_eq_ok.mp h
    cases h
    exact .cons (rect_faceCells hs ht e1) (.cons (rect_faceCells hs ht e2)
      (.cons (rect_faceCells hs ht e3) (.cons (rect_faceCells hs ht e4) .nil)))

theorem forall₂_left {α β : Type*} {R : α → β → Prop} {l : List α} {l' : List β}
    (h : List.Forall₂ R l l') : ∀ a ∈ l, ∃ b ∈ l', R a b := by
  induction h with
  | nil => simp
  | cons h1 _ ih =>
    intro a ha
    rcases List.mem_cons.mp ha with rfl | ha
    · exact ⟨_, List.mem_cons_self, h1⟩
    · obtain ⟨b, hb, hr⟩ := ih a ha
      exact ⟨b, List.mem_cons_of_mem _ hb, hr⟩

theorem forall₂_right {α β : Type*} {R : α → β → Prop} {l : List α} {l' : List β}
    (h : List.Forall₂ R l l') : ∀ b ∈ l', ∃ a ∈ l, R a b := by
  induction h with
  | nil => simp
  | cons h1 _ ih =>
    intro a ha
    rcases List.mem_cons.mp ha with rfl | ha
    · exact ⟨_, List.mem_cons_self, h1⟩
    · obtain ⟨b, hb, hr⟩ := ih a ha
      exact ⟨b, List.mem_cons_of_mem _ hb, hr⟩

end Soil
