import Verif.Spec.Outside
import Verif.Proof.Record
import Verif.Proof.Walls

/-! # Faces are drawn only if their vertices are in the grid -/

set_option linter.unusedSectionVars false

namespace Soil

section AnyArith
variable {F : Type} [FOps F]

/-- The cell of the vertex is in the list. -/
def CellIn (g : Grid F) (l : List Cell3) (v : Vec3 F) : Prop := ∃ x ∈ l, cellOf (toIndex g v) = .ok x

theorem CellIn.left {g : Grid F} {l m : List Cell3} {v : Vec3 F} (h : CellIn g l v) : CellIn g (l ++ m) v := by
  obtain ⟨x, hx, e⟩ := h
  exact ⟨x, List.mem_append_left _ hx, e⟩

theorem CellIn.right {g : Grid F} {l m : List Cell3} {v : Vec3 F} (h : CellIn g m v) : CellIn g (l ++ m) v := by
  obtain ⟨x, hx, e⟩ := h
  exact ⟨x, List.mem_append_right _ hx, e⟩

theorem line_has {fuel : ℕ} {a b : Vec3 F} {g : Grid F} {l : List Cell3} (h : calcLinePos fuel a b g = .ok l) :
    CellIn g l a := by
  unfold calcLinePos at h
  dsimp only at h
  obtain ⟨f, hf, h⟩ := bind_eq_ok.mp h
  obtain ⟨r, -, h⟩ := bind_eq_ok.mp h
  cases h
  exact ⟨f, List.mem_cons_self, hf⟩

theorem rect_has {fuel : ℕ} {a b c d : Vec3 F} {g : Grid F} {tol : F} {l : List Cell3}
    (h : calcRectanglePos fuel a b c d g tol = .ok l) : ∀ v ∈ [a, b, c, d], CellIn g l v := by
  unfold calcRectanglePos at h
  dsimp only at h
  obtain ⟨⟨x0, x1⟩, -, h⟩ := bind_eq_ok.mp h
  obtain ⟨⟨y0, y1⟩, -, h⟩ := bind_eq_ok.mp h
  dsimp only at h
  obtain ⟨i1, -, h⟩ := bind_eq_ok.mp h
  obtain ⟨i2, -, h⟩ := bind_eq_ok.mp h
  obtain ⟨l1, h1, h⟩ := bind_eq_ok.mp h
  obtain ⟨l2, h2, h⟩ := bind_eq_ok.mp h
  obtain ⟨l3, h3, h⟩ := bind_eq_ok.mp h
  obtain ⟨l4, h4, h⟩ := bind_eq_ok.mp h
  cases h
  intro v hv
  simp only [List.mem_cons, List.not_mem_nil, or_false] at hv
  rcases hv with rfl | rfl | rfl | rfl
  · exact (line_has h1).right.left.left.left
  · exact (line_has h2).right.left.left
  · exact (line_has h3).right.left
  · exact (line_has h4).right

theorem tri_has {fuel : ℕ} {a b c : Vec3 F} {g : Grid F} {tol : F} {l : List Cell3}
    (h : calcTrianglePos fuel a b c g tol = .ok l) : ∀ v ∈ [a, b, c], CellIn g l v := by
  unfold calcTrianglePos at h
  dsimp only at h
  obtain ⟨⟨x0, x1⟩, -, h⟩ := bind_eq_ok.mp h
  obtain ⟨⟨y0, y1⟩, -, h⟩ := bind_eq_ok.mp h
  dsimp only at h
  obtain ⟨i1, -, h⟩ := bind_eq_ok.mp h
  obtain ⟨i2, -, h⟩ := bind_eq_ok.mp h
  obtain ⟨l1, h1, h⟩ := bind_eq_ok.mp h
  obtain ⟨l2, h2, h⟩ := bind_eq_ok.mp h
  obtain ⟨l3, h3, h⟩ := bind_eq_ok.mp h
  cases h
  intro v hv
  simp only [List.mem_cons, List.not_mem_nil, or_false] at hv
  rcases hv with rfl | rfl | rfl
  · exact (line_has h1).right.left.left
  · exact (line_has h2).right.left
  · exact (line_has h3).right

theorem bucket_has {fuel : ℕ} {g : Grid F} {tol : F} {c : Corners F} {ws : List (List Cell3)}
    (h : bucketWalls fuel g tol c = .ok ws) : ∀ v ∈ c.toList, ∃ w ∈ ws, CellIn g w v := by
  unfold bucketWalls at h
  obtain ⟨w1, h1, h⟩ := bind_eq_ok.mp h
  obtain ⟨w2, h2, h⟩ := bind_eq_ok.mp h
  obtain ⟨w3, h3, h⟩ := bind_eq_ok.mp h
  obtain ⟨w4, h4, h⟩ := bind_eq_ok.mp h
  cases h
  intro v hv
  simp only [Corners.toList, List.mem_cons, List.not_mem_nil, or_false] at hv
  rcases hv with rfl | rfl | rfl | rfl | rfl | rfl
  · exact ⟨w2, by simp, rect_has h2 _ (by simp)⟩
  · exact ⟨w2, by simp, rect_has h2 _ (by simp)⟩
  · exact ⟨w1, by simp, rect_has h1 _ (by simp)⟩
  · exact ⟨w1, by simp, rect_has h1 _ (by simp)⟩
  · exact ⟨w1, by simp, rect_has h1 _ (by simp)⟩
  · exact ⟨w1, by simp, rect_has h1 _ (by simp)⟩

theorem blade_has {fuel : ℕ} {g : Grid F} {tol : F} {f b : Corners F} {ws : List (List Cell3)}
    (h : bladeWalls fuel g tol f b = .ok ws) : ∀ v ∈ f.toList ++ b.toList, ∃ w ∈ ws, CellIn g w v := by
  unfold bladeWalls at h
  obtain ⟨w1, h1, h⟩ := bind_eq_ok.mp h
  obtain ⟨w2, h2, h⟩ := bind_eq_ok.mp h
  obtain ⟨w3, h3, h⟩ := bind_eq_ok.mp h
  obtain ⟨w4, h4, h⟩ := bind_eq_ok.mp h
  cases h
  intro v hv
  simp only [Corners.toList, List.mem_append, List.mem_cons, List.not_mem_nil, or_false] at hv
  rcases hv with (rfl | rfl | rfl | rfl | rfl | rfl) | (rfl | rfl | rfl | rfl | rfl | rfl)
  · exact ⟨w1, by simp, rect_has h1 _ (by simp)⟩
  · exact ⟨w1, by simp, rect_has h1 _ (by simp)⟩
  · exact ⟨w1, by simp, rect_has h1 _ (by simp)⟩
  · exact ⟨w1, by simp, rect_has h1 _ (by simp)⟩
  · exact ⟨w3, by simp, rect_has h3 _ (by simp)⟩
  · exact ⟨w3, by simp, rect_has h3 _ (by simp)⟩
  · exact ⟨w2, by simp, rect_has h2 _ (by simp)⟩
  · exact ⟨w2, by simp, rect_has h2 _ (by simp)⟩
  · exact ⟨w2, by simp, rect_has h2 _ (by simp)⟩
  · exact ⟨w2, by simp, rect_has h2 _ (by simp)⟩
  · exact ⟨w4, by simp, rect_has h4 _ (by simp)⟩
  · exact ⟨w4, by simp, rect_has h4 _ (by simp)⟩

/-- The cell is one of the arrays -/
def GoodCell (g : Grid F) (s : SimOut F) (x : Cell3) : Prop :=
  s.InGrid x.1 x.2.1 ∧ 0 ≤ x.2.2 ∧ x.2.2 ≤ 2 * g.halfZ

theorem OnlyBody.good {g : Grid F} {s s' : SimOut F} (h : OnlyBody s s') {x : Cell3} (hx : GoodCell g s' x) :
    GoodCell g s x := by
  unfold OnlyBody at h
  rw [h] at hx
  exact hx

theorem OnlyBody.inGrid {s s' : SimOut F} (h : OnlyBody s s') {i j : ℤ} (hx : s'.InGrid i j) : s.InGrid i j := by
  unfold OnlyBody at h
  rw [h] at hx
  exact hx

theorem include_good {s s' : SimOut F} {i j : ℤ} {lo hi tol : F} (h : includeNewBodyPos s i j lo hi tol = .ok s') :
    s.InGrid i j := by
  unfold includeNewBodyPos at h
  exact (guardOob_bind.mp h).1

theorem loop_good {g : Grid F} {tol : F} (l : List Cell3) (s s' : SimOut F) (ii jj : ℤ) (lo hi : F)
    (h : updateBodyLoop g tol l s ii jj lo hi = .ok s') : (∀ x ∈ l, GoodCell g s x) ∧ s.InGrid ii jj := by
  induction l generalizing s ii jj lo hi with
  | nil =>
    unfold updateBodyLoop at h
    exact ⟨by simp, include_good h⟩
  | cons x l ih =>
    obtain ⟨i, j, k⟩ := x
    unfold updateBodyLoop at h
    by_cases hne : ii ≠ i ∨ jj ≠ j
    · rw [if_pos hne] at h
      obtain ⟨s1, h1, h⟩ := bind_eq_ok.mp h
      obtain ⟨z, hz, h⟩ := bind_eq_ok.mp h
      have o1 := includeNewBodyPos_bodyOnly _ _ _ _ _ _ _ h1
      obtain ⟨b1, b2⟩ := ih s1 i j _ _ h
      unfold zAt at hz
      obtain ⟨hk, -⟩ := guardOob_bind.mp hz
      refine ⟨?_, include_good h1⟩
      intro y hy
      rcases List.mem_cons.mp hy with rfl | hy
      · exact ⟨o1.inGrid b2, hk.1, by dsimp only; omega⟩
      · exact o1.good (b1 y hy)
    · rw [if_neg hne] at h
      push Not at hne
      obtain ⟨rfl, rfl⟩ := hne
      obtain ⟨z, hz, h⟩ := bind_eq_ok.mp h
      obtain ⟨b1, b2⟩ := ih s ii jj _ _ h
      unfold zAt at hz
      obtain ⟨hk, -⟩ := guardOob_bind.mp hz
      refine ⟨?_, b2⟩
      intro y hy
      rcases List.mem_cons.mp hy with rfl | hy
      · exact ⟨b2, hk.1, by dsimp only; omega⟩
      · exact b1 y hy

theorem walls_good {g : Grid F} {tol : F} (ws : List (List Cell3)) (s s' : SimOut F)
    (h : updateWalls g tol ws s = .ok s') : ∀ w ∈ ws, ∀ x ∈ w, GoodCell g s x := by
  induction ws generalizing s with
  | nil => simp
  | cons w ws ih =>
    unfold updateWalls at h
    obtain ⟨s1, h1, h⟩ := bind_eq_ok.mp h
    have o1 : OnlyBody s s1 := by
      have : updateWalls g tol [w] s = .ok s1 := by unfold updateWalls; rw [h1, ok_bind]; rfl
      exact updateWalls_bodyOnly _ _ _ _ _ this
    intro v hv x hx
    rcases List.mem_cons.mp hv with rfl | hv
    · have hx' := mem_sortCells.mpr hx
      unfold updateBody at h1
      generalize sortCells v = m at h1 hx'
      cases m with
      | nil => cases hx'
      | cons y m =>
        obtain ⟨z, -, h1⟩ := bind_eq_ok.mp h1
        exact (loop_good _ _ _ _ _ _ _ h1).1 x hx'
    · exact o1.good (ih s1 h v hv x hx)

/-- If the body can be drawn, the cell of every vertex drawn is one of the arrays. -/
theorem calcBodyPos_good {fuel : ℕ} {s s' : SimOut F} {pos : Vec3 F} {ori : Quat F} {g : Grid F} {body : Body F}
    {p : SimParam F} {tol : F} (h : calcBodyPos fuel s pos ori g body p tol = .ok s') :
    ∀ v ∈ drawnVertices g tol pos ori body, ∃ x, cellOf (toIndex g v) = .ok x ∧ GoodCell g s x := by
  unfold calcBodyPos at h
  obtain ⟨s1, h1, h⟩ := bind_eq_ok.mp h
  have o1 := resetBody_bodyOnly _ _ _ h1
  intro v hv
  unfold drawnVertices at hv
  dsimp only at h hv
  split at h
  · rename_i hk
    rw [hk] at hv
    obtain ⟨a, -, h⟩ := bind_eq_ok.mp h
    obtain ⟨ws, hw, h⟩ := bind_eq_ok.mp h
    obtain ⟨w, m, x, hx, e⟩ := bucket_has hw v hv
    exact ⟨x, e, o1.good (walls_good _ _ _ h w m x hx)⟩
  · rename_i hk
    rw [hk] at hv
    obtain ⟨a, -, h⟩ := bind_eq_ok.mp h
    obtain ⟨ws, hw, h⟩ := bind_eq_ok.mp h
    obtain ⟨w, m, x, hx, e⟩ := blade_has hw v hv
    exact ⟨x, e, o1.good (walls_good _ _ _ h w m x hx)⟩

/-- If a step is made, the cell of every vertex drawn is one of the arrays, and the arrays keep their sizes. -/
theorem step_good {fuel : ℕ} {pos : Vec3 F} {ori : Quat F} {g : Grid F} {body : Body F} {p : SimParam F} {tol : F}
    {w : World F} {r : StepResult F} (h : step fuel pos ori g body p tol w = .ok r) (hu : r.updated = true) :
    ∀ v ∈ drawnVertices g tol pos ori body, ∃ x, cellOf (toIndex g v) = .ok x ∧ GoodCell g w.out x := by
  unfold step at h
  rcases hc : checkBodyMovement pos ori g body with ⟨moved, warns⟩
  rw [hc] at h
  dsimp only at h
  cases moved with
  | false =>
    simp only [Bool.not_false, if_true, pure_eq_ok, Except.ok.injEq] at h
    subst h; simp at hu
  | true =>
    simp only [Bool.not_true, Bool.false_eq_true, if_false] at h
    obtain ⟨s, hs, h⟩ := bind_eq_ok.mp h
    exact calcBodyPos_good hs

end AnyArith

end Soil
