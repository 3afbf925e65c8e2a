import Verif.Proof.PlaceFlt

/-! # The tops of the layers are the tops of cells of the body -/

set_option linter.unusedSectionVars false
set_option linter.unusedVariables false

namespace Soil

open FOps

variable {F : Type} [FOps F]

/-- The top of each present layer of the column satisfies `T`. -/
def TopCol (T : ℤ → ℤ → F → Prop) (s : SimOut F) (i j : ℤ) : Prop :=
  (s.bodyAbs 0 i j = true ∨ T i j (s.body 1 i j)) ∧ (s.bodyAbs 2 i j = true ∨ T i j (s.body 3 i j))

def TopIn (T : ℤ → ℤ → F → Prop) (s : SimOut F) : Prop := ∀ i j, s.InGrid i j → TopCol T s i j

theorem TopCol.congr {T : ℤ → ℤ → F → Prop} {s s' : SimOut F} {i j : ℤ} (h : TopCol T s i j)
    (hb : ∀ k, k < 4 → s'.body k i j = s.body k i j) : TopCol T s' i j := by
  unfold TopCol SimOut.bodyAbs at h ⊢
  simp only [Nat.reduceAdd] at h ⊢
  rwa [hb 0 (by omega), hb 1 (by omega), hb 2 (by omega), hb 3 (by omega)]

theorem TopCol.mk' {T : ℤ → ℤ → F → Prop} {s : SimOut F} {i j : ℤ} (a : T i j (s.body 1 i j) ∨ (eq (s.body 0 i j) zero = true ∧ eq (s.body 1 i j) zero = true))
    (b : T i j (s.body 3 i j) ∨ (eq (s.body 2 i j) zero = true ∧ eq (s.body 3 i j) zero = true)) : TopCol T s i j := by
  unfold TopCol SimOut.bodyAbs
  simp only [Nat.reduceAdd, Bool.and_eq_true]
  exact ⟨a.symm, b.symm⟩

theorem max_either {T : F → Prop} {x y : F} (hx : T x) (hy : T y) : T (FOps.max x y) := by
  unfold FOps.max
  split_ifs
  exacts [hy, hx]

theorem includeNewBodyPos_topCols (hz : eq (zero : F) zero = true) {T : ℤ → ℤ → F → Prop} {s : SimOut F} {ii jj : ℤ} {lo hi tol : F}
    (h : TopIn T s) (hT : T ii jj hi) : Post (includeNewBodyPos s ii jj lo hi tol) (TopIn T) := by
  intro s' hs'
  have o := includeNewBodyPos_only hs'
  intro i j hij
  have hij0 := (o.inGrid i j).mp hij
  by_cases hc : i = ii ∧ j = jj
  swap
  · exact (h i j hij0).congr fun k _ => o.2 k i j hc
  obtain ⟨rfl, rfl⟩ := hc
  have h0 := h i j hij0
  obtain ⟨c1, c2⟩ := h0
  unfold includeNewBodyPos at hs'
  rw [guardOob_of hij0, ok_bind] at hs'
  have st : ∀ k, s.bodyAbs k i j = true ↔ layerStatus s i j lo hi tol k = .none := by
    intro k
    unfold layerStatus
    split_ifs <;> simp_all
  have ab : ∀ k, layerStatus s i j lo hi tol k = .none → eq (s.body k i j) zero = true ∧ eq (s.body (k + 1) i j) zero = true := by
    intro k e
    have := (st k).mpr e
    unfold SimOut.bodyAbs at this
    simpa using this
  have a0 := ab 0
  have a2 := ab 2
  rw [st] at c1 c2
  have t0 := fun e => c1.resolve_left e
  have t2 := fun e => c2.resolve_left e
  have p0 := c1.symm.imp_right a0
  have p2 := c2.symm.imp_right a2
  dsimp only at hs'
  clear st ab c1 c2 a0 a2 hij o
  generalize layerStatus s i j lo hi tol 0 = st0 at *
  generalize layerStatus s i j lo hi tol 2 = st2 at *
  unfold mergeClosest at hs'
  dsimp only at hs'
  split_ifs at hs' with b1 b2 b3 b4 b5 b6 b7 b8 b9 b10 <;> simp only [pure_eq_ok, Except.ok.injEq] at hs' <;> subst hs' <;>
    apply TopCol.mk'
  all_goals try simp only [SimOut.setB, upd3, and_true, Nat.reduceEqDiff, OfNat.one_ne_ofNat, OfNat.ofNat_ne_one, OfNat.zero_ne_ofNat, OfNat.ofNat_ne_zero,
    zero_ne_one, one_ne_zero, and_self, if_true, if_false]
  all_goals first
    | exact p0
    | exact p2
    | exact .inl hT
    | exact .inr ⟨by simpa using hz, by simpa using hz⟩
    | exact .inr (by simp [hz])
    | exact .inl (t0 (by simp_all))
    | exact .inl (t2 (by simp_all))
    | exact .inl (max_either (t0 (by simp_all)) hT)
    | exact .inl (max_either (t2 (by simp_all)) hT)
    | (refine .inl ?_
       have hm := maxL_any (s.body 1 i j) [s.body 3 i j, hi]
       simp only [List.mem_cons, List.not_mem_nil, or_false] at hm
       rcases hm with e | e | e <;> rw [e]
       exacts [t0 (by simp_all), t2 (by simp_all), hT])

theorem updateBodyLoop_topCols (hz : eq (zero : F) zero = true) {T : ℤ → ℤ → F → Prop} {g : Grid F} {tol : F} (l : List Cell3)
    (hl : ∀ t ∈ l, T t.1 t.2.1 (g.vectZ t.2.2)) (s : SimOut F) (h : TopIn T s) (ii jj : ℤ) (lo hi : F) (hT : T ii jj hi) :
    Post (updateBodyLoop g tol l s ii jj lo hi) (TopIn T) := by
  have zAt_eq : ∀ k, Post (zAt g k) fun z => z = g.vectZ k := by
    intro k
    unfold zAt
    exact Post.guard fun _ => Post.ok rfl
  induction l generalizing s ii jj lo hi with
  | nil => exact includeNewBodyPos_topCols hz h hT
  | cons t l ih =>
    obtain ⟨i, j, k⟩ := t
    have ht := hl _ List.mem_cons_self
    have hl' : ∀ t ∈ l, T t.1 t.2.1 (g.vectZ t.2.2) := fun t h => hl t (List.mem_cons_of_mem _ h)
    unfold updateBodyLoop
    split_ifs with hc
    · refine Post.bind (includeNewBodyPos_topCols hz h hT) fun s1 h1 => ?_
      refine Post.bind (zAt_eq k) fun z e => ?_
      subst e
      exact ih hl' s1 h1 _ _ _ _ ht
    · refine Post.bind (zAt_eq k) fun z e => ?_
      subst e
      push Not at hc
      obtain ⟨rfl, rfl⟩ := hc
      exact ih hl' s h _ _ _ _ ht

theorem updateWalls_topCols (hz : eq (zero : F) zero = true) {T : ℤ → ℤ → F → Prop} {g : Grid F} {tol : F} (ws : List (List Cell3))
    (hw : ∀ w ∈ ws, ∀ t ∈ w, T t.1 t.2.1 (g.vectZ t.2.2)) (s : SimOut F) (h : TopIn T s) :
    Post (updateWalls g tol ws s) (TopIn T) := by
  induction ws generalizing s with
  | nil => exact Post.ok h
  | cons w ws ih =>
    unfold updateWalls
    refine Post.bind (P := TopIn T) ?_ fun s1 h1 => ih (fun w hw' => hw w (List.mem_cons_of_mem _ hw')) s1 h1
    have hs : ∀ t ∈ sortCells w, T t.1 t.2.1 (g.vectZ t.2.2) := fun t ht => hw w List.mem_cons_self t (mem_sortCells.mp ht)
    generalize sortCells w = l at hs
    unfold updateBody
    split
    · exact Post.error
    · rename_i i j k l
      intro s' hs'
      obtain ⟨z, e1, e2⟩ := bind_eq_ok.mp hs'
      have : z = g.vectZ k := by
        unfold zAt at e1
        obtain ⟨-, e1⟩ := guardOob_bind.mp e1
        cases e1
        rfl
      subst this
      exact updateBodyLoop_topCols hz _ hs s h _ _ _ _ (hs _ List.mem_cons_self) s' e2

/-- After the body is placed, the tops of its layers are tops of its cells. -/
theorem calcBodyPos_topCols (hz : eq (zero : F) zero = true) {fuel : ℕ} {s : SimOut F} {q : Vec3 F × Quat F} {g : Grid F}
    {body : Body F} {p : SimParam F} {tol : F} (ha : AreaInside s.bodyArea s)
    (h0 : ∀ i j, s.InGrid i j → ¬ s.bodyArea.Has i j → s.bodyAbs 0 i j = true ∧ s.bodyAbs 2 i j = true)
    {area : Area} {walls : List (List Cell3)} (hf : bodyFootprint fuel g p tol body q = .ok (area, walls)) {s' : SimOut F}
    (hs : calcBodyPos fuel s q.1 q.2 g body p tol = .ok s') :
    TopIn (fun i j z => ∃ w ∈ walls, ∃ t ∈ w, t.1 = i ∧ t.2.1 = j ∧ z = g.vectZ t.2.2) s' := by
  obtain ⟨a1, a2, a3, a4⟩ := ha
  obtain ⟨s1, e1, r1, r2, r3, -⟩ := resetBody_any s.bodyArea.cells s (by
    intro c hc
    obtain ⟨i, j⟩ := c
    rw [Area.mem_cells] at hc
    unfold SimOut.InGrid
    dsimp only at hc ⊢
    omega)
  rw [calcBodyPos_footprint, e1, ok_bind, show (q.1, q.2) = q from rfl, hf, ok_bind] at hs
  refine updateWalls_topCols hz walls (fun w hw t ht => ⟨w, hw, t, ht, rfl, rfl, rfl⟩) _ ?_ s' hs
  intro i j hij
  have hij' : s.InGrid i j := by
    rw [r1] at hij
    exact hij
  unfold TopCol SimOut.bodyAbs
  dsimp only
  by_cases hh : s.bodyArea.Has i j
  · have := r2 (i, j) (Area.mem_cells.mpr hh)
    dsimp only at this
    rw [this 0 (by omega), this 1 (by omega), this 2 (by omega), this 3 (by omega), hz]
    exact ⟨.inl rfl, .inl rfl⟩
  · have := r3 (i, j) (fun hm => hh (Area.mem_cells.mp hm))
    dsimp only at this
    rw [this 0, this 1, this 2, this 3]
    have := h0 i j hij' hh
    unfold SimOut.bodyAbs at this
    exact ⟨.inl this.1, .inl this.2⟩

end Soil
