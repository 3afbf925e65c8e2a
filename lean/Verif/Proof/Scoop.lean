import Verif.Proof.Avalanche
import Verif.Proof.Depth

/-! # Soil gets onto the body by avalanches of terrain only: helper lemmas -/

namespace Soil

variable {K : Type} [Field K] [LinearOrder K] [IsStrictOrderedRing K] [FloorRing K] [Transc K]

theorem carriedSoil_eq (s : SimOut K) :
    carriedSoil s = totalSoil s - ∑ p ∈ gridCols s, s.terrain p.1 p.2 := by
  unfold carriedSoil totalSoil columnSoil
  rw [← Finset.sum_sub_distrib]
  exact Finset.sum_congr rfl fun p _ => by ring

theorem gridCols_congr {s s' : SimOut K} (hb : SameBody s s') : gridCols s' = gridCols s := by
  unfold gridCols; rw [hb.2.2.1, hb.2.2.2]

/-- soil may be lost and terrain may grow: then the body carries less -/
theorem carriedSoil_le {s s' : SimOut K} (hb : SameBody s s') (ht : totalSoil s' ≤ totalSoil s)
    (hu : TerrainUp s s') : carriedSoil s' ≤ carriedSoil s := by
  rw [carriedSoil_eq, carriedSoil_eq, gridCols_congr hb]
  have : ∑ p ∈ gridCols s, s.terrain p.1 p.2 ≤ ∑ p ∈ gridCols s, s'.terrain p.1 p.2 :=
    Finset.sum_le_sum fun p _ => hu p.1 p.2
  linarith

theorem carriedSoil_congr {s s' : SimOut K} (hx : s'.lenX = s.lenX) (hy : s'.lenY = s.lenY)
    (h : ∀ k i j, k = 0 ∨ k = 2 → layerSoil s' k i j = layerSoil s k i j) :
    carriedSoil s' = carriedSoil s := by
  unfold carriedSoil gridCols
  rw [hx, hy]
  exact Finset.sum_congr rfl fun p _ => by rw [h 0 _ _ (.inl rfl), h 2 _ _ (.inr rfl)]

theorem layerSoil_of_not_hasBody {c : K} {s : SimOut K} (h : WellFormed c s) {k : ℕ} {i j : ℤ}
    (hij : s.InGrid i j) (hk : k = 0 ∨ k = 2) (hb : ¬ HasBody s k i j) : layerSoil s k i j = 0 := by
  by_contra hne
  exact hb (h.soilOK.rest k i j hij hk (hasSoil_of_layerSoil hne)).1

/-- What an avalanche does to the soil on one layer -/
theorem Avalanche.layer {c dh m : K} {cap : Option K} {a b : Place} {s r : SimOut K}
    (h : Avalanche c dh cap s r a b m) (hw : WellFormed c s) (hw' : WellFormed c r) {k : ℕ} {i j : ℤ}
    (hij : s.InGrid i j) (hk : k = 0 ∨ k = 2) :
    (Place.layer k i j = b → layerSoil s k i j ≤ layerSoil r k i j) ∧
    (Place.layer k i j = a → layerSoil r k i j ≤ layerSoil s k i j) ∧
    (Place.layer k i j ≠ a → Place.layer k i j ≠ b → layerSoil r k i j = layerSoil s k i j) := by
  have hb := h.body
  have key : ∀ δ, (Place.layer k i j).height r = (Place.layer k i j).height s + δ →
      layerSoil r k i j = layerSoil s k i j + δ := by
    intro δ e
    simp only [Place.height, hb.1] at e
    linarith
  refine ⟨?_, ?_, fun h1 h2 => ?_⟩
  · intro e
    have := h.right
    rw [← e] at this
    rw [key _ this]
    linarith [h.pos]
  · intro e
    have := h.left
    rw [← e] at this
    rw [key (-m) (by rw [this]; ring)]
    linarith [h.pos]
  · by_cases hB : HasBody s k i j
    · have := key 0 (by rw [h.others (.layer k i j) ⟨hij, hk, hB⟩ h1 h2]; ring)
      rw [this]; ring
    · rw [layerSoil_of_not_hasBody hw hij hk hB]
      refine layerSoil_of_not_hasBody hw' ?_ hk ?_
      · unfold SimOut.InGrid at hij ⊢; rwa [hb.2.2.1, hb.2.2.2]
      · unfold HasBody at hB ⊢; rwa [hb.1]

/-- avalanches of terrain take nothing from the body -/
theorem Avalanches.layers_up {c dh : K} {s r : SimOut K} (h : Avalanches Place.OnGround c dh s r) :
    ∀ k i j, s.InGrid i j → k = 0 ∨ k = 2 → layerSoil s k i j ≤ layerSoil r k i j := by
  suffices H : SameBody s r ∧ ∀ k i j, s.InGrid i j → k = 0 ∨ k = 2 → layerSoil s k i j ≤ layerSoil r k i j from
    H.2
  induction h with
  | refl => exact ⟨.refl _, fun _ _ _ _ _ => le_rfl⟩
  | still _ h1 h2 ih =>
    refine ⟨ih.1.trans h2, fun k i j hij hk => ?_⟩
    rw [h1.layer k i j hk]; exact ih.2 k i j hij hk
  | @slide s₁ s₂ a b cap m _ h1 h2 h3 h4 h5 h6 ih =>
    refine ⟨ih.1.trans h4.body, fun k i j hij hk => (ih.2 k i j hij hk).trans ?_⟩
    have hij' : s₁.InGrid i j := by
      unfold SimOut.InGrid at hij ⊢; rwa [ih.1.2.2.1, ih.1.2.2.2]
    obtain ⟨l1, -, l3⟩ := h4.layer h1 h6 hij' hk
    have ha : Place.layer k i j ≠ a := by rintro rfl; exact h5
    by_cases hb : Place.layer k i j = b
    · exact l1 hb
    · exact (l3 ha hb).ge

/-- An avalanche that is not from the terrain onto the body leaves the body with at most as much soil. -/
theorem Avalanche.carried {c dh m : K} {cap : Option K} {a b : Place} {s r : SimOut K}
    (h : Avalanche c dh cap s r a b m) (hw : WellFormed c s) (hw' : WellFormed c r)
    (hn : ¬ (a.OnGround ∧ b.OnBody)) : carriedSoil r ≤ carriedSoil s := by
  classical
  have hb := h.body
  have hne : a ≠ b := by
    rintro rfl
    have h1 := h.left; have h2 := h.right; have h3 := h.pos
    linarith
  -- the change of one layer
  have hl : ∀ k, k = 0 ∨ k = 2 → ∀ p ∈ gridCols s, layerSoil r k p.1 p.2 = layerSoil s k p.1 p.2 +
      ((if Place.layer k p.1 p.2 = b then m else 0) - (if Place.layer k p.1 p.2 = a then m else 0)) := by
    intro k hk p hp
    have hij := mem_gridCols.mp hp
    have key : ∀ δ, (Place.layer k p.1 p.2).height r = (Place.layer k p.1 p.2).height s + δ →
        layerSoil r k p.1 p.2 = layerSoil s k p.1 p.2 + δ := by
      intro δ e
      simp only [Place.height, hb.1] at e
      linarith
    by_cases h1 : Place.layer k p.1 p.2 = b
    · have h2 : Place.layer k p.1 p.2 ≠ a := fun e => hne (e.symm.trans h1)
      rw [if_pos h1, if_neg h2, sub_zero]
      exact key m (by rw [h1]; exact h.right)
    · rw [if_neg h1]
      by_cases h2 : Place.layer k p.1 p.2 = a
      · rw [if_pos h2]
        exact key _ (by rw [h2, h.left]; ring)
      · rw [if_neg h2, sub_zero, add_zero]
        exact (h.layer hw hw' hij hk).2.2 h2 h1
  -- the sum over one layer
  have hsum : ∀ (q : Place) (k : ℕ), q.In s →
      ∑ p ∈ gridCols s, (if Place.layer k p.1 p.2 = q then m else 0) =
        match q with
        | .ground _ _ => 0
        | .layer k' _ _ => if k = k' then m else 0 := by
    intro q k hq
    cases q with
    | ground i j => exact Finset.sum_eq_zero fun p _ => by simp
    | layer k' i j =>
      by_cases hk : k = k'
      · subst hk
        rw [Finset.sum_eq_single (i, j)]
        · simp
        · rintro ⟨x, y⟩ - hp
          rw [if_neg]
          rintro e
          cases e
          exact hp rfl
        · intro hm
          exact absurd (mem_gridCols.mpr hq.1) hm
      · simp only [if_neg hk]
        refine Finset.sum_eq_zero fun p _ => ?_
        rw [if_neg]
        intro e
        cases e
        exact hk rfl
  have hc : carriedSoil r = carriedSoil s +
      ∑ p ∈ gridCols s, (((if Place.layer 0 p.1 p.2 = b then m else 0) - (if Place.layer 0 p.1 p.2 = a then m else 0)) +
        ((if Place.layer 2 p.1 p.2 = b then m else 0) - (if Place.layer 2 p.1 p.2 = a then m else 0))) := by
    unfold carriedSoil
    rw [gridCols_congr hb, ← Finset.sum_add_distrib]
    refine Finset.sum_congr rfl fun p hp => ?_
    rw [hl 0 (.inl rfl) p hp, hl 2 (.inr rfl) p hp]
    ring
  rw [hc]
  simp only [Finset.sum_add_distrib, Finset.sum_sub_distrib]
  rw [hsum b 0 h.target, hsum b 2 h.target, hsum a 0 h.source, hsum a 2 h.source]
  have hm := h.pos
  have hS := h.source
  have hT := h.target
  cases a with
  | ground i j =>
    cases b with
    | ground i' j' => simp
    | layer k' i' j' => exact absurd ⟨trivial, trivial⟩ hn
  | layer k i j =>
    have hk := hS.2.1
    cases b with
    | ground i' j' =>
      rcases hk with rfl | rfl <;> simp <;> linarith
    | layer k' i' j' =>
      have hk' := hT.2.1
      rcases hk with rfl | rfl <;> rcases hk' with rfl | rfl <;> simp

theorem Avalanches.sameBody {src : Place → Prop} {c dh : K} {s r : SimOut K} (h : Avalanches src c dh s r) :
    SameBody s r := by
  induction h with
  | refl => exact .refl _
  | still _ _ h2 ih => exact ih.trans h2
  | slide _ _ _ _ h4 _ _ ih => exact ih.trans h4.body

/-- If the body carries more soil after some avalanches, one of them went from the terrain onto the body. -/
theorem Avalanches.scoop {src : Place → Prop} {c dh : K} {s r : SimOut K} (h : Avalanches src c dh s r)
    (hlt : carriedSoil s < carriedSoil r) :
    ∃ s₁ s₂ i j k i' j' m, Avalanches src c dh s s₁ ∧ WellFormed c s₁ ∧
      Beside (i, j) (i', j') ∧ Avalanche c dh none s₁ s₂ (.ground i j) (.layer k i' j') m ∧
      Avalanches src c dh s₂ r := by
  induction h with
  | refl => exact absurd hlt (lt_irrefl _)
  | @still s₁ s₂ h0 h1 h2 ih =>
    have e : carriedSoil s₂ = carriedSoil s₁ :=
      carriedSoil_congr h2.2.2.1 h2.2.2.2 fun k i j hk => h1.layer k i j hk
    rw [e] at hlt
    obtain ⟨x1, x2, i, j, k, i', j', m, a1, a2, a3, a4, a5⟩ := ih hlt
    exact ⟨x1, x2, i, j, k, i', j', m, a1, a2, a3, a4, .still a5 h1 h2⟩
  | @slide s₁ s₂ a b cap m h0 h1 h2 h3 h4 h5 h6 ih =>
    by_cases hn : a.OnGround ∧ b.OnBody
    · cases a with
      | layer k i j => exact absurd hn.1 id
      | ground i j =>
        cases b with
        | ground i' j' => exact absurd hn.2 id
        | layer k i' j' =>
          cases h3
          exact ⟨s₁, s₂, i, j, k, i', j', m, h0, h1, h2, h4, .refl⟩
    · have := h4.carried h1 h6 hn
      obtain ⟨x1, x2, i, j, k, i', j', m, a1, a2, a3, a4, a5⟩ := ih (hlt.trans_le this)
      exact ⟨x1, x2, i, j, k, i', j', m, a1, a2, a3, a4, .slide a5 h1 h2 h3 h4 h5 h6⟩

end Soil
