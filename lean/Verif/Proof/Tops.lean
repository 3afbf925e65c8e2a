import Verif.Proof.Walls
import Verif.Proof.Transport

/-! # The tops of the body layers are tops of cells of the walls -/

set_option linter.unusedSectionVars false

namespace Soil

variable {K : Type} [Field K] [LinearOrder K] [FloorRing K] [Transc K] [IsStrictOrderedRing K]

/-- The tops of the layers of the body satisfy `T` -/
def TopsIn (T : ℤ → ℤ → K → Prop) (s : SimOut K) : Prop :=
  ∀ k, k = 0 ∨ k = 2 → ∀ i j, HasBody s k i j → T i j (s.body (k + 1) i j)

theorem overlap_hasBody {s : SimOut K} {i j : ℤ} {lo hi tol : K} {k : ℕ}
    (h : layerStatus s i j lo hi tol k = .overlap) : HasBody s k i j := by
  by_contra hn
  unfold layerStatus at h
  rw [if_pos ((bodyAbs_iff s k i j).mpr hn)] at h
  cases h

theorem disjoint_hasBody {s : SimOut K} {i j : ℤ} {lo hi tol : K} {k : ℕ}
    (h : layerStatus s i j lo hi tol k ≠ .none) : HasBody s k i j := by
  by_contra hn
  unfold layerStatus at h
  rw [if_pos ((bodyAbs_iff s k i j).mpr hn)] at h
  exact h rfl

theorem TopsIn.of_col {T : ℤ → ℤ → K → Prop} {s s' : SimOut K} (h : TopsIn T s) {i j : ℤ}
    (ho : ∀ k a b, ¬ (a = i ∧ b = j) → s'.body k a b = s.body k a b)
    (h0 : HasBody s' 0 i j → T i j (s'.body 1 i j)) (h2 : HasBody s' 2 i j → T i j (s'.body 3 i j)) :
    TopsIn T s' := by
  intro k hk a b hb
  by_cases hab : a = i ∧ b = j
  · obtain ⟨rfl, rfl⟩ := hab
    rcases hk with rfl | rfl
    · exact h0 hb
    · exact h2 hb
  · unfold HasBody at hb
    rw [ho _ _ _ hab, ho _ _ _ hab] at hb
    rw [ho _ _ _ hab]
    exact h k hk a b hb

theorem includeNewBodyPos_tops {T : ℤ → ℤ → K → Prop} {s : SimOut K} (h : TopsIn T s) {i j : ℤ}
    {lo hi tol : K} (hT : T i j hi) : Post (includeNewBodyPos s i j lo hi tol) (TopsIn T) := by
  have hmax : ∀ {x y : K}, T i j x → T i j y → T i j (max x y) := by
    intro x y hx hy
    rcases max_choice x y with e | e <;> rw [e] <;> assumption
  intro s' hr
  unfold includeNewBodyPos at hr
  obtain ⟨-, hr⟩ := guardOob_bind.mp hr
  dsimp only at hr
  split_ifs at hr with c1 c2 c3 c4 c5 c6 c7 <;> cases hr
  · exact h
  · exact h
  · have t0 := h 0 (.inl rfl) i j (overlap_hasBody c3.1)
    have t2 := h 2 (.inr rfl) i j (overlap_hasBody c3.2)
    refine h.of_col (i := i) (j := j) ?_ ?_ ?_
    · intro k a b hab
      simp [setB_body, hab]
    · intro _
      simp only [setB_body]
      simpa [FOps.maxL] using hmax (hmax t0 t2) hT
    · intro hb
      simp [HasBody, setB_body] at hb
  · have t0 := h 0 (.inl rfl) i j (overlap_hasBody c4)
    refine h.of_col (i := i) (j := j) ?_ ?_ ?_
    · intro k a b hab
      simp [setB_body, hab]
    · intro _
      simpa [setB_body] using hmax t0 hT
    · intro hb
      have := h 2 (.inr rfl) i j (by simpa [HasBody, setB_body] using hb)
      simpa [setB_body] using this
  · have t2 := h 2 (.inr rfl) i j (overlap_hasBody c5)
    refine h.of_col (i := i) (j := j) ?_ ?_ ?_
    · intro k a b hab
      simp [setB_body, hab]
    · intro hb
      have := h 0 (.inl rfl) i j (by simpa [HasBody, setB_body] using hb)
      simpa [setB_body] using this
    · intro _
      simpa [setB_body] using hmax t2 hT
  · refine h.of_col (i := i) (j := j) ?_ ?_ ?_
    · intro k a b hab
      simp [setB_body, hab]
    · intro _
      simpa [setB_body] using hT
    · intro hb
      have := h 2 (.inr rfl) i j (by simpa [HasBody, setB_body] using hb)
      simpa [setB_body] using this
  · refine h.of_col (i := i) (j := j) ?_ ?_ ?_
    · intro k a b hab
      simp [setB_body, hab]
    · intro hb
      have := h 0 (.inl rfl) i j (by simpa [HasBody, setB_body] using hb)
      simpa [setB_body] using this
    · intro _
      simpa [setB_body] using hT
  · have t0 := h 0 (.inl rfl) i j (disjoint_hasBody c6)
    have t2 := h 2 (.inr rfl) i j (disjoint_hasBody c7)
    unfold mergeClosest
    dsimp only
    have key : ∀ k v, (k = 1 ∨ k = 3 → T i j v) → TopsIn T (s.setB k i j v) := by
      intro k v hv
      refine h.of_col (i := i) (j := j) ?_ ?_ ?_
      · intro k a b hab
        simp [setB_body, hab]
      · intro _
        by_cases hk : k = 1
        · subst hk; simpa [setB_body] using hv (.inl rfl)
        · simpa [setB_body, Ne.symm hk] using t0
      · intro _
        by_cases hk : k = 3
        · subst hk; simpa [setB_body] using hv (.inr rfl)
        · simpa [setB_body, Ne.symm hk] using t2
    split_ifs
    · exact key 0 lo (by omega)
    · exact key 1 hi fun _ => hT
    · exact key 2 lo (by omega)
    · exact key 3 hi fun _ => hT

theorem updateBodyLoop_tops {T : ℤ → ℤ → K → Prop} {g : Grid K} {tol : K} (l : List Cell3)
    (hl : ∀ c ∈ l, T c.1 c.2.1 (g.vectZ c.2.2)) (s : SimOut K) (h : TopsIn T s) (ii jj : ℤ) (lo hi : K)
    (hT : T ii jj hi) : Post (updateBodyLoop g tol l s ii jj lo hi) (TopsIn T) := by
  induction l generalizing s ii jj lo hi with
  | nil =>
    unfold updateBodyLoop
    exact includeNewBodyPos_tops h hT
  | cons c l ih =>
    obtain ⟨i, j, k⟩ := c
    have hc := hl _ List.mem_cons_self
    have hl' : ∀ c ∈ l, T c.1 c.2.1 (g.vectZ c.2.2) := fun c hc => hl c (List.mem_cons_of_mem _ hc)
    have hz : ∀ z, zAt g k = .ok z → z = g.vectZ k := by
      intro z hz
      unfold zAt at hz
      obtain ⟨-, hz⟩ := guardOob_bind.mp hz
      cases hz
      rfl
    unfold updateBodyLoop
    split_ifs with hne
    · refine Post.bind (includeNewBodyPos_tops h hT) fun s1 h1 => ?_
      intro s' hr
      obtain ⟨z, hz', hr⟩ := bind_eq_ok.mp hr
      obtain rfl := hz z hz'
      exact ih hl' s1 h1 i j _ _ hc s' hr
    · intro s' hr
      obtain ⟨z, hz', hr⟩ := bind_eq_ok.mp hr
      obtain rfl := hz z hz'
      push Not at hne
      obtain ⟨rfl, rfl⟩ := hne
      exact ih hl' s h ii jj _ _ hc s' hr

theorem updateWalls_tops {T : ℤ → ℤ → K → Prop} {g : Grid K} {tol : K} (ws : List (List Cell3))
    (hl : ∀ w ∈ ws, ∀ c ∈ w, T c.1 c.2.1 (g.vectZ c.2.2)) (s : SimOut K) (h : TopsIn T s) :
    Post (updateWalls g tol ws s) (TopsIn T) := by
  induction ws generalizing s with
  | nil => exact Post.ok h
  | cons w ws ih =>
    unfold updateWalls
    refine Post.bind (P := TopsIn T) ?_ fun s1 h1 => ih (fun v hv => hl v (List.mem_cons_of_mem _ hv)) s1 h1
    intro s' hr
    have hw : ∀ c ∈ sortCells w, T c.1 c.2.1 (g.vectZ c.2.2) := fun c hc =>
      hl w List.mem_cons_self c (mem_sortCells.mp hc)
    unfold updateBody at hr
    generalize sortCells w = cs at hr hw
    cases cs with
    | nil => cases hr
    | cons x l =>
      obtain ⟨i, j, k⟩ := x
      obtain ⟨z, hz, hr⟩ := bind_eq_ok.mp hr
      have : z = g.vectZ k := by
        unfold zAt at hz
        obtain ⟨-, hz⟩ := guardOob_bind.mp hz
        cases hz
        rfl
      subst this
      exact updateBodyLoop_tops _ hw s h i j _ _ (hw _ List.mem_cons_self) s' hr

end Soil
