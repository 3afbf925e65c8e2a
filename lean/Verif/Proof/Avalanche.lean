import Verif.Proof.Settle

/-! # Single avalanches, and what sequences of them preserve -/

set_option linter.unusedSectionVars false
set_option linter.unusedSimpArgs false

namespace Soil

variable {K : Type} [Field K] [LinearOrder K] [FloorRing K] [Transc K] [IsStrictOrderedRing K]

/-- `relaxUnstableTerrainCell` for the code given by the stability test -/
theorem relaxUnstableTerrainCell_fall (s : SimOut K) (dh : K) (ii jj ic jc : ℤ) (g : Grid K)
    (body : Body K) (tol : K) (t : TolOK g.cellZ tol) (hd : Al g.cellZ dh) (h : WellFormed g.cellZ s)
    (h1 : s.InGrid ii jj) (h2 : s.InGrid ic jc) (hne : ¬ (ic = ii ∧ jc = jj)) (st : ℕ)
    (hst : st = checkUnstableTerrainCell s ic jc (s.terrain ii jj - dh) tol) (h0 : st ≠ 0) :
    Post (relaxUnstableTerrainCell s st dh ii jj ic jc g body tol) fun r => WellFormed g.cellZ r ∧
      ∃ δ, 0 < δ ∧ Fall g.cellZ dh none (.ground ii jj) (landing st ic jc) δ s r := by
  subst hst
  obtain ⟨hlow, ⟨st0, he, hc, hL⟩ | ⟨k, st0, hk, hb, hs, h3, h4, h5, he, hL⟩ |
      ⟨k, st0, hk, hb, hs, h3, h4, he, hL⟩⟩ :=
    relaxUnstableTerrainCell_cases s s dh ii jj ic jc g body tol _ h0
  · rw [he, hL]
    exact relaxTerrainOnTerrain_move _ st0 dh ii jj _ _ g tol t hd h h1 h2 hne hlow hc
  · rw [he, hL]
    exact Post.ok (relaxTerrainOnSoil_move _ st0 dh ii jj _ _ g body tol t hd h h1 h2 k hk
      hb hs h3 h4 h5)
  · rw [he, hL]
    exact Post.ok (relaxTerrainOnBody_move _ st0 dh ii jj _ _ g body tol t hd h h1 h2 k hk
      hb hs h3 h4)

theorem relaxOnce_avalanches {g : Grid K} {p : SimParam K} {tol : K} (t : TolOK g.cellZ tol)
    (hd0 : 0 ≤ dhMax g p) (body : Body K) (w : World K) (h : WellFormed g.cellZ w.out) :
    Post (relaxOnce g body p tol w) fun w' => WellFormed g.cellZ w'.out ∧
      Avalanches (fun _ => True) g.cellZ (dhMax g p) w.out w'.out := by
  intro w' hw
  unfold relaxOnce at hw
  obtain ⟨w1, h1, h2⟩ := bind_eq_ok.mp hw
  have h0 : WellFormed g.cellZ (w.mapOut fun s => { s with impactArea := impactOf s }).out :=
    h.congr rfl rfl rfl rfl rfl rfl
  have f1 := relaxTerrain_wf g body p tol t _ h0 w1 h1
  have a1 := relaxTerrain_avalanches g body p tol t _ h0 w1 h1
  have f2 := shuffleEntries_wf f1
  have a2 := relaxBodySoil_avalanches g body p tol t hd0 _ f2 w' h2
  have e0 : Avalanches (fun _ => True) g.cellZ (dhMax g p) w.out
      (w.mapOut fun s => { s with impactArea := impactOf s }).out := .same rfl rfl ⟨rfl, rfl, rfl, rfl⟩
  have e1 : Avalanches (fun _ => True) g.cellZ (dhMax g p) w1.out (shuffleEntries w1).out :=
    .same rfl rfl ⟨rfl, rfl, rfl, rfl⟩
  exact ⟨(relaxBodySoil_wf g body p tol t hd0 _ f2 w' h2).1, ((e0.trans (a1.mono fun _ _ => trivial)).trans e1).trans (a2.mono fun _ _ => trivial)⟩

theorem relaxLoop_avalanches {g : Grid K} {p : SimParam K} {tol : K} (t : TolOK g.cellZ tol)
    (hd0 : 0 ≤ dhMax g p) (body : Body K) (fuel : ℕ) (it : ℤ) (w : World K)
    (h : WellFormed g.cellZ w.out) :
    Post (relaxLoop g body p tol fuel it w) fun x => WellFormed g.cellZ x.1.out ∧
      Avalanches (fun _ => True) g.cellZ (dhMax g p) w.out x.1.out := by
  induction fuel generalizing it w with
  | zero =>
    unfold relaxLoop
    split_ifs
    · exact Post.error
    · exact Post.ok ⟨h, .refl⟩
  | succ fuel ih =>
    unfold relaxLoop
    split_ifs
    · refine Post.bind (relaxOnce_avalanches t hd0 body w h) fun w1 ⟨h1, h2⟩ => ?_
      exact (ih _ _ h1).mono fun x hx => ⟨hx.1, h2.trans hx.2⟩
    · exact Post.ok ⟨h, .refl⟩

/-! ## Extremal heights -/

theorem Takes.soiled {c dh m : K} {cap : Option K} {a b : Place} {s r : SimOut K}
    (ht : Takes s a cap) (h : WellFormed c s) (hv : Avalanche c dh cap s r a b m) : a.Soiled s := by
  cases ht with
  | ground i j => exact trivial
  | entry e he => exact hv.pos.trans_le ((hv.enough _ rfl).trans (h.soilOK.entry_le he))

theorem Place.soiled_iff {s : SimOut K} {k : ℕ} {i j : ℤ} :
    (Place.layer k i j).Soiled s ↔ s.body (k + 1) i j < (Place.layer k i j).height s := by
  show 0 < layerSoil s k i j ↔ s.body (k + 1) i j < s.body (k + 1) i j + layerSoil s k i j
  constructor <;> intro h <;> linarith

/-- no soil comes to lie higher than the highest soil -/
theorem Avalanches.highest {src : Place → Prop} {c dh : K} (hc : 0 < c) (hd : 0 ≤ dh) {s r : SimOut K}
    (h : Avalanches src c dh s r) (H : K) (hH : ∀ p : Place, p.In s → p.Soiled s → p.height s ≤ H) :
    ∀ p : Place, p.In r → p.Soiled r → p.height r ≤ H := by
  induction h with
  | refl => exact hH
  | @still s₁ s₂ _ h1 h2 ih =>
    intro p hp hs
    have h2' : SameBody s₂ s₁ := ⟨h2.1.symm, h2.2.1.symm, h2.2.2.1.symm, h2.2.2.2.symm⟩
    have hp' := hp.congr h2'
    rw [Place.height_congr h1 h2.1 hp']
    refine ih p hp' ?_
    cases p with
    | ground i j => trivial
    | layer k i j =>
      show 0 < layerSoil s₁ k i j
      rw [← h1.layer k i j hp.2.1]; exact hs
  | @slide s₁ s₂ a b cap m _ h1 h2 h3 h4 _ _ ih =>
    intro p hp hs
    have hb := h4.body
    have h2' : SameBody s₂ s₁ := ⟨hb.1.symm, hb.2.1.symm, hb.2.2.1.symm, hb.2.2.2.symm⟩
    have hp' := hp.congr h2'
    have ha := ih a h4.source (h3.soiled h1 h4)
    have hm : c ≤ m := by
      have := Al.add_le hc .zero h4.cells h4.pos
      linarith
    have hg := h4.gentle
    rw [h4.left] at hg
    by_cases hpb : p = b
    · subst hpb; linarith
    · by_cases hpa : p = a
      · subst hpa; rw [h4.left]; linarith [h4.pos]
      · have hh := h4.others p hp' hpa hpb
        rw [hh]
        refine ih p hp' ?_
        cases p with
        | ground i j => trivial
        | layer k i j =>
          rw [Place.soiled_iff] at hs ⊢
          rw [hh, hb.1] at hs
          exact hs

/-- no terrain gets lower than the lowest terrain -/
theorem Avalanches.lowest {src : Place → Prop} {c dh : K} (hc : 0 < c) (hd : 0 ≤ dh) {s r : SimOut K}
    (h : Avalanches src c dh s r) (L : K) (hL : ∀ i j, s.InGrid i j → L ≤ s.terrain i j) :
    ∀ i j, r.InGrid i j → L ≤ r.terrain i j := by
  induction h with
  | refl => exact hL
  | @still s₁ s₂ _ h1 h2 ih =>
    intro i j hij
    rw [h1.terrain]
    refine ih i j ?_
    unfold SimOut.InGrid at hij ⊢
    rw [h2.2.2.1, h2.2.2.2] at hij; exact hij
  | @slide s₁ s₂ a b cap m _ h1 h2 h3 h4 _ _ ih =>
    intro i j hij
    have hb := h4.body
    have hij' : s₁.InGrid i j := by
      unfold SimOut.InGrid at hij ⊢
      rw [hb.2.2.1, hb.2.2.2] at hij; exact hij
    have hlb : L ≤ b.height s₁ := by
      have ht := h4.target
      cases b with
      | ground a b => exact ih a b ht
      | layer k a b =>
        have e1 := ih a b ht.1
        have e2 := h1.terrainFree k a b ht.1 ht.2.1 ht.2.2
        have e3 := h1.bodyOK.order k a b ht.1 ht.2.1 ht.2.2
        have e4 := h1.soilOK.layerSoil_nonneg ht.1 ht.2.1
        show L ≤ s₁.body (k + 1) a b + layerSoil s₁ k a b
        linarith
    have hm : c ≤ m := by
      have := Al.add_le hc .zero h4.cells h4.pos
      linarith
    have hg := h4.gentle
    rw [h4.right] at hg
    show L ≤ (Place.ground i j).height s₂
    by_cases hpb : Place.ground i j = b
    · rw [hpb, h4.right]; linarith [h4.pos]
    · by_cases hpa : Place.ground i j = a
      · rw [hpa]; linarith
      · rw [h4.others (.ground i j) hij' hpa hpb]
        exact ih i j hij'

end Soil
