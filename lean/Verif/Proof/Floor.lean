import Verif.Proof.RelaxT

/-!
# Avalanches never dig below the lowest terrain
-/

set_option linter.unusedSectionVars false

namespace Soil

open FOps

variable {K : Type} [Field K] [LinearOrder K] [FloorRing K] [Transc K] [IsStrictOrderedRing K]

/-- No column of terrain is lower than `lo`. -/
def TerrainAbove (lo : K) (s : SimOut K) : Prop := ∀ i j, s.InGrid i j → lo ≤ s.terrain i j

theorem TerrainAbove.setT {lo : K} {s : SimOut K} (h : TerrainAbove lo s) (i j : ℤ) {v : K}
    (hv : lo ≤ v) : TerrainAbove lo (s.setT i j v) := by
  intro a b hab
  show lo ≤ upd2 s.terrain i j v a b
  unfold upd2
  split_ifs
  · exact hv
  · exact h a b hab

theorem newHeight_floor {g : Grid K} {tol dh a b : K} (t : TolOK g.cellZ tol) (hd : Al g.cellZ dh)
    (hd0 : 0 ≤ dh) (ha : Al g.cellZ a) (hb : Al g.cellZ b) (hlow : b + tol < a - dh) :
    b ≤ newHeight g tol dh a b ∧ newHeight g tol dh a b ≤ a := by
  obtain ⟨hal, hnew⟩ := newHeight_spec t hd ha hb
  have hc := t.cpos
  have := (t.add_lt hb (ha.sub hd)).mp hlow
  have := hb.add_le hc (ha.sub hd) this
  rcases hnew with h | h <;> constructor <;> linarith

variable {s : SimOut K} {dh : K} {ii jj ic jc : ℤ} {g : Grid K} {tol lo : K}
  (t : TolOK g.cellZ tol) (hd : Al g.cellZ dh) (hd0 : 0 ≤ dh) (h : WellFormed g.cellZ s)
  (hf : TerrainAbove lo s) (h1 : s.InGrid ii jj) (h2 : s.InGrid ic jc)

include t hd hd0 h hf h1 h2

theorem relaxTerrainOnTerrain_floor (st0 : ℕ) (hlow : s.terrain ic jc + tol < s.terrain ii jj - dh)
    (hst : (st0 = 4 ∧ ¬ HasBody s 0 ic jc ∧ ¬ HasBody s 2 ic jc) ∨
         (st0 = 1 ∧ HasBody s 0 ic jc ∧ ¬ HasBody s 2 ic jc ∧
            s.terrain ic jc + tol < s.body 0 ic jc) ∨
         (st0 = 2 ∧ ¬ HasBody s 0 ic jc ∧ HasBody s 2 ic jc ∧
            s.terrain ic jc + tol < s.body 2 ic jc) ∨
         (st0 = 3 ∧ HasBody s 0 ic jc ∧ HasBody s 2 ic jc ∧
            s.terrain ic jc + tol < Min.min (s.body 0 ic jc) (s.body 2 ic jc))) :
    Post (relaxTerrainOnTerrain s st0 dh ii jj ic jc g tol) (TerrainAbove lo) := by
  have hn := newHeight_floor t hd hd0 (h.soilOK.terrain_al ii jj h1) (h.soilOK.terrain_al ic jc h2) hlow
  have f1 := hf ii jj h1
  have f2 := hf ic jc h2
  have tp := t.pos
  unfold relaxTerrainOnTerrain
  simp only [ex_add, ex_sub, ex_lt, decide_eq_true_eq, FOps.minL, List.foldl_cons, List.foldl_nil,
    ex_min]
  generalize newHeight g tol dh (s.terrain ii jj) (s.terrain ic jc) = hN at *
  intro s' h'
  have key : ∀ u v, lo ≤ u → lo ≤ v → TerrainAbove lo ((s.setT ii jj u).setT ic jc v) :=
    fun u v hu hv => (hf.setT ii jj hu).setT ic jc hv
  rcases hst with ⟨rfl, b0, b2⟩ | ⟨rfl, b0, b2, hl⟩ | ⟨rfl, b0, b2, hl⟩ | ⟨rfl, b0, b2, hl⟩ <;>
    simp only at h'
  · cases h'
    exact key _ _ (by linarith) (by linarith)
  all_goals
    split_ifs at h' with hlt
    · cases h'
      exact key _ _ (by linarith) (by linarith)
    · cases h'
      exact key _ _ (by linarith) (by linarith)

theorem relaxTerrainOnSoil_floor (body : Body K) (st0 : ℕ) {k : ℕ} (hk : k = 0 ∨ k = 2)
    (hs : HasSoil s k ic jc) (hlow : s.bodySoil (k + 1) ic jc + tol < s.terrain ii jj - dh) :
    TerrainAbove lo (relaxTerrainOnSoil s st0 dh ii jj ic jc g body tol k (otherLayer k)) := by
  have hn := newHeight_floor t hd hd0 (h.soilOK.terrain_al ii jj h1)
    (h.soilOK.soil_al (k + 1) ic jc h2) hlow
  have f1 := hf ii jj h1
  have f2 := hf ic jc h2
  obtain ⟨r1, r2, r3⟩ := h.soilOK.rest k ic jc h2 hk hs
  have r4 := h.bodyOK.order k ic jc h2 hk r1
  have r5 := h.terrainFree k ic jc h2 hk r1
  have tp := t.pos
  unfold relaxTerrainOnSoil
  simp only [ex_add, ex_sub, ex_lt]
  generalize newHeight g tol dh (s.terrain ii jj) (s.bodySoil (k + 1) ic jc) = hN at *
  refine hf.setT ii jj (v := _) ?_
  split_ifs with hc
  · simp only [Bool.and_eq_true, beq_iff_eq, decide_eq_true_eq] at hc
    linarith
  · linarith

theorem relaxTerrainOnBody_floor (body : Body K) (st0 : ℕ) {k : ℕ} (hk : k = 0 ∨ k = 2)
    (hb : HasBody s k ic jc) (hlow : s.body (k + 1) ic jc + tol < s.terrain ii jj - dh) :
    TerrainAbove lo (relaxTerrainOnBody s st0 dh ii jj ic jc g body tol k (otherLayer k)) := by
  have hn := newHeight_floor t hd hd0 (h.soilOK.terrain_al ii jj h1)
    (h.bodyOK.al (k + 1) ic jc h2) hlow
  have f1 := hf ii jj h1
  have f2 := hf ic jc h2
  have r4 := h.bodyOK.order k ic jc h2 hk hb
  have r5 := h.terrainFree k ic jc h2 hk hb
  have tp := t.pos
  unfold relaxTerrainOnBody
  simp only [ex_add, ex_sub, ex_lt]
  generalize newHeight g tol dh (s.terrain ii jj) (s.body (k + 1) ic jc) = hN at *
  refine hf.setT ii jj (v := _) ?_
  split_ifs with hc
  · simp only [Bool.and_eq_true, beq_iff_eq, decide_eq_true_eq] at hc
    linarith
  · linarith

omit h hf h1 h2 in
theorem relaxTerrainDirs_floor (body : Body K) (ds : List (ℤ × ℤ))
    (hds : ∀ d ∈ ds, d ∈ directions4) (s : SimOut K) (h : WellFormed g.cellZ s)
    (hf : TerrainAbove lo s) :
    Post (relaxTerrainDirs g body dh tol ii jj ds s) (TerrainAbove lo) := by
  induction ds generalizing s with
  | nil => exact Post.ok hf
  | cons d ds ih =>
    have ih' := ih fun x hx => hds x (List.mem_cons_of_mem _ hx)
    have hne := dir_ne (hds d List.mem_cons_self) ii jj
    unfold relaxTerrainDirs
    dsimp only
    refine Post.guard fun ⟨h1, h2⟩ => ?_
    split_ifs with hst
    · exact ih' s h hf
    · have h1' : ({ s with equilibrium := false } : SimOut K).InGrid ii jj := h1
      have h2' : ({ s with equilibrium := false } : SimOut K).InGrid (ii + d.1) (jj + d.2) := h2
      have hw := h.setEq false
      have hf' : TerrainAbove lo ({ s with equilibrium := false } : SimOut K) := hf
      refine Post.bind (P := fun r => WellFormed g.cellZ r ∧ TerrainAbove lo r) ?_ fun s1 hs1 =>
        ih' s1 hs1.1 hs1.2
      obtain ⟨hlow, ⟨st0, he, hc, -⟩ | ⟨k, st0, hk, hb, hs, h3, h4, h5, he, -⟩ |
            ⟨k, st0, hk, hb, hs, h3, h4, he, -⟩⟩ :=
          relaxUnstableTerrainCell_cases s { s with equilibrium := false } dh ii jj (ii + d.1)
            (jj + d.2) g body tol _ hst
      · rw [he]
        intro r hr
        exact ⟨relaxTerrainOnTerrain_wf _ st0 dh ii jj _ _ g tol t hd hw h1' h2' hne hlow hc r hr,
          relaxTerrainOnTerrain_floor t hd hd0 hw hf' h1' h2' st0 hlow hc r hr⟩
      · rw [he]
        exact Post.ok ⟨(relaxTerrainOnSoil_move _ st0 dh ii jj _ _ g body tol t hd hw h1' h2' k hk
            hb hs h3 h4 h5).1, relaxTerrainOnSoil_floor t hd hd0 hw hf' h1' h2' body st0 hk hs h4⟩
      · rw [he]
        exact Post.ok ⟨(relaxTerrainOnBody_move _ st0 dh ii jj _ _ g body tol t hd hw h1' h2' k hk
            hb hs h3 h4).1, relaxTerrainOnBody_floor t hd hd0 hw hf' h1' h2' body st0 hk hb h4⟩

end Soil
