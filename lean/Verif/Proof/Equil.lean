import Verif.Proof.Frame

/-! # The equilibrium flag (any arithmetic) -/

set_option linter.unusedSectionVars false
set_option linter.unusedSimpArgs false

namespace Soil

variable {F : Type} [FOps F]

theorem relaxUnstableTerrainCell_eq (s : SimOut F) (status : ℕ) (dh : F)
    (ii jj ic jc : ℤ) (g : Grid F) (body : Body F) (tol : F) :
    Post (relaxUnstableTerrainCell s status dh ii jj ic jc g body tol)
      (fun s' => s'.equilibrium = s.equilibrium) := by
  unfold relaxUnstableTerrainCell
  split
  · unfold relaxTerrainOnTerrain
    dsimp only
    intro s' h
    split at h
    · cases h; rfl
    all_goals first
      | (split_ifs at h <;> (cases h; rfl))
      | cases h
  all_goals exact Post.ok rfl

theorem takeFromColumn_eq (s : SimOut F) (nn ind : ℕ) (ii jj : ℤ) (hNew hSoil tol : F) :
    (takeFromColumn s nn ind ii jj hNew hSoil tol).equilibrium = s.equilibrium := by
  unfold takeFromColumn; split_ifs <;> rfl

theorem relaxUnstableBodyCell_eq (s : SimOut F) (status : ℕ) (dh : F)
    (nn : ℕ) (ii jj : ℤ) (ind : ℕ) (ic jc : ℤ) (g : Grid F) (body : Body F) (tol : F) :
    (relaxUnstableBodyCell s status dh nn ii jj ind ic jc g body tol).1.equilibrium =
      s.equilibrium := by
  unfold relaxUnstableBodyCell
  dsimp only
  split
  · unfold relaxBodyOnTerrain; dsimp only; split_ifs <;> rfl
  · unfold relaxBodyOnSoil1; exact takeFromColumn_eq _ _ _ _ _ _ _ _
  · unfold relaxBodyOnBody1; exact takeFromColumn_eq _ _ _ _ _ _ _ _
  · unfold relaxBodyOnSoil1; exact takeFromColumn_eq _ _ _ _ _ _ _ _
  · unfold relaxBodyOnBody1; exact takeFromColumn_eq _ _ _ _ _ _ _ _
  · unfold relaxBodyOnSoil2; dsimp only; split_ifs <;> rfl
  · unfold relaxBodyOnBody2; dsimp only
    split_ifs <;> first | rfl | exact takeFromColumn_eq _ _ _ _ _ _ _ _
  · unfold relaxBodyOnSoil2; dsimp only; split_ifs <;> rfl
  · unfold relaxBodyOnBody2; dsimp only
    split_ifs <;> first | rfl | exact takeFromColumn_eq _ _ _ _ _ _ _ _
  · rfl

theorem relaxTerrainDirs_false (g : Grid F) (body : Body F) (dh tol : F) (ii jj : ℤ)
    (ds : List (ℤ × ℤ)) (s : SimOut F) (hs : s.equilibrium = false) :
    Post (relaxTerrainDirs g body dh tol ii jj ds s) (fun s' => s'.equilibrium = false) := by
  induction ds generalizing s with
  | nil => exact Post.ok hs
  | cons d ds ih =>
    unfold relaxTerrainDirs
    refine Post.guard fun _ => ?_
    dsimp only
    split_ifs
    · exact ih s hs
    · exact Post.bind (relaxUnstableTerrainCell_eq _ _ _ _ _ _ _ _ _ _) fun s1 h1 => ih s1 h1

theorem relaxTerrainDirs_true (g : Grid F) (body : Body F) (dh tol : F) (ii jj : ℤ)
    (ds : List (ℤ × ℤ)) (s : SimOut F) :
    Post (relaxTerrainDirs g body dh tol ii jj ds s) (fun s' => s'.equilibrium = true →
      s' = s ∧ ∀ d ∈ ds,
        checkUnstableTerrainCell s (ii + d.1) (jj + d.2) (FOps.sub (s.terrain ii jj) dh) tol = 0) := by
  induction ds generalizing s with
  | nil => exact Post.ok fun _ => ⟨rfl, by simp⟩
  | cons d ds ih =>
    unfold relaxTerrainDirs
    refine Post.guard fun _ => ?_
    dsimp only
    split_ifs with hst
    · refine (ih s).mono fun s' h he => ?_
      obtain ⟨h1, h2⟩ := h he
      refine ⟨h1, fun x hx => ?_⟩
      rcases List.mem_cons.mp hx with rfl | hx
      · exact hst
      · exact h2 x hx
    · refine Post.bind (relaxUnstableTerrainCell_eq _ _ _ _ _ _ _ _ _ _) fun s1 h1 => ?_
      refine (relaxTerrainDirs_false _ _ _ _ _ _ _ _ h1).mono fun s' h he => ?_
      rw [h] at he; exact absurd he (by simp)

theorem relaxTerrainCells_false (g : Grid F) (body : Body F) (dh tol : F) (cs ds : List (ℤ × ℤ))
    (s : SimOut F) (r : Rng) (hs : s.equilibrium = false) :
    Post (relaxTerrainCells g body dh tol cs ds s r) (fun x => x.1.equilibrium = false) := by
  induction cs generalizing ds s r with
  | nil => exact Post.ok hs
  | cons c cs ih =>
    unfold relaxTerrainCells
    exact Post.bind (relaxTerrainDirs_false _ _ _ _ _ _ _ _ hs) fun s1 h1 => ih _ _ _ h1

theorem relaxTerrainCells_true (g : Grid F) (body : Body F) (dh tol : F) (cs ds : List (ℤ × ℤ))
    (s : SimOut F) (r : Rng) :
    Post (relaxTerrainCells g body dh tol cs ds s r) (fun x => x.1.equilibrium = true →
      x.1 = s ∧ ∀ c ∈ cs, ∀ d ∈ ds, checkUnstableTerrainCell s (c.1 + d.1) (c.2 + d.2)
        (FOps.sub (s.terrain c.1 c.2) dh) tol = 0) := by
  induction cs generalizing ds s r with
  | nil => exact Post.ok fun _ => ⟨rfl, by simp⟩
  | cons c cs ih =>
    unfold relaxTerrainCells
    intro x hx
    obtain ⟨s1, h1, h2⟩ := bind_eq_ok.mp hx
    intro he
    cases hs1 : s1.equilibrium with
    | false =>
      have := relaxTerrainCells_false _ _ _ _ _ _ _ _ hs1 _ h2
      rw [this] at he; exact absurd he (by simp)
    | true =>
      obtain ⟨rfl, hd⟩ := relaxTerrainDirs_true _ _ _ _ _ _ _ _ _ h1 hs1
      obtain ⟨e1, e2⟩ := ih _ _ _ _ h2 he
      refine ⟨e1, fun c' hc' d hdm => ?_⟩
      have hdm' : d ∈ (shuffle ds r).1 := mem_shuffle.mpr hdm
      rcases List.mem_cons.mp hc' with rfl | hc'
      · exact hd d hdm'
      · exact e2 c' hc' d hdm'

/-- `RelaxTerrain` that reports equilibrium changed nothing, and every column of the impact area is
either not a candidate or stable towards its four neighbours. -/
theorem relaxTerrain_true (g : Grid F) (body : Body F) (p : SimParam F) (tol : F) (w w' : World F)
    (h : relaxTerrain g body p tol w = .ok w') (he : w'.out.equilibrium = true) :
    w'.out.terrain = w.out.terrain ∧ w'.out.body = w.out.body ∧
    w'.out.bodySoil = w.out.bodySoil ∧ w'.out.bodySoilPos = w.out.bodySoilPos ∧
    ∀ c ∈ w.out.impactArea.cells, unstableAt w'.out (dhMax g p) tol c.1 c.2 = true →
      ∀ d ∈ directions4, checkUnstableTerrainCell w'.out (c.1 + d.1) (c.2 + d.2)
        (FOps.sub (w'.out.terrain c.1 c.2) (dhMax g p)) tol = 0 := by
  unfold relaxTerrain at h
  dsimp only at h
  obtain ⟨cells, hc, h⟩ := bind_eq_ok.mp h
  have hm := locateUnstableCells_sub _ _ _ _ _ hc
  split_ifs at h with hem
  · cases h
    refine ⟨rfl, rfl, rfl, rfl, ?_⟩
    intro c hc' hun
    have := (hm c).mpr ⟨hc', hun⟩
    rw [List.isEmpty_iff] at hem
    subst hem
    simp at this
  · obtain ⟨⟨s1, r1⟩, h1, h⟩ := bind_eq_ok.mp h
    cases h
    obtain ⟨e1, e2⟩ := relaxTerrainCells_true _ _ _ _ _ _ _ _ _ h1 he
    dsimp only at e1
    subst e1
    refine ⟨rfl, rfl, rfl, rfl, ?_⟩
    intro c hc' hun d hd
    exact e2 c (mem_shuffle.mpr ((hm c).mpr ⟨hc', hun⟩)) d hd

/-! ## Body soil -/

theorem relaxBodyDirs_false (g : Grid F) (body : Body F) (dh tol : F) (nn : ℕ) (ii jj : ℤ)
    (ind : ℕ) (ds : List (ℤ × ℤ)) (s : SimOut F) (q : List (BodySoil F))
    (hs : s.equilibrium = false) :
    Post (relaxBodyDirs g body dh tol nn ii jj ind ds s q)
      (fun x => x.1.equilibrium = false) := by
  induction ds generalizing s q with
  | nil => exact Post.ok hs
  | cons d ds ih =>
    unfold relaxBodyDirs
    refine Post.guard fun _ => ?_
    dsimp only
    split_ifs
    · exact ih s q hs
    · exact ih _ _ (by rw [relaxUnstableBodyCell_eq])

theorem relaxBodyDirs_true (g : Grid F) (body : Body F) (dh tol : F) (nn : ℕ) (ii jj : ℤ)
    (ind : ℕ) (ds : List (ℤ × ℤ)) (s : SimOut F) (q : List (BodySoil F)) :
    Post (relaxBodyDirs g body dh tol nn ii jj ind ds s q) (fun x => x.1.equilibrium = true →
      x = (s, q) ∧ ∀ d ∈ ds, checkUnstableBodyCell s ii jj ind (ii + d.1) (jj + d.2)
        (FOps.sub (s.bodySoil (ind + 1) ii jj) dh) tol = 0) := by
  induction ds generalizing s q with
  | nil => exact Post.ok fun _ => ⟨rfl, by simp⟩
  | cons d ds ih =>
    unfold relaxBodyDirs
    refine Post.guard fun _ => ?_
    dsimp only
    split_ifs with hst
    · refine (ih s q).mono fun s' h he => ?_
      obtain ⟨h1, h2⟩ := h he
      refine ⟨h1, fun x hx => ?_⟩
      rcases List.mem_cons.mp hx with rfl | hx
      · exact hst
      · exact h2 x hx
    · refine (relaxBodyDirs_false _ _ _ _ _ _ _ _ _ _ _
        (by rw [relaxUnstableBodyCell_eq])).mono fun s' h he => ?_
      rw [h] at he; exact absurd he (by simp)

theorem relaxBodyEntries_false (g : Grid F) (body : Body F) (dh tol : F) (count nn : ℕ)
    (ds : List (ℤ × ℤ)) (s : SimOut F) (q : List (BodySoil F)) (r : Rng)
    (hs : s.equilibrium = false) :
    Post (relaxBodyEntries g body dh tol count nn ds s q r)
      (fun x => x.1.equilibrium = false) := by
  induction count generalizing nn ds s q r with
  | zero => exact Post.ok hs
  | succ count ih =>
    unfold relaxBodyEntries
    split
    · exact Post.error
    · split_ifs
      · exact ih _ _ _ _ _ hs
      · exact Post.bind (relaxBodyDirs_false _ _ _ _ _ _ _ _ _ _ _ hs) fun x hx => ih _ _ _ _ _ hx

theorem relaxBodyEntries_true (g : Grid F) (body : Body F) (dh tol : F) (count nn : ℕ)
    (ds : List (ℤ × ℤ)) (s : SimOut F) (q : List (BodySoil F)) (r : Rng) :
    Post (relaxBodyEntries g body dh tol count nn ds s q r) (fun x => x.1.equilibrium = true →
      x.1 = s ∧ x.2.1 = q ∧ ∀ m e, nn ≤ m → m < nn + count → s.bodySoilPos[m]? = some e →
        FOps.lt e.h tol = false → ∀ d ∈ ds, checkUnstableBodyCell s e.ii e.jj e.ind (e.ii + d.1)
          (e.jj + d.2) (FOps.sub (s.bodySoil (e.ind + 1) e.ii e.jj) dh) tol = 0) := by
  induction count generalizing nn ds s q r with
  | zero => exact Post.ok fun _ => ⟨rfl, rfl, fun m e h1 h2 => by omega⟩
  | succ count ih =>
    unfold relaxBodyEntries
    split
    · exact Post.error
    · rename_i e0 he0
      split_ifs with hlt
      · refine (ih _ _ _ _ _).mono fun x hx he => ?_
        obtain ⟨e1, e2, e3⟩ := hx he
        refine ⟨e1, e2, fun m e h1 h2 hm hl => ?_⟩
        rcases h1.lt_or_eq with h1 | rfl
        · exact e3 m e h1 (by omega) hm hl
        · rw [he0] at hm; cases hm; rw [hlt] at hl; exact absurd hl (by simp)
      · intro x hx
        obtain ⟨⟨s1, q1⟩, h1, h2⟩ := bind_eq_ok.mp hx
        intro he
        dsimp only at h2
        cases hs1 : s1.equilibrium with
        | false =>
          have := relaxBodyEntries_false _ _ _ _ _ _ _ _ _ _ hs1 _ h2
          rw [this] at he; exact absurd he (by simp)
        | true =>
          obtain ⟨hh, hd⟩ := relaxBodyDirs_true _ _ _ _ _ _ _ _ _ _ _ _ h1 hs1
          cases hh
          obtain ⟨e1, e2, e3⟩ := ih _ _ _ _ _ _ h2 he
          refine ⟨e1, e2, fun m e h1 h2 hm hl d hdm => ?_⟩
          have hdm' : d ∈ (shuffle ds r).1 := mem_shuffle.mpr hdm
          rcases h1.lt_or_eq with h1 | rfl
          · exact e3 m e h1 (by omega) hm hl d hdm'
          · rw [he0] at hm; cases hm; exact hd d hdm'

/-- `RelaxBodySoil` that leaves the flag set changed nothing, and every entry is stable. -/
theorem relaxBodySoil_true (g : Grid F) (body : Body F) (p : SimParam F) (tol : F) (w w' : World F)
    (h : relaxBodySoil g body p tol w = .ok w') (he : w'.out.equilibrium = true) :
    w'.out = w.out ∧ ∀ e ∈ w.out.bodySoilPos, FOps.lt e.h tol = false → ∀ d ∈ directions4,
      checkUnstableBodyCell w.out e.ii e.jj e.ind (e.ii + d.1) (e.jj + d.2)
        (FOps.sub (w.out.bodySoil (e.ind + 1) e.ii e.jj) (dhMax g p)) tol = 0 := by
  unfold relaxBodySoil at h
  obtain ⟨⟨s1, q1, r1⟩, h1, h⟩ := bind_eq_ok.mp h
  cases h
  obtain ⟨e1, e2, e3⟩ := relaxBodyEntries_true _ _ _ _ _ _ _ _ _ _ _ h1 he
  dsimp only at e1 e2
  subst e1 e2
  refine ⟨by simp, fun e hem hl d hd => ?_⟩
  obtain ⟨m, hm, rfl⟩ := List.getElem_of_mem hem
  exact e3 m _ (by omega) (by omega) (List.getElem?_eq_getElem hm) hl d hd

end Soil
