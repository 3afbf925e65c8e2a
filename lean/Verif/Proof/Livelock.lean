import Verif.Props.Active
import Verif.Proof.Total

/-! # A state in which relaxation never reports equilibrium -/

set_option linter.unusedSectionVars false
set_option linter.unusedSimpArgs false

namespace Soil

/-- Soil piled up on a low piece of the body, in a pit whose four sides are covered by higher pieces
of the body that touch the terrain under them. -/
def lvState (eq : Bool) (ra ia : Area) : SimOut ℚ :=
  { lenX := 9, lenY := 9, equilibrium := eq
    terrain := fun i j => if i = 4 ∧ j = 4 then 0 else 4
    body := fun k i j =>
      if i = 4 ∧ j = 4 then (if k = 1 then 1 else 0)
      else if (i = 4 ∧ (j = 3 ∨ j = 5)) ∨ (j = 4 ∧ (i = 3 ∨ i = 5)) then
        (if k = 0 then 4 else if k = 1 then 5 else 0)
      else 0
    bodySoil := fun k i j => if i = 4 ∧ j = 4 then (if k = 0 then 1 else if k = 1 then 10 else 0) else 0
    bodySoilPos := [⟨0, 4, 4, 0, 0, 1, 9⟩]
    bodyArea := ⟨1, 8, 1, 8⟩, relaxArea := ra, impactArea := ia }

theorem lvState_sound (eq : Bool) (ra ia : Area) (h : AreaInside ra (lvState eq ra ia)) :
    Sound acGrid (lvState eq ra ia) := by
  have h0 : WellFormed 1 (lvState false ⟨1, 8, 1, 8⟩ ⟨1, 8, 1, 8⟩) := by
    refine WFCheck.wf (by decide +kernel) ?_
    intro k i j hk
    constructor
    · simp only [lvState]; split_ifs <;> first | rfl | omega
    · simp only [lvState]; split_ifs <;> first | rfl | omega
  refine ⟨h0.congr rfl rfl rfl rfl rfl rfl, ?_, ?_, h, rfl, rfl⟩
  · intro k i j hij hk hb
    unfold HasBody lvState at hb
    simp only at hb
    unfold Area.Has
    simp only [lvState]
    split_ifs at hb <;> first | omega | simp at hb
  · simp [AreaInside, lvState]

theorem lvCells : ∀ i ∈ Finset.Ico (1 : ℤ) 8, ∀ j ∈ Finset.Ico (1 : ℤ) 8, ∀ d ∈ directions4,
    checkUnstableTerrainCell (lvState true ⟨1, 8, 1, 8⟩ ⟨1, 8, 1, 8⟩) (i + d.1) (j + d.2)
      (FOps.sub ((lvState true ⟨1, 8, 1, 8⟩ ⟨1, 8, 1, 8⟩).terrain i j) 1) (1 / 100) = 0 := by
  decide +kernel

theorem lvDh (m : ℤ) : dhMax acGrid { acParam with maxIterations := m } = 1 := by
  have : dhMax acGrid acParam = 1 := by decide +kernel
  exact this

theorem relaxTerrainDirs_idle {K : Type} [FOps K] (g : Grid K) (body : Body K) (dh tol : K) (ii jj : ℤ)
    (ds : List (ℤ × ℤ)) (s : SimOut K)
    (h : ∀ d ∈ ds, checkUnstableTerrainCell s (ii + d.1) (jj + d.2) (FOps.sub (s.terrain ii jj) dh) tol = 0) :
    Post (relaxTerrainDirs g body dh tol ii jj ds s) (· = s) := by
  induction ds with
  | nil => exact Post.ok rfl
  | cons d ds ih =>
    unfold relaxTerrainDirs
    refine Post.guard fun _ => ?_
    dsimp only
    rw [if_pos (h d List.mem_cons_self)]
    exact ih fun x hx => h x (List.mem_cons_of_mem _ hx)

theorem relaxTerrainCells_idle {K : Type} [FOps K] (g : Grid K) (body : Body K) (dh tol : K)
    (cs ds : List (ℤ × ℤ)) (s : SimOut K) (r : Rng)
    (h : ∀ c ∈ cs, ∀ d ∈ ds,
      checkUnstableTerrainCell s (c.1 + d.1) (c.2 + d.2) (FOps.sub (s.terrain c.1 c.2) dh) tol = 0) :
    Post (relaxTerrainCells g body dh tol cs ds s r) fun x => x.1 = s := by
  induction cs generalizing ds r with
  | nil => exact Post.ok rfl
  | cons c cs ih =>
    unfold relaxTerrainCells
    refine Post.bind (relaxTerrainDirs_idle g body dh tol c.1 c.2 _ s fun d hd =>
      h c List.mem_cons_self d (mem_shuffle.mp hd)) ?_
    rintro s1 rfl
    exact ih _ _ fun c hc d hd => h c (List.mem_cons_of_mem _ hc) d (mem_shuffle.mp hd)

theorem setT_same {K : Type} (s : SimOut K) (i j : ℤ) (v : K) (h : v = s.terrain i j) :
    s.setT i j v = s := by
  have : upd2 s.terrain i j v = s.terrain := by
    funext a b
    unfold upd2
    split_ifs with hc
    · obtain ⟨rfl, rfl⟩ := hc; exact h
    · rfl
  unfold SimOut.setT
  rw [this]

theorem setH_same {K : Type} [FOps K] (s : SimOut K) (n : ℕ) (v : K) (h : ∀ e, s.bodySoilPos[n]? = some e → e.h = v) :
    s.setH n v = s := by
  unfold SimOut.setH
  have : s.bodySoilPos.modify n (fun e => { e with h := v }) = s.bodySoilPos := by
    apply List.ext_getElem?
    intro m
    rw [List.getElem?_modify]
    split_ifs with hm
    · subst hm
      cases he : s.bodySoilPos[n]? with
      | none => rfl
      | some e => simp [← h e he]
    · simp
  rw [this]

theorem lvMove (ra ia : Area) (d : ℤ × ℤ) (hd : d ∈ directions4) :
    relaxUnstableBodyCell (lvState false ra ia)
      (checkUnstableBodyCell (lvState false ra ia) 4 4 0 (4 + d.1) (4 + d.2)
        (FOps.sub ((lvState false ra ia).bodySoil 1 4 4) 1) (1 / 100)) 1 0 4 4 0 (4 + d.1) (4 + d.2)
      acGrid exBody (1 / 100) = (lvState false ra ia, []) ∧
    checkUnstableBodyCell (lvState false ra ia) 4 4 0 (4 + d.1) (4 + d.2)
        (FOps.sub ((lvState false ra ia).bodySoil 1 4 4) 1) (1 / 100) = 10 := by
  have h1 : ∀ d ∈ directions4, checkUnstableBodyCell (lvState false ⟨1, 8, 1, 8⟩ ⟨1, 8, 1, 8⟩) 4 4 0 (4 + d.1) (4 + d.2)
        (FOps.sub ((lvState false ⟨1, 8, 1, 8⟩ ⟨1, 8, 1, 8⟩).bodySoil 1 4 4) 1) (1 / 100) = 10 := by
    decide +kernel
  have h2 : checkUnstableBodyCell (lvState false ra ia) 4 4 0 (4 + d.1) (4 + d.2)
        (FOps.sub ((lvState false ra ia).bodySoil 1 4 4) 1) (1 / 100) = 10 := h1 d hd
  rw [h2]
  refine ⟨?_, rfl⟩
  show (relaxBodyOnTerrain (lvState false ra ia) 1 1 0 4 4 0 (4 + d.1) (4 + d.2) acGrid (1 / 100), []) = _
  congr 1
  have h3 : ∀ d ∈ directions4, (lvState false ⟨1, 8, 1, 8⟩ ⟨1, 8, 1, 8⟩).terrain (4 + d.1) (4 + d.2) = 4 ∧
      (lvState false ⟨1, 8, 1, 8⟩ ⟨1, 8, 1, 8⟩).body 0 (4 + d.1) (4 + d.2) = 4 := by decide +kernel
  have hT : (lvState false ra ia).terrain (4 + d.1) (4 + d.2) = 4 := (h3 d hd).1
  have hB : (lvState false ra ia).body 0 (4 + d.1) (4 + d.2) = 4 := (h3 d hd).2
  have hN : newHeight acGrid (1 / 100) 1 ((lvState false ra ia).bodySoil (0 + 1) 4 4) 4 = 7 := by
    have : newHeight acGrid (1 / 100) 1 10 4 = 7 := by decide +kernel
    exact this
  have hS1 : (lvState false ra ia).bodySoil (0 + 1) 4 4 = 10 := rfl
  have hS0 : (lvState false ra ia).bodySoil 0 4 4 = 1 := rfl
  have hE : (lvState false ra ia).entryH 0 = 9 := rfl
  unfold relaxBodyOnTerrain limitToEntry
  dsimp only
  rw [hT, hN, hB, hS1, hS0, hE]
  simp only [ex_add, ex_sub, ex_lt, decide_eq_true_eq, Bool.and_eq_true, beq_iff_eq]
  norm_num
  rw [setH_same, setBS_same, setT_same]
  · exact hT.symm
  · rfl
  · rintro e he
    cases he
    rfl


theorem lvDirs (ra ia : Area) (ds : List (ℤ × ℤ)) (hds : ∀ d ∈ ds, d ∈ directions4) (eq : Bool)
    (hne : ds ≠ [] ∨ eq = false) :
    Post (relaxBodyDirs acGrid exBody 1 (1 / 100) 0 4 4 0 ds (lvState eq ra ia) []) fun x =>
      x = (lvState false ra ia, []) := by
  induction ds generalizing eq with
  | nil => rw [hne.resolve_left (by simp)]; exact Post.ok rfl
  | cons d ds ih =>
    unfold relaxBodyDirs
    refine Post.guard fun _ => ?_
    dsimp only
    obtain ⟨h1, h2⟩ := lvMove ra ia d (hds d List.mem_cons_self)
    have h3 : checkUnstableBodyCell (lvState eq ra ia) 4 4 0 (4 + d.1) (4 + d.2)
        (FOps.sub ((lvState eq ra ia).bodySoil (0 + 1) 4 4) 1) (1 / 100) = 10 := h2
    rw [h2] at h1
    rw [h3, if_neg (by decide)]
    have h4 : ({ lvState eq ra ia with equilibrium := false } : SimOut ℚ) = lvState false ra ia := rfl
    rw [h4, h1]
    exact ih (fun x hx => hds x (List.mem_cons_of_mem _ hx)) false (.inr rfl)

/-- one round: the soil is where it was and the flag is not set -/
theorem lvOnce (m : ℤ) (w : World ℚ) (eq : Bool) (ra ia : Area) (hw : w.out = lvState eq ra ia)
    (hra : AreaInside ra (lvState eq ra ia)) :
    Post (relaxOnce acGrid exBody { acParam with maxIterations := m } (1 / 100) w) fun w' =>
      ∃ ra' ia', w'.out = lvState false ra' ia' := by
  intro w' h
  unfold relaxOnce at h
  obtain ⟨w1, h1, h2⟩ := bind_eq_ok.mp h
  have key : ∃ ra' ia', w1.out = lvState true ra' ia' := by
    unfold relaxTerrain at h1
    dsimp only at h1
    obtain ⟨cells, hc, h1⟩ := bind_eq_ok.mp h1
    unfold locateUnstableTerrainCell at hc
    have hsub := locateUnstableCells_sub _ _ _ _ _ hc
    split_ifs at h1 with he
    · cases h1
      refine ⟨ra, impactOf (lvState eq ra ia), ?_⟩
      simp only [World.mapOut, hw]
      rfl
    · obtain ⟨⟨s1, r1⟩, h3, h1⟩ := bind_eq_ok.mp h1
      have hE : ({ (w.mapOut fun s => { s with impactArea := impactOf s }).out with equilibrium := true } :
          SimOut ℚ) = lvState true ra (impactOf (lvState eq ra ia)) := by
        simp only [World.mapOut, hw]
        rfl
      rw [hE, lvDh] at h3
      have := relaxTerrainCells_idle acGrid exBody 1 (1 / 100) _ directions4 _ _ (by
        intro c hc d hd
        have hm := (hsub c).mp (mem_shuffle.mp hc)
        rw [Area.mem_cells] at hm
        obtain ⟨hm, -⟩ := hm
        simp only [World.mapOut, hw] at hm
        have hia : 1 ≤ c.1 ∧ c.1 < 8 ∧ 1 ≤ c.2 ∧ c.2 < 8 := by
          unfold AreaInside at hra
          unfold impactOf at hm
          simp only [lvState] at hm hra
          omega
        exact lvCells c.1 (by simp; omega) c.2 (by simp; omega) d hd) _ h3
      dsimp only at this
      cases h1
      dsimp only
      rw [this]
      exact ⟨_, _, rfl⟩
  obtain ⟨ra', ia', e1⟩ := key
  have e2 : (shuffleEntries w1).out = lvState true ra' ia' := by
    unfold shuffleEntries
    have : (shuffle w1.out.bodySoilPos w1.rng).1 = w1.out.bodySoilPos := by
      rw [e1]
      simp only [lvState]
      rfl
    dsimp only
    rw [this, e1]
  refine ⟨ra', ia', ?_⟩
  unfold relaxBodySoil at h2
  rw [e2, lvDh] at h2
  obtain ⟨⟨s3, q3, r3⟩, h3, h2⟩ := bind_eq_ok.mp h2
  have h4 : relaxBodyEntries acGrid exBody 1 (1 / 100) 1 0 directions4 (lvState true ra' ia') []
    (shuffleEntries w1).rng = .ok (s3, q3, r3) := h3
  unfold relaxBodyEntries at h4
  have h5 : (lvState true ra' ia').bodySoilPos[0]? = some ⟨0, 4, 4, 0, 0, 1, 9⟩ := rfl
  rw [h5] at h4
  dsimp only at h4
  rw [if_neg (by simp [ex_lt]; norm_num)] at h4
  obtain ⟨x, h6, h4⟩ := bind_eq_ok.mp h4
  have hx := lvDirs ra' ia' _ (fun d hd => mem_shuffle.mp hd) true (.inl (by
    intro h0
    have : (shuffle directions4 (shuffleEntries w1).rng).1.length = 4 := by
      rw [(shuffle_perm _ _).length_eq]; rfl
    rw [h0] at this
    simp at this)) x h6
  subst hx
  cases h4
  cases h2
  show ({ lvState false ra' ia' with bodySoilPos := (lvState false ra' ia').bodySoilPos ++ [] } : SimOut ℚ) = _
  rw [List.append_nil]

end Soil
