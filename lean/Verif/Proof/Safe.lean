import Verif.Proof.Frame

/-! # Terrain relaxation does not leave the grid (any arithmetic) -/

set_option linter.unusedSectionVars false
set_option linter.unusedSimpArgs false

namespace Soil

variable {F : Type} [FOps F]

theorem lowEnough_cases (st : ℕ) (x tol hMin : F) :
    lowEnough st x tol hMin = st ∨ lowEnough st x tol hMin = 0 := by
  unfold lowEnough; split_ifs <;> simp

/-- The codes that can occur -/
def terrainCodes : List ℕ := [0, 10, 13, 14, 20, 21, 22, 30, 31, 32, 33, 34, 40]

theorem checkUnstableTerrainCell_code (s : SimOut F) (ic jc : ℤ) (hMin tol : F) :
    checkUnstableTerrainCell s ic jc hMin tol ∈ terrainCodes := by
  have hl : ∀ st x, st ∈ terrainCodes → lowEnough st x tol hMin ∈ terrainCodes := by
    intro st x h
    rcases lowEnough_cases st x tol hMin with h' | h' <;> rw [h']
    · exact h
    · simp [terrainCodes]
  unfold checkUnstableTerrainCell
  dsimp only
  split_ifs
  all_goals first
    | (simp [terrainCodes]; done)
    | (apply hl; simp [terrainCodes]; done)

theorem relaxUnstableTerrainCell_ok (s : SimOut F) (status : ℕ) (dh : F)
    (ii jj ic jc : ℤ) (g : Grid F) (body : Body F) (tol : F) (h : status ∈ terrainCodes) :
    ∃ s', relaxUnstableTerrainCell s status dh ii jj ic jc g body tol = .ok s' := by
  simp only [terrainCodes, List.mem_cons, List.not_mem_nil, or_false] at h
  rcases h with rfl | rfl | rfl | rfl | rfl | rfl | rfl | rfl | rfl | rfl | rfl | rfl | rfl <;>
    exact ⟨_, rfl⟩

theorem relaxTerrainDirs_ok (g : Grid F) (body : Body F) (dh tol : F) (ii jj : ℤ)
    (ds : List (ℤ × ℤ)) (hds : ∀ d ∈ ds, d ∈ directions4) (s : SimOut F)
    (hin : ∀ i j, NearCol ii jj i j → s.InGrid i j) :
    ∃ s', relaxTerrainDirs g body dh tol ii jj ds s = .ok s' := by
  induction ds generalizing s with
  | nil => exact ⟨s, rfl⟩
  | cons d ds ih =>
    unfold relaxTerrainDirs
    dsimp only
    have hd := nearCol_dir (hds d List.mem_cons_self) ii jj
    have ih' := ih fun x hx => hds x (List.mem_cons_of_mem _ hx)
    rw [guardOob_of ⟨hin _ _ (Or.inl ⟨rfl, rfl⟩), hin _ _ hd⟩]
    dsimp only [ok_bind]
    split_ifs with hst
    · exact ih' s hin
    · obtain ⟨s1, h1⟩ := relaxUnstableTerrainCell_ok { s with equilibrium := false } _ dh ii jj
        (ii + d.1) (jj + d.2) g body tol
        (checkUnstableTerrainCell_code s (ii + d.1) (jj + d.2) (FOps.sub (s.terrain ii jj) dh) tol)
      rw [h1]
      have hl := relaxUnstableTerrainCell_local (P := fun _ _ => True) _ _ _ _ _ _ _ _ _ _ trivial
        trivial _ h1
      exact ih' s1 fun i j h => (hl.inGrid i j).mpr (hin i j h)

theorem relaxTerrainCells_ok (g : Grid F) (body : Body F) (dh tol : F) (cs ds : List (ℤ × ℤ))
    (hds : ∀ d ∈ ds, d ∈ directions4) (s : SimOut F) (r : Rng)
    (hin : ∀ c ∈ cs, ∀ i j, NearCol c.1 c.2 i j → s.InGrid i j) :
    ∃ x, relaxTerrainCells g body dh tol cs ds s r = .ok x := by
  induction cs generalizing ds s r with
  | nil => exact ⟨_, rfl⟩
  | cons c cs ih =>
    unfold relaxTerrainCells
    have hds' : ∀ d ∈ (shuffle ds r).1, d ∈ directions4 := fun d hd => hds d (mem_shuffle.mp hd)
    obtain ⟨s1, h1⟩ := relaxTerrainDirs_ok g body dh tol c.1 c.2 _ hds' s
      (hin c List.mem_cons_self)
    dsimp only
    rw [h1]
    have hl := relaxTerrainDirs_local g body dh tol c.1 c.2 _ hds' s _ h1
    exact ih _ hds' s1 _ fun c' hc' i j h =>
      (hl.inGrid i j).mpr (hin c' (List.mem_cons_of_mem _ hc') i j h)

theorem locateUnstableCells_ok (s : SimOut F) (dh tol : F) (l : List (ℤ × ℤ))
    (hin : ∀ c ∈ l, ∀ i j, NearCol c.1 c.2 i j → s.InGrid i j) :
    locateUnstableCells s dh tol l = .ok (l.filter fun c => unstableAt s dh tol c.1 c.2) := by
  induction l with
  | nil => rfl
  | cons c l ih =>
    unfold locateUnstableCells
    have h := hin c List.mem_cons_self
    rw [guardOob_of ⟨h _ _ (Or.inl ⟨rfl, rfl⟩), h _ _ (by unfold NearCol; simp),
      h _ _ (by unfold NearCol; simp), h _ _ (by unfold NearCol; simp),
      h _ _ (by unfold NearCol; simp)⟩,
      ih fun c' hc' => hin c' (List.mem_cons_of_mem _ hc')]
    simp only [ok_bind, pure_eq_ok, List.filter_cons]

theorem nearCol_inGrid {s : SimOut F} {a : Area} (ha : AreaInside a s) :
    ∀ c ∈ a.cells, ∀ i j, NearCol c.1 c.2 i j → s.InGrid i j := by
  intro c hc i j h
  obtain ⟨a1, a2, a3, a4⟩ := Area.mem_cells.mp hc
  obtain ⟨b1, b2, b3, b4⟩ := ha
  unfold NearCol at h
  unfold SimOut.InGrid
  omega

theorem relaxTerrain_ok (g : Grid F) (body : Body F) (p : SimParam F) (tol : F) (w : World F)
    (ha : AreaInside w.out.impactArea w.out) : ∃ w', relaxTerrain g body p tol w = .ok w' := by
  have hin := nearCol_inGrid (s := { w.out with equilibrium := true }) ha
  unfold relaxTerrain locateUnstableTerrainCell
  dsimp only
  rw [locateUnstableCells_ok _ _ _ _ hin]
  simp only [ok_bind]
  split_ifs
  · exact ⟨_, rfl⟩
  · obtain ⟨⟨s1, r1⟩, h1⟩ := relaxTerrainCells_ok g body (dhMax g p) tol
      (shuffle (w.out.impactArea.cells.filter fun c =>
        unstableAt { w.out with equilibrium := true } (dhMax g p) tol c.1 c.2) w.rng).1
      directions4 (fun d hd => hd) { w.out with equilibrium := true }
      (shuffle (w.out.impactArea.cells.filter fun c =>
        unstableAt { w.out with equilibrium := true } (dhMax g p) tol c.1 c.2) w.rng).2 (by
        intro c hc
        exact hin c (List.mem_of_mem_filter (mem_shuffle.mp hc)))
    rw [h1]
    exact ⟨_, rfl⟩

/-- `relaxArea` computed by `RelaxTerrain` stays inside the grid. -/
theorem relaxAreaOf_inside (g : Grid F) (buffer : ℤ) (cells : List (ℤ × ℤ)) (s : SimOut F)
    (hx : s.lenX = 2 * g.halfX + 1) (hy : s.lenY = 2 * g.halfY + 1) :
    AreaInside (relaxAreaOf g buffer cells) s := by
  unfold relaxAreaOf AreaInside
  dsimp only
  refine ⟨?_, ?_, ?_, ?_⟩ <;> omega

end Soil
