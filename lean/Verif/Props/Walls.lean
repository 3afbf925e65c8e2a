import Verif.Proof.Walls
import Verif.Proof.Example
import Verif.Props.Construct

/-!
# Writing the body into the columns

* C14: `IncludeNewBodyPos` adds one interval to one column.
* C15: `UpdateBody` writes the cells of a wall.
-/

set_option linter.unusedSectionVars false

namespace Soil

variable {K : Type} [Field K] [LinearOrder K] [FloorRing K] [Transc K] [IsStrictOrderedRing K]

/-! ## C14 -/

/-- **C14**. Adding the interval `[lo, hi]` to a column of the grid succeeds, and
* only the body heights of this column are modified;
* the layers are again ordered and at least `tol` apart;
* every height that was in the body and every height of the interval is in the body afterwards;
* a height that is newly in the body and not in the interval lies in the gap between the interval and
  an old layer, and either this gap was less than `tol`, or both layers existed, so that the interval
  had to be merged with the closest one. -/
theorem C14_include (s : SimOut K) (i j : ℤ) (lo hi tol : K) (h : lo < hi) (ht : 0 < tol)
    (hij : s.InGrid i j) (hc : ColOK tol s i j) :
    ∃ s', includeNewBodyPos s i j lo hi tol = .ok s' ∧
      s' = { s with body := s'.body } ∧
      (∀ k a b, ¬ (a = i ∧ b = j) → s'.body k a b = s.body k a b) ∧
      ColOK tol s' i j ∧
      (∀ z, Occ s i j z → Occ s' i j z) ∧
      (∀ z, lo ≤ z → z ≤ hi → Occ s' i j z) ∧
      (∀ z, Occ s' i j z → Occ s i j z ∨ (lo ≤ z ∧ z ≤ hi) ∨
        ∃ k k', (k = 0 ∧ k' = 2 ∨ k = 2 ∧ k' = 0) ∧ HasBody s k i j ∧ Between s i j k lo hi z ∧
          (gap s i j k lo hi < tol ∨
            (HasBody s k' i j ∧ tol ≤ gap s i j k lo hi ∧
              gap s i j k lo hi ≤ gap s i j k' lo hi))) := by
  obtain ⟨s', hs', hfr, hin⟩ := includeNewBodyPos_spec s i j lo hi tol h ht hij hc
  refine ⟨s', hs', hfr.eq, hfr.other, (colOK_iff _ _ _ _).mpr hin.ok,
    fun z hz => (occ_iff _ _ _ _).mpr (hin.keep z ((occ_iff _ _ _ _).mp hz)),
    fun z h1 h2 => (occ_iff _ _ _ _).mpr (hin.new z h1 h2), ?_⟩
  intro z hz
  rcases hin.only z ((occ_iff _ _ _ _).mp hz) with h1 | h1 | h1 | h1
  · exact .inl ((occ_iff _ _ _ _).mpr h1)
  · exact .inr (.inl h1)
  · exact .inr (.inr ⟨0, 2, .inl ⟨rfl, rfl⟩, h1⟩)
  · exact .inr (.inr ⟨2, 0, .inr ⟨rfl, rfl⟩, h1⟩)

/-- **C14**. With fewer than two layers nothing is filled beyond gaps smaller than the tolerance. -/
theorem C14_no_filling (s s' : SimOut K) (i j : ℤ) (lo hi tol : K) (h : lo < hi) (ht : 0 < tol)
    (hij : s.InGrid i j) (hc : ColOK tol s i j) (h1 : ¬ (HasBody s 0 i j ∧ HasBody s 2 i j))
    (hs : includeNewBodyPos s i j lo hi tol = .ok s') (z : K) (hz : Occ s' i j z) :
    Occ s i j z ∨ (lo ≤ z ∧ z ≤ hi) ∨
      ∃ k, HasBody s k i j ∧ Between s i j k lo hi z ∧ gap s i j k lo hi < tol := by
  obtain ⟨s'', hs'', -, -, -, -, -, ho⟩ := C14_include s i j lo hi tol h ht hij hc
  rw [hs] at hs''; cases hs''
  rcases ho z hz with h2 | h2 | ⟨k, k', hk, hb, hbt, hg | ⟨hb', -⟩⟩
  · exact .inl h2
  · exact .inr (.inl h2)
  · exact .inr (.inr ⟨k, hb, hbt, hg⟩)
  · exfalso
    rcases hk with ⟨rfl, rfl⟩ | ⟨rfl, rfl⟩
    · exact h1 ⟨hb, hb'⟩
    · exact h1 ⟨hb', hb⟩

-- column (2,3) of the example has the two layers [1,2] and [4,5]
example : exState.InGrid 2 3 ∧ ColOK (1 / 100) exState 2 3 ∧ HasBody exState 0 2 3 ∧
    HasBody exState 2 2 3 := by
  refine ⟨by decide +kernel, ⟨?_, ?_⟩, by decide +kernel, by decide +kernel⟩
  · rintro k (rfl | rfl) <;> decide +kernel
  · decide +kernel

-- an interval disjoint from both layers is merged with the closest one: [6.5, 7] with [4,5]
example : (includeNewBodyPos exState 2 3 (13 / 2) 7 (1 / 100)).map
    (fun s => (s.body 0 2 3, s.body 1 2 3, s.body 2 2 3, s.body 3 2 3)) = .ok (1, 2, 4, 7) := by
  decide +kernel

-- an interval touching both layers joins them
example : (includeNewBodyPos exState 2 3 2 4 (1 / 100)).map
    (fun s => (s.body 0 2 3, s.body 1 2 3, s.body 2 2 3, s.body 3 2 3)) = .ok (1, 5, 0, 0) := by
  decide +kernel

/-! ## C15 -/

/-- Grids built by the constructor have equally spaced heights. -/
theorem mkGrid_zgrid {gx gy gz cxy cz : K} {g : Grid K} (hv : ValidGridArgs gx gy gz cxy cz)
    (h : mkGrid gx gy gz cxy cz = .ok g) : ZGrid g := by
  obtain ⟨h1, -⟩ := C01_grid_regular hv h
  obtain ⟨g', hg, hs⟩ := C01_grid_accepts hv
  rw [h] at hg; cases hg
  have hcz : g.cellZ = cz := hs.cellZ
  refine ⟨by rw [hcz]; exact hv.1, ?_⟩
  intro k h0 _
  rw [hcz]
  induction k, h0 using Int.le_induction with
  | base => simp
  | succ k hk ih => rw [(h1 k hk).2.2, ih (by omega)]; push_cast; ring

/-- **C15**. Writing a wall, given as a non-empty list of cells of the grid in any order and with any
repetitions (`CalcBodyPos` sorts it first), succeeds, and
* only the body heights are modified, and only in the columns of the list;
* the full vertical extent of every listed cell is in the body;
* everything that was in the body still is;
* the body in each column stays within the vertical range of the old body and the listed cells;
* in all columns the layers are ordered and at least `tol` apart. -/
theorem C15_wall {g : Grid K} {tol : K} (hz : ZGrid g) (ht : 0 < tol) (l : List Cell3) (hl : l ≠ [])
    (s : SimOut K) (hcells : ∀ x ∈ l, s.InGrid x.1 x.2.1 ∧ 0 ≤ x.2.2 ∧ x.2.2 ≤ 2 * g.halfZ)
    (hcol : ∀ a b, s.InGrid a b → ColOK tol s a b) :
    ∃ s', updateBody (sortCells l) s g tol = .ok s' ∧
      s' = { s with body := s'.body } ∧
      (∀ k a b, (∀ z, (a, b, z) ∉ l) → s'.body k a b = s.body k a b) ∧
      (∀ x ∈ l, ∀ h, InCell g x.2.2 h → Occ s' x.1 x.2.1 h) ∧
      (∀ a b h, Occ s a b h → Occ s' a b h) ∧
      (∀ a b h, Occ s' a b h → ∃ x y, x ≤ h ∧ h ≤ y ∧
        (Occ s a b x ∨ ∃ k, (a, b, k) ∈ l ∧ InCell g k x) ∧
        (Occ s a b y ∨ ∃ k, (a, b, k) ∈ l ∧ InCell g k y)) ∧
      (∀ a b, s'.InGrid a b → ColOK tol s' a b) := by
  obtain ⟨s', hs', w, o⟩ := updateWalls_written hz ht [l] s (by simpa using hl) (by
    intro w hw x hx
    rw [List.mem_singleton] at hw
    exact hcells x (hw ▸ hx)) hcol
  have w' : Written g tol (· ∈ l) s s' := w.mono fun x ⟨v, hv, hx⟩ => by
    rw [List.mem_singleton] at hv; exact hv ▸ hx
  refine ⟨s', ?_, w'.eq, w'.other, o l (by simp), w'.keep, w'.hull, ?_⟩
  · unfold updateWalls at hs'
    obtain ⟨s1, h1, h2⟩ := bind_eq_ok.mp hs'
    cases h2; exact h1
  · intro a b hab
    rw [w'.inGrid] at hab
    exact w'.ok a b hab (hcol a b hab)

/-- **C15**. The same for any number of walls, one after the other. -/
theorem C15_walls {g : Grid K} {tol : K} (hz : ZGrid g) (ht : 0 < tol) (ws : List (List Cell3))
    (s : SimOut K) (hne : ∀ w ∈ ws, w ≠ [])
    (hcells : ∀ w ∈ ws, ∀ x ∈ w, s.InGrid x.1 x.2.1 ∧ 0 ≤ x.2.2 ∧ x.2.2 ≤ 2 * g.halfZ)
    (hcol : ∀ a b, s.InGrid a b → ColOK tol s a b) :
    ∃ s', updateWalls g tol ws s = .ok s' ∧
      s' = { s with body := s'.body } ∧
      (∀ k a b, (∀ w ∈ ws, ∀ z, (a, b, z) ∉ w) → s'.body k a b = s.body k a b) ∧
      (∀ w ∈ ws, ∀ x ∈ w, ∀ h, InCell g x.2.2 h → Occ s' x.1 x.2.1 h) ∧
      (∀ a b h, Occ s a b h → Occ s' a b h) ∧
      (∀ a b, s'.InGrid a b → ColOK tol s' a b) := by
  obtain ⟨s', hs', w, o⟩ := updateWalls_written hz ht ws s hne hcells hcol
  refine ⟨s', hs', w.eq, ?_, o, w.keep, ?_⟩
  · intro k a b hn
    exact w.other k a b fun k' ⟨v, hv, hx⟩ => hn v hv k' hx
  · intro a b hab
    rw [w.inGrid] at hab
    exact w.ok a b hab (hcol a b hab)

/-- **C15**. An empty list, a cell outside the columns of the grid and a cell outside its heights are
not written silently: if writing succeeds the list was a non-empty list of cells of the grid. -/
theorem C15_guard {g : Grid K} {tol : K} (l : List Cell3) (s s' : SimOut K)
    (h : updateBody (sortCells l) s g tol = .ok s') :
    l ≠ [] ∧ ∀ x ∈ l, s.InGrid x.1 x.2.1 ∧ 0 ≤ x.2.2 ∧ x.2.2 ≤ 2 * g.halfZ := by
  obtain ⟨h1, h2⟩ := updateBody_guard _ _ _ h
  refine ⟨?_, fun x hx => h2 x (mem_sortCells.mpr hx)⟩
  rintro rfl; exact h1 rfl

/-- **C15**. Sorting is needed: on a list that is not sorted the top cell of a column is lost. -/
theorem C15_unsorted_fails : ∃ (s s' : SimOut ℚ) (l : List Cell3) (x : Cell3) (h : ℚ),
    (∀ y ∈ l, s.InGrid y.1 y.2.1 ∧ 0 ≤ y.2.2 ∧ y.2.2 ≤ 2 * exGrid.halfZ) ∧
    updateBody l s exGrid (1 / 100) = .ok s' ∧ x ∈ l ∧ InCell exGrid x.2.2 h ∧
    ¬ Occ s' x.1 x.2.1 h := by
  have hs : ∃ s', updateBody [(1, 1, 6), (1, 1, 4)] (mkSimOut exGrid) exGrid (1 / 100) = .ok s' ∧
      s'.body 0 1 1 = 2 ∧ s'.body 1 1 1 = 1 ∧ s'.body 2 1 1 = 0 ∧ s'.body 3 1 1 = 0 := by
    have : ((updateBody [(1, 1, 6), (1, 1, 4)] (mkSimOut exGrid) exGrid (1 / 100)).map
      fun s => (s.body 0 1 1, s.body 1 1 1, s.body 2 1 1, s.body 3 1 1)) = .ok (2, 1, 0, 0) := by
      decide +kernel
    cases hu : updateBody [(1, 1, 6), (1, 1, 4)] (mkSimOut exGrid) exGrid (1 / 100) with
    | error e => rw [hu] at this; cases this
    | ok s' =>
      rw [hu] at this
      simp only [Except.map, Except.ok.injEq, Prod.mk.injEq] at this
      exact ⟨s', rfl, this⟩
  obtain ⟨s', hs', b0, b1, b2, b3⟩ := hs
  refine ⟨mkSimOut exGrid, s', [(1, 1, 6), (1, 1, 4)], (1, 1, 6), 3, by decide +kernel, hs',
    by simp, by constructor <;> norm_num [exGrid], ?_⟩
  rintro ⟨k, rfl | rfl, hb, h1, h2⟩
  · norm_num [b0, b1] at h2
  · norm_num [b2, b3] at h2

-- the grid of the example and a wall of three cells in two columns
example : ZGrid exGrid := ⟨by norm_num [exGrid], by intro k _ _; simp [exGrid]⟩
example : (updateBody (sortCells [(2, 2, 6), (3, 2, 5), (2, 2, 8)]) exState exGrid (1 / 100)).map
    (fun s => ((s.body 0 2 2, s.body 1 2 2, s.body 2 2 2, s.body 3 2 2), s.body 0 3 2, s.body 1 3 2))
    = .ok ((1, 5, 0, 0), 1, 2) := by
  decide +kernel
example : ∀ a b, exState.InGrid a b → ColOK (1 / 100) exState a b := by
  intro a b hab
  obtain ⟨h1, h2, h3, h4⟩ := hab
  simp only [exState] at h2 h4
  have key : ∀ a ∈ Finset.Ico (0 : ℤ) 5, ∀ b ∈ Finset.Ico (0 : ℤ) 5,
      (HasBody exState 0 a b → exState.body 0 a b < exState.body 1 a b) ∧
      (HasBody exState 2 a b → exState.body 2 a b < exState.body 3 a b) ∧
      (HasBody exState 0 a b → HasBody exState 2 a b →
        exState.body 1 a b + 1 / 100 ≤ exState.body 2 a b ∨
          exState.body 3 a b + 1 / 100 ≤ exState.body 0 a b) := by decide +kernel
  obtain ⟨k0, k2, k3⟩ := key a (Finset.mem_Ico.mpr ⟨h1, h2⟩) b (Finset.mem_Ico.mpr ⟨h3, h4⟩)
  refine ⟨?_, k3⟩
  rintro k (rfl | rfl)
  · exact k0
  · exact k2

end Soil
