import Verif.Proof.Window
import Verif.Proof.Equil
import Verif.Proof.Safe
import Verif.Proof.Stability
import Verif.Proof.Example
import Verif.Props.Step
import Verif.Spec.Active

/-! # Properties C25, C26, C31, C32, C33: stability tests and equilibrium -/

set_option linter.unusedSectionVars false
set_option linter.unusedSimpArgs false

namespace Soil

section Any

variable {F : Type} [FOps F]

/-- **C25** (any arithmetic). When the impact area leaves out the border of the grid, detection
returns normally (it never reads outside the grid); the result lists, without repetition, exactly the
columns of the area one of whose four neighbours is lower than `terrain - dh - tol`. -/
theorem C25_locate (s : SimOut F) (dh tol : F) (ha : AreaInside s.impactArea s) :
    ∃ l, locateUnstableTerrainCell s dh tol = .ok l ∧ l.Nodup ∧
      ∀ i j, (i, j) ∈ l ↔
        (s.impactArea.minX ≤ i ∧ i < s.impactArea.maxX ∧ s.impactArea.minY ≤ j ∧
          j < s.impactArea.maxY) ∧
        ∃ i' j', ((i' = i - 1 ∧ j' = j) ∨ (i' = i + 1 ∧ j' = j) ∨ (i' = i ∧ j' = j - 1) ∨
            (i' = i ∧ j' = j + 1)) ∧
          FOps.lt (s.terrain i' j') (FOps.sub (FOps.sub (s.terrain i j) dh) tol) = true := by
  refine ⟨_, locateUnstableCells_ok s dh tol _ (nearCol_inGrid ha),
    (Area.nodup_cells _).filter _, ?_⟩
  intro i j
  rw [List.mem_filter, Area.mem_cells]
  refine and_congr_right fun _ => ?_
  unfold unstableAt
  simp only [Bool.or_eq_true]
  constructor
  · rintro (((h | h) | h) | h)
    · exact ⟨_, _, .inl ⟨rfl, rfl⟩, h⟩
    · exact ⟨_, _, .inr (.inl ⟨rfl, rfl⟩), h⟩
    · exact ⟨_, _, .inr (.inr (.inl ⟨rfl, rfl⟩)), h⟩
    · exact ⟨_, _, .inr (.inr (.inr ⟨rfl, rfl⟩)), h⟩
  · rintro ⟨i', j', ⟨rfl, rfl⟩ | ⟨rfl, rfl⟩ | ⟨rfl, rfl⟩ | ⟨rfl, rfl⟩, h⟩
    · exact .inl (.inl (.inl h))
    · exact .inl (.inl (.inr h))
    · exact .inl (.inr h)
    · exact .inr h

/-- **C32** (any arithmetic). When terrain relaxation finishes with the flag set, terrain, body, body
soil and bookkeeping are exactly as before the call. -/
theorem C32_relaxTerrain (g : Grid F) (body : Body F) (p : SimParam F) (tol : F) (w w' : World F)
    (h : relaxTerrain g body p tol w = .ok w') (he : w'.out.equilibrium = true) :
    w'.out.terrain = w.out.terrain ∧ w'.out.body = w.out.body ∧
    w'.out.bodySoil = w.out.bodySoil ∧ w'.out.bodySoilPos = w.out.bodySoilPos := by
  obtain ⟨h1, h2, h3, h4, _⟩ := relaxTerrain_true g body p tol w w' h he
  exact ⟨h1, h2, h3, h4⟩

/-- **C32** (any arithmetic). When body-soil relaxation finishes with the flag set, the whole
simulation state is exactly as before the call. -/
theorem C32_relaxBodySoil (g : Grid F) (body : Body F) (p : SimParam F) (tol : F) (w w' : World F)
    (h : relaxBodySoil g body p tol w = .ok w') (he : w'.out.equilibrium = true) :
    w'.out = w.out := (relaxBodySoil_true g body p tol w w' h he).1

/-- **C32** (any arithmetic). A whole round that finishes with the flag set changes no height; it
only reorders the bookkeeping entries. -/
theorem C32_round (g : Grid F) (body : Body F) (p : SimParam F) (tol : F) (w w' : World F)
    (h : relaxOnce g body p tol w = .ok w') (he : w'.out.equilibrium = true) :
    w'.out.terrain = w.out.terrain ∧ w'.out.body = w.out.body ∧
    w'.out.bodySoil = w.out.bodySoil ∧ w'.out.bodySoilPos.Perm w.out.bodySoilPos := by
  unfold relaxOnce at h
  obtain ⟨w1, h1, h2⟩ := bind_eq_ok.mp h
  have e2 := C32_relaxBodySoil _ _ _ _ _ _ h2 he
  have he1 : w1.out.equilibrium = true := by rw [e2] at he; exact he
  obtain ⟨a1, a2, a3, a4⟩ := C32_relaxTerrain _ _ _ _ _ _ h1 he1
  rw [e2]
  refine ⟨a1, a2, a3, ?_⟩
  have hp := shuffle_perm w1.out.bodySoilPos w1.rng
  rw [a4] at hp
  have : (shuffleEntries w1).out.bodySoilPos = (shuffle w1.out.bodySoilPos w1.rng).1 := rfl
  rw [this, a4]
  exact hp

/-- **C33** (any arithmetic). When the impact area leaves out the border of the grid, terrain
relaxation returns normally: no access outside the grid, no uninitialised variable. Columns that are
neither in the impact area nor next to a column of it keep their terrain and body soil. -/
theorem C33_relaxTerrain (g : Grid F) (body : Body F) (p : SimParam F) (tol : F) (w : World F)
    (ha : AreaInside w.out.impactArea w.out) :
    ∃ w', relaxTerrain g body p tol w = .ok w' ∧
      ∀ i j, (∀ i' j', w.out.impactArea.minX ≤ i' → i' < w.out.impactArea.maxX →
          w.out.impactArea.minY ≤ j' → j' < w.out.impactArea.maxY → 1 < |i - i'| + |j - j'|) →
        w'.out.terrain i j = w.out.terrain i j ∧
        ∀ k, w'.out.bodySoil k i j = w.out.bodySoil k i j := by
  obtain ⟨w', h⟩ := relaxTerrain_ok g body p tol w ha
  refine ⟨w', h, fun i j hij => ?_⟩
  refine (relaxTerrain_frame g body p tol w w' h).2.2.2 i j fun c hc hn => ?_
  obtain ⟨a1, a2, a3, a4⟩ := Area.mem_cells.mp hc
  have := hij c.1 c.2 a1 a2 a3 a4
  unfold NearCol at hn
  rcases hn with ⟨rfl, rfl⟩ | ⟨rfl, rfl⟩ | ⟨rfl, rfl⟩ | ⟨rfl, rfl⟩ | ⟨rfl, rfl⟩ <;> simp at this

/-- **C33** (any arithmetic). The relaxation area left for the next round. If no column of the impact area is
unstable the area stays as it was. Otherwise it is the smallest rectangle of columns around the unstable
ones, widened by the cell buffer on each side and cut at column two and at the last column: within the cut
a row of columns is right of the lower side exactly when an unstable column is at most the buffer away,
and so on for the other three sides. -/
theorem C33_window (g : Grid F) (body : Body F) (p : SimParam F) (tol : F) (w w' : World F)
    (ha : AreaInside w.out.impactArea w.out)
    (hx : w.out.lenX = 2 * g.halfX + 1) (hy : w.out.lenY = 2 * g.halfY + 1)
    (h : relaxTerrain g body p tol w = .ok w') :
    let dh := FOps.mul g.cellZ (FOps.round (FOps.div (FOps.mul g.cellXY (FOps.tan p.reposeAngle)) g.cellZ))
    let U := fun i j : ℤ =>
      (w.out.impactArea.minX ≤ i ∧ i < w.out.impactArea.maxX ∧ w.out.impactArea.minY ≤ j ∧
        j < w.out.impactArea.maxY) ∧
      ∃ i' j', ((i' = i - 1 ∧ j' = j) ∨ (i' = i + 1 ∧ j' = j) ∨ (i' = i ∧ j' = j - 1) ∨
          (i' = i ∧ j' = j + 1)) ∧
        FOps.lt (w.out.terrain i' j') (FOps.sub (FOps.sub (w.out.terrain i j) dh) tol) = true
    ((∀ i j, ¬ U i j) ∧ w'.out.relaxArea = w.out.relaxArea) ∨
    ((∃ i j, U i j) ∧
      2 ≤ w'.out.relaxArea.minX ∧ w'.out.relaxArea.maxX ≤ 2 * g.halfX ∧
      2 ≤ w'.out.relaxArea.minY ∧ w'.out.relaxArea.maxY ≤ 2 * g.halfY ∧
      (∀ n, 2 ≤ n → (w'.out.relaxArea.minX ≤ n ↔ ∃ i j, U i j ∧ i - p.cellBuffer ≤ n)) ∧
      (∀ n, n ≤ 2 * g.halfX → (n ≤ w'.out.relaxArea.maxX ↔ ∃ i j, U i j ∧ n ≤ i + p.cellBuffer)) ∧
      (∀ n, 2 ≤ n → (w'.out.relaxArea.minY ≤ n ↔ ∃ i j, U i j ∧ j - p.cellBuffer ≤ n)) ∧
      (∀ n, n ≤ 2 * g.halfY → (n ≤ w'.out.relaxArea.maxY ↔ ∃ i j, U i j ∧ n ≤ j + p.cellBuffer))) := by
  intro dh U
  obtain ⟨l, hl, -, hm⟩ := C25_locate { w.out with equilibrium := true } dh tol ha
  have hm' : ∀ i j, (i, j) ∈ l ↔ U i j := hm
  have hb : ∀ i j, U i j → 0 ≤ i ∧ i ≤ 2 * g.halfX ∧ 0 ≤ j ∧ j ≤ 2 * g.halfY := by
    intro i j hu
    obtain ⟨⟨h1, h2, h3, h4⟩, -⟩ := hu
    unfold AreaInside at ha
    omega
  unfold relaxTerrain at h
  dsimp only at h
  rw [show dhMax g p = dh from rfl, hl, ok_bind] at h
  split_ifs at h with hem
  · cases h
    refine .inl ⟨fun i j hu => ?_, rfl⟩
    have := (hm' i j).mpr hu
    rw [List.isEmpty_iff.mp hem] at this
    simp at this
  · obtain ⟨⟨s1, r1⟩, h1, h⟩ := bind_eq_ok.mp h
    cases h
    obtain ⟨c, hc⟩ : ∃ c, c ∈ l := List.exists_mem_of_ne_nil _ (by simpa [List.isEmpty_iff] using hem)
    have hc' : U c.1 c.2 := (hm' _ _).mp hc
    refine .inr ⟨⟨c.1, c.2, hc'⟩, relaxAreaOf_sides g p.cellBuffer (shuffle l w.rng).1 U ?_ hb
      ⟨c.1, c.2, hc'⟩⟩
    intro i j
    exact mem_shuffle.trans (hm' i j)

/-- **C33** (any arithmetic). The areas stay inside the grid: the new relaxation area leaves out the
border, and so does the impact area computed for the next round. -/
theorem C33_areas (g : Grid F) (body : Body F) (p : SimParam F) (tol : F) (w w' : World F)
    (hx : w.out.lenX = 2 * g.halfX + 1) (hy : w.out.lenY = 2 * g.halfY + 1)
    (hb : AreaInside w.out.bodyArea w.out) (hr : AreaInside w.out.relaxArea w.out)
    (h : relaxTerrain g body p tol w = .ok w') :
    AreaInside w'.out.relaxArea w'.out ∧ AreaInside w'.out.bodyArea w'.out ∧
      AreaInside (impactOf w'.out) w'.out := by
  have hf := (relaxTerrain_frame g body p tol w w' h).1
  have hrel : AreaInside w'.out.relaxArea w'.out := by
    unfold relaxTerrain at h
    dsimp only at h
    obtain ⟨cells, hc, h⟩ := bind_eq_ok.mp h
    split_ifs at h with hem
    · cases h; exact hr
    · obtain ⟨⟨s1, r1⟩, h1, h⟩ := bind_eq_ok.mp h
      cases h
      exact relaxAreaOf_inside _ _ _ _ (hf.2.2.1.trans hx) (hf.2.2.2.trans hy)
  have hbody : AreaInside w'.out.bodyArea w'.out := by
    unfold AreaInside at hb ⊢
    rw [hf.2.1, hf.2.2.1, hf.2.2.2]
    exact hb
  refine ⟨hrel, hbody, ?_⟩
  unfold AreaInside impactOf at *
  dsimp only
  omega

end Any

section Exact

variable {K : Type} [Field K] [LinearOrder K] [FloorRing K] [Transc K] [IsStrictOrderedRing K]

/-- **C26**. For terrain, the code `c` is returned exactly when the receiving column has the
documented layout of code `c` and both its terrain and the receiving surface are lower than the
threshold by more than the tolerance. -/
theorem C26_terrain_code (s : SimOut K) (i j : ℤ) (hMin tol : K) (c : ℕ) (hc : c ≠ 0) :
    checkUnstableTerrainCell s i j hMin tol = c ↔
      ∃ x, TerrainTarget s tol i j c x ∧ s.terrain i j + tol < hMin ∧ x + tol < hMin := by
  obtain ⟨c', x', ht, he⟩ := checkUnstableTerrainCell_spec s i j hMin tol
  rw [he]
  constructor
  · intro h
    split_ifs at h with h'
    · subst h; exact ⟨x', ht, h'.1, h'.2⟩
    · exact absurd h.symm hc
  · rintro ⟨x, ht', h1, h2⟩
    obtain ⟨rfl, rfl⟩ := ht.unique ht'
    simp [h1, h2]

/-- **C26**. For terrain, zero is returned exactly when the column is stable, every other value is
one of the documented codes, and exactly one code matches the layout of a column. -/
theorem C26_terrain_stable (s : SimOut K) (i j : ℤ) (h dh tol : K) :
    (checkUnstableTerrainCell s i j (h - dh) tol = 0 ↔ TerrainStable s dh tol h i j) ∧
    checkUnstableTerrainCell s i j (h - dh) tol ∈
      [0, 10, 13, 14, 20, 21, 22, 30, 31, 32, 33, 34, 40] ∧
    (∃! cx : ℕ × K, TerrainTarget s tol i j cx.1 cx.2) := by
  obtain ⟨c, x, ht, he⟩ := checkUnstableTerrainCell_spec s i j (h - dh) tol
  have hcode := ht.code
  have hc0 : c ≠ 0 := by rintro rfl; simp at hcode
  refine ⟨?_, checkUnstableTerrainCell_code s i j (h - dh) tol,
    ⟨(c, x), ht, fun y hy => ?_⟩⟩
  · rw [he]
    unfold TerrainStable
    constructor
    · intro h0
      split_ifs at h0 with h'
      · exact absurd h0 hc0
      · by_cases h1 : s.terrain i j + tol < h - dh
        · exact .inr ⟨c, x, ht, not_lt.mp fun h2 => h' ⟨h1, h2⟩⟩
        · exact .inl (not_lt.mp h1)
    · rintro (h1 | ⟨c', x', ht', h1⟩)
      · rw [if_neg (fun h' => absurd h'.1 (not_lt.mpr h1))]
      · obtain ⟨rfl, rfl⟩ := ht.unique ht'
        rw [if_neg (fun h' => absurd h'.2 (not_lt.mpr h1))]
  · obtain ⟨h1, h2⟩ := ht.unique hy
    exact Prod.ext h1.symm h2.symm

/-- **C26**. For body soil resting on layer `ind` of `(ii, jj)`, the code `c` is returned exactly
when the receiving column has the documented layout of code `c` and the receiving surface is lower
than the threshold by more than the tolerance. -/
theorem C26_body_code (s : SimOut K) (ii jj : ℤ) (ind : ℕ) (i j : ℤ) (hMin tol : K) (c : ℕ)
    (hc : c ≠ 0) :
    checkUnstableBodyCell s ii jj ind i j hMin tol = c ↔
      ∃ x, BodyTarget s tol (s.body (ind + 1) ii jj) i j c x ∧ x + tol < hMin := by
  obtain ⟨c', x', ht, he⟩ := checkUnstableBodyCell_spec s ii jj ind i j hMin tol
  rw [he]
  constructor
  · intro h
    split_ifs at h with h'
    · subst h; exact ⟨x', ht, h'⟩
    · exact absurd h.symm hc
  · rintro ⟨x, ht', h2⟩
    obtain ⟨rfl, rfl⟩ := ht.unique ht'
    simp [h2]

/-- **C26**. For body soil, zero is returned exactly when the soil is stable, every other value is
one of the documented codes, and exactly one code matches. -/
theorem C26_body_stable (s : SimOut K) (ii jj : ℤ) (ind : ℕ) (i j : ℤ) (h dh tol : K) :
    (checkUnstableBodyCell s ii jj ind i j (h - dh) tol = 0 ↔
      BodyStable s dh tol (s.body (ind + 1) ii jj) h i j) ∧
    checkUnstableBodyCell s ii jj ind i j (h - dh) tol ∈
      [0, 10, 13, 14, 20, 21, 22, 31, 32, 33, 34, 40] ∧
    (∃! cx : ℕ × K, BodyTarget s tol (s.body (ind + 1) ii jj) i j cx.1 cx.2) := by
  obtain ⟨c, x, ht, he⟩ := checkUnstableBodyCell_spec s ii jj ind i j (h - dh) tol
  have hcode := ht.code
  have hc0 : c ≠ 0 := by rintro rfl; simp at hcode
  refine ⟨?_, ?_, ⟨(c, x), ht, fun y hy => ?_⟩⟩
  · rw [he]
    unfold BodyStable
    constructor
    · intro h0
      split_ifs at h0 with h'
      · exact absurd h0 hc0
      · exact ⟨c, x, ht, not_lt.mp h'⟩
    · rintro ⟨c', x', ht', h1⟩
      obtain ⟨rfl, rfl⟩ := ht.unique ht'
      rw [if_neg (not_lt.mpr h1)]
  · rw [he]
    split_ifs
    · exact List.mem_cons_of_mem _ hcode
    · simp
  · obtain ⟨h1, h2⟩ := ht.unique hy
    exact Prod.ext h1.symm h2.symm

/-! ## C31 -/

theorem Rounds.last {F : Type} [FOps F] {g : Grid F} {body : Body F} {p : SimParam F} {tol : F}
    {n : ℕ} {w w' : World F} (h : Rounds g body p tol n w w') (hn : w' ≠ w) :
    ∃ w0, relaxOnce g body p tol w0 = .ok w' := by
  induction h with
  | zero w => exact absurd rfl hn
  | @succ n w w1 w2 h1 h2 h3 ih =>
    by_cases hw : w2 = w1
    · subst hw; exact ⟨w, h2⟩
    · exact ih hw

theorem round_stable {F : Type} [FOps F] (g : Grid F) (body : Body F) (p : SimParam F) (tol : F)
    (w w' : World F) (h : relaxOnce g body p tol w = .ok w') (he : w'.out.equilibrium = true) :
    (∀ c ∈ w'.out.impactArea.cells, unstableAt w'.out (dhMax g p) tol c.1 c.2 = true →
      ∀ d ∈ directions4, checkUnstableTerrainCell w'.out (c.1 + d.1) (c.2 + d.2)
        (FOps.sub (w'.out.terrain c.1 c.2) (dhMax g p)) tol = 0) ∧
    (∀ e ∈ w'.out.bodySoilPos, FOps.lt e.h tol = false → ∀ d ∈ directions4,
      checkUnstableBodyCell w'.out e.ii e.jj e.ind (e.ii + d.1) (e.jj + d.2)
        (FOps.sub (w'.out.bodySoil (e.ind + 1) e.ii e.jj) (dhMax g p)) tol = 0) ∧
    w'.out.impactArea = impactOf w.out ∧ w'.out.bodyArea = w.out.bodyArea := by
  unfold relaxOnce at h
  obtain ⟨w1, h1, h2⟩ := bind_eq_ok.mp h
  obtain ⟨e2, hb⟩ := relaxBodySoil_true _ _ _ _ _ _ h2 he
  have he1 : w1.out.equilibrium = true := by rw [e2] at he; exact he
  obtain ⟨-, -, -, -, ht⟩ := relaxTerrain_true _ _ _ _ _ _ h1 he1
  obtain ⟨f1, f2, -, -⟩ := relaxTerrain_frame _ _ _ _ _ _ h1
  rw [e2]
  have hi : (shuffleEntries w1).out.impactArea = impactOf w.out := f2
  refine ⟨?_, hb, hi, f1.2.1⟩
  rw [hi]
  exact ht

/-- **C31** (any arithmetic, rounding and NaN included). If a step that updates finishes with the flag set, then
every column of the active area either is not lower than allowed towards any neighbour (the detection of
unstable columns rejects it) or passes the stability test towards its four neighbours, and
every body-soil entry that is not smaller than the tolerance passes the stability test towards its four neighbours. The
active area contains the body area. -/
theorem C31_any {F : Type} [FOps F] (fuel : ℕ) (pos : Vec3 F) (ori : Quat F) (g : Grid F) (body : Body F)
    (p : SimParam F) (tol : F) (w : World F) (r : StepResult F) (hp : 0 ≤ p.maxIterations)
    (h : step fuel pos ori g body p tol w = .ok r) (hu : r.updated = true)
    (he : r.world.out.equilibrium = true) :
    let s := r.world.out
    let dh := FOps.mul g.cellZ (FOps.round (FOps.div (FOps.mul g.cellXY (FOps.tan p.reposeAngle)) g.cellZ))
    (∀ i j, s.impactArea.minX ≤ i → i < s.impactArea.maxX → s.impactArea.minY ≤ j →
      j < s.impactArea.maxY →
      (∀ i' j', Adjacent i j i' j' →
        FOps.lt (s.terrain i' j') (FOps.sub (FOps.sub (s.terrain i j) dh) tol) = false) ∨
      (∀ i' j', Adjacent i j i' j' →
        checkUnstableTerrainCell s i' j' (FOps.sub (s.terrain i j) dh) tol = 0)) ∧
    (∀ e ∈ s.bodySoilPos, FOps.lt e.h tol = false → ∀ i' j', Adjacent e.ii e.jj i' j' →
      checkUnstableBodyCell s e.ii e.jj e.ind i' j' (FOps.sub (s.bodySoil (e.ind + 1) e.ii e.jj) dh) tol = 0) ∧
    (s.impactArea.minX ≤ s.bodyArea.minX ∧ s.bodyArea.maxX ≤ s.impactArea.maxX ∧
      s.impactArea.minY ≤ s.bodyArea.minY ∧ s.bodyArea.maxY ≤ s.impactArea.maxY) := by
  intro s dh
  obtain ⟨n, w0, -, hw0, hr, -, -, -⟩ := C40_rounds fuel pos ori g body p tol w r hp h hu
  obtain ⟨w1, h1⟩ := hr.last (by rintro hh; rw [hh, hw0] at he; exact absurd he (by simp))
  obtain ⟨ht, hb, hi, ha⟩ := round_stable _ _ _ _ _ _ h1 he
  have hd : ∀ i j i' j' : ℤ, Adjacent i j i' j' → ∃ d ∈ directions4, i' = i + d.1 ∧ j' = j + d.2 := by
    intro i j i' j' h
    refine ⟨(i' - i, j' - j), ?_, by simp, by simp⟩
    unfold Adjacent at h
    simp only [directions4, List.mem_cons, Prod.mk.injEq, List.not_mem_nil, or_false]
    omega
  refine ⟨?_, ?_, ?_⟩
  · intro i j b1 b2 b3 b4
    have hc : (i, j) ∈ s.impactArea.cells := Area.mem_cells.mpr ⟨b1, b2, b3, b4⟩
    cases hun : unstableAt s dh tol i j with
    | true =>
      refine .inr fun i' j' h => ?_
      obtain ⟨d, hdm, rfl, rfl⟩ := hd i j i' j' h
      exact ht (i, j) hc hun d hdm
    | false =>
      refine .inl fun i' j' h => ?_
      unfold unstableAt at hun
      simp only [Bool.or_eq_false_iff] at hun
      obtain ⟨⟨⟨u1, u2⟩, u3⟩, u4⟩ := hun
      rcases h with ⟨rfl, rfl⟩ | ⟨rfl, rfl⟩ | ⟨rfl, rfl⟩ | ⟨rfl, rfl⟩
      · exact u1
      · exact u2
      · exact u3
      · exact u4
  · intro e hem hl i' j' h
    obtain ⟨d, hdm, rfl, rfl⟩ := hd _ _ i' j' h
    exact hb e hem hl d hdm
  · show r.world.out.impactArea.minX ≤ r.world.out.bodyArea.minX ∧ _
    change _ ∧ r.world.out.bodyArea.maxX ≤ r.world.out.impactArea.maxX ∧
      r.world.out.impactArea.minY ≤ r.world.out.bodyArea.minY ∧
      r.world.out.bodyArea.maxY ≤ r.world.out.impactArea.maxY
    rw [hi, ha]
    unfold impactOf
    dsimp only
    omega

/-- **C31**. If a step that updates finishes with the flag set, then every column of the active area
is stable towards its four neighbours, every body-soil entry holding soil is stable towards its four
neighbours, and the active area contains the body area. -/
theorem C31_equilibrium (fuel : ℕ) (pos : Vec3 K) (ori : Quat K) (g : Grid K) (body : Body K)
    (p : SimParam K) (tol : K) (w : World K) (r : StepResult K) (hp : 0 ≤ p.maxIterations)
    (h : step fuel pos ori g body p tol w = .ok r) (hu : r.updated = true)
    (he : r.world.out.equilibrium = true) :
    let s := r.world.out
    let dh := g.cellZ * (roundAway (g.cellXY * Transc.tan p.reposeAngle / g.cellZ) : K)
    (∀ i j, s.impactArea.minX ≤ i → i < s.impactArea.maxX → s.impactArea.minY ≤ j →
      j < s.impactArea.maxY →
      TerrainStable s dh tol (s.terrain i j) (i + 1) j ∧
      TerrainStable s dh tol (s.terrain i j) (i - 1) j ∧
      TerrainStable s dh tol (s.terrain i j) i (j + 1) ∧
      TerrainStable s dh tol (s.terrain i j) i (j - 1)) ∧
    (∀ e ∈ s.bodySoilPos, tol ≤ e.h →
      BodyStable s dh tol (s.body (e.ind + 1) e.ii e.jj) (s.bodySoil (e.ind + 1) e.ii e.jj)
        (e.ii + 1) e.jj ∧
      BodyStable s dh tol (s.body (e.ind + 1) e.ii e.jj) (s.bodySoil (e.ind + 1) e.ii e.jj)
        (e.ii - 1) e.jj ∧
      BodyStable s dh tol (s.body (e.ind + 1) e.ii e.jj) (s.bodySoil (e.ind + 1) e.ii e.jj)
        e.ii (e.jj + 1) ∧
      BodyStable s dh tol (s.body (e.ind + 1) e.ii e.jj) (s.bodySoil (e.ind + 1) e.ii e.jj)
        e.ii (e.jj - 1)) ∧
    (s.impactArea.minX ≤ s.bodyArea.minX ∧ s.bodyArea.maxX ≤ s.impactArea.maxX ∧
      s.impactArea.minY ≤ s.bodyArea.minY ∧ s.bodyArea.maxY ≤ s.impactArea.maxY) := by
  intro s dh
  obtain ⟨n, w0, -, hw0, hr, -, -, -⟩ := C40_rounds fuel pos ori g body p tol w r hp h hu
  obtain ⟨w1, h1⟩ := hr.last (by rintro hh; rw [hh, hw0] at he; exact absurd he (by simp))
  obtain ⟨ht, hb, hi, ha⟩ := round_stable _ _ _ _ _ _ h1 he
  have hdh : dhMax g p = dh := by
    unfold dhMax
    simp only [ex_mul, ex_round, ex_div, ex_tan]
    rfl
  have m1 : ((1 : ℤ), (0 : ℤ)) ∈ directions4 := by simp [directions4]
  have m2 : ((-1 : ℤ), (0 : ℤ)) ∈ directions4 := by simp [directions4]
  have m3 : ((0 : ℤ), (1 : ℤ)) ∈ directions4 := by simp [directions4]
  have m4 : ((0 : ℤ), (-1 : ℤ)) ∈ directions4 := by simp [directions4]
  rw [hdh] at ht hb
  refine ⟨?_, ?_, ?_⟩
  · intro i j b1 b2 b3 b4
    have hc : (i, j) ∈ s.impactArea.cells := Area.mem_cells.mpr ⟨b1, b2, b3, b4⟩
    cases hun : unstableAt s dh tol i j with
    | true =>
      have key := ht (i, j) hc hun
      simp only [ex_sub] at key
      have k1 := key _ m1; have k2 := key _ m2; have k3 := key _ m3; have k4 := key _ m4
      dsimp only at k1 k2 k3 k4
      rw [add_zero] at k1 k2 k3 k4
      exact ⟨(C26_terrain_stable s _ _ _ dh tol).1.mp k1,
        (C26_terrain_stable s _ _ _ dh tol).1.mp k2,
        (C26_terrain_stable s _ _ _ dh tol).1.mp k3,
        (C26_terrain_stable s _ _ _ dh tol).1.mp k4⟩
    | false =>
      unfold unstableAt at hun
      simp only [ex_sub, ex_lt, Bool.or_eq_false_iff, decide_eq_false_iff_not, not_lt] at hun
      obtain ⟨⟨⟨u1, u2⟩, u3⟩, u4⟩ := hun
      exact ⟨.inl (by linarith), .inl (by linarith), .inl (by linarith), .inl (by linarith)⟩
  · intro e hem hl
    have key := hb e hem (by simpa using hl)
    simp only [ex_sub] at key
    have k1 := key _ m1; have k2 := key _ m2; have k3 := key _ m3; have k4 := key _ m4
    dsimp only at k1 k2 k3 k4
    rw [add_zero] at k1 k2 k3 k4
    exact ⟨(C26_body_stable s _ _ _ _ _ _ dh tol).1.mp k1,
      (C26_body_stable s _ _ _ _ _ _ dh tol).1.mp k2,
      (C26_body_stable s _ _ _ _ _ _ dh tol).1.mp k3,
      (C26_body_stable s _ _ _ _ _ _ dh tol).1.mp k4⟩
  · show r.world.out.impactArea.minX ≤ r.world.out.bodyArea.minX ∧ _
    change _ ∧ r.world.out.bodyArea.maxX ≤ r.world.out.impactArea.maxX ∧
      r.world.out.impactArea.minY ≤ r.world.out.bodyArea.minY ∧
      r.world.out.bodyArea.maxY ≤ r.world.out.impactArea.maxY
    rw [hi, ha]
    unfold impactOf
    dsimp only
    omega

end Exact

/-! ## Concrete cases

C31 concerns a whole step; the case is in `Verif.Props.Cases`. -/

/-- C25: three columns of the example are unstable, among them the peak and the columns next to the
hole. -/
example : AreaInside exState.impactArea exState ∧
    locateUnstableTerrainCell exState 1 (1 / 100) = .ok [(1, 1), (2, 3), (3, 2)] := by
  refine ⟨by unfold AreaInside; decide, by decide +kernel⟩

/-- C26: four of the codes, for soil coming from height five. -/
example : checkUnstableTerrainCell exState 1 1 (5 - 1) (1 / 100) = 0 ∧
    checkUnstableTerrainCell exState 2 2 (5 - 1) (1 / 100) = 10 ∧
    checkUnstableTerrainCell exState 2 3 (5 - 1) (1 / 100) = 30 ∧
    checkUnstableBodyCell exState 2 2 0 2 3 (5 - 1) (1 / 100) = 34 ∧
    checkUnstableBodyCell exState 2 2 0 3 2 (5 - 1) (1 / 100) = 40 := by decide +kernel

/-- C32: with a steep angle of repose a round finishes with the flag set although terrain and body
soil are uneven. -/
example : ∃ w', relaxOnce exGrid exBody ⟨5, 3, 4⟩ (1 / 100) exWorld = .ok w' ∧
    w'.out.equilibrium = true ∧ w'.out.bodySoil 1 2 2 = 5 ∧ w'.out.terrain 1 1 = 4 := by
  have h : (match relaxOnce exGrid exBody ⟨5, 3, 4⟩ (1 / 100) exWorld with
    | .ok w' => decide (w'.out.equilibrium = true ∧ w'.out.bodySoil 1 2 2 = 5 ∧ w'.out.terrain 1 1 = 4)
    | .error _ => false) = true := by decide +kernel
  split at h
  · exact ⟨_, ‹_›, by simpa using h⟩
  · exact absurd h (by simp)

/-- C33: the window of the example. Three columns are unstable and the buffer is one. -/
example : ∃ w', relaxTerrain exGrid exBody ⟨4 / 5, 3, 1⟩ (1 / 100) exWorld = .ok w' ∧
    (w'.out.relaxArea.minX = 2 ∧ w'.out.relaxArea.maxX ≤ 2 * exGrid.halfX) := by
  have h : (match relaxTerrain exGrid exBody ⟨4 / 5, 3, 1⟩ (1 / 100) exWorld with
    | .ok w' => decide (w'.out.relaxArea.minX = 2 ∧ w'.out.relaxArea.maxX ≤ 2 * exGrid.halfX)
    | .error _ => false) = true := by decide +kernel
  split at h
  · exact ⟨_, ‹_›, by simpa using h⟩
  · exact absurd h (by simp)

/-- C33: the areas of the example; its terrain relaxation changes the terrain (`exTerrain_runs`). -/
example : AreaInside exWorld.out.impactArea exWorld.out ∧ AreaInside exWorld.out.bodyArea exWorld.out ∧
    AreaInside exWorld.out.relaxArea exWorld.out ∧ exWorld.out.lenX = 2 * exGrid.halfX + 1 ∧
    exWorld.out.lenY = 2 * exGrid.halfY + 1 := by
  refine ⟨?_, ?_, ?_, by decide, by decide⟩ <;> (unfold AreaInside; decide)

end Soil
