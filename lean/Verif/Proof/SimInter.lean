import Verif.Proof.SimRunB

/-!
# Simulation by exact arithmetic with cells of height one: soil intersecting with the body
-/

set_option linter.unusedSectionVars false
set_option linter.unusedVariables false

namespace Soil

open FOps

section probe

variable {F G : Type} [FOps F] [FOps G] {cell tol : F} {cell' tol' : G} {N C : ℤ}
  {P : Pair F G cell tol cell' tol' N C}

/-- Two probes -/
structure PRep (P : Pair F G cell tol cell' tol' N C) (d : ℕ) (a : Probe F) (b : Probe G) : Prop where
  ind : a.ind = b.ind
  ii : a.ii = b.ii
  jj : a.jj = b.jj
  wall : a.wall = b.wall
  h : V P d a.h b.h

variable {s : SimOut F} {z : SimOut G} (h : Rep P 1 s z) {g : Grid F} {g' : Grid G} {body : Body F}
  {body' : Body G} {q : Probe F} {q' : Probe G} (hq : PRep P 1 q q') {i j : ℤ} (hij : z.InGrid i j)

include h hq hij

theorem moveBodySoil1_sim (hqi : z.InGrid q'.ii q'.jj) (hind : q'.ind + 1 < 4) {m : F} {m' : G}
    (hm : V P 1 m m') {k : ℕ} (hk : k + 1 < 4) :
    Rep P 12 (moveBodySoil1 s q m i j g body tol k).1 (moveBodySoil1 z q' m' i j g' body' tol' k).1 ∧
    PRep P 12 (moveBodySoil1 s q m i j g body tol k).2 (moveBodySoil1 z q' m' i j g' body' tol' k).2 := by
  have h' := h.up (by decide : 1 ≤ 12)
  have hB := h.B k i j hij (by omega)
  have hB1 := h.B (k + 1) i j hij hk
  have hS1 := h.S (k + 1) i j hij hk
  have hqh := hq.h.up (by decide : 1 ≤ 12)
  unfold moveBodySoil1
  rw [hq.ind, hq.ii, hq.jj, (h.B (q'.ind + 1) _ _ hqi hind).lt_subTol hB, hm.lt_addTol hB1,
    h.soilPres hij hk]
  split
  · exact ⟨h'.setT _ _ (((h.T i j hij).add hq.h).up (by decide)), rfl, rfl, rfl, hq.wall, V.zero⟩
  · split
    · exact ⟨h', rfl, rfl, rfl, rfl, hqh⟩
    · refine ⟨?_, rfl, rfl, rfl, hq.wall, V.zero⟩
      refine Rep.pushPos ?_ (mkEntry_sim hqh)
      exact Rep.ite rfl (h'.setBS _ _ _ ((hS1.add hq.h).up (by decide)))
        ((h'.setBS _ _ _ (hB1.up (by decide))).setBS _ _ _ ((hB1.add hq.h).up (by decide)))

theorem moveBodySoil2_sim {kb kt : ℕ} (hkb : kb + 1 < 4) (hkt : kt < 4) :
    Rep P 12 (moveBodySoil2 s q i j g body tol kb kt).1 (moveBodySoil2 z q' i j g' body' tol' kb kt).1 ∧
    PRep P 12 (moveBodySoil2 s q i j g body tol kb kt).2 (moveBodySoil2 z q' i j g' body' tol' kb kt).2 := by
  have h' := h.up (by decide : 1 ≤ 12)
  have hB1 := h.B (kb + 1) i j hij hkb
  have hBt := h.B kt i j hij hkt
  have hS1 := h.S (kb + 1) i j hij hkb
  have hqh := hq.h.up (by decide : 1 ≤ 12)
  have hd := hBt.sub hS1
  have hd' := hBt.sub hB1
  unfold moveBodySoil2
  dsimp only
  rw [h.soilPres hij hkb, hBt.lt_addTol hS1, hd.lt hq.h, hd'.lt hq.h]
  split
  · split
    · exact ⟨h', rfl, rfl, rfl, hq.wall, hqh⟩
    · split
      · exact ⟨(h'.setBS _ _ _ ((hS1.add hd).up (by decide))).pushPos (mkEntry_sim (hd.up (by decide))),
          rfl, rfl, rfl, hq.wall, (hq.h.sub hd).up (by decide)⟩
      · exact ⟨(h'.setBS _ _ _ ((hS1.add hq.h).up (by decide))).pushPos (mkEntry_sim hqh),
          hq.ind, hq.ii, hq.jj, hq.wall, V.zero⟩
  · split
    · exact ⟨((h'.setBS _ _ _ (hB1.up (by decide))).setBS _ _ _ ((hB1.add hd').up (by decide))).pushPos
        (mkEntry_sim (hd'.up (by decide))), rfl, rfl, rfl, hq.wall, (hq.h.sub hd').up (by decide)⟩
    · exact ⟨((h'.setBS _ _ _ (hB1.up (by decide))).setBS _ _ _ ((hB1.add hq.h).up (by decide))).pushPos
        (mkEntry_sim hqh), hq.ind, hq.ii, hq.jj, hq.wall, V.zero⟩

theorem moveBodySoil_sim (hqi : z.InGrid q'.ii q'.jj) (hind : q'.ind + 1 < 4) {m : F} {m' : G}
    (hm : V P 1 m m') :
    Rep P 12 (moveBodySoil s q m i j g body tol).1 (moveBodySoil z q' m' i j g' body' tol').1 ∧
    PRep P 12 (moveBodySoil s q m i j g body tol).2 (moveBodySoil z q' m' i j g' body' tol').2 := by
  unfold moveBodySoil
  rw [h.bodyAbs hij (k := 0) (by decide), h.bodyAbs hij (k := 2) (by decide),
    (h.B 0 i j hij (by decide)).lt (h.B 2 i j hij (by decide))]
  split
  · exact ⟨(h.up (by decide)).setT _ _ (((h.T i j hij).add hq.h).up (by decide)), hq.ind, hq.ii, hq.jj,
      hq.wall, V.zero⟩
  · split
    · exact moveBodySoil1_sim h hq hij hqi hind hm (by decide)
    · split
      · exact moveBodySoil1_sim h hq hij hqi hind hm (by decide)
      · split
        · exact moveBodySoil2_sim h hq hij (by decide) (by decide)
        · exact moveBodySoil2_sim h hq hij (by decide) (by decide)

end probe

section exact

variable {K : Type} [Field K] [LinearOrder K] [FloorRing K] [Transc K] [IsStrictOrderedRing K]

theorem setT_add_le (s : SimOut K) (i j : ℤ) {h : K} (h0 : 0 ≤ h) (a b : ℤ) :
    s.terrain a b ≤ (s.setT i j (s.terrain i j + h)).terrain a b := by
  unfold SimOut.setT upd2
  dsimp only
  split_ifs with hc
  · obtain ⟨rfl, rfl⟩ := hc; linarith
  · exact le_rfl

/-- a probe only adds terrain, and stays where it was or moves to the column visited -/
def Rises (s : SimOut K) (q : Probe K) (i j : ℤ) (x : SimOut K × Probe K) : Prop :=
  (∀ a b, s.terrain a b ≤ x.1.terrain a b) ∧
    ((x.2.ii = q.ii ∧ x.2.jj = q.jj ∧ x.2.ind = q.ind) ∨ (x.2.ii = i ∧ x.2.jj = j ∧ x.2.ind < 3))

theorem moveBodySoil1_rises (s : SimOut K) (q : Probe K) (m : K) (i j : ℤ) (g : Grid K) (body : Body K)
    (tol : K) (k : ℕ) (h0 : 0 ≤ q.h) : Rises s q i j (moveBodySoil1 s q m i j g body tol k) := by
  unfold moveBodySoil1
  split
  · exact ⟨setT_add_le s i j h0, .inl ⟨rfl, rfl, rfl⟩⟩
  · split
    · exact ⟨fun _ _ => le_rfl, .inl ⟨rfl, rfl, rfl⟩⟩
    · refine ⟨fun a b => ?_, .inl ⟨rfl, rfl, rfl⟩⟩
      dsimp only
      split <;> exact le_rfl

theorem moveBodySoil2_rises (s : SimOut K) (q : Probe K) (i j : ℤ) (g : Grid K) (body : Body K)
    (tol : K) (kb kt : ℕ) (hk : kb < 3) : Rises s q i j (moveBodySoil2 s q i j g body tol kb kt) := by
  unfold moveBodySoil2
  split
  · split
    · exact ⟨fun _ _ => le_rfl, .inr ⟨rfl, rfl, hk⟩⟩
    · dsimp only
      split
      · exact ⟨fun _ _ => le_rfl, .inr ⟨rfl, rfl, hk⟩⟩
      · exact ⟨fun _ _ => le_rfl, .inl ⟨rfl, rfl, rfl⟩⟩
  · dsimp only
    split
    · exact ⟨fun _ _ => le_rfl, .inr ⟨rfl, rfl, hk⟩⟩
    · exact ⟨fun _ _ => le_rfl, .inl ⟨rfl, rfl, rfl⟩⟩

theorem moveBodySoil_rises (s : SimOut K) (q : Probe K) (m : K) (i j : ℤ) (g : Grid K) (body : Body K)
    (tol : K) (h0 : 0 ≤ q.h) : Rises s q i j (moveBodySoil s q m i j g body tol) := by
  unfold moveBodySoil
  split
  · exact ⟨setT_add_le s i j h0, .inl ⟨rfl, rfl, rfl⟩⟩
  · split
    · exact moveBodySoil1_rises s q m i j g body tol 2 h0
    · split
      · exact moveBodySoil1_rises s q m i j g body tol 0 h0
      · split
        · exact moveBodySoil2_rises s q i j g body tol 0 2 (by decide)
        · exact moveBodySoil2_rises s q i j g body tol 2 0 (by decide)

end exact

variable {F : Type} [FOps F] {cell tol : F} {N C : ℤ}
  {P : Pair F ℚ cell tol (1 : ℚ) (1 / 4) N C}

/-- Invariant while `δ` cells of soil are in flight -/
structure CInv (P : Pair F ℚ cell tol (1 : ℚ) (1 / 4) N C) (lo hi vol : ℤ) (δ : ℚ) (s : SimOut F)
    (z : SimOut ℚ) : Prop where
  rep : Rep P 1 s z
  body : BodyOK 1 z
  soil : SoilOK 1 z
  T : TerrainAbove (lo : ℚ) z
  B : ∀ k i j, z.InGrid i j → k < 4 → (lo : ℚ) ≤ z.body k i j ∧ z.body k i j ≤ hi
  nonneg : 0 ≤ δ
  total : totalSoil z + δ ≤ vol + lo * (gridCols z).card

theorem CInv.room {lo hi vol : ℤ} {δ : ℚ} {s : SimOut F} {z : SimOut ℚ} (h : CInv P lo hi vol δ s z) :
    Room lo hi vol z := ⟨h.T, h.B, by have := h.total; have := h.nonneg; linarith⟩

theorem CInv.flight {lo hi vol : ℤ} {δ : ℚ} {s : SimOut F} {z : SimOut ℚ} (h : CInv P lo hi vol δ s z)
    (hb : Budget lo hi vol P.H) {i j : ℤ} (hij : z.InGrid i j) : |δ| ≤ P.H := by
  have h1 := column_le h.soil h.T h.total hij
  have a := h.T _ _ hij
  have b := h.soil.layer_nonneg' hij (k := 0) (.inl rfl)
  have c := h.soil.layer_nonneg' hij (k := 2) (.inr rfl)
  unfold columnSoil at h1
  have b1 : (lo : ℚ) ≤ 0 := by exact_mod_cast hb.lo_le
  have b2 : (0 : ℚ) ≤ hi := by exact_mod_cast hb.hi_ge
  have b4 : (vol : ℚ) + hi - lo ≤ P.H := by exact_mod_cast hb.le
  rw [abs_of_nonneg h.nonneg]
  linarith

section inter

variable (hP : ∀ n, P.B.emb n = (n : ℚ)) {lo hi vol : ℤ} (hb : Budget lo hi vol P.H)

include hP hb

theorem CInv.step {δ δ' : ℚ} {s s' : SimOut F} {z z' : SimOut ℚ} (h : CInv P lo hi vol δ s z)
    {d : ℕ} (hr : Rep P d s' z') (hs : SoilOK 1 z') (hT : TerrainAbove (lo : ℚ) z') (hl : SameBody z z')
    (h0 : 0 ≤ δ') (ht : totalSoil z' + δ' ≤ totalSoil z + δ) : CInv P lo hi vol δ' s' z' := by
  obtain ⟨b1, b2, b3, b4⟩ := hl
  have hB : ∀ k i j, z'.InGrid i j → k < 4 → (lo : ℚ) ≤ z'.body k i j ∧ z'.body k i j ≤ hi := by
    intro k i j hij hk
    rw [b1]
    exact h.B k i j (by unfold SimOut.InGrid at hij ⊢; rwa [b3, b4] at hij) hk
  have hc : gridCols z' = gridCols z := by unfold gridCols; rw [b3, b4]
  have htot : totalSoil z' + δ' ≤ vol + lo * (gridCols z').card := by
    rw [hc]; exact ht.trans h.total
  have hroom : Room lo hi vol z' := ⟨hT, hB, by linarith⟩
  exact ⟨hr.tighten hP (bnd_of hb hs hroom), h.body.congr b1 b3 b4, hs, hT, hB, h0, htot⟩

theorem exploreDir_sim {g : Grid F} {g' : Grid ℚ} {body : Body F} {body' : Body ℚ} (ii jj : ℤ)
    (d : ℤ × ℤ) (fuel : ℕ) (pp : ℤ) (s : SimOut F) (z : SimOut ℚ) (q : Probe F) (q' : Probe ℚ)
    (m : F) (m' : ℚ) (hq : PRep P 1 q q') (h : CInv P lo hi vol q'.h s z)
    (hqi : z.InGrid q'.ii q'.jj) (hind : q'.ind + 1 < 4) (hm : V P 1 m m') :
    Sim (exploreDir g body tol ii jj d fuel pp s q m)
      (exploreDir g' body' (1 / 4) ii jj d fuel pp z q' m')
      (fun x y => CInv P lo hi vol y.2 x.1 y.1 ∧ V P 1 x.2 y.2 ∧ SameBody z y.1) := by
  induction fuel generalizing pp s z q q' m m' with
  | zero =>
    unfold exploreDir
    rw [hq.wall, hq.h.tol_lt]
    split
    · exact Sim.error
    · exact Sim.ok ⟨h, hq.h, rfl, rfl, rfl, rfl⟩
  | succ n ih =>
    unfold exploreDir
    rw [hq.wall, hq.h.tol_lt]
    split
    · refine Sim.guard (h.rep.inGrid _ _) fun hij => ?_
      have hal := al_of_V hP hq.h
      obtain ⟨m1, m2⟩ := moveBodySoil_sim h.rep (g := g) (g' := g') (body := body) (body' := body') hq hij hqi hind hm
      obtain ⟨⟨⟨c1, c2, c3, -, -⟩, k2, k3⟩, -⟩ := moveBodySoil_ok (g := g') (body := body') tolQ h.body h.soil q' m' hij
        h.nonneg hal
      obtain ⟨r1, r2⟩ := moveBodySoil_rises z q' m' (ii + (pp + 1) * d.1) (jj + (pp + 1) * d.2) g' body' (1 / 4)
        h.nonneg
      dsimp only
      generalize moveBodySoil s q m (ii + (pp + 1) * d.1) (jj + (pp + 1) * d.2) g body tol = x at *
      generalize moveBodySoil z q' m' (ii + (pp + 1) * d.1) (jj + (pp + 1) * d.2) g' body' (1 / 4) = y at *
      have hT : TerrainAbove (lo : ℚ) y.1 := fun a b hab =>
        (h.T a b ((c1.inGrid a b).mp hab)).trans (r1 a b)
      have hin : y.1.InGrid y.2.ii y.2.jj ∧ y.2.ind + 1 < 4 := by
        rw [c1.inGrid]
        rcases r2 with ⟨e1, e2, e3⟩ | ⟨e1, e2, e3⟩
        · rw [e1, e2, e3]; exact ⟨hqi, hind⟩
        · rw [e1, e2]; exact ⟨hij, by omega⟩
      have hC : CInv P lo hi vol y.2.h x.1 y.1 := h.step hP hb m1 c2 hT c1.body k2 (by rw [c3]; linarith)
      have hfl := hC.flight hb hin.1
      have hq1 : PRep P 1 x.2 y.2 := ⟨m2.ind, m2.ii, m2.jj, m2.wall, m2.h.tighten hP hfl⟩
      refine (ih (pp + 1) x.1 y.1 x.2 y.2 _ _ hq1 hC hin.1 hin.2 ?_).mono ?_
      · rw [hq1.ii, hq1.jj]
        exact V.max (hC.rep.B 0 _ _ hin.1 (by decide)) (hC.rep.B 2 _ _ hin.1 (by decide))
      · rintro a b _ _ ⟨a1, a2, a3⟩
        exact ⟨a1, a2, c1.body.trans a3⟩
    · exact Sim.ok ⟨h, hq.h, rfl, rfl, rfl, rfl⟩

theorem exploreDirs_sim {g : Grid F} {g' : Grid ℚ} {body : Body F} {body' : Body ℚ} (fuel : ℕ)
    {ind indT : ℕ} (hind : ind + 1 < 4) (hT : indT < 4) (ii jj : ℤ) (ds : List (ℤ × ℤ))
    (s : SimOut F) (z : SimOut ℚ) (x : F) (y : ℚ) (hxy : V P 1 x y) (h : CInv P lo hi vol y s z)
    (hij : z.InGrid ii jj) :
    Sim (exploreDirs fuel g body tol ind indT ii jj ds s x)
      (exploreDirs fuel g' body' (1 / 4) ind indT ii jj ds z y)
      (fun x y => CInv P lo hi vol y.2 x.1 y.1 ∧ V P 1 x.2 y.2 ∧ SameBody z y.1) := by
  induction ds generalizing s z x y with
  | nil => exact Sim.ok ⟨h, hxy, rfl, rfl, rfl, rfl⟩
  | cons d ds ih =>
    unfold exploreDirs
    refine (exploreDir_sim hP hb (g := g) (g' := g') (body := body) (body' := body') ii jj d fuel 0 s z
      ⟨ind, ii, jj, x, false⟩ ⟨ind, ii, jj, y, false⟩ _ _ ⟨rfl, rfl, rfl, rfl, hxy⟩ h hij hind
      (h.rep.B indT ii jj hij hT)).bind ?_
    rintro ⟨s1, x1⟩ ⟨z1, y1⟩ _ _ ⟨a1, a2, a3⟩
    dsimp only at a1 a2 a3 ⊢
    rw [a2.lt_tol]
    split
    · exact Sim.ok ⟨a1, a2, a3⟩
    · refine (ih s1 z1 x1 y1 a2 a1 ?_).mono ?_
      · unfold SimOut.InGrid at hij ⊢; rwa [a3.2.2.1, a3.2.2.2]
      · rintro a b _ _ ⟨b1, b2, b3⟩
        exact ⟨b1, b2, a3.trans b3⟩

theorem moveIntersectingEntries_sim {g : Grid F} {g' : Grid ℚ} {body : Body F} {body' : Body ℚ}
    (fuel fuelN nn : ℕ) (ds : List (ℤ × ℤ)) (w : World F) (v : World ℚ)
    (h : WRep P (CInv P lo hi vol 0) w v) :
    Sim (moveIntersectingEntries fuel g body tol fuelN nn ds w)
      (moveIntersectingEntries fuel g' body' (1 / 4) fuelN nn ds v)
      (WRep P (CInv P lo hi vol 0)) := by
  induction fuelN generalizing nn ds w v with
  | zero =>
    unfold moveIntersectingEntries
    rcases forall₂_get h.out.rep.E nn with ⟨e1, e2⟩ | ⟨e, f, e1, e2, hef⟩
    · rw [e1, e2]; exact Sim.ok h
    · rw [e1, e2]; exact Sim.error
  | succ fuelN ih =>
    unfold moveIntersectingEntries
    rcases forall₂_get h.out.rep.E nn with ⟨e1, e2⟩ | ⟨e, f, e1, e2, hef⟩
    · rw [e1, e2]; exact Sim.ok h
    · rw [e1, e2]
      dsimp only
      obtain ⟨i1, i2, i3, i4⟩ := hef
      rw [i1, i2, i3]
      refine Sim.guard (by rw [h.out.rep.inGrid]) fun ⟨hij, hk⟩ => ?_
      have hot : (if f.ind = 0 then 2 else 0) = otherLayer f.ind := rfl
      have hot4 : otherLayer f.ind + 1 < 4 := by unfold otherLayer; split_ifs <;> decide
      rw [hot]
      have hmem : f ∈ v.out.bodySoilPos := List.mem_iff_getElem?.mpr ⟨nn, e2⟩
      have hin := h.out.soil.entries f hmem
      have hB := h.out.rep.B f.ind f.ii f.jj hij (by omega)
      have hBo := h.out.rep.B (otherLayer f.ind) f.ii f.jj hij (by omega)
      have hS := h.out.rep.S (f.ind + 1) f.ii f.jj hij hk
      have hx := hS.sub hBo
      rw [h.out.rep.bodyAbs hij hot4]
      split
      · exact ih _ _ _ _ h
      · rw [hB.lt hBo, hBo.lt_subTol hS]
        split
        · rename_i hc2
          -- the amount taken from the entry
          have key : ∃ (x : F) (y : ℚ), V P 1 x y ∧ 0 ≤ y ∧ y ≤ f.h ∧
              (if e.h <ᶠ (w.out.bodySoil (f.ind + 1) f.ii f.jj -ᶠ w.out.body (otherLayer f.ind) f.ii f.jj) then
                  (w.out.setH nn zero, e.h) else (w.out.setH nn (e.h -ᶠ
                    (w.out.bodySoil (f.ind + 1) f.ii f.jj -ᶠ w.out.body (otherLayer f.ind) f.ii f.jj)),
                    w.out.bodySoil (f.ind + 1) f.ii f.jj -ᶠ w.out.body (otherLayer f.ind) f.ii f.jj)) =
                ((if e.h <ᶠ (w.out.bodySoil (f.ind + 1) f.ii f.jj -ᶠ w.out.body (otherLayer f.ind) f.ii f.jj) then
                  (w.out.setH nn zero, e.h) else (w.out.setH nn (e.h -ᶠ
                    (w.out.bodySoil (f.ind + 1) f.ii f.jj -ᶠ w.out.body (otherLayer f.ind) f.ii f.jj)),
                    w.out.bodySoil (f.ind + 1) f.ii f.jj -ᶠ w.out.body (otherLayer f.ind) f.ii f.jj)).1, x) ∧
              (if f.h <ᶠ (v.out.bodySoil (f.ind + 1) f.ii f.jj -ᶠ v.out.body (otherLayer f.ind) f.ii f.jj) then
                  (v.out.setH nn zero, f.h) else (v.out.setH nn (f.h -ᶠ
                    (v.out.bodySoil (f.ind + 1) f.ii f.jj -ᶠ v.out.body (otherLayer f.ind) f.ii f.jj)),
                    v.out.bodySoil (f.ind + 1) f.ii f.jj -ᶠ v.out.body (otherLayer f.ind) f.ii f.jj)) =
                (v.out.setH nn (f.h - y), y) ∧
              Rep P 3 (if e.h <ᶠ (w.out.bodySoil (f.ind + 1) f.ii f.jj -ᶠ w.out.body (otherLayer f.ind) f.ii f.jj) then
                  (w.out.setH nn zero, e.h) else (w.out.setH nn (e.h -ᶠ
                    (w.out.bodySoil (f.ind + 1) f.ii f.jj -ᶠ w.out.body (otherLayer f.ind) f.ii f.jj)),
                    w.out.bodySoil (f.ind + 1) f.ii f.jj -ᶠ w.out.body (otherLayer f.ind) f.ii f.jj)).1
                (v.out.setH nn (f.h - y)) := by
            have hlt := i4.lt hx
            have hf0 := h.out.soil.entry_nonneg f hmem
            have hfH := (bnd_of hb h.out.soil h.out.room).E f hmem
            rw [hlt]
            split
            · refine ⟨e.h, f.h, i4, hf0, le_rfl, rfl, ?_, ?_⟩
              · rw [sub_self]; rfl
              · rw [sub_self]; exact (h.out.rep.up (by decide)).setH nn V.zero
            · rename_i hc3
              simp only [ex_lt, ex_sub, decide_eq_true_eq, not_lt] at hc3
              simp only [ex_lt, ex_sub, Bool.and_eq_true, decide_eq_true_eq] at hc2
              have hy0 : 0 ≤ v.out.bodySoil (f.ind + 1) f.ii f.jj - v.out.body (otherLayer f.ind) f.ii f.jj := by
                linarith [hc2.2]
              refine ⟨_, _, V.tighten hP hx ?_, hy0, hc3, rfl, rfl, ?_⟩
              · rw [abs_of_nonneg hf0] at hfH
                simp only [ex_sub]
                rw [abs_of_nonneg hy0]
                linarith
              · exact (h.out.rep.up (by decide)).setH nn (i4.sub hx)
          obtain ⟨x, y, hxy, y0, y1, ea, eb, hrep⟩ := key
          rw [ea, eb]
          generalize (if e.h <ᶠ (w.out.bodySoil (f.ind + 1) f.ii f.jj -ᶠ w.out.body (otherLayer f.ind) f.ii f.jj) then
                  (w.out.setH nn zero, e.h) else (w.out.setH nn (e.h -ᶠ
                    (w.out.bodySoil (f.ind + 1) f.ii f.jj -ᶠ w.out.body (otherLayer f.ind) f.ii f.jj)),
                    w.out.bodySoil (f.ind + 1) f.ii f.jj -ᶠ w.out.body (otherLayer f.ind) f.ii f.jj)).1 = s1 at *
          dsimp only
          have hal := al_of_V hP hxy
          have hst : (v.out.setH nn (f.h - y)).setBS (f.ind + 1) f.ii f.jj
              ((v.out.setH nn (f.h - y)).bodySoil (f.ind + 1) f.ii f.jj -ᶠ y) =
              wdPart v.out nn f y := by rfl
          rw [hst]
          have hrep2 : Rep P 4 (s1.setBS (f.ind + 1) f.ii f.jj (s1.bodySoil (f.ind + 1) f.ii f.jj -ᶠ x))
              (wdPart v.out nn f y) := by
            rw [← hst]
            exact (hrep.up (by decide)).setBS _ _ _ ((hrep.S (f.ind + 1) f.ii f.jj hij hk).sub hxy)
          have hC := h.out.step hP hb hrep2 (h.out.soil.wdPart e2 y0 y1 hal) h.out.T ⟨rfl, rfl, rfl, rfl⟩ y0
            (by rw [totalSoil_wdPart hin.1 hin.2]; linarith)
          rw [h.rng]
          refine (exploreDirs_sim hP hb (g := g) (g' := g') (body := body) (body' := body') fuel hk
            (by omega : otherLayer f.ind < 4) f.ii f.jj (shuffle ds v.rng).1 _ _ x y hxy hC hij).bind ?_
          rintro ⟨s2, x2⟩ ⟨z2, y2⟩ _ _ ⟨a1, a2, a3⟩
          dsimp only at a1 a2 a3 ⊢
          have hC2 : CInv P lo hi vol 0 s2 z2 :=
            ⟨a1.rep, a1.body, a1.soil, a1.T, a1.B, le_rfl, by have := a1.total; have := a1.nonneg; linarith⟩
          rw [a2.tol_lt]
          refine ih _ _ _ _ ?_
          split
          · exact ⟨hC2, rfl, List.rel_append h.log (.cons a2 .nil)⟩
          · exact ⟨hC2, rfl, h.log⟩
        · exact ih _ _ _ _ h

theorem moveIntersectingBodySoil_sim {g : Grid F} {g' : Grid ℚ} {body : Body F} {body' : Body ℚ}
    (fuel : ℕ) (w : World F) (v : World ℚ) (h : WRep P (CInv P lo hi vol 0) w v) :
    Sim (moveIntersectingBodySoil fuel g body tol w)
      (moveIntersectingBodySoil fuel g' body' (1 / 4) v)
      (WRep P (CInv P lo hi vol 0)) :=
  moveIntersectingEntries_sim hP hb fuel fuel 0 directions8 w v h

/-! ## Terrain -/

omit hP hb in
theorem bodyBottom_sim {s : SimOut F} {z : SimOut ℚ} (h : Rep P 1 s z) {i j : ℤ} (hij : z.InGrid i j) :
    V P 1 (bodyBottom s i j) (bodyBottom z i j) := by
  have h0 := h.B 0 i j hij (by decide)
  have h2 := h.B 2 i j hij (by decide)
  unfold bodyBottom
  exact V.ite (h.bodyAbs hij (by decide)) h2 (V.ite (f := 1) (h.bodyAbs hij (by decide)) h0 (V.min (f := 1) h0 h2))

theorem CInv.addT {δ δ' y : ℚ} {x : F} {s : SimOut F} {z : SimOut ℚ} (h : CInv P lo hi vol δ s z) {i j : ℤ}
    (hij : z.InGrid i j) {d : ℕ} (hx : V P d x (z.terrain i j + y)) (hy : 0 ≤ y) (ha : Al 1 y) (h0 : 0 ≤ δ')
    (he : y + δ' ≤ δ) : CInv P lo hi vol δ' (s.setT i j x) (z.setT i j (z.terrain i j + y)) := by
  refine h.step hP hb ((h.rep.up (Nat.le_add_left 1 d)).setT i j (hx.up (Nat.le_add_right d 1)))
    (h.soil.addT ha) ?_ ⟨rfl, rfl, rfl, rfl⟩ h0 ?_
  · exact fun a b hab => (h.T a b hab).trans (setT_add_le z i j hy a b)
  · have : totalSoil (z.setT i j (z.terrain i j + y)) = totalSoil z + y := totalSoil_addT hij
    rw [this]; linarith

theorem spreadRing_sim (ii jj pp : ℤ) (ds : List (ℤ × ℤ)) (s : SimOut F) (z : SimOut ℚ) (x : F) (y : ℚ)
    (hxy : V P 1 x y) (h : CInv P lo hi vol y s z) :
    Sim (spreadRing tol ii jj pp ds s x) (spreadRing (1 / 4) ii jj pp ds z y)
      (fun a b => CInv P lo hi vol b.2 a.1 b.1 ∧ V P 1 a.2 b.2) := by
  induction ds generalizing s z x y with
  | nil => exact Sim.ok ⟨h, hxy⟩
  | cons d ds ih =>
    unfold spreadRing
    dsimp only
    refine Sim.guard (h.rep.inGrid _ _) fun hij => ?_
    have hT := h.rep.T _ _ hij
    have hal := al_of_V hP hxy
    have hbot := bodyBottom_sim h.rep hij
    rw [h.rep.bodyAbs hij (k := 0) (by decide), h.rep.bodyAbs hij (k := 2) (by decide)]
    have put : CInv P lo hi vol (zero : ℚ)
        (s.setT (ii + d.1 * pp) (jj + d.2 * pp) (s.terrain (ii + d.1 * pp) (jj + d.2 * pp) +ᶠ x))
        (z.setT (ii + d.1 * pp) (jj + d.2 * pp) (z.terrain (ii + d.1 * pp) (jj + d.2 * pp) + y)) :=
      h.addT hP hb hij (hT.add hxy) h.nonneg hal le_rfl (by simp)
    split
    · exact Sim.ok ⟨put, V.zero⟩
    · rw [hT.addTol_lt hbot]
      split
      · rename_i hc
        simp only [ex_lt, ex_add, decide_eq_true_eq] at hc
        have hdl := hbot.sub hT
        rw [hdl.lt hxy]
        split
        · rename_i hc2
          simp only [ex_lt, ex_sub, decide_eq_true_eq] at hc2
          have hy1 : V P 1 (x -ᶠ (bodyBottom s (ii + d.1 * pp) (jj + d.2 * pp) -ᶠ
              s.terrain (ii + d.1 * pp) (jj + d.2 * pp)))
              (y - (bodyBottom z (ii + d.1 * pp) (jj + d.2 * pp) -
              z.terrain (ii + d.1 * pp) (jj + d.2 * pp))) := by
            refine V.tighten hP (hxy.sub hdl) ?_
            have := h.flight hb hij
            rw [abs_of_nonneg h.nonneg] at this
            rw [abs_of_nonneg (by linarith)]
            linarith
          refine ih _ _ _ (y - (bodyBottom z (ii + d.1 * pp) (jj + d.2 * pp) -
              z.terrain (ii + d.1 * pp) (jj + d.2 * pp))) hy1 ?_
          have e : bodyBottom z (ii + d.1 * pp) (jj + d.2 * pp) =
            z.terrain (ii + d.1 * pp) (jj + d.2 * pp) + (bodyBottom z (ii + d.1 * pp) (jj + d.2 * pp) -
              z.terrain (ii + d.1 * pp) (jj + d.2 * pp)) := by ring
          rw [show z.setT (ii + d.1 * pp) (jj + d.2 * pp) (bodyBottom z (ii + d.1 * pp) (jj + d.2 * pp)) =
            z.setT (ii + d.1 * pp) (jj + d.2 * pp) (z.terrain (ii + d.1 * pp) (jj + d.2 * pp) +
              (bodyBottom z (ii + d.1 * pp) (jj + d.2 * pp) -
              z.terrain (ii + d.1 * pp) (jj + d.2 * pp))) by rw [← e]]
          exact h.addT hP hb hij (by rw [← e]; exact hbot) (by linarith)
            ((al_of_V hP hbot).sub (al_of_V hP hT)) (by linarith)
            (by rw [add_sub_cancel])
        · exact Sim.ok ⟨put, V.zero⟩
      · exact ih _ _ _ _ hxy h

theorem spreadOut_sim (ii jj : ℤ) (ds : List (ℤ × ℤ)) (fuel : ℕ) (pp : ℤ) (s : SimOut F) (z : SimOut ℚ)
    (x : F) (y : ℚ) (hxy : V P 1 x y) (h : CInv P lo hi vol y s z) :
    Sim (spreadOut tol ii jj ds fuel pp s x) (spreadOut (1 / 4) ii jj ds fuel pp z y)
      (CInv P lo hi vol 0) := by
  have h' : CInv P lo hi vol 0 s z :=
    ⟨h.rep, h.body, h.soil, h.T, h.B, le_rfl, by have := h.total; have := h.nonneg; linarith⟩
  induction fuel generalizing pp s z x y with
  | zero =>
    unfold spreadOut
    rw [hxy.tol_lt]
    split
    · exact Sim.error
    · exact Sim.ok h'
  | succ n ih =>
    unfold spreadOut
    rw [hxy.tol_lt]
    split
    · refine (spreadRing_sim hP hb ii jj (pp + 1) ds s z x y hxy h).bind ?_
      rintro ⟨s1, x1⟩ ⟨z1, y1⟩ _ _ ⟨a1, a2⟩
      exact ih _ _ _ _ _ a2 a1
        ⟨a1.rep, a1.body, a1.soil, a1.T, a1.B, le_rfl, by have := a1.total; have := a1.nonneg; linarith⟩
    · exact Sim.ok h'

omit hP in
theorem moveIntersectingBodyCells_sim (hP : ∀ n, P.B.emb n = (n : ℚ)) (hb2 : Budget lo hi (2 * vol) P.H)
    (fuel : ℕ) (cs : List (ℕ × ℤ × ℤ)) (hcs : ∀ c ∈ cs, c.1 = 0 ∨ c.1 = 2) (ds : List (ℤ × ℤ))
    (hds : ∀ d ∈ ds, d ∈ directions8)
    (s : SimOut F) (z : SimOut ℚ) (r : Rng) (h : CInv P lo hi vol 0 s z) :
    Sim (moveIntersectingBodyCells fuel tol cs ds s r) (moveIntersectingBodyCells fuel (1 / 4) cs ds z r)
      (fun a b => CInv P lo hi vol 0 a.1 b.1 ∧ a.2 = b.2) := by
  induction cs generalizing ds s z r with
  | nil => exact Sim.ok ⟨h, rfl⟩
  | cons c cs ih =>
    obtain ⟨k, ii, jj⟩ := c
    have hk : k = 0 ∨ k = 2 := hcs _ List.mem_cons_self
    have hcs' : ∀ c ∈ cs, c.1 = 0 ∨ c.1 = 2 := fun c hc => hcs c (List.mem_cons_of_mem _ hc)
    unfold moveIntersectingBodyCells
    dsimp only
    refine Sim.guard (h.rep.inGrid _ _) fun hij => ?_
    have hT := h.rep.T _ _ hij
    have hB := h.rep.B k _ _ hij (by omega)
    rw [hT.subTol_lt hB]
    split
    · exact ih hcs' _ hds _ _ _ h
    · rename_i hc
      simp only [ex_lt, ex_sub, decide_eq_true_eq, not_lt] at hc
      have hc' : z.body k ii jj ≤ z.terrain ii jj := by linarith
      have hds' : ∀ d ∈ (shuffle ds r).1, d ∈ directions8 := fun d hd => hds d (mem_shuffle.mp hd)
      have hbnd := bnd_of hb h.soil h.room
      have hlt := (h.B k ii jj hij (by omega)).1
      have hcol := column_le h.soil h.T h.total hij
      have l0 := h.soil.layer_nonneg' hij (k := 0) (.inl rfl)
      have l2 := h.soil.layer_nonneg' hij (k := 2) (.inr rfl)
      unfold columnSoil at hcol
      have hd : V P 1 (s.terrain ii jj -ᶠ s.body k ii jj) (z.terrain ii jj -ᶠ z.body k ii jj) := by
        refine V.tighten hP (hT.sub hB) ?_
        have b2 : (0 : ℚ) ≤ hi := by exact_mod_cast hb.hi_ge
        have b1 : (lo : ℚ) ≤ 0 := by exact_mod_cast hb.lo_le
        have b4 : (vol : ℚ) + hi - lo ≤ P.H := by exact_mod_cast hb.le
        simp only [ex_sub]
        rw [abs_of_nonneg (by linarith)]
        linarith
      have h2 : CInv P lo hi (2 * vol) (z.terrain ii jj -ᶠ z.body k ii jj) s z := by
        refine ⟨h.rep, h.body, h.soil, h.T, h.B, ?_, ?_⟩
        · simp only [ex_sub]; linarith
        · have := h.total
          simp only [ex_sub]
          push_cast
          linarith
      have hsp := spreadOut_raised tolQ ii jj (shuffle ds r).1 hds' fuel 0 le_rfl z
        (z.terrain ii jj -ᶠ z.body k ii jj) h.body.al h.soil.terrain_al (by simp only [ex_sub]; linarith)
        ((h.soil.terrain_al ii jj hij).sub (h.body.al k ii jj hij))
      refine (spreadOut_sim hP hb2 ii jj (shuffle ds r).1 fuel 0 s z _ _ hd h2).bind ?_
      intro s1 z1 _ hz1 a1
      obtain ⟨p1, p2⟩ := hsp z1 hz1
      have hij1 := (p1.inGrid ii jj).mpr hij
      refine ih hcs' _ hds' _ _ _ ?_
      have hr : Rep P 1 (s1.setT ii jj (s1.body k ii jj)) (z1.setT ii jj (z1.body k ii jj)) :=
        a1.rep.setT ii jj (a1.rep.B k ii jj hij1 (by omega))
      refine h.step hP hb hr ?_ ?_ ?_ le_rfl ?_
      · have hh := a1.soil
        refine ⟨?_, hh.soil_al, hh.rest, hh.entries, hh.entry_al, hh.entry_nonneg, hh.booked, hh.listed⟩
        intro a b hab
        unfold SimOut.setT upd2
        dsimp only
        split_ifs with hc
        · exact a1.body.al k ii jj hij1
        · exact hh.terrain_al a b hab
      · intro a b hab
        unfold SimOut.setT upd2
        dsimp only
        split_ifs with hc
        · exact (a1.B k ii jj hij1 (by omega)).1
        · exact a1.T a b hab
      · rw [p1.eq]; exact ⟨rfl, rfl, rfl, rfl⟩
      · rw [totalSoil_setT _ _ hij1, p1.total, p2, p1.body]
        simp only [ex_sub]
        linarith

omit hP hb in
theorem locateIntersectingIn_sim {s : SimOut F} {z : SimOut ℚ} (h : Rep P 1 s z) (l : List (ℤ × ℤ)) :
    Sim (locateIntersectingIn s tol l) (locateIntersectingIn z (1 / 4) l)
      (fun a b => a = b ∧ ∀ c ∈ b, c.1 = 0 ∨ c.1 = 2) := by
  induction l with
  | nil => exact Sim.ok ⟨rfl, by simp⟩
  | cons p l ih =>
    unfold locateIntersectingIn
    refine Sim.guard (h.inGrid _ _) fun hij => ?_
    refine ih.bind ?_
    rintro a b _ _ ⟨rfl, hab⟩
    have hk : ∀ k, k = 0 ∨ k = 2 → intersectingAt s tol k p.1 p.2 = intersectingAt z (1 / 4) k p.1 p.2 := by
      intro k hk
      unfold intersectingAt
      rw [h.bodyAbs hij (k := k) (by omega),
        (h.B k _ _ hij (by omega)).lt_subTol (h.T _ _ hij)]
    rw [hk 0 (.inl rfl), hk 2 (.inr rfl)]
    refine Sim.ok ⟨rfl, ?_⟩
    intro c hc
    rw [List.mem_append, List.mem_append] at hc
    rcases hc with (hc | hc) | hc
    · split_ifs at hc <;> simp_all
    · split_ifs at hc <;> simp_all
    · exact hab c hc

theorem moveIntersectingCells_sim (hb2 : Budget lo hi (2 * vol) P.H) {g : Grid F} {g' : Grid ℚ}
    {body : Body F} {body' : Body ℚ} (fuel : ℕ) (w : World F) (v : World ℚ)
    (h : WRep P (CInv P lo hi vol 0) w v) :
    Sim (moveIntersectingCells fuel g body tol w) (moveIntersectingCells fuel g' body' (1 / 4) v)
      (WRep P (CInv P lo hi vol 0)) := by
  unfold moveIntersectingCells
  refine (moveIntersectingBodySoil_sim hP hb fuel w v h).bind ?_
  intro w1 v1 _ _ h1
  unfold moveIntersectingBody locateIntersectingCells
  have e : w1.out.bodyArea.cells = v1.out.bodyArea.cells := congrArg _ h1.out.rep.bodyArea
  rw [e]
  refine (locateIntersectingIn_sim h1.out.rep _).bind ?_
  rintro a b _ _ ⟨rfl, hab⟩
  split
  · exact Sim.ok h1
  · rw [h1.rng]
    refine (moveIntersectingBodyCells_sim hb hP hb2 fuel a hab directions8 (fun d hd => hd) _ _ _ h1.out).bind ?_
    rintro x y _ _ ⟨x1, x2⟩
    exact Sim.ok ⟨x1, x2, h1.log⟩

end inter

end Soil
