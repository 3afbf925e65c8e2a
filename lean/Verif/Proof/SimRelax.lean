import Verif.Proof.Sim

/-!
# Simulation of the relaxation branches
-/

set_option linter.unusedSectionVars false
set_option linter.unusedVariables false

namespace Soil

open FOps

variable {F G : Type} [FOps F] [FOps G] {cell tol : F} {cell' tol' : G} {N C : ℤ}
  {P : Pair F G cell tol cell' tol' N C}

/-- Two grids: same extents, levels that are whole numbers of cells. -/
structure GRep (P : Pair F G cell tol cell' tol' N C) (g : Grid F) (g' : Grid G) : Prop where
  cellZ : g.cellZ = cell
  cellZ' : g'.cellZ = cell'
  halfX : g.halfX = g'.halfX
  halfY : g.halfY = g'.halfY

theorem V.newHeight {d e f : ℕ} {g : Grid F} {g' : Grid G} (hg : GRep P g g') {dh a b : F} {dh' a' b' : G}
    (h1 : V P d dh dh') (h2 : V P e a a') (h3 : V P f b b') (hd : d + e + f ≤ 16 := by decide) :
    V P (d + e + f) (newHeight g tol dh a b) (newHeight g' tol' dh' a' b') := by
  unfold Soil.newHeight
  rw [hg.cellZ, hg.cellZ']
  exact ((h1.add h2 (by omega)).add h3 hd).half hd

theorem lowEnough_sim {d e : ℕ} {st : ℕ} {c m : F} {c' m' : G} (h : V P d c c') (h' : V P e m m')
    (hd : d ≤ 16 := by decide) (he : e ≤ 16 := by decide) :
    lowEnough st c tol m = lowEnough st c' tol' m' := by
  unfold lowEnough
  rw [h.addTol_lt h' hd he]

section stat

variable {s : SimOut F} {z : SimOut G} (h : Rep P 1 s z)

include h

theorem unstableAt_sim {dh : F} {dh' : G} (hdh : V P 1 dh dh') {i j : ℤ} (h0 : z.InGrid i j)
    (h1 : z.InGrid (i - 1) j) (h2 : z.InGrid (i + 1) j) (h3 : z.InGrid i (j - 1))
    (h4 : z.InGrid i (j + 1)) : unstableAt s dh tol i j = unstableAt z dh' tol' i j := by
  unfold unstableAt
  dsimp only
  have hm := (h.T i j h0).sub hdh
  rw [(h.T _ _ h1).lt_subTol hm, (h.T _ _ h2).lt_subTol hm, (h.T _ _ h3).lt_subTol hm,
    (h.T _ _ h4).lt_subTol hm]

theorem checkUnstableTerrainCell_sim {ic jc : ℤ} (hc : z.InGrid ic jc) {m : F} {m' : G}
    (hm : V P 2 m m') :
    checkUnstableTerrainCell s ic jc m tol = checkUnstableTerrainCell z ic jc m' tol' := by
  have hT := h.T ic jc hc
  have hB := fun k hk => h.B k ic jc hc hk
  have hS := fun k hk => h.S k ic jc hc hk
  unfold checkUnstableTerrainCell
  dsimp only
  rw [hT.addTol_lt hm, h.bodyAbs hc (k := 0) (by decide), h.bodyAbs hc (k := 2) (by decide),
    (hB 0 (by decide)).lt (hB 2 (by decide))]
  rw [hT.addTol_lt (hB 2 (by decide)), hT.addTol_lt (hB 0 (by decide)),
    h.soilPres hc (k := 0) (by decide), h.soilPres hc (k := 2) (by decide),
    lowEnough_sim (hS 3 (by decide)) hm, lowEnough_sim (hB 3 (by decide)) hm,
    lowEnough_sim (hS 1 (by decide)) hm, lowEnough_sim (hB 1 (by decide)) hm]
  cases (z.body 0 ic jc <ᶠ z.body 2 ic jc)
  · simp only [Bool.false_eq_true, if_false]
    rw [hT.addTol_lt (hB 2 (by decide)), h.soilPres hc (k := 0) (by decide),
      h.soilPres hc (k := 2) (by decide), (hB 0 (by decide)).lt_addTol (hS 3 (by decide))]
    simp only [lowEnough_sim (hS 3 (by decide)) hm, lowEnough_sim (hB 3 (by decide)) hm,
      lowEnough_sim (hS 1 (by decide)) hm, lowEnough_sim (hB 1 (by decide)) hm]
  · simp only [if_true]
    rw [hT.addTol_lt (hB 0 (by decide)), h.soilPres hc (k := 0) (by decide),
      h.soilPres hc (k := 2) (by decide), (hB 2 (by decide)).lt_addTol (hS 1 (by decide))]
    simp only [lowEnough_sim (hS 3 (by decide)) hm, lowEnough_sim (hB 3 (by decide)) hm,
      lowEnough_sim (hS 1 (by decide)) hm, lowEnough_sim (hB 1 (by decide)) hm]

theorem checkUnstableBodyCell_sim {ii jj ic jc : ℤ} (hi : z.InGrid ii jj) (hc : z.InGrid ic jc)
    {ind : ℕ} (hind : ind + 1 < 4) {m : F} {m' : G} (hm : V P 2 m m') :
    checkUnstableBodyCell s ii jj ind ic jc m tol = checkUnstableBodyCell z ii jj ind ic jc m' tol' := by
  have hT := h.T ic jc hc
  have hB := fun k hk => h.B k ic jc hc hk
  have hS := fun k hk => h.S k ic jc hc hk
  have hI := h.B (ind + 1) ii jj hi hind
  unfold checkUnstableBodyCell
  dsimp only
  rw [h.bodyAbs hc (k := 0) (by decide), h.bodyAbs hc (k := 2) (by decide),
    (hB 0 (by decide)).lt (hB 2 (by decide))]
  rw [lowEnough_sim hT hm, hI.addTol_lt (hB 2 (by decide)), hI.addTol_lt (hB 0 (by decide)),
    h.soilPres hc (k := 0) (by decide), h.soilPres hc (k := 2) (by decide),
    lowEnough_sim (hS 3 (by decide)) hm, lowEnough_sim (hB 3 (by decide)) hm,
    lowEnough_sim (hS 1 (by decide)) hm, lowEnough_sim (hB 1 (by decide)) hm,
    lowEnough_sim hT hm, lowEnough_sim hT hm]
  cases (z.body 0 ic jc <ᶠ z.body 2 ic jc)
  · simp only [Bool.false_eq_true, if_false]
    rw [hI.addTol_lt (hB 0 (by decide)), h.soilPres hc (k := 0) (by decide),
      h.soilPres hc (k := 2) (by decide), (hS 3 (by decide)).addTol_lt (hB 0 (by decide)),
      (hB 0 (by decide)).lt_addTol hI]
    cases (z.body (ind + 1) ii jj +ᶠ tol' <ᶠ z.body 0 ic jc) <;> cases z.soilPres 2 ic jc <;>
      cases (z.bodySoil 3 ic jc +ᶠ tol' <ᶠ z.body 0 ic jc) <;>
      simp only [Bool.false_eq_true, if_false, if_true, lowEnough_sim (hS 3 (by decide)) hm,
        lowEnough_sim (hB 3 (by decide)) hm,
        lowEnough_sim (hS 1 (by decide)) hm, lowEnough_sim (hB 1 (by decide)) hm]
  · simp only [if_true]
    rw [hI.addTol_lt (hB 2 (by decide)), h.soilPres hc (k := 0) (by decide),
      h.soilPres hc (k := 2) (by decide), (hS 1 (by decide)).addTol_lt (hB 2 (by decide)),
      (hB 2 (by decide)).lt_addTol hI]
    cases (z.body (ind + 1) ii jj +ᶠ tol' <ᶠ z.body 2 ic jc) <;> cases z.soilPres 0 ic jc <;>
      cases (z.bodySoil 1 ic jc +ᶠ tol' <ᶠ z.body 2 ic jc) <;>
      simp only [Bool.false_eq_true, if_false, if_true, lowEnough_sim (hS 3 (by decide)) hm,
        lowEnough_sim (hB 3 (by decide)) hm,
        lowEnough_sim (hS 1 (by decide)) hm, lowEnough_sim (hB 1 (by decide)) hm]

end stat

theorem mkEntry_sim {d : ℕ} {s : SimOut F} {z : SimOut G} {g : Grid F} {g' : Grid G} {body : Body F}
    {body' : Body G} {k : ℕ} {i j : ℤ} {x : F} {y : G} (h : V P d x y) :
    ERep P d (mkEntry s g body k i j x) (mkEntry z g' body' k i j y) := ⟨rfl, rfl, rfl, h⟩

theorem and_sim {a b c a' b' c' : Bool} (h1 : a = a') (h2 : b = b') (h3 : c = c') :
    (a && b && c) = (a' && b' && c') := by rw [h1, h2, h3]

theorem and_sim2 {a b a' b' : Bool} (h1 : a = a') (h2 : b = b') :
    (a && b) = (a' && b') := by rw [h1, h2]

section relax

variable {s : SimOut F} {z : SimOut G} (h : Rep P 1 s z) {g : Grid F} {g' : Grid G}
  (hg : GRep P g g') {dh : F} {dh' : G} (hdh : V P 1 dh dh') {body : Body F} {body' : Body G}
  {ii jj ic jc : ℤ} (hi : z.InGrid ii jj) (hc : z.InGrid ic jc)

include h hg hdh hi hc

theorem relaxTerrainOnSoil_sim (st0 : ℕ) {k ko : ℕ} (hk : k + 1 < 4) (hko : ko < 4) :
    Rep P 12 (relaxTerrainOnSoil s st0 dh ii jj ic jc g body tol k ko)
      (relaxTerrainOnSoil z st0 dh' ii jj ic jc g' body' tol' k ko) := by
  have hT := h.T ii jj hi
  have hB := h.B (k + 1) ic jc hc hk
  have hBo := h.B ko ic jc hc hko
  have hS := h.S (k + 1) ic jc hc hk
  have hN := V.newHeight hg hdh hT hS
  have hs := hT.sub hN
  have hC := hS.add hs
  have hf := and_sim (rfl : (st0 == 3) = (st0 == 3)) (hB.lt hBo) (hBo.lt_subTol hC)
  have hs' := V.ite (f := 4) hf (hBo.sub hS) hs
  have hC' := V.ite (f := 5) hf hBo hC
  have hN' := V.ite (f := 5) hf (hT.sub hs') hN
  unfold relaxTerrainOnSoil
  dsimp only
  exact (((h.up (by decide)).setT ii jj (hN'.up (by decide))).setBS (k + 1) ic jc
    (hC'.up (by decide))).pushPos (mkEntry_sim (hs'.up (by decide)))

theorem relaxTerrainOnBody_sim (st0 : ℕ) {k ko : ℕ} (hk : k + 1 < 4) (hko : ko < 4) :
    Rep P 12 (relaxTerrainOnBody s st0 dh ii jj ic jc g body tol k ko)
      (relaxTerrainOnBody z st0 dh' ii jj ic jc g' body' tol' k ko) := by
  have hT := h.T ii jj hi
  have hB := h.B (k + 1) ic jc hc hk
  have hBo := h.B ko ic jc hc hko
  have hN := V.newHeight hg hdh hT hB
  have hC := (hT.add hB).sub hN
  have hf := and_sim (rfl : (st0 == 3) = (st0 == 3)) (hB.lt hBo) (hBo.lt_subTol hC)
  have hC' := V.ite (f := 5) hf hBo hC
  have hN' := V.ite (f := 3) hf ((hT.sub hBo).add hB) hN
  unfold relaxTerrainOnBody
  dsimp only
  exact ((((h.up (by decide)).setT ii jj (hN'.up (by decide))).setBS k ic jc
    (hB.up (by decide))).setBS (k + 1) ic jc
    (hC'.up (by decide))).pushPos (mkEntry_sim ((hC'.sub hB).up (by decide)))

theorem relaxTerrainOnTerrain_sim (st0 : ℕ) :
    Sim (relaxTerrainOnTerrain s st0 dh ii jj ic jc g tol)
      (relaxTerrainOnTerrain z st0 dh' ii jj ic jc g' tol') (Rep P 12) := by
  have hT := h.T ii jj hi
  have hTc := h.T ic jc hc
  have hN := V.newHeight hg hdh hT hTc
  have hC := (hT.add hTc).sub hN
  have plain := ((h.up (by decide : 1 ≤ 12)).setT ii jj (hN.up (by decide))).setT ic jc
    (hC.up (by decide))
  have under : ∀ {b : F} {b' : G}, V P 1 b b' → Rep P 12
      (if (s.terrain ii jj +ᶠ s.terrain ic jc -ᶠ newHeight g tol dh (s.terrain ii jj) (s.terrain ic jc)) <ᶠ b
        then (s.setT ii jj (newHeight g tol dh (s.terrain ii jj) (s.terrain ic jc))).setT ic jc
          (s.terrain ii jj +ᶠ s.terrain ic jc -ᶠ newHeight g tol dh (s.terrain ii jj) (s.terrain ic jc))
        else (s.setT ii jj (s.terrain ii jj +ᶠ s.terrain ic jc -ᶠ b)).setT ic jc b)
      (if (z.terrain ii jj +ᶠ z.terrain ic jc -ᶠ newHeight g' tol' dh' (z.terrain ii jj) (z.terrain ic jc)) <ᶠ b'
        then (z.setT ii jj (newHeight g' tol' dh' (z.terrain ii jj) (z.terrain ic jc))).setT ic jc
          (z.terrain ii jj +ᶠ z.terrain ic jc -ᶠ newHeight g' tol' dh' (z.terrain ii jj) (z.terrain ic jc))
        else (z.setT ii jj (z.terrain ii jj +ᶠ z.terrain ic jc -ᶠ b')).setT ic jc b') := by
    intro b b' hb
    exact Rep.ite (hC.lt hb) plain (((h.up (by decide)).setT ii jj
      (((hT.add hTc).sub hb).up (by decide))).setT ic jc (hb.up (by decide)))
  unfold relaxTerrainOnTerrain
  dsimp only
  split
  · exact plain
  · exact under (h.B 0 ic jc hc (by decide))
  · exact under (h.B 2 ic jc hc (by decide))
  · refine under ?_
    exact V.min (h.B 0 ic jc hc (by decide)) (h.B 2 ic jc hc (by decide))
  · exact Sim.error

theorem relaxUnstableTerrainCell_sim (status : ℕ) :
    Sim (relaxUnstableTerrainCell s status dh ii jj ic jc g body tol)
      (relaxUnstableTerrainCell z status dh' ii jj ic jc g' body' tol') (Rep P 12) := by
  unfold relaxUnstableTerrainCell
  split
  · exact relaxTerrainOnTerrain_sim h hg hdh hi hc _
  · exact relaxTerrainOnSoil_sim h hg hdh hi hc _ (by decide) (by decide)
  · exact relaxTerrainOnBody_sim h hg hdh hi hc _ (by decide) (by decide)
  · exact relaxTerrainOnSoil_sim h hg hdh hi hc _ (by decide) (by decide)
  · exact relaxTerrainOnBody_sim h hg hdh hi hc _ (by decide) (by decide)
  · exact h.up (by decide)

omit hg hdh hc in
theorem limitToEntry_sim (nn : ℕ) {ind : ℕ} (hind : ind + 1 < 4) {x : F} {y : G} (hv : V P 3 x y) :
    V P 4 (limitToEntry s nn ind ii jj x).1 (limitToEntry z nn ind ii jj y).1 ∧
    V P 3 (limitToEntry s nn ind ii jj x).2 (limitToEntry z nn ind ii jj y).2 := by
  have hS := h.S (ind + 1) ii jj hi hind
  have hE := h.entryH nn
  have hs := hS.sub hv
  unfold limitToEntry
  dsimp only
  rw [hE.lt hs]
  split
  · exact ⟨hE.up (by decide), (hS.sub hE).up (by decide)⟩
  · exact ⟨hs, hv⟩

end relax

theorem emptyColumn_sim {d : ℕ} {s : SimOut F} {z : SimOut G} (h : Rep P d s z) (nn ind : ℕ) (ii jj : ℤ) :
    Rep P d (emptyColumn s nn ind ii jj) (emptyColumn z nn ind ii jj) :=
  ((h.setBS ind ii jj V.zero).setBS (ind + 1) ii jj V.zero).setH nn V.zero

theorem takeFromColumn_sim {d : ℕ} {s : SimOut F} {z : SimOut G} (h : Rep P d s z) (nn : ℕ) {ind : ℕ}
    (hind : ind + 1 < 4) {ii jj : ℤ} (hi : z.InGrid ii jj)
    (hE : V P 1 (s.entryH nn) (z.entryH nn)) {x : F} {y : G} {u : F} {v : G} (hv : V P 3 x y)
    (hu : V P 4 u v) (hd : d ≤ 11 := by decide) :
    Rep P (d + 5) (takeFromColumn s nn ind ii jj x u tol) (takeFromColumn z nn ind ii jj y v tol') := by
  unfold takeFromColumn
  exact Rep.ite ((h.S ind ii jj hi (by omega)).lt_subTol hv (by omega))
    (((h.up (by omega)).setBS _ _ _ (hv.up (by omega))).setH nn ((hE.sub hu).up (by omega)))
    ((emptyColumn_sim h nn ind ii jj).up (by omega))

theorem takeFromColumn_inGrid (z : SimOut G) (nn ind : ℕ) (ii jj : ℤ) (x y t : G) (i j : ℤ) :
    (takeFromColumn z nn ind ii jj x y t).InGrid i j ↔ z.InGrid i j := by
  unfold takeFromColumn emptyColumn
  split <;> rfl

section relax2

variable {s : SimOut F} {z : SimOut G} (h : Rep P 1 s z) {g : Grid F} {g' : Grid G}
  (hg : GRep P g g') {dh : F} {dh' : G} (hdh : V P 1 dh dh') {body : Body F} {body' : Body G}
  {ii jj ic jc : ℤ} (hi : z.InGrid ii jj) (hc : z.InGrid ic jc) (nn : ℕ) {ind : ℕ}
  (hind : ind + 1 < 4)

include h hg hdh hi hc hind

theorem relaxBodyOnTerrain_sim (st0 : ℕ) :
    Rep P 12 (relaxBodyOnTerrain s st0 dh nn ii jj ind ic jc g tol)
      (relaxBodyOnTerrain z st0 dh' nn ii jj ind ic jc g' tol') := by
  have hT := h.T ic jc hc
  have hS := h.S (ind + 1) ii jj hi hind
  have hL := limitToEntry_sim h hi nn hind (V.newHeight hg hdh hS hT)
  have h0 := h.B 0 ic jc hc (by decide)
  have h2 := h.B 2 ic jc hc (by decide)
  have hC := hT.add hL.1
  unfold relaxBodyOnTerrain
  dsimp only
  generalize limitToEntry s nn ind ii jj _ = l at *
  generalize limitToEntry z nn ind ii jj _ = m at *
  have key : ∀ (p q : F) (p' q' : G), V P 4 p p' → V P 5 q q' →
      Rep P 12 (if s.bodySoil ind ii jj <ᶠ s.bodySoil (ind + 1) ii jj -ᶠ p -ᶠ tol then
        ((s.setT ic jc q).setBS (ind + 1) ii jj (s.bodySoil (ind + 1) ii jj -ᶠ p)).setH nn (s.entryH nn -ᶠ p)
        else emptyColumn (s.setT ic jc (s.terrain ic jc +ᶠ p)) nn ind ii jj)
      (if z.bodySoil ind ii jj <ᶠ z.bodySoil (ind + 1) ii jj -ᶠ p' -ᶠ tol' then
        ((z.setT ic jc q').setBS (ind + 1) ii jj (z.bodySoil (ind + 1) ii jj -ᶠ p')).setH nn (z.entryH nn -ᶠ p')
        else emptyColumn (z.setT ic jc (z.terrain ic jc +ᶠ p')) nn ind ii jj) := by
    intro p q p' q' hp hq
    exact Rep.ite ((h.S ind ii jj hi (by omega)).lt_subTol (hS.sub hp))
      ((((h.up (by decide)).setT ic jc (hq.up (by decide))).setBS _ _ _
        ((hS.sub hp).up (by decide))).setH nn (((h.entryH nn).sub hp).up (by decide)))
      (emptyColumn_sim ((h.up (by decide)).setT ic jc ((hT.add hp).up (by decide))) nn ind ii jj)
  rw [h0.lt_subTol hC, h2.lt_subTol hC]
  split
  · exact key _ _ _ _ ((h0.sub hT).up (by decide)) (h0.up (by decide))
  · split
    · exact key _ _ _ _ ((h2.sub hT).up (by decide)) (h2.up (by decide))
    · exact key _ _ _ _ hL.1 hC

/-- States and queued entries -/
def QRep (P : Pair F G cell tol cell' tol' N C) (d : ℕ) (a : SimOut F × List (BodySoil F))
    (b : SimOut G × List (BodySoil G)) : Prop :=
  Rep P d a.1 b.1 ∧ List.Forall₂ (ERep P d) a.2 b.2

theorem relaxBodyOnSoil1_sim {k : ℕ} (hk : k + 1 < 4) :
    QRep P 12 (relaxBodyOnSoil1 s dh nn ii jj ind ic jc g body tol k)
      (relaxBodyOnSoil1 z dh' nn ii jj ind ic jc g' body' tol' k) := by
  have hS := h.S (ind + 1) ii jj hi hind
  have hSc := h.S (k + 1) ic jc hc hk
  have hL := limitToEntry_sim h hi nn hind (V.newHeight hg hdh hS hSc)
  unfold relaxBodyOnSoil1
  dsimp only
  generalize limitToEntry s nn ind ii jj _ = l at *
  generalize limitToEntry z nn ind ii jj _ = m at *
  have ht := takeFromColumn_sim h nn hind hi (h.entryH nn) hL.2 hL.1
  exact ⟨(ht.up (by decide)).setBS _ _ _
    (((ht.S (k + 1) ic jc ((takeFromColumn_inGrid ..).mpr hc) hk).add hL.1).up (by decide)),
    .cons (mkEntry_sim (hL.1.up (by decide))) .nil⟩

theorem relaxBodyOnBody1_sim {k : ℕ} (hk : k + 1 < 4) :
    QRep P 12 (relaxBodyOnBody1 s dh nn ii jj ind ic jc g body tol k)
      (relaxBodyOnBody1 z dh' nn ii jj ind ic jc g' body' tol' k) := by
  have hS := h.S (ind + 1) ii jj hi hind
  have hBc := h.B (k + 1) ic jc hc hk
  have hL := limitToEntry_sim h hi nn hind (V.newHeight hg hdh hS hBc)
  unfold relaxBodyOnBody1
  dsimp only
  generalize limitToEntry s nn ind ii jj _ = l at *
  generalize limitToEntry z nn ind ii jj _ = m at *
  have ht := takeFromColumn_sim (h.setBS k ic jc hBc) nn hind hi (h.entryH nn) hL.2 hL.1
  exact ⟨(ht.up (by decide)).setBS _ _ _
    (((ht.B (k + 1) ic jc ((takeFromColumn_inGrid ..).mpr hc) hk).add hL.1).up (by decide)),
    .cons (mkEntry_sim (hL.1.up (by decide))) .nil⟩

theorem relaxBodyOnSoil2_sim {k ko : ℕ} (hk : k + 1 < 4) (hko : ko < 4) {o o' : Bool} (ho : o = o') :
    QRep P 12 (relaxBodyOnSoil2 s dh nn ii jj ind ic jc g body tol k ko o)
      (relaxBodyOnSoil2 z dh' nn ii jj ind ic jc g' body' tol' k ko o') := by
  subst ho
  have hS := h.S (ind + 1) ii jj hi hind
  have hS0 := h.S ind ii jj hi (by omega)
  have hSc := h.S (k + 1) ic jc hc hk
  have hBo := h.B ko ic jc hc hko
  have hE := h.entryH nn
  have hL := limitToEntry_sim h hi nn hind (V.newHeight hg hdh hS hSc)
  unfold relaxBodyOnSoil2
  dsimp only
  generalize limitToEntry s nn ind ii jj _ = l at *
  generalize limitToEntry z nn ind ii jj _ = m at *
  obtain ⟨a, b⟩ := l
  obtain ⟨a', b'⟩ := m
  obtain ⟨hL1, hL2⟩ := hL
  dsimp only at hL1 hL2 ⊢
  have hC := hSc.add hL1
  have fin : ∀ (x : SimOut F) (y : SimOut G) (u : F) (v : G), Rep P 12 x y → V P 4 u v →
      QRep P 12 (x, if tol <ᶠ u then [mkEntry x g body k ic jc u] else [])
        (y, if tol' <ᶠ v then [mkEntry y g' body' k ic jc v] else []) := by
    intro x y u v hxy huv
    refine ⟨hxy, ?_⟩
    dsimp only
    rw [huv.tol_lt]
    split
    · exact .cons (mkEntry_sim (huv.up (by decide))) .nil
    · exact .nil
  have h' := h.up (by decide : 1 ≤ 12)
  rw [hS0.lt_subTol hL2, hBo.lt_subTol hC]
  split
  · split
    · have hn := hBo.sub hSc
      exact fin _ _ _ _ (((h'.setBS (ind + 1) ii jj ((hS.sub hn).up (by decide))).setBS (k + 1) ic jc
        (hBo.up (by decide))).setH nn ((hE.sub hn).up (by decide))) (hn.up (by decide))
    · exact fin _ _ _ _ (((h'.setBS (k + 1) ic jc (hC.up (by decide))).setBS (ind + 1) ii jj
        (hL2.up (by decide))).setH nn ((hE.sub hL1).up (by decide))) hL1
  · exact fin _ _ _ _ (emptyColumn_sim (h'.setBS (k + 1) ic jc (hC.up (by decide))) nn ind ii jj) hL1

theorem relaxBodyOnBody2_sim {k ko : ℕ} (hk : k + 1 < 4) (hko : ko < 4) {o o' : Bool} (ho : o = o')
    (w : Bool) :
    QRep P 12 (relaxBodyOnBody2 s dh nn ii jj ind ic jc g body tol k ko o w)
      (relaxBodyOnBody2 z dh' nn ii jj ind ic jc g' body' tol' k ko o' w) := by
  subst ho
  have hS := h.S (ind + 1) ii jj hi hind
  have hBc := h.B (k + 1) ic jc hc hk
  have hBo := h.B ko ic jc hc hko
  have hE := h.entryH nn
  have hL := limitToEntry_sim h hi nn hind (V.newHeight hg hdh hS hBc)
  unfold relaxBodyOnBody2
  dsimp only
  generalize limitToEntry s nn ind ii jj _ = l at *
  generalize limitToEntry z nn ind ii jj _ = m at *
  obtain ⟨a, b⟩ := l
  obtain ⟨a', b'⟩ := m
  obtain ⟨hL1, hL2⟩ := hL
  dsimp only at hL1 hL2 ⊢
  have hC := hBc.add hL1
  have h1 := h.setBS k ic jc hBc
  have hS0 := h1.S ind ii jj hi (by omega)
  have hS1 := h1.S (ind + 1) ii jj hi hind
  have fin : ∀ (x : SimOut F) (y : SimOut G) (u : F) (v : G), Rep P 12 x y → V P 4 u v →
      QRep P 12 (x, [mkEntry x g body k ic jc u]) (y, [mkEntry y g' body' k ic jc v]) :=
    fun x y u v hxy huv => ⟨hxy, .cons (mkEntry_sim (huv.up (by decide))) .nil⟩
  have h' := h1.up (by decide : 1 ≤ 12)
  have hBo' : V P 1 ((s.setBS k ic jc (s.body (k + 1) ic jc)).body ko ic jc)
      ((z.setBS k ic jc (z.body (k + 1) ic jc)).body ko ic jc) := hBo
  rw [hS0.lt_subTol hL2, hBo'.lt_subTol hC]
  split
  · split
    · split
      · have hn := hBo.sub hBc
        exact fin _ _ _ _ (((h'.setBS (ind + 1) ii jj ((hS1.sub hn).up (by decide))).setBS (k + 1) ic jc
          (hBo.up (by decide))).setH nn ((hE.sub hn).up (by decide))) (hn.up (by decide))
      · exact fin _ _ _ _ (((h'.setBS (k + 1) ic jc (hC.up (by decide))).setBS (ind + 1) ii jj
          (hL2.up (by decide))).setH nn ((hE.sub hL1).up (by decide))) hL1
    · refine fin _ _ _ _ (emptyColumn_sim (h'.setBS (k + 1) ic jc ?_) nn ind ii jj) hL1
      exact V.ite rfl ((hBc.add hS1).sub hS0) hC
  · have h2 := h1.setBS
    refine fin _ _ _ _ ((takeFromColumn_sim ((h1.up (by decide : 1 ≤ 5)).setBS (k + 1) ic jc hC) nn
      hind hi hE hL2 hL1).up (by decide)) hL1

theorem relaxUnstableBodyCell_sim (status : ℕ) :
    QRep P 12 (relaxUnstableBodyCell s status dh nn ii jj ind ic jc g body tol)
      (relaxUnstableBodyCell z status dh' nn ii jj ind ic jc g' body' tol') := by
  have hs := (h.B 2 ic jc hc (by decide)).lt (h.B 0 ic jc hc (by decide))
  unfold relaxUnstableBodyCell
  dsimp only
  split
  · exact ⟨relaxBodyOnTerrain_sim h hg hdh hi hc nn hind _, .nil⟩
  · exact relaxBodyOnSoil1_sim h hg hdh hi hc nn hind (by decide)
  · exact relaxBodyOnBody1_sim h hg hdh hi hc nn hind (by decide)
  · exact relaxBodyOnSoil1_sim h hg hdh hi hc nn hind (by decide)
  · exact relaxBodyOnBody1_sim h hg hdh hi hc nn hind (by decide)
  · exact relaxBodyOnSoil2_sim h hg hdh hi hc nn hind (by decide) (by decide) hs
  · exact relaxBodyOnBody2_sim h hg hdh hi hc nn hind (by decide) (by decide) hs _
  · exact relaxBodyOnSoil2_sim h hg hdh hi hc nn hind (by decide) (by decide) (by rw [hs])
  · exact relaxBodyOnBody2_sim h hg hdh hi hc nn hind (by decide) (by decide) (by rw [hs]) _
  · exact ⟨h.up (by decide), .nil⟩

end relax2

end Soil
