import Verif.Proof.Chart

/-! # Relaxation of corresponding states -/

namespace Soil

open FOps

variable {F : Type} [FOps F] {E : Prop} {c : Chart} {g g' : Grid F} {b b' : Body F} {s s' : SimOut F}

theorem mkEntry_like (S : SameScene c g g' b b') {i j i' j' : ℤ} (hi : s.InGrid i j) (hi' : s'.InGrid i' j')
    (e : c.on (i, j) = (i', j')) (A : SameCol s s' i j i' j') (k : ℕ) (h : F) :
    mkEntry s' g' b' k i' j' h = c.entry (mkEntry s g b k i j h) := by
  have e1 : (c.on (i, j)).1 = i' := by rw [e]
  have e2 : (c.on (i, j)).2 = j' := by rw [e]
  have := S.frame i j (s.body (k + 1) i j) hi.1 hi.2.2.1 (by rw [e1]; exact hi'.1) (by rw [e2]; exact hi'.2.2.1)
  rw [e1, e2] at this
  simp only [mkEntry, Chart.entry, A.body, this, e1, e2]

theorem newHeight_like (S : SameScene c g g' b b') (tol dh x y : F) : newHeight g' tol dh x y = newHeight g tol dh x y := by
  simp only [newHeight, S.cellZ]

theorem checkUnstableTerrainCell_like {i j i' j' : ℤ} (A : SameCol s s' i j i' j') (h tol : F) :
    checkUnstableTerrainCell s' i' j' h tol = checkUnstableTerrainCell s i j h tol := by
  simp only [checkUnstableTerrainCell, A.terrain, A.bodyAbs, A.body, A.bodySoil, A.soilPres]

theorem checkUnstableBodyCell_like {i j i' j' a b a' b' : ℤ} (A : SameCol s s' i j i' j') (B : SameCol s s' a b a' b')
    (k : ℕ) (h tol : F) :
    checkUnstableBodyCell s' i' j' k a' b' h tol = checkUnstableBodyCell s i j k a b h tol := by
  simp only [checkUnstableBodyCell, A.body, B.terrain, B.bodyAbs, B.body, B.bodySoil, B.soilPres]

section pair

variable {i j i' j' a d a' d' : ℤ} (S : SameScene c g g' b b') (h : Like E c s s')
  (hi : s.InGrid i j) (hi' : s'.InGrid i' j') (e : c.on (i, j) = (i', j'))
  (ha : s.InGrid a d) (ha' : s'.InGrid a' d') (f : c.on (a, d) = (a', d'))

include S h hi hi' e ha ha' f

theorem relaxTerrainOnSoil_like (st : ℕ) (dh tol : F) (k ko : ℕ) :
    Like E c (relaxTerrainOnSoil s st dh i j a d g b tol k ko) (relaxTerrainOnSoil s' st dh i' j' a' d' g' b' tol k ko) := by
  have A := h.col hi hi' e
  have B := h.col ha ha' f
  simp only [relaxTerrainOnSoil, newHeight_like S, A.terrain, B.bodySoil, B.body]
  exact ((h.setT e _).setBS f _ _).pushPos
    (mkEntry_like S (s := (s.setT _ _ _).setBS _ _ _ _) (s' := (s'.setT _ _ _).setBS _ _ _ _) ha ha' f
      (((h.setT e _).setBS f _ _).col ha ha' f) _ _)

theorem relaxTerrainOnBody_like (st : ℕ) (dh tol : F) (k ko : ℕ) :
    Like E c (relaxTerrainOnBody s st dh i j a d g b tol k ko) (relaxTerrainOnBody s' st dh i' j' a' d' g' b' tol k ko) := by
  have A := h.col hi hi' e
  have B := h.col ha ha' f
  simp only [relaxTerrainOnBody, newHeight_like S, A.terrain, B.body, SimOut.setT, SimOut.setBS]
  exact (((h.setT e _).setBS f _ _).setBS f _ _).pushPos
    (mkEntry_like S (s := ((s.setT _ _ _).setBS _ _ _ _).setBS _ _ _ _) (s' := ((s'.setT _ _ _).setBS _ _ _ _).setBS _ _ _ _)
      ha ha' f ((((h.setT e _).setBS f _ _).setBS f _ _).col ha ha' f) _ _)

theorem relaxTerrainOnTerrain_like (st : ℕ) (dh tol : F) :
    Corr E (Like E c) (relaxTerrainOnTerrain s st dh i j a d g tol) (relaxTerrainOnTerrain s' st dh i' j' a' d' g' tol) := by
  have A := h.col hi hi' e
  have B := h.col ha ha' f
  unfold relaxTerrainOnTerrain
  simp only [newHeight_like S, A.terrain, B.terrain, B.body]
  split
  · exact Corr.ok ((h.setT e _).setT f _)
  · refine Corr.ok ?_
    split <;> exact (h.setT e _).setT f _
  · refine Corr.ok ?_
    split <;> exact (h.setT e _).setT f _
  · refine Corr.ok ?_
    split <;> exact (h.setT e _).setT f _
  · exact Corr.err

theorem relaxUnstableTerrainCell_like (st : ℕ) (dh tol : F) :
    Corr E (Like E c) (relaxUnstableTerrainCell s st dh i j a d g b tol)
      (relaxUnstableTerrainCell s' st dh i' j' a' d' g' b' tol) := by
  unfold relaxUnstableTerrainCell
  split
  · exact relaxTerrainOnTerrain_like S h hi hi' e ha ha' f _ _ _
  · exact Corr.ok (relaxTerrainOnSoil_like S h hi hi' e ha ha' f _ _ _ _ _)
  · exact Corr.ok (relaxTerrainOnBody_like S h hi hi' e ha ha' f _ _ _ _ _)
  · exact Corr.ok (relaxTerrainOnSoil_like S h hi hi' e ha ha' f _ _ _ _ _)
  · exact Corr.ok (relaxTerrainOnBody_like S h hi hi' e ha ha' f _ _ _ _ _)
  · exact Corr.ok h

end pair

theorem Like.entryH (h : Like E c s s') (n : ℕ) : s'.entryH n = s.entryH n := by
  unfold SimOut.entryH
  rw [h.entries, List.getElem?_map]
  cases s.bodySoilPos[n]? <;> rfl

theorem entryH_setBS (s : SimOut F) (n k : ℕ) (i j : ℤ) (v : F) : (s.setBS k i j v).entryH n = s.entryH n := rfl

theorem body_setBS (s : SimOut F) (k : ℕ) (i j : ℤ) (v : F) : (s.setBS k i j v).body = s.body := rfl

theorem emptyColumn_like (h : Like E c s s') {i j i' j' : ℤ} (e : c.on (i, j) = (i', j')) (n k : ℕ) :
    Like E c (emptyColumn s n k i j) (emptyColumn s' n k i' j') :=
  ((h.setBS e _ _).setBS e _ _).setH _ _

theorem takeFromColumn_like (h : Like E c s s') {i j i' j' : ℤ} (hi : s.InGrid i j) (hi' : s'.InGrid i' j')
    (e : c.on (i, j) = (i', j')) (n k : ℕ) (x y tol : F) :
    Like E c (takeFromColumn s n k i j x y tol) (takeFromColumn s' n k i' j' x y tol) := by
  have A := h.col hi hi' e
  simp only [takeFromColumn, A.bodySoil, h.entryH]
  split
  · exact (h.setBS e _ _).setH _ _
  · exact emptyColumn_like h e _ _

theorem takeFromColumn_grid (s : SimOut F) (n k : ℕ) (i j : ℤ) (x y tol : F) (a d : ℤ) :
    (takeFromColumn s n k i j x y tol).InGrid a d ↔ s.InGrid a d := by
  unfold takeFromColumn emptyColumn
  split <;> exact Iff.rfl

theorem limitToEntry_like (h : Like E c s s') {i j i' j' : ℤ} (hi : s.InGrid i j) (hi' : s'.InGrid i' j')
    (e : c.on (i, j) = (i', j')) (n k : ℕ) (x : F) : limitToEntry s' n k i' j' x = limitToEntry s n k i j x := by
  have A := h.col hi hi' e
  simp only [limitToEntry, A.bodySoil, h.entryH]

/-- corresponding states and queued entries -/
def LikeQ (E : Prop) (c : Chart) (x x' : SimOut F × List (BodySoil F)) : Prop :=
  Like E c x.1 x'.1 ∧ x'.2 = x.2.map c.entry

section pair

variable {i j i' j' a d a' d' : ℤ} (S : SameScene c g g' b b') (h : Like E c s s')
  (hi : s.InGrid i j) (hi' : s'.InGrid i' j') (e : c.on (i, j) = (i', j'))
  (ha : s.InGrid a d) (ha' : s'.InGrid a' d') (f : c.on (a, d) = (a', d'))

include S h hi hi' e ha ha' f

theorem relaxBodyOnTerrain_like (st : ℕ) (dh tol : F) (n k : ℕ) :
    Like E c (relaxBodyOnTerrain s st dh n i j k a d g tol) (relaxBodyOnTerrain s' st dh n i' j' k a' d' g' tol) := by
  have A := h.col hi hi' e
  have B := h.col ha ha' f
  simp only [relaxBodyOnTerrain, newHeight_like S, A.bodySoil, B.terrain, B.body, limitToEntry_like h hi hi' e, h.entryH]
  split <;> (try split) <;> (try split) <;>
    first
    | exact ((h.setT f _).setBS e _ _).setH _ _
    | exact emptyColumn_like (h.setT f _) e _ _

theorem relaxBodyOnSoil1_like (dh tol : F) (n k m : ℕ) :
    LikeQ E c (relaxBodyOnSoil1 s dh n i j k a d g b tol m) (relaxBodyOnSoil1 s' dh n i' j' k a' d' g' b' tol m) := by
  have A := h.col hi hi' e
  have B := h.col ha ha' f
  simp only [relaxBodyOnSoil1, newHeight_like S, A.bodySoil, B.bodySoil, limitToEntry_like h hi hi' e]
  generalize limitToEntry s n k i j _ = x
  have h1 := takeFromColumn_like h hi hi' e n k x.2 x.1 tol
  have ga := (takeFromColumn_grid s n k i j x.2 x.1 tol a d).mpr ha
  have ga' := (takeFromColumn_grid s' n k i' j' x.2 x.1 tol a' d').mpr ha'
  rw [(h1.col ga ga' f).bodySoil]
  have h2 := h1.setBS f (m + 1) ((takeFromColumn s n k i j x.2 x.1 tol).bodySoil (m + 1) a d +ᶠ x.1)
  refine ⟨h2, ?_⟩
  simp only [List.map_cons, List.map_nil]
  congr 1
  exact mkEntry_like S (s := SimOut.setBS _ _ _ _ _) (s' := SimOut.setBS _ _ _ _ _) ga ga' f (h2.col ga ga' f) _ _

theorem relaxBodyOnBody1_like (dh tol : F) (n k m : ℕ) :
    LikeQ E c (relaxBodyOnBody1 s dh n i j k a d g b tol m) (relaxBodyOnBody1 s' dh n i' j' k a' d' g' b' tol m) := by
  have A := h.col hi hi' e
  have B := h.col ha ha' f
  simp only [relaxBodyOnBody1, newHeight_like S, A.bodySoil, B.body, limitToEntry_like h hi hi' e]
  generalize limitToEntry s n k i j _ = x
  have h0 := h.setBS f m (s.body (m + 1) a d)
  have h1 := takeFromColumn_like h0 hi hi' e n k x.2 x.1 tol
  have ga := (takeFromColumn_grid (s.setBS m a d (s.body (m + 1) a d)) n k i j x.2 x.1 tol a d).mpr ha
  have ga' := (takeFromColumn_grid (s'.setBS m a' d' (s.body (m + 1) a d)) n k i' j' x.2 x.1 tol a' d').mpr ha'
  rw [(h1.col ga ga' f).body]
  have h2 := h1.setBS f (m + 1)
    ((takeFromColumn (s.setBS m a d (s.body (m + 1) a d)) n k i j x.2 x.1 tol).body (m + 1) a d +ᶠ x.1)
  refine ⟨h2, ?_⟩
  simp only [List.map_cons, List.map_nil]
  congr 1
  exact mkEntry_like S (s := SimOut.setBS _ _ _ _ _) (s' := SimOut.setBS _ _ _ _ _) ga ga' f (h2.col ga ga' f) _ _

theorem relaxBodyOnSoil2_like (dh tol : F) (n k m mo : ℕ) (ob : Bool) :
    LikeQ E c (relaxBodyOnSoil2 s dh n i j k a d g b tol m mo ob)
      (relaxBodyOnSoil2 s' dh n i' j' k a' d' g' b' tol m mo ob) := by
  have A := h.col hi hi' e
  have B := h.col ha ha' f
  have fin : ∀ (t t' : SimOut F), Like E c t t' → t.InGrid a d → t'.InGrid a' d' → ∀ v : F,
      LikeQ E c (t, if tol <ᶠ v then [mkEntry t g b m a d v] else [])
        (t', if tol <ᶠ v then [mkEntry t' g' b' m a' d' v] else []) := by
    intro t t' ht gt gt' v
    refine ⟨ht, ?_⟩
    dsimp only
    split
    · simp only [List.map_cons, List.map_nil]
      rw [mkEntry_like S gt gt' f (ht.col gt gt' f)]
    · rfl
  simp only [relaxBodyOnSoil2, newHeight_like S, A.bodySoil, B.bodySoil, B.body, limitToEntry_like h hi hi' e, h.entryH, entryH_setBS, body_setBS]
  generalize limitToEntry s n k i j _ = x
  split
  · split
    · have h1 := h.setBS e (k + 1) (s.bodySoil (k + 1) i j -ᶠ (s.body mo a d -ᶠ s.bodySoil (m + 1) a d))
      have h2 := h1.setBS f (m + 1) (s.body mo a d)
      have key := fin _ _ (h2.setH n (s.entryH n -ᶠ (s.body mo a d -ᶠ s.bodySoil (m + 1) a d))) ha ha'
        (s.body mo a d -ᶠ s.bodySoil (m + 1) a d)
      exact key
    · exact fin _ _ (((h.setBS f _ _).setBS e _ _).setH _ _) ha ha' _
  · exact fin _ _ (emptyColumn_like (h.setBS f _ _) e _ _) ha ha' _

theorem relaxBodyOnBody2_like (dh tol : F) (n k m mo : ℕ) (ob wc : Bool) :
    LikeQ E c (relaxBodyOnBody2 s dh n i j k a d g b tol m mo ob wc)
      (relaxBodyOnBody2 s' dh n i' j' k a' d' g' b' tol m mo ob wc) := by
  have A := h.col hi hi' e
  have B := h.col ha ha' f
  have fin : ∀ (t t' : SimOut F), Like E c t t' → t.InGrid a d → t'.InGrid a' d' → ∀ v : F,
      LikeQ E c (t, [mkEntry t g b m a d v]) (t', [mkEntry t' g' b' m a' d' v]) := by
    intro t t' ht gt gt' v
    refine ⟨ht, ?_⟩
    simp only [List.map_cons, List.map_nil]
    rw [mkEntry_like S gt gt' f (ht.col gt gt' f)]
  simp only [relaxBodyOnBody2, newHeight_like S, A.bodySoil, B.body, limitToEntry_like h hi hi' e]
  generalize limitToEntry s n k i j _ = x
  have h1 := h.setBS f m (s.body (m + 1) a d)
  generalize hs1 : s.setBS m a d (s.body (m + 1) a d) = s1 at h1 ⊢
  generalize hs1' : s'.setBS m a' d' (s.body (m + 1) a d) = s1' at h1 ⊢
  have hi1 : s1.InGrid i j := by rw [← hs1]; exact hi
  have hi1' : s1'.InGrid i' j' := by rw [← hs1']; exact hi'
  have ha1 : s1.InGrid a d := by rw [← hs1]; exact ha
  have ha1' : s1'.InGrid a' d' := by rw [← hs1']; exact ha'
  have A1 := h1.col hi1 hi1' e
  have B1 := h1.col ha1 ha1' f
  simp only [A1.bodySoil, B1.body, h1.entryH, entryH_setBS, body_setBS]
  split
  · split
    · split
      · have h2 := h1.setBS e (k + 1) (s1.bodySoil (k + 1) i j -ᶠ (s1.body mo a d -ᶠ s1.body (m + 1) a d))
        have h3 := h2.setBS f (m + 1) (s1.body mo a d)
        have key := fin _ _ (h3.setH n (s1.entryH n -ᶠ (s1.body mo a d -ᶠ s1.body (m + 1) a d))) ha1 ha1'
          (s1.body mo a d -ᶠ s1.body (m + 1) a d)
        exact key
      · exact fin _ _ (((h1.setBS f _ _).setBS e _ _).setH _ _) ha1 ha1' _
    · exact fin _ _ (emptyColumn_like (h1.setBS f _ _) e _ _) ha1 ha1' _
  · refine fin _ _ (takeFromColumn_like (h1.setBS f _ _) hi1 hi1' e _ _ _ _ _) ?_ ?_ _
    · exact (takeFromColumn_grid _ _ _ _ _ _ _ _ _ _).mpr ha1
    · exact (takeFromColumn_grid _ _ _ _ _ _ _ _ _ _).mpr ha1'

theorem relaxUnstableBodyCell_like (st : ℕ) (dh tol : F) (n k : ℕ) :
    LikeQ E c (relaxUnstableBodyCell s st dh n i j k a d g b tol)
      (relaxUnstableBodyCell s' st dh n i' j' k a' d' g' b' tol) := by
  have B := h.col ha ha' f
  simp only [relaxUnstableBodyCell, B.body]
  split
  · exact ⟨relaxBodyOnTerrain_like S h hi hi' e ha ha' f _ _ _ _ _, rfl⟩
  · exact relaxBodyOnSoil1_like S h hi hi' e ha ha' f _ _ _ _ _
  · exact relaxBodyOnBody1_like S h hi hi' e ha ha' f _ _ _ _ _
  · exact relaxBodyOnSoil1_like S h hi hi' e ha ha' f _ _ _ _ _
  · exact relaxBodyOnBody1_like S h hi hi' e ha ha' f _ _ _ _ _
  · exact relaxBodyOnSoil2_like S h hi hi' e ha ha' f _ _ _ _ _ _ _
  · exact relaxBodyOnBody2_like S h hi hi' e ha ha' f _ _ _ _ _ _ _ _
  · exact relaxBodyOnSoil2_like S h hi hi' e ha ha' f _ _ _ _ _ _ _
  · exact relaxBodyOnBody2_like S h hi hi' e ha ha' f _ _ _ _ _ _ _ _
  · exact ⟨h, rfl⟩

end pair

/-! ## Loops -/

theorem relaxTerrainDirs_like (S : SameScene c g g' b b') (dh tol : F) {i j i' j' : ℤ} (e : c.on (i, j) = (i', j'))
    (ds : List (ℤ × ℤ)) (s s' : SimOut F) (h : Like E c s s') :
    Corr E (Like E c) (relaxTerrainDirs g b dh tol i j ds s) (relaxTerrainDirs g' b' dh tol i' j' (ds.map c.lin) s') := by
  induction ds generalizing s s' with
  | nil => exact Corr.ok h
  | cons d ds ih =>
    have f : c.on (i + d.1, j + d.2) = (i' + (c.lin d).1, j' + (c.lin d).2) := by
      rw [c.on_add1, e]
    simp only [relaxTerrainDirs, List.map_cons]
    refine Corr.guard (fun ⟨h1, h2⟩ => ?_) fun ⟨h1, h2⟩ ⟨h1', h2'⟩ => ?_
    · rcases h.grid' e h1 with x | x
      · rcases h.grid' f h2 with y | y
        · exact .inl ⟨x, y⟩
        · exact .inr y
      · exact .inr x
    · rw [(h.col h1 h1' e).terrain, checkUnstableTerrainCell_like (h.col h2 h2' f)]
      split
      · exact ih s s' h
      · exact Corr.bind (relaxUnstableTerrainCell_like S (h.setEq false) h1 h1' e h2 h2' f _ _ _) fun x x' hx =>
          ih x x' hx

theorem relaxBodyDirs_like (S : SameScene c g g' b b') (dh tol : F) (n k : ℕ) {i j i' j' : ℤ}
    (e : c.on (i, j) = (i', j')) (ds : List (ℤ × ℤ)) (s s' : SimOut F) (q q' : List (BodySoil F))
    (h : Like E c s s') (hq : q' = q.map c.entry) :
    Corr E (LikeQ E c) (relaxBodyDirs g b dh tol n i j k ds s q)
      (relaxBodyDirs g' b' dh tol n i' j' k (ds.map c.lin) s' q') := by
  induction ds generalizing s s' q q' with
  | nil => exact Corr.ok ⟨h, hq⟩
  | cons d ds ih =>
    have f : c.on (i + d.1, j + d.2) = (i' + (c.lin d).1, j' + (c.lin d).2) := by
      rw [c.on_add1, e]
    simp only [relaxBodyDirs, List.map_cons]
    refine Corr.guard (fun ⟨h1, h2, h3⟩ => ?_) fun ⟨h1, h2, h3⟩ ⟨h1', h2', _⟩ => ?_
    · rcases h.grid' e h1 with x | x
      · rcases h.grid' f h2 with y | y
        · exact .inl ⟨x, y, h3⟩
        · exact .inr y
      · exact .inr x
    · rw [(h.col h1 h1' e).bodySoil, checkUnstableBodyCell_like (h.col h1 h1' e) (h.col h2 h2' f)]
      split
      · exact ih s s' q q' h hq
      · have := relaxUnstableBodyCell_like S (h.setEq false) h1 h1' e h2 h2' f
          (checkUnstableBodyCell s i j k (i + d.1) (j + d.2) (s.bodySoil (k + 1) i j -ᶠ dh) tol) dh tol n k
        exact ih _ _ _ _ this.1 (by rw [this.2, hq, List.map_append])

/-- The second result corresponds, whatever random numbers follow the ones used. -/
def CorrR {α β : Type} (E : Prop) (c : Chart) (R : α → β → Prop) (f : Rng → M (α × Rng)) (f' : Rng → M (β × Rng)) : Prop :=
  ∀ r x r1, f r = .ok (x, r1) →
    (∃ x', R x x' ∧ ∀ q1, c.Rn r1 q1 → ∃ q, c.Rn r q ∧ f' q = .ok (x', q1)) ∨ (E ∧ ∃ q, c.Rn r q ∧ f' q = .error .oob)

theorem relaxTerrainCells_like (S : SameScene c g g' b b') (dh tol : F) (cs : List (ℤ × ℤ)) (ds ds' : List (ℤ × ℤ))
    (hd : c.Lst (ds.map c.lin) ds') (s s' : SimOut F) (h : Like E c s s') :
    CorrR E c (Like E c) (relaxTerrainCells g b dh tol cs ds s) (relaxTerrainCells g' b' dh tol (cs.map c.on) ds' s') := by
  induction cs generalizing ds ds' s s' with
  | nil =>
    intro r x r1 hr
    cases hr
    exact .inl ⟨s', h, fun q1 hq => ⟨q1, hq, rfl⟩⟩
  | cons p cs ih =>
    intro r x r1 hr
    simp only [relaxTerrainCells, List.map_cons] at hr ⊢
    obtain ⟨s1, h1, h2⟩ := bind_eq_ok.mp hr
    rcases relaxTerrainDirs_like S dh tol (i := p.1) (j := p.2) (i' := (c.on p).1) (j' := (c.on p).2) rfl
      (shuffle ds r).1 s s' h s1 h1 with ⟨s1', e1, l1⟩ | ⟨hE, e1⟩
    · rcases ih (shuffle ds r).1 ((shuffle ds r).1.map c.lin) (Chart.Lst.refl c _) s1 s1' l1
        (shuffle ds r).2 x r1 h2 with ⟨x', hx, res⟩ | ⟨hE, q2, hq2, res⟩
      · refine .inl ⟨x', hx, fun q1 hq => ?_⟩
        obtain ⟨q2, hq2, res⟩ := res q1 hq
        obtain ⟨q, hqr, hsh⟩ := shuffle_like c c.lin ds ds' hd r q2 hq2
        refine ⟨q, hqr, ?_⟩
        rw [hsh]
        dsimp only
        rw [e1]
        exact res
      · obtain ⟨q, hqr, hsh⟩ := shuffle_like c c.lin ds ds' hd r q2 hq2
        refine .inr ⟨hE, q, hqr, ?_⟩
        rw [hsh]
        dsimp only
        rw [e1]
        exact res
    · obtain ⟨q, hqr, hsh⟩ := shuffle_like c c.lin ds ds' hd r _ (Chart.Rn.refl c _)
      refine .inr ⟨hE, q, hqr, ?_⟩
      rw [hsh]
      dsimp only
      rw [e1]
      rfl

theorem relaxBodyEntries_like (S : SameScene c g g' b b') (dh tol : F) (count nn : ℕ) (ds ds' : List (ℤ × ℤ))
    (hd : c.Lst (ds.map c.lin) ds') (s s' : SimOut F) (q q' : List (BodySoil F)) (h : Like E c s s')
    (hq : q' = q.map c.entry) :
    ∀ r x l r1, relaxBodyEntries g b dh tol count nn ds s q r = .ok (x, l, r1) →
      (∃ x' l', LikeQ E c (x, l) (x', l') ∧ ∀ q1, c.Rn r1 q1 → ∃ qr, c.Rn r qr ∧
        relaxBodyEntries g' b' dh tol count nn ds' s' q' qr = .ok (x', l', q1)) ∨
        (E ∧ ∃ qr, c.Rn r qr ∧ relaxBodyEntries g' b' dh tol count nn ds' s' q' qr = .error .oob) := by
  induction count generalizing nn ds ds' s s' q q' with
  | zero =>
    intro r x l r1 hr
    cases hr
    exact .inl ⟨s', q', ⟨h, hq⟩, fun q1 hq1 => ⟨q1, hq1, rfl⟩⟩
  | succ count ih =>
    intro r x l r1 hr
    simp only [relaxBodyEntries, h.entries, List.getElem?_map] at hr ⊢
    cases hn : s.bodySoilPos[nn]? with
    | none =>
      rw [hn] at hr
      cases hr
    | some en =>
      rw [hn] at hr
      dsimp only [Option.map_some] at hr ⊢
      by_cases ht : (en.h <ᶠ tol) = true
      · have ht' : ((c.entry en).h <ᶠ tol) = true := ht
        rw [if_pos ht] at hr
        simp only [if_pos ht']
        exact ih (nn + 1) ds ds' hd s s' q q' h hq r x l r1 hr
      · have ht' : ¬ ((c.entry en).h <ᶠ tol) = true := ht
        rw [if_neg ht] at hr
        simp only [if_neg ht']
        obtain ⟨⟨s1, l1⟩, h1, h2⟩ := bind_eq_ok.mp hr
        rcases relaxBodyDirs_like S dh tol nn en.ind (i := en.ii) (j := en.jj) (i' := (c.entry en).ii)
          (j' := (c.entry en).jj) rfl (shuffle ds r).1 s s' q q' h hq (s1, l1) h1 with ⟨⟨s1', l1'⟩, e1, y1⟩ | ⟨hE, e1⟩
        · rcases ih (nn + 1) (shuffle ds r).1 ((shuffle ds r).1.map c.lin) (Chart.Lst.refl c _) s1 s1'
            l1 l1' y1.1 y1.2 (shuffle ds r).2 x l r1 h2 with ⟨x', l', hx, res⟩ | ⟨hE, q2, hq2, res⟩
          · refine .inl ⟨x', l', hx, fun q1 hq1 => ?_⟩
            obtain ⟨q2, hq2, res⟩ := res q1 hq1
            obtain ⟨qr, hqr, hsh⟩ := shuffle_like c c.lin ds ds' hd r q2 hq2
            refine ⟨qr, hqr, ?_⟩
            rw [hsh]
            dsimp only
            rw [show (c.entry en).ind = en.ind from rfl, e1]
            exact res
          · obtain ⟨qr, hqr, hsh⟩ := shuffle_like c c.lin ds ds' hd r q2 hq2
            refine .inr ⟨hE, qr, hqr, ?_⟩
            rw [hsh]
            dsimp only
            rw [show (c.entry en).ind = en.ind from rfl, e1]
            exact res
        · obtain ⟨qr, hqr, hsh⟩ := shuffle_like c c.lin ds ds' hd r _ (Chart.Rn.refl c _)
          refine .inr ⟨hE, qr, hqr, ?_⟩
          rw [hsh]
          dsimp only
          rw [show (c.entry en).ind = en.ind from rfl, e1]
          rfl

end Soil
