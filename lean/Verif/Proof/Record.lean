import Verif.Proof.Frame

/-! # Body-frame positions of the body-soil entries (any arithmetic) -/

set_option linter.unusedSectionVars false
set_option linter.unusedSimpArgs false

namespace Soil

open FOps

variable {F : Type} [FOps F]

/-- The entry carries the body-frame position of the top of its layer over its column -/
def AtTop (g : Grid F) (body : Body F) (s : SimOut F) (e : BodySoil F) : Prop :=
  (⟨e.xb, e.yb, e.zb⟩ : Vec3 F) = calcBodyFramePos e.ii e.jj (s.body (e.ind + 1) e.ii e.jj) g body

/-- The same entry up to the amount -/
def SamePlace (e e' : BodySoil F) : Prop :=
  e'.ind = e.ind ∧ e'.ii = e.ii ∧ e'.jj = e.jj ∧ e'.xb = e.xb ∧ e'.yb = e.yb ∧ e'.zb = e.zb

theorem SamePlace.refl (e : BodySoil F) : SamePlace e e := ⟨rfl, rfl, rfl, rfl, rfl, rfl⟩

theorem SamePlace.trans {a b c : BodySoil F} (h : SamePlace a b) (h' : SamePlace b c) : SamePlace a c := by
  obtain ⟨h1, h2, h3, h4, h5, h6⟩ := h
  obtain ⟨k1, k2, k3, k4, k5, k6⟩ := h'
  exact ⟨k1.trans h1, k2.trans h2, k3.trans h3, k4.trans h4, k5.trans h5, k6.trans h6⟩

theorem AtTop.congr {g : Grid F} {body : Body F} {s s' : SimOut F} {e e' : BodySoil F}
    (h : AtTop g body s e) (hb : s'.body = s.body) (he : SamePlace e e') : AtTop g body s' e' := by
  obtain ⟨h1, h2, h3, h4, h5, h6⟩ := he
  unfold AtTop at h ⊢
  rw [h1, h2, h3, h4, h5, h6, hb, h]

theorem mkEntry_atTop {g : Grid F} {body : Body F} {s s' : SimOut F} (hb : s'.body = s.body) (k : ℕ)
    (i j : ℤ) (h : F) : AtTop g body s (mkEntry s' g body k i j h) := by
  unfold AtTop mkEntry
  rw [← hb]

/-- Every entry of `s'` is one of `s` up to its amount, or carries the position of its layer -/
structure Recs (g : Grid F) (body : Body F) (s s' : SimOut F) : Prop where
  same_body : s'.body = s.body
  pos : ∀ e ∈ s'.bodySoilPos, (∃ e0 ∈ s.bodySoilPos, SamePlace e0 e) ∨ AtTop g body s e

namespace Recs

variable {g : Grid F} {body : Body F} {a b c : SimOut F}

theorem refl (s : SimOut F) : Recs g body s s := ⟨rfl, fun e he => .inl ⟨e, he, .refl e⟩⟩

theorem trans (h : Recs g body a b) (h' : Recs g body b c) : Recs g body a c := by
  refine ⟨h'.same_body.trans h.same_body, fun e he => ?_⟩
  rcases h'.pos e he with ⟨e0, m0, hs⟩ | ht
  · rcases h.pos e0 m0 with ⟨e1, m1, hs1⟩ | ht
    · exact .inl ⟨e1, m1, hs1.trans hs⟩
    · exact .inr (ht.congr rfl hs)
  · exact .inr (ht.congr h.same_body.symm (.refl e))

theorem same (h : Recs g body a b) (hb : c.body = b.body) (hp : c.bodySoilPos = b.bodySoilPos) :
    Recs g body a c := ⟨hb.trans h.same_body, by rw [hp]; exact h.pos⟩

theorem setT (h : Recs g body a b) {i j : ℤ} (v : F) : Recs g body a (b.setT i j v) := h.same rfl rfl

theorem setBS (h : Recs g body a b) {k : ℕ} {i j : ℤ} (v : F) : Recs g body a (b.setBS k i j v) :=
  h.same rfl rfl

theorem setEq (h : Recs g body a b) (v : Bool) : Recs g body a { b with equilibrium := v } :=
  h.same rfl rfl

theorem pushPos (h : Recs g body a b) {e : BodySoil F} (he : AtTop g body a e) :
    Recs g body a (b.pushPos e) := by
  refine ⟨h.same_body, fun e' he' => ?_⟩
  simp only [SimOut.pushPos, List.mem_append, List.mem_singleton] at he'
  rcases he' with he' | rfl
  · exact h.pos e' he'
  · exact .inr he

theorem append (h : Recs g body a b) {q : List (BodySoil F)} (hq : ∀ e ∈ q, AtTop g body a e) :
    Recs g body a { b with bodySoilPos := b.bodySoilPos ++ q } := by
  refine ⟨h.same_body, fun e' he' => ?_⟩
  rcases List.mem_append.mp he' with he' | he'
  · exact h.pos e' he'
  · exact .inr (hq _ he')

theorem perm (h : Recs g body a b) {l : List (BodySoil F)} (hl : ∀ e ∈ l, e ∈ b.bodySoilPos) :
    Recs g body a { b with bodySoilPos := l } := ⟨h.same_body, fun e he => h.pos e (hl e he)⟩

theorem setH (h : Recs g body a b) (n : ℕ) (v : F) : Recs g body a (b.setH n v) := by
  refine h.trans ⟨rfl, fun e he => .inl ?_⟩
  unfold SimOut.setH at he
  dsimp only at he
  obtain ⟨i, hi, rfl⟩ := List.mem_iff_getElem.mp he
  rw [List.getElem_modify]
  rw [List.length_modify] at hi
  refine ⟨b.bodySoilPos[i], List.getElem_mem hi, ?_⟩
  split_ifs
  · exact ⟨rfl, rfl, rfl, rfl, rfl, rfl⟩
  · exact .refl _

end Recs

/-! ## Terrain relaxation -/

theorem relaxUnstableTerrainCell_recs (s : SimOut F) (status : ℕ) (dh : F)
    (ii jj ic jc : ℤ) (g : Grid F) (body : Body F) (tol : F) :
    Post (relaxUnstableTerrainCell s status dh ii jj ic jc g body tol) (Recs g body s) := by
  have hT : ∀ st0, Post (relaxTerrainOnTerrain s st0 dh ii jj ic jc g tol) (Recs g body s) := by
    intro st0
    unfold relaxTerrainOnTerrain
    dsimp only
    intro s' h
    split at h
    · cases h; exact ((Recs.refl s).setT _).setT _
    all_goals first
      | (split_ifs at h <;> (cases h; exact ((Recs.refl s).setT _).setT _))
      | cases h
  have hS : ∀ st0 k ko, Recs g body s (relaxTerrainOnSoil s st0 dh ii jj ic jc g body tol k ko) := by
    intro st0 k ko
    unfold relaxTerrainOnSoil
    dsimp only
    exact (((Recs.refl s).setT _).setBS _).pushPos (mkEntry_atTop (by rfl) _ _ _ _)
  have hB : ∀ st0 k ko, Recs g body s (relaxTerrainOnBody s st0 dh ii jj ic jc g body tol k ko) := by
    intro st0 k ko
    unfold relaxTerrainOnBody
    dsimp only
    exact ((((Recs.refl s).setT _).setBS _).setBS _).pushPos (mkEntry_atTop (by rfl) _ _ _ _)
  unfold relaxUnstableTerrainCell
  split
  · exact hT _
  · exact Post.ok (hS _ _ _)
  · exact Post.ok (hB _ _ _)
  · exact Post.ok (hS _ _ _)
  · exact Post.ok (hB _ _ _)
  · exact Post.ok (.refl s)

theorem relaxTerrainDirs_recs (g : Grid F) (body : Body F) (dh tol : F) (ii jj : ℤ)
    (ds : List (ℤ × ℤ)) (s : SimOut F) :
    Post (relaxTerrainDirs g body dh tol ii jj ds s) (Recs g body s) := by
  induction ds generalizing s with
  | nil => exact Post.ok (.refl s)
  | cons d ds ih =>
    unfold relaxTerrainDirs
    dsimp only
    refine Post.guard fun _ => ?_
    split_ifs
    · exact ih s
    · refine Post.bind (relaxUnstableTerrainCell_recs _ _ _ _ _ _ _ _ _ _) ?_
      intro s1 h1
      refine (ih s1).mono fun s2 h2 => ?_
      exact (((Recs.refl s).setEq false).trans h1).trans h2

theorem relaxTerrainCells_recs (g : Grid F) (body : Body F) (dh tol : F) (cs ds : List (ℤ × ℤ))
    (s : SimOut F) (r : Rng) :
    Post (relaxTerrainCells g body dh tol cs ds s r) (fun x => Recs g body s x.1) := by
  induction cs generalizing s r ds with
  | nil => exact Post.ok (.refl s)
  | cons c cs ih =>
    unfold relaxTerrainCells
    dsimp only
    refine Post.bind (relaxTerrainDirs_recs g body dh tol c.1 c.2 _ s) ?_
    intro s1 h1
    exact (ih _ s1 _).mono fun x h2 => h1.trans h2

theorem relaxTerrain_recs (g : Grid F) (body : Body F) (p : SimParam F) (tol : F) (w : World F) :
    Post (relaxTerrain g body p tol w) (fun w' => Recs g body w.out w'.out) := by
  unfold relaxTerrain
  dsimp only
  refine Post.bind (P := fun _ => True) (fun _ _ => trivial) fun cells _ => ?_
  split_ifs
  · exact Post.ok ((Recs.refl _).setEq _)
  · refine Post.bind (relaxTerrainCells_recs _ _ _ _ _ _ _ _) ?_
    rintro ⟨s1, r1⟩ h1
    exact Post.ok ((((Recs.refl _).setEq _).trans h1).same rfl rfl)

/-! ## Body-soil relaxation -/

theorem emptyColumn_recs {g : Grid F} {body : Body F} {a : SimOut F} (s : SimOut F) (nn ind : ℕ)
    (ii jj : ℤ) (h : Recs g body a s) : Recs g body a (emptyColumn s nn ind ii jj) :=
  ((h.setBS _).setBS _).setH _ _

theorem takeFromColumn_recs {g : Grid F} {body : Body F} {a : SimOut F} (s : SimOut F) (nn ind : ℕ)
    (ii jj : ℤ) (hNew hSoil tol : F) (h : Recs g body a s) :
    Recs g body a (takeFromColumn s nn ind ii jj hNew hSoil tol) := by
  unfold takeFromColumn
  split_ifs
  · exact (h.setBS _).setH _ _
  · exact emptyColumn_recs _ _ _ _ _ h

theorem takeFromColumn_body (s : SimOut F) (nn ind : ℕ) (ii jj : ℤ) (hNew hSoil tol : F) :
    (takeFromColumn s nn ind ii jj hNew hSoil tol).body = s.body := by
  unfold takeFromColumn emptyColumn
  split_ifs <;> rfl

theorem relaxUnstableBodyCell_recs (s : SimOut F) (status : ℕ) (dh : F)
    (nn : ℕ) (ii jj : ℤ) (ind : ℕ) (ic jc : ℤ) (g : Grid F) (body : Body F) (tol : F) :
    Recs g body s (relaxUnstableBodyCell s status dh nn ii jj ind ic jc g body tol).1 ∧
    ∀ e ∈ (relaxUnstableBodyCell s status dh nn ii jj ind ic jc g body tol).2, AtTop g body s e := by
  have hs : Recs g body s s := .refl s
  let Q : SimOut F × List (BodySoil F) → Prop := fun x =>
    Recs g body s x.1 ∧ ∀ e ∈ x.2, AtTop g body s e
  have one : ∀ (t : SimOut F) (k : ℕ) (i j : ℤ) (h : F), Recs g body s t →
      Q (t, [mkEntry t g body k i j h]) := fun t k i j h ht =>
    ⟨ht, fun e he => by rw [List.mem_singleton.mp he]; exact mkEntry_atTop ht.same_body _ _ _ _⟩
  have hA : ∀ st0, Recs g body s (relaxBodyOnTerrain s st0 dh nn ii jj ind ic jc g tol) := by
    intro st0
    unfold relaxBodyOnTerrain
    dsimp only
    split_ifs
    all_goals first
      | exact ((hs.setT _).setBS _).setH _ _
      | exact emptyColumn_recs _ _ _ _ _ (hs.setT _)
  have hB : ∀ k, Q (relaxBodyOnSoil1 s dh nn ii jj ind ic jc g body tol k) := by
    intro k
    unfold relaxBodyOnSoil1
    dsimp only
    exact one _ _ _ _ _ ((takeFromColumn_recs _ _ _ _ _ _ _ _ hs).setBS _)
  have hC : ∀ k, Q (relaxBodyOnBody1 s dh nn ii jj ind ic jc g body tol k) := by
    intro k
    unfold relaxBodyOnBody1
    dsimp only
    exact one _ _ _ _ _ ((takeFromColumn_recs _ _ _ _ _ _ _ _ (hs.setBS _)).setBS _)
  have hD : ∀ k ko b, Q (relaxBodyOnSoil2 s dh nn ii jj ind ic jc g body tol k ko b) := by
    intro k ko b
    unfold relaxBodyOnSoil2
    dsimp only
    have key : ∀ (t : SimOut F) (h : F) (c : Bool), Recs g body s t →
        Q (t, if c then [mkEntry t g body k ic jc h] else []) := by
      intro t h c ht
      cases c
      · exact ⟨ht, fun e he => absurd he List.not_mem_nil⟩
      · exact one _ _ _ _ _ ht
    refine key _ _ _ ?_
    split_ifs
    · exact ((hs.setBS _).setBS _).setH _ _
    · exact ((hs.setBS _).setBS _).setH _ _
    · exact emptyColumn_recs _ _ _ _ _ (hs.setBS _)
  have hE : ∀ k ko b c, Q (relaxBodyOnBody2 s dh nn ii jj ind ic jc g body tol k ko b c) := by
    intro k ko b c
    unfold relaxBodyOnBody2
    dsimp only
    refine one _ _ _ _ _ ?_
    split_ifs
    all_goals first
      | exact (((hs.setBS _).setBS _).setBS _).setH _ _
      | exact emptyColumn_recs _ _ _ _ _ ((hs.setBS _).setBS _)
      | exact takeFromColumn_recs _ _ _ _ _ _ _ _ ((hs.setBS _).setBS _)
  show Q _
  unfold relaxUnstableBodyCell
  dsimp only
  split
  · exact ⟨hA _, fun e he => absurd he List.not_mem_nil⟩
  · exact hB _
  · exact hC _
  · exact hB _
  · exact hC _
  · exact hD _ _ _
  · exact hE _ _ _ _
  · exact hD _ _ _
  · exact hE _ _ _ _
  · exact ⟨hs, fun e he => absurd he List.not_mem_nil⟩

theorem relaxBodyDirs_recs (g : Grid F) (body : Body F) (dh tol : F) (nn : ℕ) (ii jj : ℤ)
    (ind : ℕ) (ds : List (ℤ × ℤ)) (s : SimOut F) (q : List (BodySoil F)) :
    Post (relaxBodyDirs g body dh tol nn ii jj ind ds s q)
      (fun x => Recs g body s x.1 ∧ ∀ e ∈ x.2, e ∈ q ∨ AtTop g body s e) := by
  induction ds generalizing s q with
  | nil => exact Post.ok ⟨.refl s, fun e he => .inl he⟩
  | cons d ds ih =>
    unfold relaxBodyDirs
    dsimp only
    refine Post.guard fun _ => ?_
    split_ifs
    · exact ih s q
    · refine (ih _ _).mono fun x hx => ?_
      have h0 := relaxUnstableBodyCell_recs { s with equilibrium := false }
        (checkUnstableBodyCell s ii jj ind (ii + d.1) (jj + d.2) (s.bodySoil (ind + 1) ii jj -ᶠ dh) tol)
        dh nn ii jj ind (ii + d.1) (jj + d.2) g body tol
      have h1 := ((Recs.refl s).setEq false).trans h0.1
      refine ⟨h1.trans hx.1, fun e he => ?_⟩
      rcases hx.2 e he with h | h
      · rcases List.mem_append.mp h with h | h
        · exact .inl h
        · exact .inr ((h0.2 e h).congr rfl (.refl e))
      · exact .inr (h.congr h1.same_body.symm (.refl e))

theorem relaxBodyEntries_recs (g : Grid F) (body : Body F) (dh tol : F) (count nn : ℕ)
    (ds : List (ℤ × ℤ)) (s : SimOut F) (q : List (BodySoil F)) (r : Rng) :
    Post (relaxBodyEntries g body dh tol count nn ds s q r)
      (fun x => Recs g body s x.1 ∧ ∀ e ∈ x.2.1, e ∈ q ∨ AtTop g body s e) := by
  induction count generalizing nn ds s q r with
  | zero => exact Post.ok ⟨.refl s, fun e he => .inl he⟩
  | succ count ih =>
    unfold relaxBodyEntries
    split
    · exact Post.error
    · rename_i e he
      split_ifs
      · exact ih _ _ _ _ _
      · refine Post.bind (relaxBodyDirs_recs g body dh tol nn e.ii e.jj e.ind _ s q) ?_
        rintro ⟨s1, q1⟩ h1
        refine (ih _ _ _ _ _).mono fun x hx => ⟨h1.1.trans hx.1, fun e he => ?_⟩
        rcases hx.2 e he with h | h
        · exact h1.2 e h
        · exact .inr (h.congr h1.1.same_body.symm (.refl e))

theorem relaxBodySoil_recs (g : Grid F) (body : Body F) (p : SimParam F) (tol : F) (w : World F) :
    Post (relaxBodySoil g body p tol w) (fun w' => Recs g body w.out w'.out) := by
  unfold relaxBodySoil
  refine Post.bind (relaxBodyEntries_recs _ _ _ _ _ _ _ _ _ _) ?_
  rintro ⟨s1, q1, r1⟩ h1
  refine Post.ok (h1.1.append fun e he => ?_)
  rcases h1.2 e he with h | h
  · exact absurd h List.not_mem_nil
  · exact h

theorem relaxOnce_recs (g : Grid F) (body : Body F) (p : SimParam F) (tol : F) (w : World F) :
    Post (relaxOnce g body p tol w) (fun w' => Recs g body w.out w'.out) := by
  unfold relaxOnce
  refine Post.bind (relaxTerrain_recs _ _ _ _ _) ?_
  intro w1 h1
  refine (relaxBodySoil_recs _ _ _ _ _).mono fun w2 h2 => ?_
  have h0 : Recs g body w.out w1.out :=
    ((Recs.refl w.out).same (c := (w.mapOut fun s => { s with impactArea := impactOf s }).out) rfl
      rfl).trans h1
  exact (h0.perm (l := (shuffle w1.out.bodySoilPos w1.rng).1) fun e he => mem_shuffle.mp he).trans h2

theorem relaxLoop_recs (g : Grid F) (body : Body F) (p : SimParam F) (tol : F) (fuel : ℕ) (it : ℤ)
    (w : World F) :
    Post (relaxLoop g body p tol fuel it w) (fun x => Recs g body w.out x.1.out) := by
  induction fuel generalizing it w with
  | zero =>
    unfold relaxLoop
    split_ifs
    · exact Post.error
    · exact Post.ok (.refl _)
  | succ n ih =>
    unfold relaxLoop
    split_ifs
    · refine Post.bind (relaxOnce_recs _ _ _ _ _) ?_
      intro w1 h1
      exact (ih _ _).mono fun x hx => h1.trans hx
    · exact Post.ok (.refl _)

/-! ## Intersections -/

theorem spreadRing_recs (g : Grid F) (body : Body F) (tol : F) (ii jj pp : ℤ) (ds : List (ℤ × ℤ))
    (s : SimOut F) (h : F) : Post (spreadRing tol ii jj pp ds s h) (fun x => Recs g body s x.1) := by
  induction ds generalizing s h with
  | nil => exact Post.ok (.refl s)
  | cons d ds ih =>
    unfold spreadRing
    dsimp only
    refine Post.guard fun _ => ?_
    split_ifs
    · exact Post.ok ((Recs.refl s).setT _)
    · exact (ih _ _).mono fun x hx => ((Recs.refl s).setT _).trans hx
    · exact Post.ok ((Recs.refl s).setT _)
    · exact ih _ _

theorem spreadOut_recs (g : Grid F) (body : Body F) (tol : F) (ii jj : ℤ) (ds : List (ℤ × ℤ))
    (fuel : ℕ) (pp : ℤ) (s : SimOut F) (h : F) :
    Post (spreadOut tol ii jj ds fuel pp s h) (Recs g body s) := by
  induction fuel generalizing pp s h with
  | zero =>
    unfold spreadOut
    split_ifs
    · exact Post.error
    · exact Post.ok (.refl s)
  | succ n ih =>
    unfold spreadOut
    split_ifs
    · refine Post.bind (spreadRing_recs g body _ _ _ _ _ _ _) ?_
      rintro ⟨s1, h1⟩ hl
      exact (ih _ _ _).mono fun x hx => hl.trans hx
    · exact Post.ok (.refl s)

theorem moveIntersectingBodyCells_recs (g : Grid F) (body : Body F) (fuel : ℕ) (tol : F)
    (cs : List (ℕ × ℤ × ℤ)) (ds : List (ℤ × ℤ)) (s : SimOut F) (r : Rng) :
    Post (moveIntersectingBodyCells fuel tol cs ds s r) (fun x => Recs g body s x.1) := by
  induction cs generalizing ds s r with
  | nil => exact Post.ok (.refl s)
  | cons c cs ih =>
    obtain ⟨k, ii, jj⟩ := c
    unfold moveIntersectingBodyCells
    dsimp only
    refine Post.guard fun _ => ?_
    split_ifs
    · exact ih _ _ _
    · refine Post.bind (spreadOut_recs g body _ _ _ _ _ _ _ _) ?_
      intro s1 h1
      exact (ih _ _ _).mono fun x hx => (h1.setT _).trans hx

theorem moveIntersectingBody_recs (g : Grid F) (body : Body F) (fuel : ℕ) (tol : F) (w : World F) :
    Post (moveIntersectingBody fuel tol w) (fun w' => Recs g body w.out w'.out) := by
  unfold moveIntersectingBody
  refine Post.bind (P := fun _ => True) (fun _ _ => trivial) ?_
  intro cells _
  split_ifs
  · exact Post.ok (.refl _)
  · refine Post.bind (moveIntersectingBodyCells_recs g body _ _ _ _ _ _) ?_
    rintro ⟨s1, r1⟩ h1
    exact Post.ok h1

theorem moveBodySoil_recs (s : SimOut F) (q : Probe F) (maxH : F) (iN jN : ℤ) (g : Grid F)
    (body : Body F) (tol : F) : Recs g body s (moveBodySoil s q maxH iN jN g body tol).1 := by
  have hs : Recs g body s s := .refl s
  have h1 : ∀ k, Recs g body s (moveBodySoil1 s q maxH iN jN g body tol k).1 := by
    intro k
    unfold moveBodySoil1
    dsimp only
    split_ifs
    · exact hs.setT _
    · exact hs
    · exact (hs.setBS _).pushPos (mkEntry_atTop rfl _ _ _ _)
    · exact ((hs.setBS _).setBS _).pushPos (mkEntry_atTop rfl _ _ _ _)
  have h2 : ∀ a b, Recs g body s (moveBodySoil2 s q iN jN g body tol a b).1 := by
    intro a b
    unfold moveBodySoil2
    dsimp only
    split_ifs
    · exact hs
    · exact (hs.setBS _).pushPos (mkEntry_atTop rfl _ _ _ _)
    · exact (hs.setBS _).pushPos (mkEntry_atTop rfl _ _ _ _)
    · exact ((hs.setBS _).setBS _).pushPos (mkEntry_atTop rfl _ _ _ _)
    · exact ((hs.setBS _).setBS _).pushPos (mkEntry_atTop rfl _ _ _ _)
  unfold moveBodySoil
  split_ifs
  · exact hs.setT _
  · exact h1 _
  · exact h1 _
  · exact h2 _ _
  · exact h2 _ _

theorem exploreDir_recs (g : Grid F) (body : Body F) (tol : F) (ii jj : ℤ) (d : ℤ × ℤ) (fuel : ℕ)
    (pp : ℤ) (s : SimOut F) (q : Probe F) (maxH : F) :
    Post (exploreDir g body tol ii jj d fuel pp s q maxH) (fun x => Recs g body s x.1) := by
  induction fuel generalizing pp s q maxH with
  | zero =>
    unfold exploreDir
    split_ifs
    · exact Post.error
    · exact Post.ok (.refl s)
  | succ n ih =>
    unfold exploreDir
    split_ifs
    · refine Post.guard fun _ => ?_
      exact (ih _ _ _ _).mono fun x hx => (moveBodySoil_recs _ _ _ _ _ _ _ _).trans hx
    · exact Post.ok (.refl s)

theorem exploreDirs_recs (fuel : ℕ) (g : Grid F) (body : Body F) (tol : F) (ind indT : ℕ)
    (ii jj : ℤ) (ds : List (ℤ × ℤ)) (s : SimOut F) (h : F) :
    Post (exploreDirs fuel g body tol ind indT ii jj ds s h) (fun x => Recs g body s x.1) := by
  induction ds generalizing s h with
  | nil => exact Post.ok (.refl s)
  | cons d ds ih =>
    unfold exploreDirs
    refine Post.bind (exploreDir_recs _ _ _ _ _ _ _ _ _ _ _) ?_
    rintro ⟨s1, h1⟩ hl
    dsimp only
    split_ifs
    · exact Post.ok hl
    · exact (ih _ _).mono fun x hx => hl.trans hx

theorem moveIntersectingEntries_recs (fuel : ℕ) (g : Grid F) (body : Body F) (tol : F)
    (fuelN nn : ℕ) (ds : List (ℤ × ℤ)) (w : World F) :
    Post (moveIntersectingEntries fuel g body tol fuelN nn ds w)
      (fun w' => Recs g body w.out w'.out) := by
  induction fuelN generalizing nn ds w with
  | zero =>
    unfold moveIntersectingEntries
    split
    · exact Post.ok (.refl _)
    · exact Post.error
  | succ n ih =>
    unfold moveIntersectingEntries
    split
    · exact Post.ok (.refl _)
    · rename_i e he
      refine Post.guard fun _ => ?_
      dsimp only
      generalize (if e.ind = 0 then 2 else 0) = indT
      split_ifs
      · exact ih _ _ _
      all_goals first
        | exact ih _ _ _
        | (refine Post.bind (exploreDirs_recs _ _ _ _ _ _ _ _ _ _ _) ?_
           rintro ⟨s1, h1⟩ hl
           refine (ih _ _ _).mono fun x hx => ?_
           refine Recs.trans (b := s1) ?_ ?_
           · exact (((Recs.refl _).setH _ _).setBS _).trans hl
           · dsimp only at hx; split_ifs at hx <;> exact hx)

theorem moveIntersectingCells_recs (fuel : ℕ) (g : Grid F) (body : Body F) (tol : F) (w : World F) :
    Post (moveIntersectingCells fuel g body tol w) (fun w' => Recs g body w.out w'.out) := by
  unfold moveIntersectingCells moveIntersectingBodySoil
  refine Post.bind (moveIntersectingEntries_recs _ _ _ _ _ _ _ _) ?_
  intro w1 h1
  exact (moveIntersectingBody_recs g body _ _ _).mono fun w2 h2 => h1.trans h2

/-! ## Transport of body soil -/

/-- The entry is not dropped by `UpdateBodySoil` -/
def Holds (g : Grid F) (e : BodySoil F) : Prop := (e.h <ᶠ ofRat (9 / 10) *ᶠ g.cellZ) = false

/-- Every entry of `l'` carries the body-frame position of an entry of `l` that holds soil -/
def KeepFrame (g : Grid F) (l l' : List (BodySoil F)) : Prop :=
  ∀ e ∈ l', ∃ e0 ∈ l, Holds g e0 ∧ e.xb = e0.xb ∧ e.yb = e0.yb ∧ e.zb = e0.zb

theorem resetBodySoil_pos (l : List (BodySoil F)) (s : SimOut F) :
    Post (resetBodySoil l s) (fun s' => s'.bodySoilPos = s.bodySoilPos) := by
  induction l generalizing s with
  | nil => exact Post.ok rfl
  | cons e l ih =>
    unfold resetBodySoil
    refine Post.guard fun _ => ?_
    exact (ih _).mono fun x hx => hx

theorem updateEntry_frame (pos : Vec3 F) (ori : Quat F) (g : Grid F) (body : Body F) (tol : F)
    (e : BodySoil F) (w : World F) :
    Post (updateEntry pos ori g body tol e w) (fun w' => ∀ e' ∈ w'.out.bodySoilPos,
      e' ∈ w.out.bodySoilPos ∨ (Holds g e ∧ e'.xb = e.xb ∧ e'.yb = e.yb ∧ e'.zb = e.zb)) := by
  have hp : ∀ k i j h, ∀ e' ∈ (placeOn w.out k i j e h).bodySoilPos,
      e' ∈ w.out.bodySoilPos ∨ (e'.xb = e.xb ∧ e'.yb = e.yb ∧ e'.zb = e.zb) := by
    intro k i j h e' he'
    unfold placeOn SimOut.pushPos at he'
    dsimp only at he'
    rcases List.mem_append.mp he' with h' | h'
    · exact .inl h'
    · rw [List.mem_singleton] at h'; subst h'; exact .inr ⟨rfl, rfl, rfl⟩
  unfold updateEntry
  dsimp only
  split_ifs
  · exact Post.ok fun e' he' => .inl he'
  · rename_i hh
    have hp : ∀ k i j h, ∀ e' ∈ (placeOn w.out k i j e h).bodySoilPos,
        e' ∈ w.out.bodySoilPos ∨ (Holds g e ∧ e'.xb = e.xb ∧ e'.yb = e.yb ∧ e'.zb = e.zb) :=
      fun k i j h e' he' => (hp k i j h e' he').imp id fun x => ⟨by unfold Holds; simpa using hh, x⟩
    refine Post.bind (P := fun _ => True) (fun _ _ => trivial) fun iN _ => ?_
    refine Post.bind (P := fun _ => True) (fun _ _ => trivial) fun jN _ => ?_
    refine Post.bind (P := fun _ => True) (fun _ _ => trivial) fun x _ => ?_
    rcases x with ⟨k, it, jt⟩ | c
    · exact Post.ok (hp _ _ _ _)
    · dsimp only
      split_ifs
      · split
        · exact Post.ok (hp _ _ _ _)
        · exact Post.error
      · exact Post.ok fun e' he' => .inl he'

theorem updateEntries_frame (pos : Vec3 F) (ori : Quat F) (g : Grid F) (body : Body F) (tol : F)
    (l : List (BodySoil F)) (w : World F) :
    Post (updateEntries pos ori g body tol l w) (fun w' => ∀ e' ∈ w'.out.bodySoilPos,
      e' ∈ w.out.bodySoilPos ∨ ∃ e ∈ l, Holds g e ∧ e'.xb = e.xb ∧ e'.yb = e.yb ∧ e'.zb = e.zb) := by
  induction l generalizing w with
  | nil => exact Post.ok fun e' he' => .inl he'
  | cons e l ih =>
    unfold updateEntries
    refine Post.bind (updateEntry_frame _ _ _ _ _ _ _) ?_
    intro w1 h1
    refine (ih _).mono fun x hx e' he' => ?_
    rcases hx e' he' with h | ⟨e0, m0, h⟩
    · rcases h1 e' h with h | h
      · exact .inl h
      · exact .inr ⟨e, List.mem_cons_self, h⟩
    · exact .inr ⟨e0, List.mem_cons_of_mem _ m0, h⟩

theorem updateBodySoil_frame (pos : Vec3 F) (ori : Quat F) (g : Grid F) (body : Body F) (tol : F)
    (w : World F) :
    Post (updateBodySoil pos ori g body tol w) (fun x =>
      KeepFrame g w.out.bodySoilPos x.1.out.bodySoilPos) := by
  unfold updateBodySoil
  dsimp only
  refine Post.bind (P := fun _ => True) (fun _ _ => trivial) fun s1 _ => ?_
  refine Post.bind (updateEntries_frame _ _ _ _ _ _ _) ?_
  intro w2 h2
  refine Post.ok fun e he => ?_
  rcases h2 e he with h | h
  · exact absurd h List.not_mem_nil
  · exact h

/-! ## Rasterising the body -/

/-- Only the body and its area differ -/
def OnlyBody (s s' : SimOut F) : Prop := s' = { s with body := s'.body, bodyArea := s'.bodyArea }

theorem OnlyBody.refl (s : SimOut F) : OnlyBody s s := rfl

theorem OnlyBody.trans {a b c : SimOut F} (h : OnlyBody a b) (h' : OnlyBody b c) : OnlyBody a c := by
  unfold OnlyBody at h h' ⊢
  rw [h'] at ⊢
  rw [h]

theorem OnlyBody.setB {a b : SimOut F} (h : OnlyBody a b) (k : ℕ) (i j : ℤ) (v : F) :
    OnlyBody a (b.setB k i j v) := h.trans rfl

theorem resetBody_bodyOnly (l : List (ℤ × ℤ)) (s : SimOut F) : Post (resetBody l s) (OnlyBody s) := by
  induction l generalizing s with
  | nil => exact Post.ok (.refl s)
  | cons c l ih =>
    unfold resetBody
    refine Post.guard fun _ => ?_
    exact (ih _).mono fun x hx =>
      (((((OnlyBody.refl s).setB _ _ _ _).setB _ _ _ _).setB _ _ _ _).setB _ _ _ _).trans hx

theorem includeNewBodyPos_bodyOnly (s : SimOut F) (ii jj : ℤ) (minH maxH tol : F) :
    Post (includeNewBodyPos s ii jj minH maxH tol) (OnlyBody s) := by
  unfold includeNewBodyPos
  refine Post.guard fun _ => ?_
  have h := OnlyBody.refl s
  dsimp only
  unfold mergeClosest
  dsimp only
  split_ifs
  all_goals first
    | exact Post.ok h
    | exact Post.ok (h.setB _ _ _ _)
    | exact Post.ok ((h.setB _ _ _ _).setB _ _ _ _)
    | exact Post.ok ((((h.setB _ _ _ _).setB _ _ _ _).setB _ _ _ _).setB _ _ _ _)

theorem updateBodyLoop_bodyOnly (g : Grid F) (tol : F) (l : List Cell3) (s : SimOut F) (ii jj : ℤ)
    (minH maxH : F) : Post (updateBodyLoop g tol l s ii jj minH maxH) (OnlyBody s) := by
  induction l generalizing s ii jj minH maxH with
  | nil => exact includeNewBodyPos_bodyOnly _ _ _ _ _ _
  | cons c l ih =>
    obtain ⟨i, j, k⟩ := c
    unfold updateBodyLoop
    split_ifs
    · refine Post.bind (includeNewBodyPos_bodyOnly _ _ _ _ _ _) fun s1 h1 => ?_
      refine Post.bind (P := fun _ => True) (fun _ _ => trivial) fun z _ => ?_
      exact (ih _ _ _ _ _).mono fun x hx => h1.trans hx
    · refine Post.bind (P := fun _ => True) (fun _ _ => trivial) fun z _ => ?_
      exact ih _ _ _ _ _

theorem updateWalls_bodyOnly (g : Grid F) (tol : F) (ws : List (List Cell3)) (s : SimOut F) :
    Post (updateWalls g tol ws s) (OnlyBody s) := by
  induction ws generalizing s with
  | nil => exact Post.ok (.refl s)
  | cons c ws ih =>
    unfold updateWalls
    refine Post.bind (P := OnlyBody s) ?_ fun s1 h1 => (ih _).mono fun x hx => h1.trans hx
    unfold updateBody
    split
    · exact Post.error
    · refine Post.bind (P := fun _ => True) (fun _ _ => trivial) fun z _ => ?_
      exact updateBodyLoop_bodyOnly _ _ _ _ _ _ _ _

theorem calcBodyPos_bodyOnly (fuel : ℕ) (s : SimOut F) (pos : Vec3 F) (ori : Quat F) (g : Grid F)
    (body : Body F) (p : SimParam F) (tol : F) :
    Post (calcBodyPos fuel s pos ori g body p tol) (OnlyBody s) := by
  unfold calcBodyPos
  refine Post.bind (resetBody_bodyOnly _ _) fun s1 h1 => ?_
  dsimp only
  split
  all_goals
    refine Post.bind (P := fun _ => True) (fun _ _ => trivial) fun area _ => ?_
    refine Post.bind (P := fun _ => True) (fun _ _ => trivial) fun walls _ => ?_
    refine (updateWalls_bodyOnly _ _ _ _).mono fun x hx => ?_
    exact (h1.trans (show OnlyBody s1 { s1 with bodyArea := area } from rfl)).trans hx

/-- A step: the body-frame position of an entry is an old one or that of its layer. -/
theorem step_recs (fuel : ℕ) (pos : Vec3 F) (ori : Quat F) (g : Grid F) (body : Body F)
    (p : SimParam F) (tol : F) (w : World F) (r : StepResult F)
    (hr : step fuel pos ori g body p tol w = .ok r) :
    ∀ e ∈ r.world.out.bodySoilPos,
      (∃ e0 ∈ w.out.bodySoilPos, (r.updated = true → Holds g e0) ∧ (r.updated = false → e0 = e) ∧
        e.xb = e0.xb ∧ e.yb = e0.yb ∧ e.zb = e0.zb) ∨
      (r.updated = true ∧ AtTop g { body with pos := pos, ori := ori } r.world.out e) := by
  unfold step at hr
  rcases hc : checkBodyMovement pos ori g body with ⟨moved, warns⟩
  rw [hc] at hr
  dsimp only at hr
  cases moved with
  | false =>
    simp only [Bool.not_false, if_true, pure_eq_ok, Except.ok.injEq] at hr
    subst hr
    exact fun e he => .inl ⟨e, he, by simp, by simp, rfl, rfl, rfl⟩
  | true =>
    simp only [Bool.not_true, Bool.false_eq_true, if_false] at hr
    obtain ⟨s, h1, hr⟩ := bind_eq_ok.mp hr
    obtain ⟨⟨w2, b2⟩, h2, hr⟩ := bind_eq_ok.mp hr
    obtain ⟨w3, h3, hr⟩ := bind_eq_ok.mp hr
    obtain ⟨⟨w4, it⟩, h4, hr⟩ := bind_eq_ok.mp hr
    simp only [pure_eq_ok, Except.ok.injEq] at hr
    subst hr
    have k2 := updateBodySoil_frame _ _ _ _ _ _ _ h2
    have k3 := moveIntersectingCells_recs _ _ _ _ _ _ h3
    have k4 := relaxLoop_recs _ _ _ _ _ _ _ _ h4
    have k := ((k3.setEq false).trans k4)
    dsimp only at k k2
    have k1 := calcBodyPos_bodyOnly _ _ _ _ _ _ _ _ _ h1
    obtain ⟨b, a, rfl⟩ : ∃ b a, s = { w.out with body := b, bodyArea := a } := ⟨_, _, k1⟩
    obtain rfl := (updateBodySoil_loc _ _ _ _ _ _ _ h2).2.2
    intro e he
    rcases k.pos e he with ⟨e0, m0, hs⟩ | ht
    · obtain ⟨e1, m1, hh, hx, hy, hz⟩ := k2 e0 m0
      obtain ⟨-, -, -, h4, h5, h6⟩ := hs
      exact .inl ⟨e1, m1, fun _ => hh, by simp, h4.trans hx, h5.trans hy, h6.trans hz⟩
    · exact .inr ⟨rfl, ht.congr k.same_body (.refl e)⟩

end Soil
