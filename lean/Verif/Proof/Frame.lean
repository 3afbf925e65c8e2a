import Verif.Proof.Basic
import Verif.Proof.Shuffle
import Verif.Model.SoilDynamics
import Verif.Spec.State

/-! # What the soil-moving functions leave alone (any arithmetic) -/

set_option linter.unusedSectionVars false
set_option linter.unusedSimpArgs false

namespace Soil

open FOps

variable {F : Type}

theorem SameBody.refl (s : SimOut F) : SameBody s s := ⟨rfl, rfl, rfl, rfl⟩

theorem SameBody.trans {a b c : SimOut F} (h : SameBody a b) (h' : SameBody b c) : SameBody a c :=
  ⟨h'.1.trans h.1, h'.2.1.trans h.2.1, h'.2.2.1.trans h.2.2.1, h'.2.2.2.trans h.2.2.2⟩

/-- Only terrain, body soil and bookkeeping of the columns in `P` may differ (and the equilibrium
flag). -/
structure Local (P : ℤ → ℤ → Prop) (s s' : SimOut F) : Prop where
  body : SameBody s s'
  relaxArea : s'.relaxArea = s.relaxArea
  impactArea : s'.impactArea = s.impactArea
  terrain : ∀ i j, ¬ P i j → s'.terrain i j = s.terrain i j
  soil : ∀ k i j, ¬ P i j → s'.bodySoil k i j = s.bodySoil k i j

namespace Local

variable {P Q : ℤ → ℤ → Prop} {a b c : SimOut F}

theorem refl (s : SimOut F) : Local P s s :=
  ⟨.refl s, rfl, rfl, fun _ _ _ => rfl, fun _ _ _ _ => rfl⟩

theorem trans (h : Local P a b) (h' : Local P b c) : Local P a c :=
  ⟨h.body.trans h'.body, h'.relaxArea.trans h.relaxArea, h'.impactArea.trans h.impactArea,
    fun i j hp => (h'.terrain i j hp).trans (h.terrain i j hp),
    fun k i j hp => (h'.soil k i j hp).trans (h.soil k i j hp)⟩

theorem mono (h : Local P a b) (hpq : ∀ i j, P i j → Q i j) : Local Q a b :=
  ⟨h.body, h.relaxArea, h.impactArea, fun i j hq => h.terrain i j fun hp => hq (hpq i j hp),
    fun k i j hq => h.soil k i j fun hp => hq (hpq i j hp)⟩

theorem setT {i j : ℤ} (h : Local P a b) (hp : P i j) (v : F) : Local P a (b.setT i j v) :=
  h.trans ⟨⟨rfl, rfl, rfl, rfl⟩, rfl, rfl,
    fun x y hxy => upd2_ne _ _ (by rintro ⟨rfl, rfl⟩; exact hxy hp), fun _ _ _ _ => rfl⟩

theorem setBS {k : ℕ} {i j : ℤ} (h : Local P a b) (hp : P i j) (v : F) :
    Local P a (b.setBS k i j v) :=
  h.trans ⟨⟨rfl, rfl, rfl, rfl⟩, rfl, rfl, fun _ _ _ => rfl,
    fun c x y hxy => upd3_ne _ _ (by rintro ⟨-, rfl, rfl⟩; exact hxy hp)⟩

theorem pushPos (h : Local P a b) (e : BodySoil F) : Local P a (b.pushPos e) :=
  h.trans ⟨⟨rfl, rfl, rfl, rfl⟩, rfl, rfl, fun _ _ _ => rfl, fun _ _ _ _ => rfl⟩

theorem setH (h : Local P a b) (n : ℕ) (v : F) : Local P a (b.setH n v) :=
  h.trans ⟨⟨rfl, rfl, rfl, rfl⟩, rfl, rfl, fun _ _ _ => rfl, fun _ _ _ _ => rfl⟩

theorem setEq (h : Local P a b) (v : Bool) : Local P a { b with equilibrium := v } :=
  h.trans ⟨⟨rfl, rfl, rfl, rfl⟩, rfl, rfl, fun _ _ _ => rfl, fun _ _ _ _ => rfl⟩

theorem setPos (h : Local P a b) (l : List (BodySoil F)) :
    Local P a { b with bodySoilPos := l } :=
  h.trans ⟨⟨rfl, rfl, rfl, rfl⟩, rfl, rfl, fun _ _ _ => rfl, fun _ _ _ _ => rfl⟩

theorem inGrid (h : Local P a b) (i j : ℤ) : b.InGrid i j ↔ a.InGrid i j := by
  unfold SimOut.InGrid; rw [h.body.2.2.1, h.body.2.2.2]

end Local

/-- the column or one of its four neighbours -/
def NearCol (ii jj i j : ℤ) : Prop :=
  (i = ii ∧ j = jj) ∨ (i = ii + 1 ∧ j = jj) ∨ (i = ii - 1 ∧ j = jj) ∨ (i = ii ∧ j = jj + 1) ∨
    (i = ii ∧ j = jj - 1)

theorem mem_directions4 {d : ℤ × ℤ} :
    d ∈ directions4 ↔ d = (1, 0) ∨ d = (-1, 0) ∨ d = (0, 1) ∨ d = (0, -1) := by
  simp [directions4]

theorem nearCol_dir {d : ℤ × ℤ} (hd : d ∈ directions4) (ii jj : ℤ) :
    NearCol ii jj (ii + d.1) (jj + d.2) := by
  rw [mem_directions4] at hd
  unfold NearCol
  rcases hd with rfl | rfl | rfl | rfl <;> simp <;> omega

variable [FOps F]

/-! ## Terrain relaxation -/

theorem relaxTerrainOnTerrain_local {P : ℤ → ℤ → Prop} (s : SimOut F) (st0 : ℕ) (dh : F)
    (ii jj ic jc : ℤ) (g : Grid F) (tol : F) (h1 : P ii jj) (h2 : P ic jc) :
    Post (relaxTerrainOnTerrain s st0 dh ii jj ic jc g tol) (Local P s) := by
  unfold relaxTerrainOnTerrain
  dsimp only
  intro s' h
  split at h
  · cases h; exact ((Local.refl s).setT h1 _).setT h2 _
  all_goals first
    | (split_ifs at h <;> (cases h; exact ((Local.refl s).setT h1 _).setT h2 _))
    | cases h

theorem relaxTerrainOnSoil_local {P : ℤ → ℤ → Prop} (s : SimOut F) (st0 : ℕ) (dh : F)
    (ii jj ic jc : ℤ) (g : Grid F) (body : Body F) (tol : F) (k ko : ℕ) (h1 : P ii jj)
    (h2 : P ic jc) : Local P s (relaxTerrainOnSoil s st0 dh ii jj ic jc g body tol k ko) := by
  unfold relaxTerrainOnSoil
  dsimp only
  exact (((Local.refl s).setT h1 _).setBS h2 _).pushPos _

theorem relaxTerrainOnBody_local {P : ℤ → ℤ → Prop} (s : SimOut F) (st0 : ℕ) (dh : F)
    (ii jj ic jc : ℤ) (g : Grid F) (body : Body F) (tol : F) (k ko : ℕ) (h1 : P ii jj)
    (h2 : P ic jc) : Local P s (relaxTerrainOnBody s st0 dh ii jj ic jc g body tol k ko) := by
  unfold relaxTerrainOnBody
  dsimp only
  exact ((((Local.refl s).setT h1 _).setBS h2 _).setBS h2 _).pushPos _

theorem relaxUnstableTerrainCell_local {P : ℤ → ℤ → Prop} (s : SimOut F) (status : ℕ) (dh : F)
    (ii jj ic jc : ℤ) (g : Grid F) (body : Body F) (tol : F) (h1 : P ii jj) (h2 : P ic jc) :
    Post (relaxUnstableTerrainCell s status dh ii jj ic jc g body tol) (Local P s) := by
  unfold relaxUnstableTerrainCell
  split
  · exact relaxTerrainOnTerrain_local s _ dh ii jj ic jc g tol h1 h2
  · exact Post.ok (relaxTerrainOnSoil_local s _ dh ii jj ic jc g body tol 2 0 h1 h2)
  · exact Post.ok (relaxTerrainOnBody_local s _ dh ii jj ic jc g body tol 2 0 h1 h2)
  · exact Post.ok (relaxTerrainOnSoil_local s _ dh ii jj ic jc g body tol 0 2 h1 h2)
  · exact Post.ok (relaxTerrainOnBody_local s _ dh ii jj ic jc g body tol 0 2 h1 h2)
  · exact Post.ok (.refl s)

theorem relaxTerrainDirs_local (g : Grid F) (body : Body F) (dh tol : F) (ii jj : ℤ)
    (ds : List (ℤ × ℤ)) (hds : ∀ d ∈ ds, d ∈ directions4) (s : SimOut F) :
    Post (relaxTerrainDirs g body dh tol ii jj ds s) (Local (NearCol ii jj) s) := by
  induction ds generalizing s with
  | nil => exact Post.ok (.refl s)
  | cons d ds ih =>
    unfold relaxTerrainDirs
    dsimp only
    have ih' := ih fun x hx => hds x (List.mem_cons_of_mem _ hx)
    refine Post.guard fun _ => ?_
    split_ifs
    · exact ih' s
    · refine Post.bind (relaxUnstableTerrainCell_local (P := NearCol ii jj) _ _ _ _ _ _ _ _ _ _
        (Or.inl ⟨rfl, rfl⟩) (nearCol_dir (hds d List.mem_cons_self) ii jj)) ?_
      intro s1 h1
      refine (ih' s1).mono fun s2 h2 => ?_
      exact (((Local.refl s).setEq false).trans h1).trans h2


theorem relaxTerrainCells_local (g : Grid F) (body : Body F) (dh tol : F) (cs ds : List (ℤ × ℤ))
    (hds : ∀ d ∈ ds, d ∈ directions4) (s : SimOut F) (r : Rng) :
    Post (relaxTerrainCells g body dh tol cs ds s r)
      (fun x => Local (fun i j => ∃ c ∈ cs, NearCol c.1 c.2 i j) s x.1) := by
  induction cs generalizing s r ds with
  | nil => exact Post.ok (.refl s)
  | cons c cs ih =>
    unfold relaxTerrainCells
    dsimp only
    have hds' : ∀ d ∈ (shuffle ds r).1, d ∈ directions4 := fun d hd => hds d (mem_shuffle.mp hd)
    refine Post.bind (relaxTerrainDirs_local g body dh tol c.1 c.2 _ hds' s) ?_
    intro s1 h1
    refine (ih _ hds' s1 _).mono fun x h2 => ?_
    exact (h1.mono fun i j h => ⟨c, List.mem_cons_self, h⟩).trans
      (h2.mono fun i j ⟨c', hc', h⟩ => ⟨c', List.mem_cons_of_mem _ hc', h⟩)

theorem locateUnstableCells_sub (s : SimOut F) (dh tol : F) (l : List (ℤ × ℤ)) :
    Post (locateUnstableCells s dh tol l) (fun r => ∀ c, c ∈ r ↔ c ∈ l ∧ unstableAt s dh tol c.1 c.2) := by
  induction l with
  | nil => exact Post.ok (by simp)
  | cons p l ih =>
    unfold locateUnstableCells
    refine Post.guard fun _ => ?_
    refine Post.bind ih ?_
    intro r hr
    refine Post.ok ?_
    intro c
    split_ifs with h
    · simp only [List.mem_cons, hr]
      constructor
      · rintro (rfl | h'); exacts [⟨.inl rfl, h⟩, ⟨.inr h'.1, h'.2⟩]
      · rintro ⟨rfl | h1, h2⟩; exacts [.inl rfl, .inr ⟨h1, h2⟩]
    · rw [hr, List.mem_cons]
      constructor
      · rintro ⟨h1, h2⟩; exact ⟨.inr h1, h2⟩
      · rintro ⟨rfl | h1, h2⟩; exacts [absurd h2 h, ⟨h1, h2⟩]

/-- What `RelaxTerrain` leaves alone -/
theorem relaxTerrain_frame (g : Grid F) (body : Body F) (p : SimParam F) (tol : F) (w : World F) :
    Post (relaxTerrain g body p tol w) (fun w' => SameBody w.out w'.out ∧
      w'.out.impactArea = w.out.impactArea ∧ w'.log = w.log ∧
      (∀ i j, (∀ c ∈ w.out.impactArea.cells, ¬ NearCol c.1 c.2 i j) →
        w'.out.terrain i j = w.out.terrain i j ∧
        ∀ k, w'.out.bodySoil k i j = w.out.bodySoil k i j)) := by
  unfold relaxTerrain
  dsimp only
  refine Post.bind (locateUnstableCells_sub _ _ _ _) ?_
  intro cells hc
  split_ifs
  · exact Post.ok ⟨⟨rfl, rfl, rfl, rfl⟩, rfl, rfl, fun _ _ _ => ⟨rfl, fun _ => rfl⟩⟩
  · refine Post.bind (relaxTerrainCells_local _ _ _ _ _ _ (fun d hd => hd) _ _) ?_
    rintro ⟨s1, r1⟩ h1
    refine Post.ok ⟨h1.body, h1.impactArea, rfl, ?_⟩
    intro i j hij
    have hn : ¬ ∃ c ∈ (shuffle cells w.rng).1, NearCol c.1 c.2 i j := by
      rintro ⟨c, hcm, hn⟩
      exact hij c ((hc c).mp (mem_shuffle.mp hcm)).1 hn
    exact ⟨h1.terrain i j hn, fun k => h1.soil k i j hn⟩

/-! ## Body-soil relaxation -/

theorem emptyColumn_local {P : ℤ → ℤ → Prop} {a : SimOut F} (s : SimOut F) (nn ind : ℕ) (ii jj : ℤ)
    (h : Local P a s) (h1 : P ii jj) : Local P a (emptyColumn s nn ind ii jj) :=
  ((h.setBS h1 _).setBS h1 _).setH _ _

theorem takeFromColumn_local {P : ℤ → ℤ → Prop} {a : SimOut F} (s : SimOut F) (nn ind : ℕ)
    (ii jj : ℤ) (hNew hSoil tol : F) (h : Local P a s) (h1 : P ii jj) :
    Local P a (takeFromColumn s nn ind ii jj hNew hSoil tol) := by
  unfold takeFromColumn
  split_ifs
  · exact (h.setBS h1 _).setH _ _
  · exact emptyColumn_local _ _ _ _ _ h h1

theorem relaxUnstableBodyCell_local {P : ℤ → ℤ → Prop} (s : SimOut F) (status : ℕ) (dh : F)
    (nn : ℕ) (ii jj : ℤ) (ind : ℕ) (ic jc : ℤ) (g : Grid F) (body : Body F) (tol : F)
    (h1 : P ii jj) (h2 : P ic jc) :
    Local P s (relaxUnstableBodyCell s status dh nn ii jj ind ic jc g body tol).1 := by
  have hs : Local P s s := .refl s
  have hA : ∀ st0, Local P s (relaxBodyOnTerrain s st0 dh nn ii jj ind ic jc g tol) := by
    intro st0
    unfold relaxBodyOnTerrain
    dsimp only
    split_ifs
    all_goals first
      | exact ((hs.setT h2 _).setBS h1 _).setH _ _
      | exact emptyColumn_local _ _ _ _ _ (hs.setT h2 _) h1
  have hB : ∀ k, Local P s (relaxBodyOnSoil1 s dh nn ii jj ind ic jc g body tol k).1 := by
    intro k
    unfold relaxBodyOnSoil1
    dsimp only
    exact (takeFromColumn_local _ _ _ _ _ _ _ _ hs h1).setBS h2 _
  have hC : ∀ k, Local P s (relaxBodyOnBody1 s dh nn ii jj ind ic jc g body tol k).1 := by
    intro k
    unfold relaxBodyOnBody1
    dsimp only
    exact (takeFromColumn_local _ _ _ _ _ _ _ _ (hs.setBS h2 _) h1).setBS h2 _
  have hD : ∀ k ko b, Local P s (relaxBodyOnSoil2 s dh nn ii jj ind ic jc g body tol k ko b).1 := by
    intro k ko b
    unfold relaxBodyOnSoil2
    dsimp only
    split_ifs
    · exact ((hs.setBS h1 _).setBS h2 _).setH _ _
    · exact ((hs.setBS h2 _).setBS h1 _).setH _ _
    · exact emptyColumn_local _ _ _ _ _ (hs.setBS h2 _) h1
  have hE : ∀ k ko b c,
      Local P s (relaxBodyOnBody2 s dh nn ii jj ind ic jc g body tol k ko b c).1 := by
    intro k ko b c
    unfold relaxBodyOnBody2
    dsimp only
    split_ifs
    all_goals first
      | exact (((hs.setBS h2 _).setBS h1 _).setBS h2 _).setH _ _
      | exact (((hs.setBS h2 _).setBS h2 _).setBS h1 _).setH _ _
      | exact emptyColumn_local _ _ _ _ _ ((hs.setBS h2 _).setBS h2 _) h1
      | exact takeFromColumn_local _ _ _ _ _ _ _ _ ((hs.setBS h2 _).setBS h2 _) h1
  unfold relaxUnstableBodyCell
  dsimp only
  split
  · exact hA _
  · exact hB _
  · exact hC _
  · exact hB _
  · exact hC _
  · exact hD _ _ _
  · exact hE _ _ _ _
  · exact hD _ _ _
  · exact hE _ _ _ _
  · exact hs

theorem relaxBodyDirs_local (g : Grid F) (body : Body F) (dh tol : F) (nn : ℕ) (ii jj : ℤ)
    (ind : ℕ) (ds : List (ℤ × ℤ)) (hds : ∀ d ∈ ds, d ∈ directions4) (s : SimOut F)
    (q : List (BodySoil F)) :
    Post (relaxBodyDirs g body dh tol nn ii jj ind ds s q)
      (fun x => Local (NearCol ii jj) s x.1) := by
  induction ds generalizing s q with
  | nil => exact Post.ok (.refl s)
  | cons d ds ih =>
    unfold relaxBodyDirs
    dsimp only
    have ih' := ih fun x hx => hds x (List.mem_cons_of_mem _ hx)
    refine Post.guard fun _ => ?_
    split_ifs
    · exact ih' s q
    · refine (ih' _ _).mono fun x hx => ?_
      exact (((Local.refl s).setEq false).trans (relaxUnstableBodyCell_local _ _ _ _ _ _ _ _ _ _ _ _
        (Or.inl ⟨rfl, rfl⟩) (nearCol_dir (hds d List.mem_cons_self) ii jj))).trans hx

theorem relaxBodyEntries_local (g : Grid F) (body : Body F) (dh tol : F) (count nn : ℕ)
    (ds : List (ℤ × ℤ)) (hds : ∀ d ∈ ds, d ∈ directions4) (s : SimOut F) (q : List (BodySoil F))
    (r : Rng) :
    Post (relaxBodyEntries g body dh tol count nn ds s q r)
      (fun x => Local (fun _ _ => True) s x.1) := by
  induction count generalizing nn ds s q r with
  | zero => exact Post.ok (.refl s)
  | succ count ih =>
    unfold relaxBodyEntries
    split
    · exact Post.error
    · rename_i e he
      split_ifs
      · exact ih _ _ hds _ _ _
      · have hds' : ∀ d ∈ (shuffle ds r).1, d ∈ directions4 := fun d hd => hds d (mem_shuffle.mp hd)
        refine Post.bind (relaxBodyDirs_local g body dh tol nn e.ii e.jj e.ind _ hds' s q) ?_
        rintro ⟨s1, q1⟩ h1
        refine (ih _ _ hds' _ _ _).mono fun x hx => ?_
        exact (h1.mono fun _ _ _ => trivial).trans hx

theorem relaxBodySoil_frame (g : Grid F) (body : Body F) (p : SimParam F) (tol : F) (w : World F) :
    Post (relaxBodySoil g body p tol w) (fun w' => SameBody w.out w'.out ∧
      w'.out.impactArea = w.out.impactArea ∧ w'.out.relaxArea = w.out.relaxArea ∧
      w'.log = w.log) := by
  unfold relaxBodySoil
  refine Post.bind (relaxBodyEntries_local _ _ _ _ _ _ _ (fun d hd => hd) _ _ _) ?_
  rintro ⟨s1, q1, r1⟩ h1
  exact Post.ok ⟨h1.body, h1.impactArea, h1.relaxArea, rfl⟩

/-! ## Relaxation loop -/

theorem shuffleEntries_frame (w : World F) : SameBody w.out (shuffleEntries w).out :=
  ⟨rfl, rfl, rfl, rfl⟩

theorem relaxOnce_frame (g : Grid F) (body : Body F) (p : SimParam F) (tol : F) (w : World F) :
    Post (relaxOnce g body p tol w) (fun w' => SameBody w.out w'.out ∧ w'.log = w.log) := by
  unfold relaxOnce
  refine Post.bind (relaxTerrain_frame _ _ _ _ _) ?_
  intro w1 h1
  refine (relaxBodySoil_frame _ _ _ _ _).mono fun w2 h2 => ?_
  exact ⟨(h1.1.trans (shuffleEntries_frame w1)).trans h2.1, h2.2.2.2.trans h1.2.2.1⟩

theorem relaxLoop_frame (g : Grid F) (body : Body F) (p : SimParam F) (tol : F) (fuel : ℕ) (it : ℤ)
    (w : World F) :
    Post (relaxLoop g body p tol fuel it w)
      (fun x => SameBody w.out x.1.out ∧ x.1.log = w.log) := by
  induction fuel generalizing it w with
  | zero =>
    unfold relaxLoop
    split_ifs
    · exact Post.error
    · exact Post.ok ⟨.refl _, rfl⟩
  | succ n ih =>
    unfold relaxLoop
    split_ifs
    · refine Post.bind (relaxOnce_frame _ _ _ _ _) ?_
      intro w1 h1
      exact (ih _ _).mono fun x hx => ⟨h1.1.trans hx.1, hx.2.trans h1.2⟩
    · exact Post.ok ⟨.refl _, rfl⟩

/-! ## Intersections -/

/-- any soil may have changed -/
abbrev Loc (s s' : SimOut F) : Prop := Local (fun _ _ => True) s s'

theorem spreadRing_loc (tol : F) (ii jj pp : ℤ) (ds : List (ℤ × ℤ)) (s : SimOut F) (h : F) :
    Post (spreadRing tol ii jj pp ds s h) (fun x => Loc s x.1) := by
  induction ds generalizing s h with
  | nil => exact Post.ok (.refl s)
  | cons d ds ih =>
    unfold spreadRing
    dsimp only
    refine Post.guard fun _ => ?_
    split_ifs
    · exact Post.ok ((Local.refl s).setT trivial _)
    · exact (ih _ _).mono fun x hx => ((Local.refl s).setT trivial _).trans hx
    · exact Post.ok ((Local.refl s).setT trivial _)
    · exact ih _ _

theorem spreadOut_loc (tol : F) (ii jj : ℤ) (ds : List (ℤ × ℤ)) (fuel : ℕ) (pp : ℤ)
    (s : SimOut F) (h : F) : Post (spreadOut tol ii jj ds fuel pp s h) (Loc s) := by
  induction fuel generalizing pp s h with
  | zero =>
    unfold spreadOut
    split_ifs
    · exact Post.error
    · exact Post.ok (.refl s)
  | succ n ih =>
    unfold spreadOut
    split_ifs
    · refine Post.bind (spreadRing_loc _ _ _ _ _ _ _) ?_
      rintro ⟨s1, h1⟩ hl
      exact (ih _ _ _).mono fun x hx => hl.trans hx
    · exact Post.ok (.refl s)

theorem moveIntersectingBodyCells_loc (fuel : ℕ) (tol : F) (cs : List (ℕ × ℤ × ℤ))
    (ds : List (ℤ × ℤ)) (s : SimOut F) (r : Rng) :
    Post (moveIntersectingBodyCells fuel tol cs ds s r) (fun x => Loc s x.1) := by
  induction cs generalizing ds s r with
  | nil => exact Post.ok (.refl s)
  | cons c cs ih =>
    obtain ⟨k, ii, jj⟩ := c
    unfold moveIntersectingBodyCells
    dsimp only
    refine Post.guard fun _ => ?_
    split_ifs
    · exact ih _ _ _
    · refine Post.bind (spreadOut_loc _ _ _ _ _ _ _ _) ?_
      intro s1 h1
      exact (ih _ _ _).mono fun x hx => (h1.setT trivial _).trans hx

theorem moveIntersectingBody_loc (fuel : ℕ) (tol : F) (w : World F) :
    Post (moveIntersectingBody fuel tol w) (fun w' => Loc w.out w'.out ∧ w'.log = w.log) := by
  unfold moveIntersectingBody
  refine Post.bind (P := fun _ => True) (fun _ _ => trivial) ?_
  intro cells _
  split_ifs
  · exact Post.ok ⟨.refl _, rfl⟩
  · refine Post.bind (moveIntersectingBodyCells_loc _ _ _ _ _ _) ?_
    rintro ⟨s1, r1⟩ h1
    exact Post.ok ⟨h1, rfl⟩

theorem moveBodySoil_loc (s : SimOut F) (q : Probe F) (maxH : F) (iN jN : ℤ) (g : Grid F)
    (body : Body F) (tol : F) : Loc s (moveBodySoil s q maxH iN jN g body tol).1 := by
  have hs : Loc s s := .refl s
  have h1 : ∀ k, Loc s (moveBodySoil1 s q maxH iN jN g body tol k).1 := by
    intro k
    unfold moveBodySoil1
    dsimp only
    split_ifs
    · exact hs.setT trivial _
    · exact hs
    · exact (hs.setBS trivial _).pushPos _
    · exact ((hs.setBS trivial _).setBS trivial _).pushPos _
  have h2 : ∀ a b, Loc s (moveBodySoil2 s q iN jN g body tol a b).1 := by
    intro a b
    unfold moveBodySoil2
    dsimp only
    split_ifs
    · exact hs
    · exact (hs.setBS trivial _).pushPos _
    · exact (hs.setBS trivial _).pushPos _
    · exact ((hs.setBS trivial _).setBS trivial _).pushPos _
    · exact ((hs.setBS trivial _).setBS trivial _).pushPos _
  unfold moveBodySoil
  split_ifs
  · exact hs.setT trivial _
  · exact h1 _
  · exact h1 _
  · exact h2 _ _
  · exact h2 _ _

theorem exploreDir_loc (g : Grid F) (body : Body F) (tol : F) (ii jj : ℤ) (d : ℤ × ℤ) (fuel : ℕ)
    (pp : ℤ) (s : SimOut F) (q : Probe F) (maxH : F) :
    Post (exploreDir g body tol ii jj d fuel pp s q maxH) (fun x => Loc s x.1) := by
  induction fuel generalizing pp s q maxH with
  | zero =>
    unfold exploreDir
    split_ifs
    · exact Post.error
    · exact Post.ok (.refl s)
  | succ n ih =>
    unfold exploreDir
    split_ifs
    · refine Post.guard fun _ => ?_
      exact (ih _ _ _ _).mono fun x hx => (moveBodySoil_loc _ _ _ _ _ _ _ _).trans hx
    · exact Post.ok (.refl s)

theorem exploreDirs_loc (fuel : ℕ) (g : Grid F) (body : Body F) (tol : F) (ind indT : ℕ)
    (ii jj : ℤ) (ds : List (ℤ × ℤ)) (s : SimOut F) (h : F) :
    Post (exploreDirs fuel g body tol ind indT ii jj ds s h) (fun x => Loc s x.1) := by
  induction ds generalizing s h with
  | nil => exact Post.ok (.refl s)
  | cons d ds ih =>
    unfold exploreDirs
    refine Post.bind (exploreDir_loc _ _ _ _ _ _ _ _ _ _ _) ?_
    rintro ⟨s1, h1⟩ hl
    dsimp only
    split_ifs
    · exact Post.ok hl
    · exact (ih _ _).mono fun x hx => hl.trans hx

theorem moveIntersectingEntries_loc (fuel : ℕ) (g : Grid F) (body : Body F) (tol : F)
    (fuelN nn : ℕ) (ds : List (ℤ × ℤ)) (w : World F) :
    Post (moveIntersectingEntries fuel g body tol fuelN nn ds w)
      (fun w' => Loc w.out w'.out) := by
  induction fuelN generalizing nn ds w with
  | zero =>
    unfold moveIntersectingEntries
    split
    · exact Post.ok (.refl _)
    · exact Post.error
  | succ n ih =>
    unfold moveIntersectingEntries
    split
    · exact Post.ok (.refl _)
    · rename_i e he
      refine Post.guard fun _ => ?_
      dsimp only
      generalize (if e.ind = 0 then 2 else 0) = indT
      split_ifs
      · exact ih _ _ _
      all_goals first
        | exact ih _ _ _
        | (refine Post.bind (exploreDirs_loc _ _ _ _ _ _ _ _ _ _ _) ?_
           rintro ⟨s1, h1⟩ hl
           refine (ih _ _ _).mono fun x hx => ?_
           refine Local.trans (b := s1) ?_ ?_
           · exact (((Local.refl _).setH _ _).setBS trivial _).trans hl
           · dsimp only at hx; split_ifs at hx <;> exact hx)

theorem moveIntersectingBodySoil_loc (fuel : ℕ) (g : Grid F) (body : Body F) (tol : F)
    (w : World F) :
    Post (moveIntersectingBodySoil fuel g body tol w) (fun w' => Loc w.out w'.out) :=
  moveIntersectingEntries_loc _ _ _ _ _ _ _ _

theorem moveIntersectingCells_loc (fuel : ℕ) (g : Grid F) (body : Body F) (tol : F) (w : World F) :
    Post (moveIntersectingCells fuel g body tol w) (fun w' => Loc w.out w'.out) := by
  unfold moveIntersectingCells
  refine Post.bind (moveIntersectingBodySoil_loc _ _ _ _ _) ?_
  intro w1 h1
  exact (moveIntersectingBody_loc _ _ _).mono fun w2 h2 => h1.trans h2.1

/-! ## Transport of body soil -/

theorem resetBodySoil_loc (l : List (BodySoil F)) (s : SimOut F) :
    Post (resetBodySoil l s) (Loc s) := by
  induction l generalizing s with
  | nil => exact Post.ok (.refl s)
  | cons e l ih =>
    unfold resetBodySoil
    refine Post.guard fun _ => ?_
    exact (ih _).mono fun x hx => (((Local.refl s).setBS trivial _).setBS trivial _).trans hx

theorem placeOn_loc (s : SimOut F) (k : ℕ) (ii jj : ℤ) (e : BodySoil F) (h : F) :
    Loc s (placeOn s k ii jj e h) :=
  (((Local.refl s).setBS trivial _).setBS trivial _).pushPos _

theorem updateEntry_loc (pos : Vec3 F) (ori : Quat F) (g : Grid F) (body : Body F) (tol : F)
    (e : BodySoil F) (w : World F) :
    Post (updateEntry pos ori g body tol e w) (fun w' => Loc w.out w'.out ∧ w'.rng = w.rng) := by
  unfold updateEntry
  dsimp only
  split_ifs
  · exact Post.ok ⟨.refl _, rfl⟩
  · refine Post.bind (P := fun _ => True) (fun _ _ => trivial) fun iN _ => ?_
    refine Post.bind (P := fun _ => True) (fun _ _ => trivial) fun jN _ => ?_
    refine Post.bind (P := fun _ => True) (fun _ _ => trivial) fun x _ => ?_
    rcases x with ⟨k, it, jt⟩ | c
    · exact Post.ok ⟨placeOn_loc _ _ _ _ _ _, rfl⟩
    · dsimp only
      split_ifs
      · split
        · exact Post.ok ⟨placeOn_loc _ _ _ _ _ _, rfl⟩
        · exact Post.error
      · exact Post.ok ⟨(Local.refl _).setT trivial _, rfl⟩

theorem updateEntries_loc (pos : Vec3 F) (ori : Quat F) (g : Grid F) (body : Body F) (tol : F)
    (l : List (BodySoil F)) (w : World F) :
    Post (updateEntries pos ori g body tol l w) (fun w' => Loc w.out w'.out ∧ w'.rng = w.rng) := by
  induction l generalizing w with
  | nil => exact Post.ok ⟨.refl _, rfl⟩
  | cons e l ih =>
    unfold updateEntries
    refine Post.bind (updateEntry_loc _ _ _ _ _ _ _) ?_
    intro w1 h1
    exact (ih _).mono fun x hx => ⟨h1.1.trans hx.1, hx.2.trans h1.2⟩

theorem updateBodySoil_loc (pos : Vec3 F) (ori : Quat F) (g : Grid F) (body : Body F) (tol : F)
    (w : World F) :
    Post (updateBodySoil pos ori g body tol w) (fun x => Loc w.out x.1.out ∧ x.1.rng = w.rng ∧
      x.2 = { body with pos := pos, ori := ori }) := by
  unfold updateBodySoil
  dsimp only
  refine Post.bind (resetBodySoil_loc _ _) ?_
  intro s1 h1
  refine Post.bind (updateEntries_loc _ _ _ _ _ _ _) ?_
  intro w2 h2
  exact Post.ok ⟨(h1.setPos []).trans h2.1, h2.2, rfl⟩

end Soil
