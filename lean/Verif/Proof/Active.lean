import Verif.Proof.RelaxT
import Verif.Spec.Active

/-! # Where terrain relaxation can create instabilities -/

set_option linter.unusedSectionVars false
set_option linter.unusedSimpArgs false

namespace Soil

variable {K : Type} [Field K] [LinearOrder K] [FloorRing K] [Transc K] [IsStrictOrderedRing K]

theorem unstableAt_iff (s : SimOut K) (dh tol : K) (i j : ℤ) :
    unstableAt s dh tol i j = true ↔ Unstable s dh tol i j := by
  unfold unstableAt Unstable Adjacent
  simp only [ex_lt, ex_sub, Bool.or_eq_true, decide_eq_true_eq]
  constructor
  · rintro (((h | h) | h) | h)
    · exact ⟨_, _, .inl ⟨rfl, rfl⟩, h⟩
    · exact ⟨_, _, .inr (.inl ⟨rfl, rfl⟩), h⟩
    · exact ⟨_, _, .inr (.inr (.inl ⟨rfl, rfl⟩)), h⟩
    · exact ⟨_, _, .inr (.inr (.inr ⟨rfl, rfl⟩)), h⟩
  · rintro ⟨i', j', ⟨rfl, rfl⟩ | ⟨rfl, rfl⟩ | ⟨rfl, rfl⟩ | ⟨rfl, rfl⟩, h⟩ <;> tauto

/-- Terrain is lowered at most in the columns `U`, and raised at most next to them. -/
structure Slides (U : ℤ → ℤ → Prop) (s s' : SimOut K) : Prop where
  up : ∀ i j, ¬ U i j → s.terrain i j ≤ s'.terrain i j
  same : ∀ i j, (∀ a b, U a b → ¬ NearCol a b i j) → s'.terrain i j = s.terrain i j

theorem Slides.refl (U : ℤ → ℤ → Prop) (s : SimOut K) : Slides U s s :=
  ⟨fun _ _ _ => le_rfl, fun _ _ _ => rfl⟩

theorem Slides.trans {U : ℤ → ℤ → Prop} {a b c : SimOut K} (h : Slides U a b) (h' : Slides U b c) :
    Slides U a c :=
  ⟨fun i j hU => (h.up i j hU).trans (h'.up i j hU), fun i j hU => (h'.same i j hU).trans (h.same i j hU)⟩

theorem Slides.mono {U V : ℤ → ℤ → Prop} {a b : SimOut K} (h : Slides U a b) (hUV : ∀ i j, U i j → V i j) :
    Slides V a b :=
  ⟨fun i j hV => h.up i j fun hU => hV (hUV i j hU), fun i j hV => h.same i j fun a b hU => hV a b (hUV a b hU)⟩

theorem setT2_slides (s : SimOut K) (ii jj ic jc : ℤ) (u v : K) (hne : ¬ (ic = ii ∧ jc = jj))
    (hn : NearCol ii jj ic jc) (hv : s.terrain ic jc ≤ v) :
    Slides (fun a b => a = ii ∧ b = jj) s ((s.setT ii jj u).setT ic jc v) := by
  constructor
  · intro i j hU
    show _ ≤ upd2 (upd2 s.terrain ii jj u) ic jc v i j
    by_cases h : i = ic ∧ j = jc
    · obtain ⟨rfl, rfl⟩ := h; simpa [upd2] using hv
    · rw [upd2_ne _ _ h, upd2_ne _ _ hU]
  · intro i j hU
    have := hU ii jj ⟨rfl, rfl⟩
    show upd2 (upd2 s.terrain ii jj u) ic jc v i j = _
    rw [upd2_ne, upd2_ne]
    · rintro ⟨rfl, rfl⟩; exact this (.inl ⟨rfl, rfl⟩)
    · rintro ⟨rfl, rfl⟩; exact this hn

theorem setT1_slides (s s' : SimOut K) (ii jj : ℤ) (u : K) (h : s'.terrain = upd2 s.terrain ii jj u) :
    Slides (fun a b => a = ii ∧ b = jj) s s' := by
  constructor
  · intro i j hU
    rw [h, upd2_ne _ _ hU]
  · intro i j hU
    have := hU ii jj ⟨rfl, rfl⟩
    rw [h, upd2_ne]
    rintro ⟨rfl, rfl⟩; exact this (.inl ⟨rfl, rfl⟩)

theorem relaxTerrainOnTerrain_slides (s : SimOut K) (st0 : ℕ) (dh : K) (ii jj ic jc : ℤ)
    (g : Grid K) (tol : K) (t : TolOK g.cellZ tol) (hd : Al g.cellZ dh)
    (hT : Al g.cellZ (s.terrain ii jj)) (hT' : Al g.cellZ (s.terrain ic jc))
    (hne : ¬ (ic = ii ∧ jc = jj)) (hn : NearCol ii jj ic jc)
    (hlow : s.terrain ic jc + tol < s.terrain ii jj - dh)
    (hst : (st0 = 4 ∧ ¬ HasBody s 0 ic jc ∧ ¬ HasBody s 2 ic jc) ∨
         (st0 = 1 ∧ HasBody s 0 ic jc ∧ ¬ HasBody s 2 ic jc ∧
            s.terrain ic jc + tol < s.body 0 ic jc) ∨
         (st0 = 2 ∧ ¬ HasBody s 0 ic jc ∧ HasBody s 2 ic jc ∧
            s.terrain ic jc + tol < s.body 2 ic jc) ∨
         (st0 = 3 ∧ HasBody s 0 ic jc ∧ HasBody s 2 ic jc ∧
            s.terrain ic jc + tol < Min.min (s.body 0 ic jc) (s.body 2 ic jc))) :
    Post (relaxTerrainOnTerrain s st0 dh ii jj ic jc g tol) (Slides (fun a b => a = ii ∧ b = jj) s) := by
  have htp := t.pos
  have hcp := t.cpos
  obtain ⟨hal, hnew⟩ := newHeight_spec t hd hT hT'
  have hδ : newHeight g tol dh (s.terrain ii jj) (s.terrain ic jc) ≤ s.terrain ii jj := by
    rcases hnew with h | h <;> linarith
  unfold relaxTerrainOnTerrain
  simp only [ex_add, ex_sub, ex_lt, decide_eq_true_eq, FOps.minL, List.foldl_cons, List.foldl_nil,
    ex_min]
  generalize newHeight g tol dh (s.terrain ii jj) (s.terrain ic jc) = hN at *
  intro s' h'
  rcases hst with ⟨rfl, b0, b2⟩ | ⟨rfl, b0, b2, hl⟩ | ⟨rfl, b0, b2, hl⟩ | ⟨rfl, b0, b2, hl⟩ <;>
    simp only at h'
  · cases h'
    exact setT2_slides _ _ _ _ _ _ _ hne hn (by linarith)
  all_goals
    split_ifs at h' with hlt
    all_goals
      cases h'
      exact setT2_slides _ _ _ _ _ _ _ hne hn (by linarith)

theorem relaxTerrainDirs_slides (g : Grid K) (body : Body K) (dh tol : K) (t : TolOK g.cellZ tol)
    (hd : Al g.cellZ dh) (ii jj : ℤ) (ds : List (ℤ × ℤ)) (hds : ∀ d ∈ ds, d ∈ directions4)
    (s : SimOut K) (h : WellFormed g.cellZ s) :
    Post (relaxTerrainDirs g body dh tol ii jj ds s) (Slides (fun a b => a = ii ∧ b = jj) s) := by
  induction ds generalizing s with
  | nil => exact Post.ok (.refl _ _)
  | cons d ds ih =>
    have ih' := ih fun x hx => hds x (List.mem_cons_of_mem _ hx)
    have hd4 := hds d List.mem_cons_self
    have hne := dir_ne hd4 ii jj
    unfold relaxTerrainDirs
    dsimp only
    refine Post.guard fun ⟨h1, h2⟩ => ?_
    split_ifs with hst
    · exact ih' s h
    · have hw := h.setEq false
      obtain ⟨hlow, ⟨st0, he, hc, -⟩ | ⟨k, st0, hk, hb, hs, h3, h4, h5, he, -⟩ |
          ⟨k, st0, hk, hb, hs, h3, h4, he, -⟩⟩ :=
        relaxUnstableTerrainCell_cases s { s with equilibrium := false } dh ii jj (ii + d.1)
          (jj + d.2) g body tol _ hst
      · rw [he]
        refine Post.bind (P := fun s1 => WellFormed g.cellZ s1 ∧ Slides (fun a b => a = ii ∧ b = jj) s s1)
          ?_ fun s1 hs1 => Post.mono (ih' s1 hs1.1) fun s2 hs2 => hs1.2.trans hs2
        intro s1 h1'
        refine ⟨relaxTerrainOnTerrain_wf _ st0 dh ii jj _ _ g tol t hd hw h1 h2 hne hlow hc s1 h1', ?_⟩
        have := relaxTerrainOnTerrain_slides { s with equilibrium := false } st0 dh ii jj _ _ g tol t hd
          (hw.soilOK.terrain_al ii jj h1) (hw.soilOK.terrain_al _ _ h2) hne (nearCol_dir hd4 ii jj) hlow
          hc s1 h1'
        exact ⟨this.up, this.same⟩
      · rw [he]
        refine Post.bind (P := fun s1 => WellFormed g.cellZ s1 ∧ Slides (fun a b => a = ii ∧ b = jj) s s1)
          ?_ fun s1 hs1 => Post.mono (ih' s1 hs1.1) fun s2 hs2 => hs1.2.trans hs2
        exact Post.ok ⟨(relaxTerrainOnSoil_move _ st0 dh ii jj _ _ g body tol t hd hw h1 h2 k hk hb
          hs h3 h4 h5).1, setT1_slides _ _ _ _ _ rfl⟩
      · rw [he]
        refine Post.bind (P := fun s1 => WellFormed g.cellZ s1 ∧ Slides (fun a b => a = ii ∧ b = jj) s s1)
          ?_ fun s1 hs1 => Post.mono (ih' s1 hs1.1) fun s2 hs2 => hs1.2.trans hs2
        exact Post.ok ⟨(relaxTerrainOnBody_move _ st0 dh ii jj _ _ g body tol t hd hw h1 h2 k hk hb
          hs h3 h4).1, setT1_slides _ _ _ _ _ rfl⟩

theorem relaxTerrainCells_slides (g : Grid K) (body : Body K) (dh tol : K) (t : TolOK g.cellZ tol)
    (hd : Al g.cellZ dh) (cs ds : List (ℤ × ℤ)) (hds : ∀ d ∈ ds, d ∈ directions4) (s : SimOut K)
    (r : Rng) (h : WellFormed g.cellZ s) :
    Post (relaxTerrainCells g body dh tol cs ds s r) fun x => Slides (fun a b => (a, b) ∈ cs) s x.1 := by
  induction cs generalizing ds s r with
  | nil => exact Post.ok (.refl _ _)
  | cons c cs ih =>
    unfold relaxTerrainCells
    have hds' : ∀ d ∈ (shuffle ds r).1, d ∈ directions4 := fun d hd => hds d (mem_shuffle.mp hd)
    refine Post.bind (P := fun s1 => WellFormed g.cellZ s1 ∧ Slides (fun a b => a = c.1 ∧ b = c.2) s s1)
      (fun s1 h1 => ⟨relaxTerrainDirs_wf g body dh tol t hd c.1 c.2 _ hds' s h s1 h1,
        relaxTerrainDirs_slides g body dh tol t hd c.1 c.2 _ hds' s h s1 h1⟩) fun s1 hs1 => ?_
    refine Post.mono (ih _ hds' s1 _ hs1.1) fun x hx => ?_
    refine (hs1.2.mono ?_).trans (hx.mono ?_)
    · rintro a b ⟨rfl, rfl⟩; exact List.mem_cons_self
    · intro a b hab; exact List.mem_cons_of_mem _ hab

theorem foldl_min_le (cs : List (ℤ × ℤ)) (f : ℤ × ℤ → ℤ) (m : ℤ) :
    cs.foldl (fun m c => Min.min m (f c)) m ≤ m ∧ ∀ c ∈ cs, cs.foldl (fun m c => Min.min m (f c)) m ≤ f c := by
  induction cs generalizing m with
  | nil => simp
  | cons a cs ih =>
    rw [List.foldl_cons]
    obtain ⟨h1, h2⟩ := ih (Min.min m (f a))
    refine ⟨h1.trans (min_le_left _ _), fun c hc => ?_⟩
    rcases List.mem_cons.mp hc with rfl | hc
    · exact h1.trans (min_le_right _ _)
    · exact h2 c hc

theorem le_foldl_max (cs : List (ℤ × ℤ)) (f : ℤ × ℤ → ℤ) (m : ℤ) :
    m ≤ cs.foldl (fun m c => Max.max m (f c)) m ∧ ∀ c ∈ cs, f c ≤ cs.foldl (fun m c => Max.max m (f c)) m := by
  induction cs generalizing m with
  | nil => simp
  | cons a cs ih =>
    rw [List.foldl_cons]
    obtain ⟨h1, h2⟩ := ih (Max.max m (f a))
    refine ⟨(le_max_left _ _).trans h1, fun c hc => ?_⟩
    rcases List.mem_cons.mp hc with rfl | hc
    · exact (le_max_right _ _).trans h1
    · exact h2 c hc

/-- The new area holds every column next to an unstable one, from the third column on. -/
theorem mem_relaxAreaOf (g : Grid K) (buffer : ℤ) (hb : 2 ≤ buffer) (cells : List (ℤ × ℤ)) {a b i j : ℤ}
    (hc : (a, b) ∈ cells) (hn : NearCol a b i j) (hi : 2 ≤ i ∧ i < 2 * g.halfX)
    (hj : 2 ≤ j ∧ j < 2 * g.halfY) : (relaxAreaOf g buffer cells).Has i j := by
  unfold relaxAreaOf Area.Has
  dsimp only
  have h1 := (foldl_min_le cells (fun c => c.1) (2 * g.halfX)).2 _ hc
  have h2 := (le_foldl_max cells (fun c => c.1) 0).2 _ hc
  have h3 := (foldl_min_le cells (fun c => c.2) (2 * g.halfY)).2 _ hc
  have h4 := (le_foldl_max cells (fun c => c.2) 0).2 _ hc
  unfold NearCol at hn
  dsimp only at h1 h2 h3 h4
  omega

theorem Slides.unstable {U : ℤ → ℤ → Prop} {s s' : SimOut K} (h : Slides U s s') {dh tol : K} {i j : ℤ}
    (hu : Unstable s' dh tol i j) : (∃ a b, U a b ∧ NearCol a b i j) ∨ Unstable s dh tol i j := by
  by_contra hcon
  push Not at hcon
  obtain ⟨h1, h2⟩ := hcon
  obtain ⟨i', j', ha, hlt⟩ := hu
  refine h2 ⟨i', j', ha, ?_⟩
  have e := h.same i j h1
  rw [e] at hlt
  refine lt_of_le_of_lt (h.up i' j' fun hU => h1 _ _ hU ?_) hlt
  unfold Adjacent at ha
  unfold NearCol
  omega

theorem relaxTerrain_active (g : Grid K) (body : Body K) (p : SimParam K) (tol : K)
    (t : TolOK g.cellZ tol) (hbuf : 2 ≤ p.cellBuffer) (w : World K) (h : WellFormed g.cellZ w.out) (i j : ℤ)
    (hi : 2 ≤ i ∧ i < 2 * g.halfX) (hj : 2 ≤ j ∧ j < 2 * g.halfY) :
    Post (relaxTerrain g body p tol w) fun w' => Unstable w'.out (dhMax g p) tol i j →
      w'.out.relaxArea.Has i j ∨
        (Unstable w.out (dhMax g p) tol i j ∧ ¬ w.out.impactArea.Has i j) := by
  unfold relaxTerrain
  dsimp only
  intro w' h' hu
  obtain ⟨cells, hc, h'⟩ := bind_eq_ok.mp h'
  have hsub : ∀ a b, Unstable w.out (dhMax g p) tol a b → w.out.impactArea.Has a b → (a, b) ∈ cells := by
    intro a b hab hin
    have key : ∀ l cells, locateUnstableCells { w.out with equilibrium := true } (dhMax g p) tol l = .ok cells →
        (a, b) ∈ l → (a, b) ∈ cells := by
      intro l
      induction l with
      | nil => intro _ _ hm; simp at hm
      | cons c l ih =>
        intro cells hl hm
        unfold locateUnstableCells at hl
        obtain ⟨-, hl⟩ := guardOob_bind.mp hl
        obtain ⟨rest, hr, hl⟩ := bind_eq_ok.mp hl
        cases hl
        rcases List.mem_cons.mp hm with rfl | hm
        · have : unstableAt { w.out with equilibrium := true } (dhMax g p) tol a b = true :=
            (unstableAt_iff _ _ _ _ _).mpr hab
          simp [this]
        · have := ih _ hr hm
          split_ifs
          · exact List.mem_cons_of_mem _ this
          · exact this
    exact key _ _ hc (Area.mem_cells.mpr hin)
  split_ifs at h' with hem
  · cases h'
    right
    refine ⟨hu, fun hin => ?_⟩
    have := hsub i j hu hin
    simp only [List.isEmpty_iff] at hem
    rw [hem] at this
    simp at this
  · obtain ⟨⟨s1, r1⟩, h1, h'⟩ := bind_eq_ok.mp h'
    cases h'
    have hsl := relaxTerrainCells_slides g body (dhMax g p) tol t (dhMax_al g p) _ directions4
      (fun d hd => hd) _ _ (h.setEq true) _ h1
    have hu' : Unstable s1 (dhMax g p) tol i j := hu
    rcases hsl.unstable hu' with ⟨a, b, hab, hn⟩ | hold
    · exact .inl (mem_relaxAreaOf g _ hbuf _ hab hn hi hj)
    · by_cases hin : w.out.impactArea.Has i j
      · left
        refine mem_relaxAreaOf g _ hbuf _ (mem_shuffle.mpr (hsub i j hold hin)) (.inl ⟨rfl, rfl⟩) hi hj
      · exact .inr ⟨hold, hin⟩

end Soil
