import Verif.Proof.History
import Verif.Proof.Active
import Verif.Spec.Rest

/-! # Instabilities stay in the active area -/

set_option linter.unusedSectionVars false
set_option linter.unusedSimpArgs false

namespace Soil

variable {K : Type} [Field K] [LinearOrder K] [FloorRing K] [Transc K] [IsStrictOrderedRing K]

/-- a column of the grid in which there is a body layer -/
def BodyCol (s : SimOut K) (a b : ℤ) : Prop := s.InGrid a b ∧ (HasBody s 0 a b ∨ HasBody s 2 a b)

/-- a column of the body or one of the eight around it -/
def NearBody (s : SimOut K) (i j : ℤ) : Prop :=
  ∃ a b, BodyCol s a b ∧ (a - 1 ≤ i ∧ i ≤ a + 1) ∧ (b - 1 ≤ j ∧ j ≤ b + 1)

theorem BodyCol.near {s : SimOut K} {i j : ℤ} (h : BodyCol s i j) : NearBody s i j :=
  ⟨i, j, h, by omega, by omega⟩

/-- Terrain is lowered at most in columns of the body, and raised at most around them. -/
structure Pours (s s' : SimOut K) : Prop where
  body : SameBody s s'
  up : ∀ i j, ¬ BodyCol s i j → s.terrain i j ≤ s'.terrain i j
  down : ∀ i j, ¬ NearBody s i j → s'.terrain i j ≤ s.terrain i j

theorem bodyCol_congr {s s' : SimOut K} (h : SameBody s s') (i j : ℤ) : BodyCol s' i j ↔ BodyCol s i j := by
  obtain ⟨h1, -, h3, h4⟩ := h
  unfold BodyCol HasBody SimOut.InGrid
  rw [h1, h3, h4]

theorem nearBody_congr {s s' : SimOut K} (h : SameBody s s') (i j : ℤ) :
    NearBody s' i j ↔ NearBody s i j := by
  unfold NearBody
  simp only [bodyCol_congr h]

theorem Pours.refl (s : SimOut K) : Pours s s := ⟨.refl s, fun _ _ _ => le_rfl, fun _ _ _ => le_rfl⟩

theorem Pours.trans {a b c : SimOut K} (h : Pours a b) (h' : Pours b c) : Pours a c :=
  ⟨h.body.trans h'.body,
    fun i j hn => (h.up i j hn).trans (h'.up i j fun x => hn ((bodyCol_congr h.body i j).mp x)),
    fun i j hn => (h'.down i j fun x => hn ((nearBody_congr h.body i j).mp x)).trans (h.down i j hn)⟩

theorem Pours.of_eq {s s' : SimOut K} (h : SameBody s s') (ht : s'.terrain = s.terrain) : Pours s s' :=
  ⟨h, fun i j _ => by rw [ht], fun i j _ => by rw [ht]⟩

theorem Pours.setT {s : SimOut K} {i j : ℤ} {v : K} (hn : NearBody s i j)
    (hv : BodyCol s i j ∨ s.terrain i j ≤ v) : Pours s (s.setT i j v) := by
  refine ⟨⟨rfl, rfl, rfl, rfl⟩, fun a b h => ?_, fun a b h => ?_⟩
  · show _ ≤ upd2 s.terrain i j v a b
    unfold upd2
    split_ifs with hc
    · obtain ⟨rfl, rfl⟩ := hc
      exact hv.resolve_left h
    · exact le_rfl
  · show upd2 s.terrain i j v a b ≤ _
    rw [upd2_ne]
    rintro ⟨rfl, rfl⟩
    exact h hn

theorem Pours.unstable {s s' : SimOut K} (h : Pours s s') {dh tol : K} {i j : ℤ}
    (hu : Unstable s' dh tol i j) : NearBody s i j ∨ Unstable s dh tol i j := by
  by_contra hcon
  push Not at hcon
  obtain ⟨h1, h2⟩ := hcon
  obtain ⟨i', j', ha, hlt⟩ := hu
  refine h2 ⟨i', j', ha, ?_⟩
  have e := h.down i j h1
  have : s.terrain i' j' ≤ s'.terrain i' j' := by
    refine h.up i' j' fun hb => h1 ⟨i', j', hb, ?_⟩
    unfold Adjacent at ha
    omega
  linarith

/-! ## Pushing body soil out -/

theorem bodyCol_of_abs {s : SimOut K} {i j : ℤ} (hij : s.InGrid i j)
    (h : ¬ (s.bodyAbs 0 i j && s.bodyAbs 2 i j) = true) : BodyCol s i j := by
  refine ⟨hij, ?_⟩
  simp only [Bool.and_eq_true, bodyAbs_iff] at h
  by_contra hn
  exact h ⟨fun a => hn (.inl a), fun a => hn (.inr a)⟩

theorem moveBodySoil_pours (s : SimOut K) (q : Probe K) (maxH : K) (i j : ℤ) (g : Grid K)
    (body : Body K) (tol : K) (ht : 0 ≤ tol) (hij : s.InGrid i j) (hn : NearBody s i j) (hq : 0 ≤ q.h) :
    Pours s (moveBodySoil s q maxH i j g body tol).1 ∧
      (tol < (moveBodySoil s q maxH i j g body tol).2.h → BodyCol s i j) := by
  have h1 : ∀ k, Pours s (moveBodySoil1 s q maxH i j g body tol k).1 := by
    intro k
    unfold moveBodySoil1
    dsimp only
    split_ifs
    · exact .setT hn (.inr (by rw [ex_add]; linarith))
    · exact .refl _
    · exact .of_eq ⟨rfl, rfl, rfl, rfl⟩ rfl
    · exact .of_eq ⟨rfl, rfl, rfl, rfl⟩ rfl
  have h2 : ∀ k k', Pours s (moveBodySoil2 s q i j g body tol k k').1 := by
    intro k k'
    unfold moveBodySoil2
    dsimp only
    split_ifs
    · exact .refl _
    all_goals exact .of_eq ⟨rfl, rfl, rfl, rfl⟩ rfl
  unfold moveBodySoil
  by_cases hc : (s.bodyAbs 0 i j && s.bodyAbs 2 i j) = true
  · rw [if_pos hc]
    refine ⟨.setT hn (.inr (by rw [ex_add]; linarith)), fun h => ?_⟩
    simp only [ex_zero] at h
    linarith
  · rw [if_neg hc]
    refine ⟨?_, fun _ => bodyCol_of_abs hij hc⟩
    split_ifs
    · exact h1 _
    · exact h1 _
    · exact h2 _ _
    · exact h2 _ _

theorem near_dir8 {s : SimOut K} {ii jj pp : ℤ} {d : ℤ × ℤ} (hd : d ∈ directions8)
    (h : BodyCol s (ii + pp * d.1) (jj + pp * d.2)) :
    NearBody s (ii + (pp + 1) * d.1) (jj + (pp + 1) * d.2) := by
  refine ⟨_, _, h, ?_⟩
  rw [mem_directions8] at hd
  rcases hd with rfl | rfl | rfl | rfl | rfl | rfl | rfl | rfl <;> simp <;> omega

theorem exploreDir_pours (g : Grid K) (body : Body K) (tol : K) (ht : 0 ≤ tol) (ii jj : ℤ)
    (d : ℤ × ℤ) (hd : d ∈ directions8) (fuel : ℕ) (pp : ℤ) (s : SimOut K) (q : Probe K) (maxH : K)
    (hinv : tol < q.h → BodyCol s (ii + pp * d.1) (jj + pp * d.2)) :
    Post (exploreDir g body tol ii jj d fuel pp s q maxH) fun x => Pours s x.1 := by
  induction fuel generalizing pp s q maxH with
  | zero =>
    unfold exploreDir
    split_ifs
    · exact Post.error
    · exact Post.ok (.refl s)
  | succ n ih =>
    unfold exploreDir
    split_ifs with hc
    · simp only [Bool.and_eq_true, ex_lt, decide_eq_true_eq] at hc
      refine Post.guard fun hg => ?_
      have hb := hinv hc.2
      obtain ⟨r1, r2⟩ := moveBodySoil_pours s q maxH _ _ g body tol ht hg (near_dir8 hd hb)
        (ht.trans hc.2.le)
      dsimp only
      generalize moveBodySoil s q maxH (ii + (pp + 1) * d.1) (jj + (pp + 1) * d.2) g body tol = x at *
      obtain ⟨s1, q1⟩ := x
      dsimp only at r1 r2 ⊢
      exact (ih (pp + 1) s1 q1 _ fun h => (bodyCol_congr r1.body _ _).mpr (r2 h)).mono
        fun x hx => r1.trans hx
    · exact Post.ok (.refl s)

theorem exploreDirs_pours (fuel : ℕ) (g : Grid K) (body : Body K) (tol : K) (ht : 0 ≤ tol)
    (ind indT : ℕ) (ii jj : ℤ) (ds : List (ℤ × ℤ)) (hds : ∀ d ∈ ds, d ∈ directions8) (s : SimOut K)
    (h : K) (hb : BodyCol s ii jj) :
    Post (exploreDirs fuel g body tol ind indT ii jj ds s h) fun x => Pours s x.1 := by
  induction ds generalizing s h with
  | nil => exact Post.ok (.refl s)
  | cons d ds ih =>
    unfold exploreDirs
    refine (exploreDir_pours g body tol ht ii jj d (hds d List.mem_cons_self) fuel 0 s _ _
      (fun _ => by simpa using hb)).bind ?_
    rintro ⟨s1, h1⟩ r1
    dsimp only at r1 ⊢
    split_ifs
    · exact Post.ok r1
    · exact (ih (fun x hx => hds x (List.mem_cons_of_mem _ hx)) s1 h1
        ((bodyCol_congr r1.body _ _).mpr hb)).mono fun x hx => r1.trans hx

theorem moveIntersectingEntries_pours (fuel : ℕ) (g : Grid K) (body : Body K) (tol : K) (ht : 0 ≤ tol)
    (fuelN nn : ℕ) (ds : List (ℤ × ℤ)) (hds : ∀ d ∈ ds, d ∈ directions8) (w : World K) :
    Post (moveIntersectingEntries fuel g body tol fuelN nn ds w) fun w' => Pours w.out w'.out := by
  induction fuelN generalizing nn ds w with
  | zero =>
    unfold moveIntersectingEntries
    cases w.out.bodySoilPos[nn]? with
    | none => exact Post.ok (.refl _)
    | some e => exact Post.error
  | succ n ih =>
    unfold moveIntersectingEntries
    cases hn : w.out.bodySoilPos[nn]? with
    | none => exact Post.ok (.refl _)
    | some e =>
      dsimp only
      refine Post.guard fun ⟨hij, hk⟩ => ?_
      by_cases c1 : w.out.bodyAbs (if e.ind = 0 then 2 else 0) e.ii e.jj = true
      · rw [if_pos c1]; exact ih _ _ hds w
      rw [if_neg c1]
      have hb : BodyCol w.out e.ii e.jj := by
        refine ⟨hij, ?_⟩
        rw [bodyAbs_iff, not_not] at c1
        split_ifs at c1
        · exact .inr c1
        · exact .inl c1
      generalize hot : (if e.ind = 0 then 2 else 0) = ot at *
      split_ifs with c2 c3
      all_goals first
        | exact ih _ _ hds w
        | skip
      all_goals
        dsimp only
        refine Post.bind (exploreDirs_pours fuel g body tol ht e.ind ot e.ii e.jj _
          (fun d hd => hds d (mem_shuffle.mp hd)) _ _ ?_) ?_
        · exact hb
        rintro ⟨s1, h1⟩ r1
        have r2 : Pours w.out s1 := ⟨r1.body, r1.up, r1.down⟩
        split_ifs
        all_goals
          exact (ih _ _ (fun d hd => hds d (mem_shuffle.mp hd)) _).mono fun x hx => r2.trans hx

/-! ## Pushing terrain out -/

theorem spreadRing_pours {tol : K} (ht : 0 ≤ tol) (ii jj pp : ℤ) (ds : List (ℤ × ℤ)) (s : SimOut K)
    (h : K) (h0 : 0 ≤ h) (hn : ∀ d ∈ ds, NearBody s (ii + d.1 * pp) (jj + d.2 * pp)) :
    Post (spreadRing tol ii jj pp ds s h) fun x => Pours s x.1 ∧
      (tol < x.2 → ∀ d ∈ ds, BodyCol s (ii + d.1 * pp) (jj + d.2 * pp)) := by
  induction ds generalizing s h with
  | nil => exact Post.ok ⟨.refl s, by simp⟩
  | cons d ds ih =>
    unfold spreadRing
    dsimp only
    refine Post.guard fun hg => ?_
    have hd := hn d List.mem_cons_self
    have hn' : ∀ x ∈ ds, NearBody s (ii + x.1 * pp) (jj + x.2 * pp) :=
      fun x hx => hn x (List.mem_cons_of_mem _ hx)
    generalize hip : ii + d.1 * pp = ip at *
    generalize hjp : jj + d.2 * pp = jp at *
    by_cases hc : (s.bodyAbs 0 ip jp && s.bodyAbs 2 ip jp) = true
    · rw [if_pos hc]
      refine Post.ok ⟨.setT hd (.inr (by rw [ex_add]; linarith)), fun h => ?_⟩
      simp only [ex_zero] at h
      linarith
    · rw [if_neg hc]
      have hb := bodyCol_of_abs hg hc
      have cons : ∀ {s1 : SimOut K}, Pours s s1 → ∀ x : SimOut K × K, (Pours s1 x.1 ∧
          (tol < x.2 → ∀ d ∈ ds, BodyCol s1 (ii + d.1 * pp) (jj + d.2 * pp))) → Pours s x.1 ∧
          (tol < x.2 → ∀ d' ∈ d :: ds, BodyCol s (ii + d'.1 * pp) (jj + d'.2 * pp)) := by
        intro s1 p1 x hx
        refine ⟨p1.trans hx.1, fun hlt d' hd' => ?_⟩
        rcases List.mem_cons.mp hd' with rfl | hd'
        · rw [hip, hjp]; exact hb
        · exact (bodyCol_congr p1.body _ _).mp (hx.2 hlt d' hd')
      simp only [ex_add, ex_sub, ex_lt, decide_eq_true_eq]
      split_ifs with h1 h2
      · have p1 : Pours s (s.setT ip jp (bodyBottom s ip jp)) := .setT hd (.inl hb)
        exact (ih _ _ (by linarith) fun x hx => (nearBody_congr p1.body _ _).mpr (hn' x hx)).mono
          (cons p1)
      · refine Post.ok ⟨.setT hd (.inl hb), fun h => ?_⟩
        simp only [ex_zero] at h
        linarith
      · exact (ih s h h0 hn').mono (cons (.refl s))

theorem spreadOut_pours {tol : K} (ht : 0 ≤ tol) (ii jj : ℤ) (ds : List (ℤ × ℤ))
    (hds : ∀ d ∈ ds, d ∈ directions8) (fuel : ℕ) (pp : ℤ) (s : SimOut K) (h : K)
    (hinv : tol < h → ∀ d ∈ ds, BodyCol s (ii + d.1 * pp) (jj + d.2 * pp)) :
    Post (spreadOut tol ii jj ds fuel pp s h) (Pours s) := by
  induction fuel generalizing pp s h with
  | zero =>
    unfold spreadOut
    split_ifs
    · exact Post.error
    · exact Post.ok (.refl s)
  | succ n ih =>
    unfold spreadOut
    simp only [ex_lt, decide_eq_true_eq]
    split_ifs with hc
    · refine (spreadRing_pours ht ii jj (pp + 1) ds s h (ht.trans hc.le) fun d hd => ?_).bind ?_
      · have := hinv hc d hd
        rw [mul_comm d.1, mul_comm d.2] at this
        rw [mul_comm d.1, mul_comm d.2]
        exact near_dir8 (hds d hd) this
      · rintro ⟨s1, h1⟩ ⟨r1, r2⟩
        dsimp only at r1 r2 ⊢
        exact (ih (pp + 1) s1 h1 fun hlt d hd => (bodyCol_congr r1.body _ _).mpr (r2 hlt d hd)).mono
          fun x hx => r1.trans hx
    · exact Post.ok (.refl s)

theorem moveIntersectingBodyCells_pours {tol : K} (ht : 0 ≤ tol) (fuel : ℕ)
    (cs : List (ℕ × ℤ × ℤ)) (ds : List (ℤ × ℤ)) (hds : ∀ d ∈ ds, d ∈ directions8)
    (s : SimOut K) (r : Rng)
    (hcs : ∀ c ∈ cs, HasBody s 0 c.2.1 c.2.2 ∨ HasBody s 2 c.2.1 c.2.2) :
    Post (moveIntersectingBodyCells fuel tol cs ds s r) fun x => Pours s x.1 := by
  induction cs generalizing ds s r with
  | nil => exact Post.ok (.refl s)
  | cons c cs ih =>
    obtain ⟨k, ii, jj⟩ := c
    have hb := hcs _ List.mem_cons_self
    dsimp only at hb
    have hcs' := fun c hc => hcs c (List.mem_cons_of_mem _ hc)
    unfold moveIntersectingBodyCells
    dsimp only
    refine Post.guard fun hij => ?_
    split_ifs
    · exact ih ds hds s r hcs'
    · have hds' : ∀ d ∈ (shuffle ds r).1, d ∈ directions8 := fun d hd => hds d (mem_shuffle.mp hd)
      have hB : BodyCol s ii jj := ⟨hij, hb⟩
      refine (spreadOut_pours ht ii jj _ hds' fuel 0 s _ (fun _ d _ => by simpa using hB)).bind ?_
      intro s1 h1
      have hB1 := (bodyCol_congr h1.body _ _).mpr hB
      have h2 : Pours s (s1.setT ii jj (s1.body k ii jj)) := h1.trans (.setT hB1.near (.inl hB1))
      refine (ih _ hds' _ _ ?_).mono fun x hx => h2.trans hx
      intro c hc
      have := hcs' c hc
      unfold HasBody at this ⊢
      rwa [h2.body.1]

theorem moveIntersectingCells_pours {tol : K} (ht : 0 ≤ tol) (fuel : ℕ) (g : Grid K) (body : Body K)
    (w : World K) : Post (moveIntersectingCells fuel g body tol w) fun w' => Pours w.out w'.out := by
  unfold moveIntersectingCells moveIntersectingBodySoil
  refine (moveIntersectingEntries_pours fuel g body tol ht fuel 0 directions8 (fun d h => h) w).bind ?_
  intro w1 h1
  unfold moveIntersectingBody
  intro w' h
  obtain ⟨cs, hcs, h⟩ := bind_eq_ok.mp h
  have hg := locateIntersectingIn_guard _ _ _ _ hcs
  obtain ⟨cs', hcs', hnd, hm⟩ := locateIntersectingIn_spec w1.out tol _ hg (Area.nodup_cells _)
  rw [locateIntersectingCells, hcs'] at hcs
  cases hcs
  split_ifs at h with hemp
  · cases h; exact h1
  · obtain ⟨⟨s1, r1⟩, h2, h⟩ := bind_eq_ok.mp h
    cases h
    refine h1.trans (moveIntersectingBodyCells_pours ht fuel cs directions8 (fun _ h => h) w1.out
      w1.rng ?_ _ h2)
    rintro ⟨k, i, j⟩ hc
    obtain ⟨a1, a2, a3⟩ := (hm k i j).mp hc
    unfold intersectingAt at a3
    simp only [Bool.and_eq_true, Bool.not_eq_true', bodyAbs_false_iff] at a3
    rcases a1 with rfl | rfl
    · exact .inl a3.1
    · exact .inr a3.1

/-! ## Body-soil avalanches -/

theorem relaxBodyEntries_pours (g : Grid K) (body : Body K) (dh tol : K) (t : TolOK g.cellZ tol)
    (hd : Al g.cellZ dh) (hd0 : 0 ≤ dh) (count n : ℕ) (ds : List (ℤ × ℤ))
    (hds : ∀ d ∈ ds, d ∈ directions4) (s : SimOut K) (q : List (BodySoil K)) (r : Rng)
    (h : WellFormed g.cellZ (s.app q)) :
    Post (relaxBodyEntries g body dh tol count n ds s q r) fun x => Pours s x.1 := by
  induction count generalizing n ds s q r with
  | zero => exact Post.ok (.refl s)
  | succ count ih =>
    unfold relaxBodyEntries
    split
    · exact Post.error
    · rename_i e he
      split_ifs with hlt
      · exact ih _ _ hds _ _ _ h
      · have hds' : ∀ d ∈ (shuffle ds r).1, d ∈ directions4 := fun d hd => hds d (mem_shuffle.mp hd)
        have hmem : e ∈ (s.app q).bodySoilPos :=
          List.mem_append_left _ (List.mem_iff_getElem?.mpr ⟨n, he⟩)
        have hpos : 0 < e.h := by
          simp only [ex_lt, decide_eq_true_eq, not_lt] at hlt
          exact lt_of_lt_of_le t.pos hlt
        obtain ⟨hg, hk⟩ := h.soilOK.entries e hmem
        have hb := (h.soilOK.rest _ _ _ hg hk (h.soilOK.entry_hasSoil hmem hpos)).1
        have hB : BodyCol s e.ii e.jj := by
          refine ⟨hg, ?_⟩
          rcases hk with hk | hk <;> rw [hk] at hb
          · exact .inl hb
          · exact .inr hb
        intro x hx
        obtain ⟨⟨s1, q1⟩, h1, h2⟩ := bind_eq_ok.mp hx
        obtain ⟨w1, -, -, up, -⟩ := relaxBodyDirs_wf g body dh tol t hd hd0 n e.ii e.jj e.ind _ hds' s q h
          ⟨e, he, rfl, rfl, rfl⟩ _ h1
        have lc := relaxBodyDirs_local g body dh tol n e.ii e.jj e.ind _ hds' s q _ h1
        have p1 : Pours s s1 := by
          refine ⟨lc.body, fun i j _ => up i j, fun i j hn => ?_⟩
          rw [lc.terrain i j fun hc => hn ⟨_, _, hB, ?_⟩]
          unfold NearCol at hc
          omega
        exact p1.trans (ih _ _ hds' _ _ _ w1 _ h2)

theorem relaxBodySoil_pours (g : Grid K) (body : Body K) (p : SimParam K) (tol : K)
    (t : TolOK g.cellZ tol) (hd0 : 0 ≤ dhMax g p) (w : World K) (h : WellFormed g.cellZ w.out) :
    Post (relaxBodySoil g body p tol w) fun w' => Pours w.out w'.out := by
  unfold relaxBodySoil
  refine Post.bind (relaxBodyEntries_pours g body _ tol t (dhMax_al g p) hd0 _ _ _ (fun d hd => hd) _ _ _
    (by rw [app_nil]; exact h)) ?_
  rintro ⟨s1, q1, r1⟩ h1
  exact Post.ok ⟨h1.body, h1.up, h1.down⟩

/-! ## The active area -/

/-- every reachable unstable column is in the area -/
def Watched (g : Grid K) (p : SimParam K) (tol : K) (s : SimOut K) (A : Area) : Prop :=
  ∀ i j, Reachable g i j → Unstable s (dhMax g p) tol i j → A.Has i j

theorem impactOf_body {s : SimOut K} {i j : ℤ} (h : s.bodyArea.Has i j) : (impactOf s).Has i j := by
  unfold Area.Has impactOf at *
  dsimp only
  omega

theorem impactOf_relax {s : SimOut K} {i j : ℤ} (h : s.relaxArea.Has i j) : (impactOf s).Has i j := by
  unfold Area.Has impactOf at *
  dsimp only
  omega

theorem BodyNear.congr {g : Grid K} {s s' : SimOut K} (h : BodyNear g s) (hb : SameBody s s') :
    BodyNear g s' := by
  obtain ⟨h1, h2, h3, h4⟩ := hb
  unfold BodyNear HasBody SimOut.InGrid at *
  rw [h1, h2, h3, h4]
  exact h

theorem BodyNear.has {g : Grid K} {s : SimOut K} (h : BodyNear g s) {i j : ℤ} (hr : Reachable g i j)
    (hn : NearBody s i j) : s.bodyArea.Has i j := by
  obtain ⟨a, b, ⟨hab, hb⟩, h1, h2⟩ := hn
  unfold Reachable at hr
  rcases hb with hb | hb
  · exact h 0 a b hab (.inl rfl) hb i j h1 h2 (by omega) (by omega)
  · exact h 2 a b hab (.inr rfl) hb i j h1 h2 (by omega) (by omega)

theorem relaxOnce_watched {g : Grid K} {p : SimParam K} {tol : K} (S : Setup g p tol) (body : Body K)
    (w : World K) (h : Sound g w.out) (hn : BodyNear g w.out) (hw : Watched g p tol w.out (impactOf w.out)) :
    Post (relaxOnce g body p tol w) fun w' => Watched g p tol w'.out (impactOf w'.out) ∧
      (w'.out.equilibrium = true → Watched g p tol w'.out w'.out.relaxArea ∧
        Watched g p tol w'.out w'.out.impactArea) := by
  intro w' hw'
  unfold relaxOnce at hw'
  obtain ⟨w1, h1, h2⟩ := bind_eq_ok.mp hw'
  have h0 : WellFormed g.cellZ (w.mapOut fun s => { s with impactArea := impactOf s }).out :=
    h.wf.congr rfl rfl rfl rfl rfl rfl
  have f1 := relaxTerrain_wf g body p tol S.tolOK _ h0 w1 h1
  have f2 := shuffleEntries_wf f1
  have hp := relaxBodySoil_pours g body p tol S.tolOK S.dh _ f2 w' h2
  obtain ⟨sb, i2, r2, -⟩ := relaxBodySoil_frame _ _ _ _ _ _ h2
  obtain ⟨sb1, i1, -, -⟩ := relaxTerrain_frame _ _ _ _ _ _ h1
  have held : ∀ i j, Reachable g i j → Unstable w1.out (dhMax g p) tol i j → w1.out.relaxArea.Has i j := by
    intro i j hr hu
    rcases relaxTerrain_active g body p tol S.tolOK S.buffer _ h0 i j hr.1 hr.2 w1 h1 hu with a | ⟨a, b⟩
    · exact a
    · exact absurd (hw i j hr a) b
  have sbw : SameBody w.out w'.out := SameBody.trans (b := w1.out) sb1 sb
  refine ⟨fun i j hr hu => ?_, fun he => ?_⟩
  · rcases hp.unstable hu with a | a
    · have := (hn.congr (s' := (shuffleEntries w1).out) sb1).has hr a
      apply impactOf_body
      rw [sb.2.1]
      exact this
    · apply impactOf_relax
      rw [r2]
      exact held i j hr a
  · obtain ⟨e, -⟩ := relaxBodySoil_true _ _ _ _ _ _ h2 he
    have he1 : w1.out.equilibrium = true := by rw [e] at he; exact he
    obtain ⟨e1, -⟩ := relaxTerrain_true _ _ _ _ _ _ h1 he1
    rw [e]
    refine ⟨held, fun i j hr hu => ?_⟩
    show w1.out.impactArea.Has i j
    rw [i1]
    refine hw i j hr ?_
    obtain ⟨i', j', ha, hlt⟩ := hu
    refine ⟨i', j', ha, ?_⟩
    have e1' : w1.out.terrain = w.out.terrain := e1
    change w1.out.terrain i' j' < w1.out.terrain i j - _ - _ at hlt
    rwa [e1'] at hlt

theorem relaxLoop_watched {g : Grid K} {p : SimParam K} {tol : K} (S : Setup g p tol) (body : Body K)
    (fuel : ℕ) (it : ℤ) (w : World K) (h : Sound g w.out) (hn : BodyNear g w.out)
    (hw : Watched g p tol w.out (impactOf w.out))
    (he : w.out.equilibrium = true → Watched g p tol w.out w.out.relaxArea ∧
        Watched g p tol w.out w.out.impactArea) :
    Post (relaxLoop g body p tol fuel it w) fun x => x.1.out.equilibrium = true →
      Watched g p tol x.1.out x.1.out.relaxArea ∧ Watched g p tol x.1.out x.1.out.impactArea := by
  induction fuel generalizing it w with
  | zero =>
    unfold relaxLoop
    split_ifs
    · exact Post.error
    · exact Post.ok he
  | succ n ih =>
    unfold relaxLoop
    split_ifs
    · intro x hx
      obtain ⟨w1, h1, h2⟩ := bind_eq_ok.mp hx
      obtain ⟨a, b⟩ := relaxOnce_watched S body w h hn hw _ h1
      exact ih _ w1 (relaxOnce_sound S body w h _ h1).1 (hn.congr (relaxOnce_frame _ _ _ _ _ _ h1).1) a b
        _ h2
    · exact Post.ok he

/-- One step that settles keeps the unstable columns watched. -/
theorem step_watched (hs : SqrtLaw K) {g : Grid K} {p : SimParam K} {tol : K} (S : Setup g p tol)
    (hbuf : 3 ≤ p.cellBuffer) (fuel : ℕ) (pos : Vec3 K) (ori : Quat K) (body : Body K)
    (hoff : PoseOff g body (pos, ori)) (w : World K) (h : Sound g w.out)
    (hw : Watched g p tol w.out w.out.relaxArea) (r : StepResult K)
    (hr : step fuel pos ori g body p tol w = .ok r)
    (hset : r.updated = true → r.world.out.equilibrium = true ∧
        ∃ m, r.world.log = w.log ++ m ∧ Warn.soilToTerrain ∉ m) :
    Watched g p tol r.world.out r.world.out.relaxArea ∧
      (r.updated = true → Watched g p tol r.world.out r.world.out.impactArea) := by
  unfold step at hr
  rcases hc : checkBodyMovement pos ori g body with ⟨moved, warns⟩
  rw [hc] at hr
  dsimp only at hr
  cases moved with
  | false =>
    simp only [Bool.not_false, if_true, pure_eq_ok, Except.ok.injEq] at hr
    subst hr
    exact ⟨hw, by simp⟩
  | true =>
    simp only [Bool.not_true, Bool.false_eq_true, if_false] at hr
    obtain ⟨s, h1, hr⟩ := bind_eq_ok.mp hr
    obtain ⟨⟨w2, b2⟩, h2, hr⟩ := bind_eq_ok.mp hr
    obtain ⟨w3, h3, hr⟩ := bind_eq_ok.mp hr
    obtain ⟨⟨w4, it⟩, h4, hr⟩ := bind_eq_ok.mp hr
    simp only [pure_eq_ok, Except.ok.injEq] at hr
    subst hr
    obtain ⟨heq, m, hlog, hm⟩ := hset rfl
    dsimp only at heq hlog ⊢
    obtain ⟨s3, n, m', l3, -, -, t2⟩ := step_mid hs S pos ori body hoff w h h1 h2 h3
    obtain ⟨N, near⟩ := calcBodyPos_post' hs S.zgrid S.cellXY S.level S.tolPos S.tolThird S.buffer h.size
      h.inArea h.wf.bodyOK.al hoff h1
    have near := near hbuf
    obtain ⟨-, l4⟩ := relaxLoop_frame _ _ _ _ _ _ _ _ h4
    have hn : n = 0 := by
      by_contra hn
      apply hm
      have e : w.log ++ m = w3.log := by rw [← hlog, l4]; rfl
      rw [l3, List.append_assoc, List.append_assoc, List.append_cancel_left_eq] at e
      rw [e]
      simp [hn]
    have t2 := t2 hn
    have lc2 := (updateBodySoil_loc _ _ _ _ _ _ _ h2).1
    have lc3 := moveIntersectingCells_loc _ _ _ _ _ _ h3
    have hp := moveIntersectingCells_pours S.tolPos.le _ _ _ _ _ h3
    have near2 : BodyNear g w2.out := near.congr lc2.body
    have near3 : BodyNear g w3.out := near2.congr lc3.body
    have er : w3.out.relaxArea = w.out.relaxArea := by
      rw [lc3.relaxArea, lc2.relaxArea]
      obtain ⟨b, a, rfl⟩ : ∃ b a, s = { w.out with body := b, bodyArea := a } := ⟨_, _, N.eq⟩
      rfl
    have hw3 : Watched g p tol w3.out (impactOf w3.out) := by
      intro i j hr hu
      rcases hp.unstable hu with a | a
      · exact impactOf_body (near3.has hr ((nearBody_congr lc3.body _ _).mpr a))
      · apply impactOf_relax
        rw [er]
        refine hw i j hr ?_
        obtain ⟨i', j', ha, hlt⟩ := a
        exact ⟨i', j', ha, by rwa [t2] at hlt⟩
    have := relaxLoop_watched S b2 fuel 0
      (w3.mapOut fun s => { s with equilibrium := false }) (s3.setEq false) near3 hw3 (by simp [World.mapOut]) _ h4 heq
    exact ⟨this.1, fun _ => this.2⟩

theorem run_watched (hs : SqrtLaw K) {g : Grid K} {p : SimParam K} {tol : K} (S : Setup g p tol)
    (hbuf : 3 ≤ p.cellBuffer) (fuel : ℕ) (qs qs' : List (Vec3 K × Quat K)) (body : Body K)
    (hoff : ∀ q ∈ qs ++ qs', PoseOff g body q) (w : World K) (h : Sound g w.out)
    (hw : Watched g p tol w.out w.out.relaxArea) (hset : AllSettle fuel g p tol (qs ++ qs') body w) :
    Post (run fuel g p tol qs body w) fun r => Sound g r.2.out ∧
      Watched g p tol r.2.out r.2.out.relaxArea ∧ (∀ q ∈ qs', PoseOff g r.1 q) ∧
      AllSettle fuel g p tol qs' r.1 r.2 := by
  induction qs generalizing body w with
  | nil => exact Post.ok ⟨h, hw, hoff, hset⟩
  | cons q qs ih =>
    obtain ⟨pos, ori⟩ := q
    unfold run
    intro r hr
    obtain ⟨r1, h1, h2⟩ := bind_eq_ok.mp hr
    have s1 := (step_sound hs S fuel pos ori body (hoff _ List.mem_cons_self) w h r1 h1).1
    have hb : ∀ q, PoseOff g body q → PoseOff g r1.body q := by
      have : r1.body = body ∨ r1.body = { body with pos := pos, ori := ori } := by
        cases hu : r1.updated with
        | false => exact .inl ((C12_step fuel pos ori g body p tol w r1 h1).1 hu).2
        | true => exact .inr ((C12_step fuel pos ori g body p tol w r1 h1).2 hu)
      intro q hq
      rcases this with e | e
      · rwa [e]
      · rw [e]; exact hq
    obtain ⟨a, b⟩ := hset r1 h1
    exact ih r1.body (fun q hq => hb q (hoff q (List.mem_cons_of_mem _ hq))) r1.world s1
      (step_watched hs S hbuf fuel pos ori body (hoff _ List.mem_cons_self) w h hw r1 h1 a).1 b r h2

end Soil
