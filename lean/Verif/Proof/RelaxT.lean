import Verif.Proof.Ops
import Verif.Proof.Energy
import Verif.Proof.Stability
import Verif.Proof.Safe

/-! # Terrain relaxation: conservation and well-formedness -/

set_option linter.unusedSectionVars false
set_option linter.unusedSimpArgs false

namespace Soil

variable {K : Type} [Field K] [LinearOrder K] [FloorRing K] [Transc K] [IsStrictOrderedRing K]

/-- What `relaxUnstableTerrainCell` does for the code returned by the stability test. -/
theorem relaxUnstableTerrainCell_cases (s s1 : SimOut K) (dh : K) (ii jj ic jc : ℤ) (g : Grid K)
    (body : Body K) (tol hMin : K) (h0 : checkUnstableTerrainCell s ic jc hMin tol ≠ 0) :
    s.terrain ic jc + tol < hMin ∧
    ((∃ st0, relaxUnstableTerrainCell s1 (checkUnstableTerrainCell s ic jc hMin tol) dh ii jj ic jc
        g body tol = relaxTerrainOnTerrain s1 st0 dh ii jj ic jc g tol ∧
        ((st0 = 4 ∧ ¬ HasBody s 0 ic jc ∧ ¬ HasBody s 2 ic jc) ∨
         (st0 = 1 ∧ HasBody s 0 ic jc ∧ ¬ HasBody s 2 ic jc ∧
            s.terrain ic jc + tol < s.body 0 ic jc) ∨
         (st0 = 2 ∧ ¬ HasBody s 0 ic jc ∧ HasBody s 2 ic jc ∧
            s.terrain ic jc + tol < s.body 2 ic jc) ∨
         (st0 = 3 ∧ HasBody s 0 ic jc ∧ HasBody s 2 ic jc ∧
            s.terrain ic jc + tol < Min.min (s.body 0 ic jc) (s.body 2 ic jc))) ∧
        landing (checkUnstableTerrainCell s ic jc hMin tol) ic jc = .ground ic jc) ∨
     (∃ k st0, (k = 0 ∨ k = 2) ∧ HasBody s k ic jc ∧ HasSoil s k ic jc ∧
        (st0 = 3 ↔ HasBody s (otherLayer k) ic jc) ∧ s.bodySoil (k + 1) ic jc + tol < hMin ∧
        (HasBody s (otherLayer k) ic jc → s.body k ic jc < s.body (otherLayer k) ic jc →
          s.bodySoil (k + 1) ic jc + tol ≤ s.body (otherLayer k) ic jc) ∧
        relaxUnstableTerrainCell s1 (checkUnstableTerrainCell s ic jc hMin tol) dh ii jj ic jc
          g body tol =
          .ok (relaxTerrainOnSoil s1 st0 dh ii jj ic jc g body tol k (otherLayer k)) ∧
        landing (checkUnstableTerrainCell s ic jc hMin tol) ic jc = .layer k ic jc) ∨
     (∃ k st0, (k = 0 ∨ k = 2) ∧ HasBody s k ic jc ∧ ¬ HasSoil s k ic jc ∧
        (st0 = 3 ↔ HasBody s (otherLayer k) ic jc) ∧ s.body (k + 1) ic jc + tol < hMin ∧
        relaxUnstableTerrainCell s1 (checkUnstableTerrainCell s ic jc hMin tol) dh ii jj ic jc
          g body tol =
          .ok (relaxTerrainOnBody s1 st0 dh ii jj ic jc g body tol k (otherLayer k)) ∧
        landing (checkUnstableTerrainCell s ic jc hMin tol) ic jc = .layer k ic jc)) := by
  obtain ⟨c, x, ht, he⟩ := checkUnstableTerrainCell_spec s ic jc hMin tol
  rw [he] at h0 ⊢
  split_ifs at h0 ⊢ with hc
  · refine ⟨hc.1, ?_⟩
    have hl : ∀ {k d h st0}, LandsOn s ic jc k d h → h = x → HasBody s k ic jc →
        (st0 = 3 ↔ HasBody s (otherLayer k) ic jc) → (st0 = 1 ∨ st0 = 2 ∨ st0 = 3) →
        (HasSoil s k ic jc → HasBody s (otherLayer k) ic jc →
          s.body k ic jc < s.body (otherLayer k) ic jc →
          s.bodySoil (k + 1) ic jc + tol ≤ s.body (otherLayer k) ic jc) →
        c = 10 * st0 + d →
     (∃ k st0, (k = 0 ∨ k = 2) ∧ HasBody s k ic jc ∧ HasSoil s k ic jc ∧
        (st0 = 3 ↔ HasBody s (otherLayer k) ic jc) ∧ s.bodySoil (k + 1) ic jc + tol < hMin ∧
        (HasBody s (otherLayer k) ic jc → s.body k ic jc < s.body (otherLayer k) ic jc →
          s.bodySoil (k + 1) ic jc + tol ≤ s.body (otherLayer k) ic jc) ∧
        relaxUnstableTerrainCell s1 c dh ii jj ic jc
          g body tol =
          .ok (relaxTerrainOnSoil s1 st0 dh ii jj ic jc g body tol k (otherLayer k)) ∧
        landing c ic jc = .layer k ic jc) ∨
     (∃ k st0, (k = 0 ∨ k = 2) ∧ HasBody s k ic jc ∧ ¬ HasSoil s k ic jc ∧
        (st0 = 3 ↔ HasBody s (otherLayer k) ic jc) ∧ s.body (k + 1) ic jc + tol < hMin ∧
        relaxUnstableTerrainCell s1 c dh ii jj ic jc
          g body tol =
          .ok (relaxTerrainOnBody s1 st0 dh ii jj ic jc g body tol k (otherLayer k)) ∧
        landing c ic jc = .layer k ic jc) := by
      intro k d h st0 hl hx hB hst hst0 hroom hcode
      subst hcode
      cases hl with
      | soil2 hs =>
        left
        refine ⟨2, st0, .inr rfl, hB, hs, hst, by rw [hx]; exact hc.2, hroom hs, ?_⟩
        rcases hst0 with rfl | rfl | rfl <;> exact ⟨rfl, rfl⟩
      | bare2 hs =>
        right
        refine ⟨2, st0, .inr rfl, hB, hs, hst, by rw [hx]; exact hc.2, ?_⟩
        rcases hst0 with rfl | rfl | rfl <;> exact ⟨rfl, rfl⟩
      | soil0 hs =>
        left
        refine ⟨0, st0, .inl rfl, hB, hs, hst, by rw [hx]; exact hc.2, hroom hs, ?_⟩
        rcases hst0 with rfl | rfl | rfl <;> exact ⟨rfl, rfl⟩
      | bare0 hs =>
        right
        refine ⟨0, st0, .inl rfl, hB, hs, hst, by rw [hx]; exact hc.2, ?_⟩
        rcases hst0 with rfl | rfl | rfl <;> exact ⟨rfl, rfl⟩
    cases ht with
    | free h1 h2 => exact .inl ⟨4, rfl, .inl ⟨rfl, h1, h2⟩, rfl⟩
    | under2 h1 h2 h3 => exact .inl ⟨2, rfl, .inr (.inr (.inl ⟨rfl, h1, h2, h3⟩)), rfl⟩
    | under0 h1 h2 h3 => exact .inl ⟨1, rfl, .inr (.inl ⟨rfl, h1, h2, h3⟩), rfl⟩
    | on2 h1 h2 h3 hland =>
      exact .inr (hl (st0 := 2) hland rfl h2 (by simp [otherLayer, h1]) (by simp)
        (fun _ h => absurd h (by simpa [otherLayer] using h1)) (by omega))
    | on0 h1 h2 h3 hland =>
      exact .inr (hl (st0 := 1) hland rfl h1 (by simp [otherLayer, h2]) (by simp)
        (fun _ h => absurd h (by simpa [otherLayer] using h2)) (by omega))
    | under h1 h2 hbt h3 =>
      refine .inl ⟨3, rfl, .inr (.inr (.inr ⟨rfl, h1, h2, ?_⟩)), rfl⟩
      rcases hbt with ⟨rfl, rfl, hlt⟩ | ⟨rfl, rfl, hlt⟩
      · rw [min_eq_left hlt.le]; exact h3
      · rw [min_eq_right hlt]; exact h3
    | onBottom h1 h2 hbt h3 h4 hland =>
      refine .inr (hl (st0 := 3) hland rfl ?_ ?_ (by simp) ?_ (by omega))
      · rcases hbt with ⟨rfl, rfl, hlt⟩ | ⟨rfl, rfl, hlt⟩ <;> simp [otherLayer, h1, h2]
      · rcases hbt with ⟨rfl, rfl, hlt⟩ | ⟨rfl, rfl, hlt⟩ <;> simp [otherLayer, h1, h2]
      · rcases hbt with ⟨rfl, rfl, hlt⟩ | ⟨rfl, rfl, hlt⟩ <;> exact fun h _ _ => h4 h
    | onTop h1 h2 hbt h3 h4 h5 hland =>
      refine .inr (hl (st0 := 3) hland rfl ?_ ?_ (by simp) ?_ (by omega))
      · rcases hbt with ⟨rfl, rfl, hlt⟩ | ⟨rfl, rfl, hlt⟩ <;> simp [otherLayer, h1, h2]
      · rcases hbt with ⟨rfl, rfl, hlt⟩ | ⟨rfl, rfl, hlt⟩ <;> simp [otherLayer, h1, h2]
      · rcases hbt with ⟨rfl, rfl, hlt⟩ | ⟨rfl, rfl, hlt⟩ <;> intro _ _ h' <;>
          simp only [otherLayer] at h' <;> exact absurd h' (by simp; linarith)
  · exact absurd rfl h0

/-! ## Conservation without any assumption on the state -/

/-- total unchanged, bookkeeping imbalance unchanged everywhere in the grid -/
structure Conserves (s s' : SimOut K) : Prop where
  total : totalSoil s' = totalSoil s
  booked : ∀ i j k, k = 0 ∨ k = 2 → imb s' k i j = imb s k i j
  lenX : s'.lenX = s.lenX
  lenY : s'.lenY = s.lenY

theorem Conserves.refl (s : SimOut K) : Conserves s s := ⟨rfl, fun _ _ _ _ => rfl, rfl, rfl⟩

theorem Conserves.trans {a b c : SimOut K} (h : Conserves a b) (h' : Conserves b c) :
    Conserves a c :=
  ⟨h'.total.trans h.total, fun i j k hk => (h'.booked i j k hk).trans (h.booked i j k hk),
    h'.lenX.trans h.lenX, h'.lenY.trans h.lenY⟩

theorem Conserves.toBooked {s s' : SimOut K} (h : Conserves s s') (hb : Booked s) : Booked s' := by
  rw [booked_iff] at hb ⊢
  intro i j hij k hk
  rw [h.booked i j k hk]
  refine hb i j ?_ k hk
  unfold SimOut.InGrid at hij ⊢
  rw [h.lenX, h.lenY] at hij
  exact hij

theorem relaxTerrainOnTerrain_conserves (s : SimOut K) (st0 : ℕ) (dh : K) (ii jj ic jc : ℤ)
    (g : Grid K) (tol : K) (h1 : s.InGrid ii jj) (h2 : s.InGrid ic jc)
    (hne : ¬ (ic = ii ∧ jc = jj)) :
    Post (relaxTerrainOnTerrain s st0 dh ii jj ic jc g tol) (Conserves s) := by
  have key : ∀ u v, u + v = s.terrain ii jj + s.terrain ic jc →
      Conserves s ((s.setT ii jj u).setT ic jc v) := by
    intro u v huv
    refine ⟨?_, fun _ _ _ _ => rfl, rfl, rfl⟩
    rw [totalSoil_setT _ _ (by exact h2), totalSoil_setT _ _ h1]
    have : (s.setT ii jj u).terrain ic jc = s.terrain ic jc := upd2_ne _ _ hne
    rw [this]
    linear_combination huv
  unfold relaxTerrainOnTerrain
  simp only [ex_add, ex_sub, ex_lt, decide_eq_true_eq]
  intro s' h
  split at h
  · cases h; exact key _ _ (by ring)
  all_goals first
    | (split_ifs at h <;> (cases h; exact key _ _ (by ring)))
    | cases h

theorem relaxTerrainOnSoil_conserves (s : SimOut K) (st0 : ℕ) (dh : K) (ii jj ic jc : ℤ)
    (g : Grid K) (body : Body K) (tol : K) (k ko : ℕ) (hk : k = 0 ∨ k = 2) (h1 : s.InGrid ii jj)
    (h2 : s.InGrid ic jc) :
    Conserves s (relaxTerrainOnSoil s st0 dh ii jj ic jc g body tol k ko) := by
  have key : ∀ (u v : K) (e : BodySoil K), e.ind = k → e.ii = ic → e.jj = jc →
      e.h = s.terrain ii jj - u → e.h = v - s.bodySoil (k + 1) ic jc →
      Conserves s (((s.setT ii jj u).setBS (k + 1) ic jc v).pushPos e) := by
    rintro u v e rfl rfl rfl h3 h4
    refine ⟨?_, fun a b k' hk' => ?_, rfl, rfl⟩
    · rw [totalSoil_pushPos, totalSoil_setBS1 _ _ (by exact h2) hk, totalSoil_setT _ _ h1]
      show _ + (v - s.bodySoil (e.ind + 1) e.ii e.jj) = _
      linear_combination h3 - h4
    · rw [imb_pushPos, imb_setBS1 _ _ _ _ _ _ hk hk', imb_setT]
      by_cases hc : e.ind = k' ∧ e.ii = a ∧ e.jj = b
      · obtain ⟨rfl, rfl, rfl⟩ := hc
        simp only [and_self, if_true]
        show _ + (v - s.bodySoil (e.ind + 1) e.ii e.jj) - _ = _
        linear_combination -h4
      · rw [if_neg hc, if_neg (by tauto)]; ring
  unfold relaxTerrainOnSoil
  simp only [ex_add, ex_sub, ex_lt]
  apply key
  · rfl
  · rfl
  · rfl
  · simp only [mkEntry]; split_ifs <;> ring
  · simp only [mkEntry]; split_ifs <;> ring

theorem relaxTerrainOnBody_conserves (s : SimOut K) (st0 : ℕ) (dh : K) (ii jj ic jc : ℤ)
    (g : Grid K) (body : Body K) (tol : K) (k ko : ℕ) (hk : k = 0 ∨ k = 2) (h1 : s.InGrid ii jj)
    (h2 : s.InGrid ic jc) (hs : ¬ HasSoil s k ic jc) :
    Conserves s (relaxTerrainOnBody s st0 dh ii jj ic jc g body tol k ko) := by
  obtain ⟨z0, z1⟩ := layerSoil_of_not_hasSoil hs
  have key : ∀ (u v w : K) (e : BodySoil K), e.ind = k → e.ii = ic → e.jj = jc →
      e.h = s.terrain ii jj - u → e.h = v - w →
      Conserves s ((((s.setT ii jj u).setBS k ic jc w).setBS (k + 1) ic jc v).pushPos e) := by
    rintro u v w e rfl rfl rfl h3 h4
    have hr : ((s.setT ii jj u).setBS e.ind e.ii e.jj w).bodySoil (e.ind + 1) e.ii e.jj = 0 := by
      rw [← z1]; exact upd3_ne _ _ (by rintro ⟨h, -⟩; omega)
    have hr0 : (s.setT ii jj u).bodySoil e.ind e.ii e.jj = 0 := z0
    refine ⟨?_, fun a b k' hk' => ?_, rfl, rfl⟩
    · rw [totalSoil_pushPos, totalSoil_setBS1 _ _ (by exact h2) hk,
        totalSoil_setBS0 _ _ (by exact h2) hk, totalSoil_setT _ _ h1, hr, hr0]
      linear_combination h3 - h4
    · rw [imb_pushPos, imb_setBS1 _ _ _ _ _ _ hk hk', imb_setBS0 _ _ _ _ _ _ hk hk', imb_setT, hr,
        hr0]
      by_cases hc : e.ind = k' ∧ e.ii = a ∧ e.jj = b
      · obtain ⟨rfl, rfl, rfl⟩ := hc
        simp only [and_self, if_true]
        linear_combination -h4
      · rw [if_neg hc, if_neg (by tauto), if_neg (by tauto)]; ring
  unfold relaxTerrainOnBody
  simp only [ex_add, ex_sub, ex_lt]
  apply key
  · rfl
  · rfl
  · rfl
  · simp only [mkEntry, SimOut.setT, SimOut.setBS]; split_ifs <;> ring
  · simp only [mkEntry, SimOut.setT, SimOut.setBS]

theorem dir_ne {d : ℤ × ℤ} (hd : d ∈ directions4) (ii jj : ℤ) :
    ¬ (ii + d.1 = ii ∧ jj + d.2 = jj) := by
  rw [mem_directions4] at hd
  rcases hd with rfl | rfl | rfl | rfl <;> simp

theorem setEq_conserves (s : SimOut K) (v : Bool) : Conserves s { s with equilibrium := v } :=
  ⟨rfl, fun _ _ _ _ => rfl, rfl, rfl⟩

theorem relaxTerrainDirs_conserves (g : Grid K) (body : Body K) (dh tol : K) (ii jj : ℤ)
    (ds : List (ℤ × ℤ)) (hds : ∀ d ∈ ds, d ∈ directions4) (s : SimOut K) :
    Post (relaxTerrainDirs g body dh tol ii jj ds s) (Conserves s) := by
  induction ds generalizing s with
  | nil => exact Post.ok (Conserves.refl s)
  | cons d ds ih =>
    have ih' := ih fun x hx => hds x (List.mem_cons_of_mem _ hx)
    have hne := dir_ne (hds d List.mem_cons_self) ii jj
    unfold relaxTerrainDirs
    dsimp only
    refine Post.guard fun ⟨h1, h2⟩ => ?_
    split_ifs with hst
    · exact ih' s
    · refine Post.bind (P := Conserves s) ?_ fun s1 hs1 => (ih' s1).mono fun s2 h => hs1.trans h
      have h1' : ({ s with equilibrium := false } : SimOut K).InGrid ii jj := h1
      have h2' : ({ s with equilibrium := false } : SimOut K).InGrid (ii + d.1) (jj + d.2) := h2
      obtain ⟨-, ⟨st0, he, -⟩ | ⟨k, st0, hk, -, -, -, -, -, he, -⟩ |
          ⟨k, st0, hk, -, hs, -, -, he, -⟩⟩ :=
        relaxUnstableTerrainCell_cases s { s with equilibrium := false } dh ii jj (ii + d.1)
          (jj + d.2) g body tol _ hst
      · rw [he]
        exact (relaxTerrainOnTerrain_conserves _ st0 dh ii jj _ _ g tol h1' h2' hne).mono
          fun s2 h => (setEq_conserves s false).trans h
      · rw [he]
        exact Post.ok ((setEq_conserves s false).trans
          (relaxTerrainOnSoil_conserves _ st0 dh ii jj _ _ g body tol k _ hk h1' h2'))
      · rw [he]
        exact Post.ok ((setEq_conserves s false).trans
          (relaxTerrainOnBody_conserves _ st0 dh ii jj _ _ g body tol k _ hk h1' h2' hs))

theorem relaxTerrainCells_conserves (g : Grid K) (body : Body K) (dh tol : K)
    (cs ds : List (ℤ × ℤ)) (hds : ∀ d ∈ ds, d ∈ directions4) (s : SimOut K) (r : Rng) :
    Post (relaxTerrainCells g body dh tol cs ds s r) fun x => Conserves s x.1 := by
  induction cs generalizing ds s r with
  | nil => exact Post.ok (Conserves.refl s)
  | cons c cs ih =>
    unfold relaxTerrainCells
    have hds' : ∀ d ∈ (shuffle ds r).1, d ∈ directions4 := fun d hd => hds d (mem_shuffle.mp hd)
    exact Post.bind (relaxTerrainDirs_conserves g body dh tol c.1 c.2 _ hds' s) fun s1 hs1 =>
      (ih _ hds' s1 _).mono fun x h => hs1.trans h

theorem relaxTerrain_conserves (g : Grid K) (body : Body K) (p : SimParam K) (tol : K)
    (w : World K) : Post (relaxTerrain g body p tol w) fun w' => Conserves w.out w'.out := by
  unfold relaxTerrain
  dsimp only
  intro w' h
  obtain ⟨cells, hc, h⟩ := bind_eq_ok.mp h
  split_ifs at h with hem
  · cases h; exact setEq_conserves _ _
  · obtain ⟨⟨s1, r1⟩, h1, h⟩ := bind_eq_ok.mp h
    cases h
    have := relaxTerrainCells_conserves g body (dhMax g p) tol _ directions4 (fun d hd => hd) _ _ _ h1
    have h2 := (setEq_conserves w.out true).trans this
    exact ⟨h2.total, h2.booked, h2.lenX, h2.lenY⟩

/-! ## Well-formedness -/

theorem addT_terrain_ne (s : SimOut K) {i j a b : ℤ} (δ : K) (h : ¬ (a = i ∧ b = j)) :
    (addT s i j δ).terrain a b = s.terrain a b := upd2_ne _ _ h

/-- Moving terrain from one column to another -/
theorem WellFormed.moveTT {c : K} {s : SimOut K} (h : WellFormed c s) {ii jj ic jc : ℤ} {δ : K}
    (h1 : s.InGrid ii jj) (hne : ¬ (ic = ii ∧ jc = jj)) (h0 : 0 ≤ δ) (ha : Al c δ)
    (hr : ∀ k, k = 0 ∨ k = 2 → HasBody s k ic jc → s.terrain ic jc + δ ≤ s.body k ic jc) :
    WellFormed c (Soil.addT (Soil.addT s ii jj (-δ)) ic jc δ) := by
  have hA : WellFormed c (Soil.addT s ii jj (-δ)) := h.addT ha.neg fun k hk hb => by
    have := h.terrainFree k ii jj h1 hk hb; linarith
  refine hA.addT ha fun k hk hb => ?_
  rw [addT_terrain_ne s _ hne]
  exact hr k hk hb

/-- Moving terrain from a column to a body layer -/
theorem WellFormed.moveTB {c : K} {s : SimOut K} (h : WellFormed c s) {ii jj : ℤ} {e : BodySoil K}
    (h1 : s.InGrid ii jj) (h2 : s.InGrid e.ii e.jj) (hk : e.ind = 0 ∨ e.ind = 2)
    (hb : HasBody s e.ind e.ii e.jj) (h0 : 0 ≤ e.h) (ha : Al c e.h)
    (hr : HasBody s (otherLayer e.ind) e.ii e.jj →
      s.body e.ind e.ii e.jj < s.body (otherLayer e.ind) e.ii e.jj →
      s.body (e.ind + 1) e.ii e.jj + layerSoil s e.ind e.ii e.jj + e.h ≤
        s.body (otherLayer e.ind) e.ii e.jj) :
    WellFormed c (Soil.dep (Soil.addT s ii jj (-e.h)) e) := by
  have hA : WellFormed c (Soil.addT s ii jj (-e.h)) := h.addT ha.neg fun k hk hb => by
    have := h.terrainFree k ii jj h1 hk hb; linarith
  exact hA.dep h2 hk hb h0 ha hr

theorem fallTT {c dh : K} {s : SimOut K} {ii jj ic jc : ℤ} {δ : K}
    (h1 : s.InGrid ii jj) (h2 : s.InGrid ic jc) (hne : ¬ (ic = ii ∧ jc = jj)) (h0 : 0 < δ) (ha : Al c δ)
    (hlow : s.terrain ic jc + dh < s.terrain ii jj)
    (hd : 2 * δ ≤ s.terrain ii jj - s.terrain ic jc - dh + c)
    (hstop : s.terrain ii jj - δ ≤ s.terrain ic jc + δ + dh ∨
      ∃ k, (k = 0 ∨ k = 2) ∧ HasBody s k ic jc ∧ s.terrain ic jc + δ = s.body k ic jc) :
    Fall c dh none (.ground ii jj) (.ground ic jc) δ s (Soil.addT (Soil.addT s ii jj (-δ)) ic jc δ) := by
  have hn : Place.ground ii jj ≠ Place.ground ic jc := by
    intro h; injection h with h3 h4; exact hne ⟨h3.symm, h4.symm⟩
  have hr : (Place.ground ic jc).height (Soil.addT (Soil.addT s ii jj (-δ)) ic jc δ) =
      s.terrain ic jc + δ := by
    rw [height_addT_here, addT_terrain_ne s _ hne]
  refine Fall.make (A := s.terrain ii jj) (x := s.terrain ic jc) h0.le ha ⟨rfl, rfl, rfl, rfl⟩
    (fun h => absurd h h0.ne') (fun _ => ⟨h1, rfl⟩) h2 rfl hlow hd (fun _ => ⟨?_, hr, ?_⟩) (by simp)
    ?_ ?_
  · rw [height_addT_other _ _ hn, height_addT_here]; ring
  · intro p _ hpa hpb
    rw [height_addT_other _ _ hpb, height_addT_other _ _ hpa]
  · refine hstop.imp id fun ⟨k, h3, h4, h5⟩ => .inl ⟨k, h3, h4, ?_⟩
    exact hr.trans h5
  · rw [energy_addT (by exact h2), energy_addT h1, addT_terrain_ne s _ hne]
    ring

theorem fallTB {c dh : K} {s : SimOut K} (h : WellFormed c s) {ii jj : ℤ} {e : BodySoil K}
    (h1 : s.InGrid ii jj) (h2 : s.InGrid e.ii e.jj) (hk : e.ind = 0 ∨ e.ind = 2)
    (hb : HasBody s e.ind e.ii e.jj) (h0 : 0 < e.h) (ha : Al c e.h)
    (hlow : s.body (e.ind + 1) e.ii e.jj + layerSoil s e.ind e.ii e.jj + dh < s.terrain ii jj)
    (hd : 2 * e.h ≤ s.terrain ii jj -
      (s.body (e.ind + 1) e.ii e.jj + layerSoil s e.ind e.ii e.jj) - dh + c)
    (hstop : s.terrain ii jj - e.h ≤
        s.body (e.ind + 1) e.ii e.jj + layerSoil s e.ind e.ii e.jj + e.h + dh ∨
      (HasBody s (otherLayer e.ind) e.ii e.jj ∧
        s.body e.ind e.ii e.jj < s.body (otherLayer e.ind) e.ii e.jj ∧
        s.body (e.ind + 1) e.ii e.jj + layerSoil s e.ind e.ii e.jj + e.h =
          s.body (otherLayer e.ind) e.ii e.jj)) :
    Fall c dh none (.ground ii jj) (.layer e.ind e.ii e.jj) e.h s
      (Soil.dep (Soil.addT s ii jj (-e.h)) e) := by
  have hr : (Place.layer e.ind e.ii e.jj).height (Soil.dep (Soil.addT s ii jj (-e.h)) e) =
      s.body (e.ind + 1) e.ii e.jj + layerSoil s e.ind e.ii e.jj + e.h := height_dep_here _ _
  refine Fall.make (A := s.terrain ii jj)
    (x := s.body (e.ind + 1) e.ii e.jj + layerSoil s e.ind e.ii e.jj) h0.le ha ⟨rfl, rfl, rfl, rfl⟩
    (fun h => absurd h h0.ne') (fun _ => ⟨h1, rfl⟩) ⟨h2, hk, hb⟩ rfl hlow hd (fun _ => ⟨?_, hr, ?_⟩)
    (by simp) ?_ ?_
  · show (Place.ground ii jj).height (Soil.addT s ii jj (-e.h)) = _
    rw [height_addT_here]; ring
  · intro p hp hpa hpb
    rw [height_dep_other _ _ hk (hp.congr (r := Soil.addT s ii jj (-e.h))
      ⟨rfl, rfl, rfl, rfl⟩) hpb, height_addT_other _ _ hpa]
  · refine hstop.imp id fun ⟨h3, h4, h5⟩ => .inl ⟨otherLayer e.ind, ?_, h3, h4, hr.trans h5⟩
    unfold otherLayer; split_ifs <;> simp
  · rw [energy_dep (h.soilOK.addT ha.neg) (by exact h2) hk, energy_addT h1]
    have e1 : layerSoil (Soil.addT s ii jj (-e.h)) e.ind e.ii e.jj = layerSoil s e.ind e.ii e.jj := rfl
    have e2 : (Soil.addT s ii jj (-e.h)).body = s.body := rfl
    rw [e1, e2]
    ring

theorem relaxTerrainOnTerrain_move (s : SimOut K) (st0 : ℕ) (dh : K) (ii jj ic jc : ℤ)
    (g : Grid K) (tol : K) (t : TolOK g.cellZ tol) (hd : Al g.cellZ dh) (h : WellFormed g.cellZ s)
    (h1 : s.InGrid ii jj) (h2 : s.InGrid ic jc) (hne : ¬ (ic = ii ∧ jc = jj))
    (hlow : s.terrain ic jc + tol < s.terrain ii jj - dh)
    (hst : (st0 = 4 ∧ ¬ HasBody s 0 ic jc ∧ ¬ HasBody s 2 ic jc) ∨
         (st0 = 1 ∧ HasBody s 0 ic jc ∧ ¬ HasBody s 2 ic jc ∧
            s.terrain ic jc + tol < s.body 0 ic jc) ∨
         (st0 = 2 ∧ ¬ HasBody s 0 ic jc ∧ HasBody s 2 ic jc ∧
            s.terrain ic jc + tol < s.body 2 ic jc) ∨
         (st0 = 3 ∧ HasBody s 0 ic jc ∧ HasBody s 2 ic jc ∧
            s.terrain ic jc + tol < Min.min (s.body 0 ic jc) (s.body 2 ic jc))) :
    Post (relaxTerrainOnTerrain s st0 dh ii jj ic jc g tol) fun r => WellFormed g.cellZ r ∧
      ∃ δ, 0 < δ ∧ Fall g.cellZ dh none (.ground ii jj) (.ground ic jc) δ s r := by
  have hT := h.soilOK.terrain_al ii jj h1
  have hT' := h.soilOK.terrain_al ic jc h2
  have htp := t.pos
  obtain ⟨hal, hnew⟩ := newHeight_spec t hd hT hT'
  have key : ∀ u v δ, δ = s.terrain ii jj - u → v = s.terrain ic jc + δ → 0 < δ → Al g.cellZ δ →
      2 * δ ≤ s.terrain ii jj - s.terrain ic jc - dh + g.cellZ →
      (∀ k, k = 0 ∨ k = 2 → HasBody s k ic jc → v ≤ s.body k ic jc) →
      (u ≤ v + dh ∨ ∃ k, (k = 0 ∨ k = 2) ∧ HasBody s k ic jc ∧ v = s.body k ic jc) →
      WellFormed g.cellZ ((s.setT ii jj u).setT ic jc v) ∧
        ∃ δ, 0 < δ ∧ Fall g.cellZ dh none (.ground ii jj) (.ground ic jc) δ s ((s.setT ii jj u).setT ic jc v) := by
    rintro u v δ h3 rfl h0 ha h2d hr hstop
    have := h.moveTT h1 hne h0.le ha hr
    have hfall := fallTT h1 h2 hne h0 ha (by linarith) h2d
      (hstop.imp (fun h => by rw [h3]; linarith) id)
    have e : (s.setT ii jj u).setT ic jc (s.terrain ic jc + δ) =
        Soil.addT (Soil.addT s ii jj (-δ)) ic jc δ := by
      unfold Soil.addT
      have : (s.setT ii jj (s.terrain ii jj + -δ)).terrain ic jc = s.terrain ic jc := upd2_ne _ _ hne
      rw [this, show s.terrain ii jj + -δ = u by rw [h3]; ring]
    rw [e]; exact ⟨this, δ, h0, hfall⟩
  have hδ : 0 < s.terrain ii jj - newHeight g tol dh (s.terrain ii jj) (s.terrain ic jc) := by
    have := t.cpos
    rcases hnew with h | h <;> linarith
  have hδ2 : 2 * (s.terrain ii jj - newHeight g tol dh (s.terrain ii jj) (s.terrain ic jc)) ≤
      s.terrain ii jj - s.terrain ic jc - dh + g.cellZ := by
    have := t.cpos
    rcases hnew with h | h <;> linarith
  have hA : Al g.cellZ (s.terrain ii jj - newHeight g tol dh (s.terrain ii jj) (s.terrain ic jc)) :=
    hT.sub hal
  have hstop : newHeight g tol dh (s.terrain ii jj) (s.terrain ic jc) ≤ s.terrain ii jj +
      s.terrain ic jc - newHeight g tol dh (s.terrain ii jj) (s.terrain ic jc) + dh := by
    have := t.cpos
    rcases hnew with h | h <;> linarith
  unfold relaxTerrainOnTerrain
  simp only [ex_add, ex_sub, ex_lt, decide_eq_true_eq, FOps.minL, List.foldl_cons, List.foldl_nil,
    ex_min]
  generalize newHeight g tol dh (s.terrain ii jj) (s.terrain ic jc) = hN at *
  intro s' h'
  have hB := fun k => h.bodyOK.al k ic jc h2
  rcases hst with ⟨rfl, b0, b2⟩ | ⟨rfl, b0, b2, hl⟩ | ⟨rfl, b0, b2, hl⟩ | ⟨rfl, b0, b2, hl⟩ <;>
    simp only at h'
  · cases h'
    refine key _ _ _ rfl (by ring) hδ hA hδ2 ?_ (.inl hstop)
    rintro k (rfl | rfl) hb
    · exact absurd hb b0
    · exact absurd hb b2
  all_goals
    split_ifs at h' with hlt
    · cases h'
      refine key _ _ _ rfl (by ring) hδ hA hδ2 ?_ (.inl hstop)
      rintro k (rfl | rfl) hb
      all_goals first
        | exact absurd hb b0
        | exact absurd hb b2
        | exact hlt.le
        | exact hlt.le.trans (min_le_left _ _)
        | exact hlt.le.trans (min_le_right _ _)
    · cases h'
      refine key _ _ _ rfl (by ring) (by linarith) ?_ (by linarith) ?_ (.inr ?_)
      · first
        | exact hT.sub ((hT.add hT').sub (hB _))
        | exact hT.sub ((hT.add hT').sub ((hB _).min (hB _)))
      · rintro k (rfl | rfl) hb
        all_goals first
          | exact absurd hb b0
          | exact absurd hb b2
          | exact le_rfl
          | exact min_le_left _ _
          | exact min_le_right _ _
      · first
        | exact ⟨0, .inl rfl, b0, rfl⟩
        | exact ⟨2, .inr rfl, b2, rfl⟩
        | (rcases min_cases (s.body 0 ic jc) (s.body 2 ic jc) with ⟨h, -⟩ | ⟨h, -⟩
           · exact ⟨0, .inl rfl, b0, h⟩
           · exact ⟨2, .inr rfl, b2, h⟩)

theorem relaxTerrainOnTerrain_wf (s : SimOut K) (st0 : ℕ) (dh : K) (ii jj ic jc : ℤ)
    (g : Grid K) (tol : K) (t : TolOK g.cellZ tol) (hd : Al g.cellZ dh) (h : WellFormed g.cellZ s)
    (h1 : s.InGrid ii jj) (h2 : s.InGrid ic jc) (hne : ¬ (ic = ii ∧ jc = jj))
    (hlow : s.terrain ic jc + tol < s.terrain ii jj - dh)
    (hst : (st0 = 4 ∧ ¬ HasBody s 0 ic jc ∧ ¬ HasBody s 2 ic jc) ∨
         (st0 = 1 ∧ HasBody s 0 ic jc ∧ ¬ HasBody s 2 ic jc ∧
            s.terrain ic jc + tol < s.body 0 ic jc) ∨
         (st0 = 2 ∧ ¬ HasBody s 0 ic jc ∧ HasBody s 2 ic jc ∧
            s.terrain ic jc + tol < s.body 2 ic jc) ∨
         (st0 = 3 ∧ HasBody s 0 ic jc ∧ HasBody s 2 ic jc ∧
            s.terrain ic jc + tol < Min.min (s.body 0 ic jc) (s.body 2 ic jc))) :
    Post (relaxTerrainOnTerrain s st0 dh ii jj ic jc g tol) (WellFormed g.cellZ) :=
  (relaxTerrainOnTerrain_move s st0 dh ii jj ic jc g tol t hd h h1 h2 hne hlow hst).mono fun _ h => h.1

theorem setBS_same (s : SimOut K) (k : ℕ) (i j : ℤ) (v : K) (h : v = s.bodySoil k i j) :
    s.setBS k i j v = s := by
  have : upd3 s.bodySoil k i j v = s.bodySoil := by
    funext c a b
    unfold upd3
    split_ifs with hc
    · obtain ⟨rfl, rfl, rfl⟩ := hc; exact h
    · rfl
  unfold SimOut.setBS
  rw [this]

/-- `dep` on existing soil -/
theorem dep_on_soil (s : SimOut K) (e : BodySoil K)
    (h : s.bodySoil e.ind e.ii e.jj = s.body (e.ind + 1) e.ii e.jj) :
    dep s e = (s.setBS (e.ind + 1) e.ii e.jj (s.bodySoil (e.ind + 1) e.ii e.jj + e.h)).pushPos e := by
  unfold dep
  rw [setBS_same s _ _ _ _ h.symm]
  congr 2
  unfold layerSoil
  rw [h]; ring

/-- `dep` on a bare layer -/
theorem dep_on_bare (s : SimOut K) (e : BodySoil K) (h : ¬ HasSoil s e.ind e.ii e.jj) :
    dep s e = ((s.setBS e.ind e.ii e.jj (s.body (e.ind + 1) e.ii e.jj)).setBS (e.ind + 1) e.ii e.jj
      (s.body (e.ind + 1) e.ii e.jj + e.h)).pushPos e := by
  obtain ⟨h0, h1⟩ := layerSoil_of_not_hasSoil h
  unfold dep layerSoil
  rw [h0, h1]
  congr 2
  ring

theorem relaxTerrainOnSoil_move (s : SimOut K) (st0 : ℕ) (dh : K) (ii jj ic jc : ℤ)
    (g : Grid K) (body : Body K) (tol : K) (t : TolOK g.cellZ tol) (hd : Al g.cellZ dh)
    (h : WellFormed g.cellZ s) (h1 : s.InGrid ii jj) (h2 : s.InGrid ic jc) (k : ℕ)
    (hk : k = 0 ∨ k = 2) (hb : HasBody s k ic jc) (hs : HasSoil s k ic jc)
    (hst : st0 = 3 ↔ HasBody s (otherLayer k) ic jc)
    (hlow : s.bodySoil (k + 1) ic jc + tol < s.terrain ii jj - dh)
    (hroom : HasBody s (otherLayer k) ic jc → s.body k ic jc < s.body (otherLayer k) ic jc →
      s.bodySoil (k + 1) ic jc + tol ≤ s.body (otherLayer k) ic jc) :
    WellFormed g.cellZ (relaxTerrainOnSoil s st0 dh ii jj ic jc g body tol k (otherLayer k)) ∧
      ∃ δ, 0 < δ ∧ Fall g.cellZ dh none (.ground ii jj) (.layer k ic jc) δ s
        (relaxTerrainOnSoil s st0 dh ii jj ic jc g body tol k (otherLayer k)) := by
  have hT := h.soilOK.terrain_al ii jj h1
  have hT' := h.soilOK.soil_al (k + 1) ic jc h2
  have htp := t.pos
  have hcp := t.cpos
  obtain ⟨hal, hnew⟩ := newHeight_spec t hd hT hT'
  have hrest := h.soilOK.rest k ic jc h2 hk hs
  have key : ∀ u v (e : BodySoil K), e.ind = k → e.ii = ic → e.jj = jc →
      u = s.terrain ii jj - e.h → v = s.bodySoil (k + 1) ic jc + e.h → 0 < e.h → Al g.cellZ e.h →
      2 * e.h ≤ s.terrain ii jj - s.bodySoil (k + 1) ic jc - dh + g.cellZ →
      (HasBody s (otherLayer k) ic jc → s.body k ic jc < s.body (otherLayer k) ic jc →
        v ≤ s.body (otherLayer k) ic jc) →
      (u ≤ v + dh ∨ (HasBody s (otherLayer k) ic jc ∧ s.body k ic jc < s.body (otherLayer k) ic jc ∧
        v = s.body (otherLayer k) ic jc)) →
      WellFormed g.cellZ (((s.setT ii jj u).setBS (k + 1) ic jc v).pushPos e) ∧
        ∃ δ, 0 < δ ∧ Fall g.cellZ dh none (.ground ii jj) (.layer k ic jc) δ s (((s.setT ii jj u).setBS (k + 1) ic jc v).pushPos e) := by
    rintro u v e rfl rfl rfl rfl rfl h0 ha h2d hr hstop
    have e1 : ((s.setT ii jj (s.terrain ii jj - e.h)).setBS (e.ind + 1) e.ii e.jj
        (s.bodySoil (e.ind + 1) e.ii e.jj + e.h)).pushPos e =
        Soil.dep (Soil.addT s ii jj (-e.h)) e := by
      rw [dep_on_soil _ _ (by exact hrest.2.1)]
      unfold Soil.addT
      rw [sub_eq_add_neg]
      rfl
    rw [e1]
    refine ⟨h.moveTB h1 h2 hk hb h0.le ha fun hB hlt => ?_, _, h0,
      fallTB h h1 h2 hk hb h0 ha ?_ ?_ ?_⟩
    · rw [h.soilOK.top_eq h2 hk hs]
      exact hr hB hlt
    · rw [h.soilOK.top_eq h2 hk hs]
      linarith
    · rw [h.soilOK.top_eq h2 hk hs]
      exact h2d
    · rw [h.soilOK.top_eq h2 hk hs]
      exact hstop
  unfold relaxTerrainOnSoil
  simp only [ex_add, ex_sub, ex_lt]
  generalize newHeight g tol dh (s.terrain ii jj) (s.bodySoil (k + 1) ic jc) = hN at *
  have hB := fun k => h.bodyOK.al k ic jc h2
  by_cases hfull : (st0 == 3 && decide (s.body (k + 1) ic jc < s.body (otherLayer k) ic jc) &&
      decide (s.body (otherLayer k) ic jc < s.bodySoil (k + 1) ic jc + (s.terrain ii jj - hN) - tol))
      = true
  · simp only [hfull, if_true]
    simp only [Bool.and_eq_true, beq_iff_eq, decide_eq_true_eq] at hfull
    obtain ⟨⟨f1, f2⟩, f3⟩ := hfull
    have ho := h.bodyOK.order k ic jc h2 hk hb
    have hle := h.soilFree k ic jc h2 hk hs (hst.mp f1) (ho.trans f2)
    apply key
    · rfl
    · rfl
    · rfl
    · simp only [mkEntry]
    · simp only [mkEntry]; ring
    · simp only [mkEntry]; linarith [hroom (hst.mp f1) (ho.trans f2)]
    · simp only [mkEntry]; exact (hB _).sub hT'
    · simp only [mkEntry]; rcases hnew with h | h <;> linarith
    · intro _ _; exact le_rfl
    · exact .inr ⟨hst.mp f1, ho.trans f2, rfl⟩
  · simp only [hfull]
    simp only [Bool.and_eq_true, beq_iff_eq, decide_eq_true_eq, not_and] at hfull
    apply key
    · rfl
    · rfl
    · rfl
    · simp only [mkEntry]; simp
    · simp only [mkEntry]; simp
    · simp only [mkEntry]; simp; rcases hnew with h | h <;> linarith
    · simp only [mkEntry]; exact hT.sub hal
    · simp only [mkEntry, Bool.false_eq_true, if_false]; rcases hnew with h | h <;> linarith
    · intro hB' hlt
      have f2 := h.bodyOK.above h2 hk hb hB' hlt.le
      have f3 := hfull ⟨hst.mpr hB', f2⟩
      rw [not_lt] at f3; rw [← not_lt, t.lt_sub (hB _) (hT'.add (hT.sub hal))] at f3
      simpa using not_lt.mp f3
    · left; simp; rcases hnew with h | h <;> linarith

theorem relaxTerrainOnBody_move (s : SimOut K) (st0 : ℕ) (dh : K) (ii jj ic jc : ℤ)
    (g : Grid K) (body : Body K) (tol : K) (t : TolOK g.cellZ tol) (hd : Al g.cellZ dh)
    (h : WellFormed g.cellZ s) (h1 : s.InGrid ii jj) (h2 : s.InGrid ic jc) (k : ℕ)
    (hk : k = 0 ∨ k = 2) (hb : HasBody s k ic jc) (hs : ¬ HasSoil s k ic jc)
    (hst : st0 = 3 ↔ HasBody s (otherLayer k) ic jc)
    (hlow : s.body (k + 1) ic jc + tol < s.terrain ii jj - dh) :
    WellFormed g.cellZ (relaxTerrainOnBody s st0 dh ii jj ic jc g body tol k (otherLayer k)) ∧
      ∃ δ, 0 < δ ∧ Fall g.cellZ dh none (.ground ii jj) (.layer k ic jc) δ s
        (relaxTerrainOnBody s st0 dh ii jj ic jc g body tol k (otherLayer k)) := by
  have hT := h.soilOK.terrain_al ii jj h1
  have hT' := h.bodyOK.al (k + 1) ic jc h2
  have htp := t.pos
  have hcp := t.cpos
  obtain ⟨hal, hnew⟩ := newHeight_spec t hd hT hT'
  obtain ⟨z0, z1⟩ := layerSoil_of_not_hasSoil hs
  have key : ∀ u v (e : BodySoil K), e.ind = k → e.ii = ic → e.jj = jc →
      u = s.terrain ii jj - e.h → v = s.body (k + 1) ic jc + e.h → 0 < e.h → Al g.cellZ e.h →
      2 * e.h ≤ s.terrain ii jj - s.body (k + 1) ic jc - dh + g.cellZ →
      (HasBody s (otherLayer k) ic jc → s.body k ic jc < s.body (otherLayer k) ic jc →
        v ≤ s.body (otherLayer k) ic jc) →
      (u ≤ v + dh ∨ (HasBody s (otherLayer k) ic jc ∧ s.body k ic jc < s.body (otherLayer k) ic jc ∧
        v = s.body (otherLayer k) ic jc)) →
      WellFormed g.cellZ ((((s.setT ii jj u).setBS k ic jc (s.body (k + 1) ic jc)).setBS (k + 1) ic
        jc v).pushPos e) ∧
        ∃ δ, 0 < δ ∧ Fall g.cellZ dh none (.ground ii jj) (.layer k ic jc) δ s ((((s.setT ii jj u).setBS k ic jc
          (s.body (k + 1) ic jc)).setBS (k + 1) ic jc v).pushPos e) := by
    rintro u v e rfl rfl rfl rfl rfl h0 ha h2d hr hstop
    have e1 : (((s.setT ii jj (s.terrain ii jj - e.h)).setBS e.ind e.ii e.jj
        (s.body (e.ind + 1) e.ii e.jj)).setBS (e.ind + 1) e.ii e.jj
        (s.body (e.ind + 1) e.ii e.jj + e.h)).pushPos e =
        Soil.dep (Soil.addT s ii jj (-e.h)) e := by
      rw [dep_on_bare _ _ (by exact hs)]
      unfold Soil.addT
      rw [sub_eq_add_neg]
      rfl
    rw [e1]
    have hl0 : layerSoil s e.ind e.ii e.jj = 0 := by unfold layerSoil; rw [z0, z1]; simp
    refine ⟨h.moveTB h1 h2 hk hb h0.le ha fun hB hlt => ?_, _, h0,
      fallTB h h1 h2 hk hb h0 ha ?_ ?_ ?_⟩
    · rw [hl0, add_zero]
      exact hr hB hlt
    · rw [hl0, add_zero]
      linarith
    · rw [hl0, add_zero]
      exact h2d
    · rw [hl0, add_zero]
      exact hstop
  unfold relaxTerrainOnBody
  simp only [ex_add, ex_sub, ex_lt]
  generalize newHeight g tol dh (s.terrain ii jj) (s.body (k + 1) ic jc) = hN at *
  have hB := fun k => h.bodyOK.al k ic jc h2
  by_cases hfull : (st0 == 3 && decide (s.body (k + 1) ic jc < s.body (otherLayer k) ic jc) &&
      decide (s.body (otherLayer k) ic jc < s.terrain ii jj + s.body (k + 1) ic jc - hN - tol))
      = true
  · simp only [hfull, if_true]
    simp only [Bool.and_eq_true, beq_iff_eq, decide_eq_true_eq] at hfull
    obtain ⟨⟨f1, f2⟩, f3⟩ := hfull
    apply key
    · rfl
    · rfl
    · rfl
    · simp only [mkEntry, SimOut.setT, SimOut.setBS]; ring
    · simp only [mkEntry, SimOut.setT, SimOut.setBS]; ring
    · simp only [mkEntry, SimOut.setT, SimOut.setBS]; linarith
    · simp only [mkEntry, SimOut.setT, SimOut.setBS]; exact (hB _).sub hT'
    · simp only [mkEntry, SimOut.setT, SimOut.setBS]; rcases hnew with h | h <;> linarith
    · intro _ _; exact le_rfl
    · exact .inr ⟨hst.mp f1, (h.bodyOK.order k ic jc h2 hk hb).trans f2, rfl⟩
  · simp only [hfull]
    simp only [Bool.and_eq_true, beq_iff_eq, decide_eq_true_eq, not_and] at hfull
    apply key
    · rfl
    · rfl
    · rfl
    · simp only [mkEntry, SimOut.setT, SimOut.setBS, Bool.false_eq_true, if_false]; ring
    · simp only [mkEntry, SimOut.setT, SimOut.setBS, Bool.false_eq_true, if_false]; ring
    · simp only [mkEntry, SimOut.setT, SimOut.setBS]; simp; rcases hnew with h | h <;> linarith
    · simp only [mkEntry, SimOut.setT, SimOut.setBS]
      exact ((hT.add hT').sub hal).sub hT'
    · simp only [mkEntry, SimOut.setT, SimOut.setBS, Bool.false_eq_true, if_false]
      rcases hnew with h | h <;> linarith
    · intro hB' hlt
      have f2 := h.bodyOK.above h2 hk hb hB' hlt.le
      have f3 := hfull ⟨hst.mpr hB', f2⟩
      rw [t.lt_sub (hB _) ((hT.add hT').sub hal)] at f3
      simpa using not_lt.mp f3
    · left; simp; rcases hnew with h | h <;> linarith

theorem Avalanches.trans {src : Place → Prop} {c dh : K} {s r u : SimOut K} (h : Avalanches src c dh s r)
    (h' : Avalanches src c dh r u) : Avalanches src c dh s u := by
  induction h' with
  | refl => exact h
  | still _ h1 h2 ih => exact .still ih h1 h2
  | slide _ h1 h2 h3 h4 h5 h6 ih => exact .slide ih h1 h2 h3 h4 h5 h6

theorem Avalanches.mono {src src' : Place → Prop} {c dh : K} {s r : SimOut K}
    (h : Avalanches src c dh s r) (hs : ∀ a, src a → src' a) : Avalanches src' c dh s r := by
  induction h with
  | refl => exact .refl
  | still _ h1 h2 ih => exact .still ih h1 h2
  | slide _ h1 h2 h3 h4 h5 h6 ih => exact .slide ih h1 h2 h3 h4 (hs _ h5) h6

/-- nothing but the bookkeeping and the flags differ -/
theorem Avalanches.same {src : Place → Prop} {c dh : K} {s r : SimOut K} (h1 : r.terrain = s.terrain)
    (h2 : r.bodySoil = s.bodySoil) (hb : SameBody s r) : Avalanches src c dh s r :=
  .still .refl ⟨h1, fun k i j _ => by unfold layerSoil; rw [h2]⟩ hb

theorem Fall.avalanches {src : Place → Prop} {c dh : K} {cap : Option K} {a b : Place} {δ : K} {s r : SimOut K}
    (h : Fall c dh cap a b δ s r) (hw : WellFormed c s) (hb : Beside a.col b.col) (ht : Takes s a cap)
    (hsrc : src a) (hw' : WellFormed c r) : Avalanches src c dh s r := by
  rcases h.nonneg.eq_or_lt with h0 | h0
  · exact .still .refl (h.still h0.symm).1 h.body
  · exact .slide .refl hw hb ht (h.slide h0) hsrc hw'

theorem landing_col (code : ℕ) (i j : ℤ) : (landing code i j).col = (i, j) := by
  unfold landing; split <;> rfl

theorem beside_dir {d : ℤ × ℤ} (hd : d ∈ directions4) (ii jj : ℤ) :
    Beside (ii, jj) (ii + d.1, jj + d.2) := by
  rw [mem_directions4] at hd
  unfold Beside
  rcases hd with rfl | rfl | rfl | rfl <;> simp [sub_eq_add_neg]

/-- One column and its directions: nothing happens, or the energy falls by a definite amount. -/
theorem relaxTerrainDirs_move (g : Grid K) (body : Body K) (dh tol : K) (t : TolOK g.cellZ tol)
    (hd : Al g.cellZ dh) (ii jj : ℤ) (ds : List (ℤ × ℤ)) (hds : ∀ d ∈ ds, d ∈ directions4)
    (s : SimOut K) (h : WellFormed g.cellZ s) :
    Post (relaxTerrainDirs g body dh tol ii jj ds s) fun r => WellFormed g.cellZ r ∧
      Avalanches Place.OnGround g.cellZ dh s r ∧
      (g.cellZ ≤ dh → r = s ∨ energy r + g.cellZ ^ 2 ≤ energy s) := by
  induction ds generalizing s with
  | nil => exact Post.ok ⟨h, .refl, fun _ => .inl rfl⟩
  | cons d ds ih =>
    have ih' := ih fun x hx => hds x (List.mem_cons_of_mem _ hx)
    have hne := dir_ne (hds d List.mem_cons_self) ii jj
    unfold relaxTerrainDirs
    dsimp only
    refine Post.guard fun ⟨h1, h2⟩ => ?_
    split_ifs with hst
    · exact ih' s h
    · have h1' : ({ s with equilibrium := false } : SimOut K).InGrid ii jj := h1
      have h2' : ({ s with equilibrium := false } : SimOut K).InGrid (ii + d.1) (jj + d.2) := h2
      have hw := h.setEq false
      refine Post.bind (P := fun r => WellFormed g.cellZ r ∧
        ∃ δ, 0 < δ ∧ Fall g.cellZ dh none (.ground ii jj) (landing (checkUnstableTerrainCell s
          (ii + d.1) (jj + d.2) (FOps.sub (s.terrain ii jj) dh) tol) (ii + d.1) (jj + d.2)) δ
          { s with equilibrium := false } r) ?_ fun s1 hs1 =>
        (ih' s1 hs1.1).mono fun r hr => ⟨hr.1, ?_, fun hc => .inr ?_⟩
      · obtain ⟨hlow, ⟨st0, he, hc, hL⟩ | ⟨k, st0, hk, hb, hs, h3, h4, h5, he, hL⟩ |
            ⟨k, st0, hk, hb, hs, h3, h4, he, hL⟩⟩ :=
          relaxUnstableTerrainCell_cases s { s with equilibrium := false } dh ii jj (ii + d.1)
            (jj + d.2) g body tol _ hst
        · rw [he, hL]
          exact relaxTerrainOnTerrain_move _ st0 dh ii jj _ _ g tol t hd hw h1' h2' hne hlow hc
        · rw [he, hL]
          exact Post.ok (relaxTerrainOnSoil_move _ st0 dh ii jj _ _ g body tol t hd hw h1' h2' k hk
            hb hs h3 h4 h5)
        · rw [he, hL]
          exact Post.ok (relaxTerrainOnBody_move _ st0 dh ii jj _ _ g body tol t hd hw h1' h2' k hk
            hb hs h3 h4)
      · obtain ⟨hw1, δ, h0, hf⟩ := hs1
        have e0 : Avalanches Place.OnGround g.cellZ dh s { s with equilibrium := false } :=
          .same rfl rfl ⟨rfl, rfl, rfl, rfl⟩
        refine (e0.trans (hf.avalanches hw ?_ (.ground _ _) trivial hw1)).trans hr.2.1
        rw [landing_col]
        exact beside_dir (hds d List.mem_cons_self) ii jj
      · obtain ⟨-, δ, h0, hf⟩ := hs1
        have e1 := hf.lt t.cpos hc h0
        have e2 : energy ({ s with equilibrium := false } : SimOut K) = energy s :=
          energy_congr rfl rfl rfl rfl
        rw [e2] at e1
        have := sq_nonneg g.cellZ
        rcases hr.2.2 hc with rfl | hr
        · exact e1
        · linarith

theorem relaxTerrainDirs_wf (g : Grid K) (body : Body K) (dh tol : K) (t : TolOK g.cellZ tol)
    (hd : Al g.cellZ dh) (ii jj : ℤ) (ds : List (ℤ × ℤ)) (hds : ∀ d ∈ ds, d ∈ directions4)
    (s : SimOut K) (h : WellFormed g.cellZ s) :
    Post (relaxTerrainDirs g body dh tol ii jj ds s) (WellFormed g.cellZ) :=
  (relaxTerrainDirs_move g body dh tol t hd ii jj ds hds s h).mono fun _ h => h.1

theorem relaxTerrainCells_move (g : Grid K) (body : Body K) (dh tol : K) (t : TolOK g.cellZ tol)
    (hd : Al g.cellZ dh) (cs ds : List (ℤ × ℤ)) (hds : ∀ d ∈ ds, d ∈ directions4) (s : SimOut K)
    (r : Rng) (h : WellFormed g.cellZ s) :
    Post (relaxTerrainCells g body dh tol cs ds s r) fun x => WellFormed g.cellZ x.1 ∧
      Avalanches Place.OnGround g.cellZ dh s x.1 ∧ (g.cellZ ≤ dh → x.1 = s ∨ energy x.1 + g.cellZ ^ 2 ≤ energy s) := by
  induction cs generalizing ds s r with
  | nil => exact Post.ok ⟨h, .refl, fun _ => .inl rfl⟩
  | cons c cs ih =>
    unfold relaxTerrainCells
    have hds' : ∀ d ∈ (shuffle ds r).1, d ∈ directions4 := fun d hd => hds d (mem_shuffle.mp hd)
    refine Post.bind (relaxTerrainDirs_move g body dh tol t hd c.1 c.2 _ hds' s h) fun s1 hs1 =>
      (ih _ hds' s1 _ hs1.1).mono fun x hx => ⟨hx.1, hs1.2.1.trans hx.2.1, fun hc => ?_⟩
    have := sq_nonneg g.cellZ
    rcases hs1.2.2 hc with rfl | h1
    · exact hx.2.2 hc
    · rcases hx.2.2 hc with h2 | h2
      · rw [h2]; exact .inr h1
      · exact .inr (by linarith)

theorem relaxTerrainCells_wf (g : Grid K) (body : Body K) (dh tol : K) (t : TolOK g.cellZ tol)
    (hd : Al g.cellZ dh) (cs ds : List (ℤ × ℤ)) (hds : ∀ d ∈ ds, d ∈ directions4) (s : SimOut K)
    (r : Rng) (h : WellFormed g.cellZ s) :
    Post (relaxTerrainCells g body dh tol cs ds s r) fun x => WellFormed g.cellZ x.1 :=
  (relaxTerrainCells_move g body dh tol t hd cs ds hds s r h).mono fun _ h => h.1

theorem WellFormed.congr {c : K} {s s' : SimOut K} (h : WellFormed c s) (h1 : s'.lenX = s.lenX)
    (h2 : s'.lenY = s.lenY) (h3 : s'.terrain = s.terrain) (h4 : s'.body = s.body)
    (h5 : s'.bodySoil = s.bodySoil) (h6 : s'.bodySoilPos = s.bodySoilPos) : WellFormed c s' := by
  obtain ⟨x1, x2, x3, x4, x5, x6, x7, x8, x9, x10⟩ := s'
  simp only at h1 h2 h3 h4 h5 h6
  subst h1 h2 h3 h4 h5 h6
  exact ⟨h.bodyOK.congr rfl rfl rfl, ⟨h.soilOK.1, h.soilOK.2, h.soilOK.3, h.soilOK.4, h.soilOK.5,
    h.soilOK.6, h.soilOK.7, h.soilOK.8⟩, h.terrainFree, h.soilFree⟩

theorem relaxTerrain_wf (g : Grid K) (body : Body K) (p : SimParam K) (tol : K)
    (t : TolOK g.cellZ tol) (w : World K) (h : WellFormed g.cellZ w.out) :
    Post (relaxTerrain g body p tol w) fun w' => WellFormed g.cellZ w'.out := by
  unfold relaxTerrain
  dsimp only
  intro w' h'
  obtain ⟨cells, hc, h'⟩ := bind_eq_ok.mp h'
  split_ifs at h' with hem
  · cases h'; exact h.setEq _
  · obtain ⟨⟨s1, r1⟩, h1, h'⟩ := bind_eq_ok.mp h'
    cases h'
    have := relaxTerrainCells_wf g body (dhMax g p) tol t (dhMax_al g p) _ directions4
      (fun d hd => hd) _ _ (h.setEq true) _ h1
    exact this.congr rfl rfl rfl rfl rfl rfl

theorem relaxTerrain_avalanches (g : Grid K) (body : Body K) (p : SimParam K) (tol : K)
    (t : TolOK g.cellZ tol) (w : World K) (h : WellFormed g.cellZ w.out) :
    Post (relaxTerrain g body p tol w) fun w' =>
      Avalanches Place.OnGround g.cellZ (dhMax g p) w.out w'.out := by
  unfold relaxTerrain
  dsimp only
  intro w' h'
  obtain ⟨cells, hc, h'⟩ := bind_eq_ok.mp h'
  split_ifs at h' with hem
  · cases h'; exact .same rfl rfl ⟨rfl, rfl, rfl, rfl⟩
  · obtain ⟨⟨s1, r1⟩, h1, h'⟩ := bind_eq_ok.mp h'
    cases h'
    have := (relaxTerrainCells_move g body (dhMax g p) tol t (dhMax_al g p) _ directions4
      (fun d hd => hd) _ _ (h.setEq true) _ h1).2.1
    have e0 : Avalanches Place.OnGround g.cellZ (dhMax g p) w.out { w.out with equilibrium := true } :=
      .same rfl rfl ⟨rfl, rfl, rfl, rfl⟩
    refine (e0.trans this).trans ?_
    exact .same rfl rfl ⟨rfl, rfl, rfl, rfl⟩

/-- One sweep over the terrain: either it reports equilibrium and moves nothing, or the energy
falls by a definite amount. -/
theorem relaxTerrain_move (g : Grid K) (body : Body K) (p : SimParam K) (tol : K)
    (t : TolOK g.cellZ tol) (w : World K) (h : WellFormed g.cellZ w.out)
    (hc : g.cellZ ≤ dhMax g p) :
    Post (relaxTerrain g body p tol w) fun w' =>
      (w'.out.equilibrium = true ∧ w'.out.terrain = w.out.terrain ∧
        w'.out.bodySoil = w.out.bodySoil ∧ w'.out.bodySoilPos = w.out.bodySoilPos) ∨
      energy w'.out + g.cellZ ^ 2 ≤ energy w.out := by
  unfold relaxTerrain
  dsimp only
  intro w' h'
  obtain ⟨cells, -, h'⟩ := bind_eq_ok.mp h'
  split_ifs at h' with hem
  · cases h'; exact .inl ⟨rfl, rfl, rfl, rfl⟩
  · obtain ⟨⟨s1, r1⟩, h1, h'⟩ := bind_eq_ok.mp h'
    cases h'
    have := (relaxTerrainCells_move g body (dhMax g p) tol t (dhMax_al g p) _ directions4
      (fun d hd => hd) _ _ (h.setEq true) _ h1).2.2 hc
    rcases this with rfl | this
    · exact .inl ⟨rfl, rfl, rfl, rfl⟩
    · right
      have e1 : energy ({ w.out with equilibrium := true } : SimOut K) = energy w.out :=
        energy_congr rfl rfl rfl rfl
      rw [e1] at this
      exact (add_le_add_left (energy_congr (s := s1) rfl rfl rfl rfl).le _).trans this

end Soil
