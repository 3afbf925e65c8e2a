import Verif.Proof.InterB
import Verif.Spec.Opening

/-! # Soil pushed out of the body passes through openings only -/

set_option linter.unusedSectionVars false
set_option linter.unusedSimpArgs false

namespace Soil

variable {K : Type} [Field K] [LinearOrder K] [FloorRing K] [Transc K] [IsStrictOrderedRing K]

theorem Lower.gap {s : SimOut K} {k : ℕ} {i j : ℤ} (hk : k = 0 ∨ k = 2) (h : Lower s k i j) :
    Gap s i j (s.body (k + 1) i j) (s.body (otherLayer k) i j) :=
  ⟨k, hk, h.1, h.2.1, h.2.2, rfl, rfl⟩

theorem Gap.eq {s : SimOut K} {k : ℕ} {i j : ℤ} {f m : K} (hk : k = 0 ∨ k = 2) (h : Lower s k i j)
    (hg : Gap s i j f m) : f = s.body (k + 1) i j ∧ m = s.body (otherLayer k) i j := by
  obtain ⟨k', hk', -, -, hlt, rfl, rfl⟩ := hg
  have : k' = k := by
    rcases hk with rfl | rfl <;> rcases hk' with rfl | rfl <;> first | rfl | exfalso
    · have := h.2.2; simp only [otherLayer] at this hlt; norm_num at this hlt; exact lt_asymm this hlt
    · have := h.2.2; simp only [otherLayer] at this hlt; norm_num at this hlt; exact lt_asymm this hlt
  subst this
  exact ⟨rfl, rfl⟩

theorem gap_congr {s s' : SimOut K} (h : SameBody s s') {i j : ℤ} {f m : K} :
    Gap s' i j f m ↔ Gap s i j f m := by
  unfold Gap HasBody; rw [h.1]

theorem wall_congr {s s' : SimOut K} (h : SameBody s s') {i j : ℤ} {f m : K} :
    Wall s' i j f m ↔ Wall s i j f m := by
  unfold Wall HasBody; rw [h.1]

theorem corridor_congr {s s' : SimOut K} (h : SameBody s s') {i j n : ℤ} {d : ℤ × ℤ} :
    Corridor s' i j d n ↔ Corridor s i j d n := by
  unfold Corridor; simp only [gap_congr h]

theorem closed_congr {s s' : SimOut K} (h : SameBody s s') {i j n : ℤ} {d : ℤ × ℤ} :
    Closed s' i j d n ↔ Closed s i j d n := by
  unfold Closed; simp only [gap_congr h, wall_congr h, corridor_congr h]

theorem opens_congr {s s' : SimOut K} (h : SameBody s s') {i j n : ℤ} {d : ℤ × ℤ} :
    Opens s' i j d n ↔ Opens s i j d n := by
  unfold Opens; simp only [gap_congr h, wall_congr h, corridor_congr h]

theorem Received.split {s s' s'' : SimOut K} {a b : ℤ} (h : Received s s'' a b) :
    Received s s' a b ∨ Received s' s'' a b := by
  rcases h with h | ⟨k, hk, h⟩
  · by_cases hc : s.terrain a b < s'.terrain a b
    · exact .inl (.inl hc)
    · exact .inr (.inl (lt_of_le_of_lt (not_lt.mp hc) h))
  · by_cases hc : layerSoil s k a b < layerSoil s' k a b
    · exact .inl (.inr ⟨k, hk, hc⟩)
    · exact .inr (.inr ⟨k, hk, lt_of_le_of_lt (not_lt.mp hc) h⟩)

theorem Received.irrefl {s : SimOut K} {a b : ℤ} (h : Received s s a b) : False := by
  rcases h with h | ⟨k, hk, h⟩ <;> exact lt_irrefl _ h

/-- soil is only added, and only in column `(i, j)` -/
structure Adds (s s' : SimOut K) (i j : ℤ) : Prop where
  body : SameBody s s'
  mono : ∀ k a b, k = 0 ∨ k = 2 → layerSoil s k a b ≤ layerSoil s' k a b
  only : ∀ a b, Received s s' a b → a = i ∧ b = j

theorem Adds.refl (s : SimOut K) (i j : ℤ) : Adds s s i j :=
  ⟨⟨rfl, rfl, rfl, rfl⟩, fun _ _ _ _ => le_rfl, fun _ _ h => h.irrefl.elim⟩

theorem adds_addT (s : SimOut K) (i j : ℤ) (δ : K) : Adds s (addT s i j δ) i j := by
  refine ⟨⟨rfl, rfl, rfl, rfl⟩, fun _ _ _ _ => le_rfl, fun a b h => ?_⟩
  by_contra hc
  rcases h with h | ⟨k, hk, h⟩
  · unfold Soil.addT SimOut.setT at h
    dsimp only at h
    rw [upd2_ne _ _ hc] at h
    exact lt_irrefl _ h
  · exact lt_irrefl _ h

theorem adds_dep (s : SimOut K) (e : BodySoil K) (hk : e.ind = 0 ∨ e.ind = 2) (h0 : 0 ≤ e.h) :
    Adds s (dep s e) e.ii e.jj ∧
      layerSoil (dep s e) e.ind e.ii e.jj = layerSoil s e.ind e.ii e.jj + e.h := by
  have hb : SameBody s (dep s e) := ⟨rfl, rfl, rfl, rfl⟩
  have ht : (dep s e).terrain = s.terrain := rfl
  have e1 : layerSoil (Soil.dep s e) e.ind e.ii e.jj = layerSoil s e.ind e.ii e.jj + e.h := by
    unfold layerSoil
    rw [(dep_soil_here s e).1, (dep_soil_here s e).2]
    unfold layerSoil
    ring
  refine ⟨⟨hb, fun k a b hk' => ?_, fun a b h => ?_⟩, e1⟩
  · by_cases hc : k = e.ind ∧ a = e.ii ∧ b = e.jj
    · obtain ⟨rfl, rfl, rfl⟩ := hc
      rw [e1]; linarith
    · obtain ⟨h1, h2⟩ := dep_soil_other s e hk hk' hc
      unfold layerSoil
      rw [h1, h2]
  · by_contra hc
    rcases h with h | ⟨k, hk', h⟩
    · rw [ht] at h; exact lt_irrefl _ h
    · obtain ⟨h1, h2⟩ := dep_soil_other s e hk hk' fun q => hc q.2
      unfold layerSoil at h
      rw [h1, h2] at h
      exact lt_irrefl _ h

theorem full_mono {s s' : SimOut K} (h : SameBody s s')
    (hm : ∀ k a b, k = 0 ∨ k = 2 → layerSoil s k a b ≤ layerSoil s' k a b) {a b : ℤ} (hf : Full s a b) :
    Full s' a b := by
  intro k hk hlt
  rw [h.1] at hlt ⊢
  have := hf k hk hlt
  have := hm k a b hk
  linarith

theorem full_of {s : SimOut K} {k : ℕ} {i j : ℤ} (hk : k = 0 ∨ k = 2) (hl : Lower s k i j)
    (h : s.body (otherLayer k) i j ≤ s.body (k + 1) i j + layerSoil s k i j) : Full s i j := by
  intro k' hk' hlt
  have : k' = k := by
    rcases hk with rfl | rfl <;> rcases hk' with rfl | rfl <;> first | rfl | exfalso
    · have := hl.2.2; simp only [otherLayer] at this hlt; norm_num at this hlt; exact lt_asymm this hlt
    · have := hl.2.2; simp only [otherLayer] at this hlt; norm_num at this hlt; exact lt_asymm this hlt
  subst this
  exact h

variable {c tol : K} {s : SimOut K} {g : Grid K} {body : Body K}

/-- What one call of `MoveBodySoil` does, coming from a column whose gap reaches from `f` to `maxH` -/
structure ProbeStep (s : SimOut K) (q : Probe K) (f maxH : K) (i j : ℤ) (x : SimOut K × Probe K) : Prop where
  adds : Adds s x.1 i j
  wall : x.2.wall = true → x.1 = s ∧ Wall s i j f maxH
  free : x.2.wall = false → ¬ Wall s i j f maxH
  next : x.2.wall = false → x.2.h ≠ 0 → x.2.ii = i ∧ x.2.jj = j ∧ (x.2.ind = 0 ∨ x.2.ind = 2) ∧
    Lower s x.2.ind i j ∧ Full x.1 i j

theorem moveBodySoil1_step (t : TolOK c tol) (hB : BodyOK c s) (h : SoilOK c s) (q : Probe K)
    {f maxH : K} {i j : ℤ} {k : ℕ} (hij : s.InGrid i j) (hk : k = 0 ∨ k = 2) (hb : HasBody s k i j)
    (hno : ¬ HasBody s (otherLayer k) i j) (h0 : 0 ≤ q.h) (hw : q.wall = false)
    (hf : f = s.body (q.ind + 1) q.ii q.jj) (hfa : Al c f) (hma : Al c maxH) :
    ProbeStep s q f maxH i j (moveBodySoil1 s q maxH i j g body tol k) := by
  have hal := fun k => hB.al k i j hij
  have hun : ∀ k', (k' = 0 ∨ k' = 2) → HasBody s k' i j → k' = k := by
    intro k' hk' hb'
    rcases hk with rfl | rfl <;> rcases hk' with rfl | rfl <;> first | rfl | exact absurd hb' hno
  unfold moveBodySoil1
  simp only [ex_lt, ex_add, ex_sub, decide_eq_true_eq, ex_zero]
  rw [← hf]
  split_ifs with c1 c2 c3
  · rw [t.lt_sub hfa (hal _)] at c1
    refine ⟨adds_addT s i j q.h, fun hx => by simp [hw] at hx, fun _ => ?_, fun _ hx => absurd rfl hx⟩
    rintro ⟨k', hk', hb', -, h1, -⟩
    rw [hun k' hk' hb'] at h1
    linarith
  · rw [t.lt_sub hfa (hal _)] at c1
    rw [t.lt_add hma (hal _)] at c2
    exact ⟨.refl s i j, fun _ => ⟨rfl, k, hk, hb, hno, not_lt.mp c1, c2⟩, fun hx => by simp at hx,
      fun hx => by simp at hx⟩
  · rw [soilPres_iff] at c3
    have hr := h.rest k i j hij hk c3
    have e : (s.setBS (k + 1) i j (s.bodySoil (k + 1) i j + q.h)).pushPos (mkEntry s g body k i j q.h) =
        dep s (mkEntry s g body k i j q.h) := by
      rw [dep_on_soil _ _ (by exact hr.2.1)]; rfl
    rw [e]
    refine ⟨(adds_dep s (mkEntry s g body k i j q.h) hk h0).1, fun hx => by simp [hw] at hx, fun _ => ?_,
      fun _ hx => absurd rfl hx⟩
    rintro ⟨k', hk', hb', -, -, h1⟩
    rw [hun k' hk' hb'] at h1
    rw [t.lt_add hma (hal _)] at c2
    exact c2 h1
  · rw [soilPres_iff] at c3
    have e : ((s.setBS k i j (s.body (k + 1) i j)).setBS (k + 1) i j (s.body (k + 1) i j + q.h)).pushPos
        (mkEntry s g body k i j q.h) = dep s (mkEntry s g body k i j q.h) := by
      rw [dep_on_bare _ _ (by exact c3)]; rfl
    rw [e]
    refine ⟨(adds_dep s (mkEntry s g body k i j q.h) hk h0).1, fun hx => by simp [hw] at hx, fun _ => ?_,
      fun _ hx => absurd rfl hx⟩
    rintro ⟨k', hk', hb', -, -, h1⟩
    rw [hun k' hk' hb'] at h1
    rw [t.lt_add hma (hal _)] at c2
    exact c2 h1

theorem moveBodySoil2_step (t : TolOK c tol) (hB : BodyOK c s) (h : SoilOK c s) (q : Probe K)
    {f maxH : K} {i j : ℤ} {k k' : ℕ} (hk' : k' = otherLayer k) (hij : s.InGrid i j)
    (hk : k = 0 ∨ k = 2) (hb : HasBody s k i j) (hb2 : HasBody s k' i j)
    (hle : s.body k i j ≤ s.body k' i j) (h0 : 0 ≤ q.h) (hw : q.wall = false) :
    ProbeStep s q f maxH i j (moveBodySoil2 s q i j g body tol k k') := by
  subst hk'
  have hab := hB.above hij hk hb hb2 hle
  have hlt : s.body k i j < s.body (otherLayer k) i j := (hB.order k i j hij hk hb).trans hab
  have hlow : Lower s k i j := ⟨hb, hb2, hlt⟩
  have hal := fun k => hB.al k i j hij
  have hsl := fun k => h.soil_al k i j hij
  have hnw : ¬ Wall s i j f maxH := by
    rintro ⟨k', hk', -, hn, -⟩
    rcases hk with rfl | rfl <;> rcases hk' with rfl | rfl
    · exact hn hb2
    · exact hn hb
    · exact hn hb
    · exact hn hb2
  unfold moveBodySoil2
  simp only [ex_lt, ex_add, ex_sub, decide_eq_true_eq, ex_zero]
  by_cases c1 : s.soilPres k i j = true
  · rw [if_pos c1]
    rw [soilPres_iff] at c1
    have hr := h.rest k i j hij hk c1
    have htop := h.top_eq hij hk c1
    by_cases c2 : s.body (otherLayer k) i j < s.bodySoil (k + 1) i j + tol
    · rw [if_pos c2]
      rw [t.lt_add (hal _) (hsl _)] at c2
      exact ⟨.refl s i j, fun hx => by simp [hw] at hx, fun _ => hnw, fun _ _ =>
        ⟨rfl, rfl, hk, hlow, full_of hk hlow (by linarith)⟩⟩
    · rw [if_neg c2]
      rw [t.lt_add (hal _) (hsl _), not_le] at c2
      have e : ∀ δ, (s.setBS (k + 1) i j (s.bodySoil (k + 1) i j + δ)).pushPos
          (mkEntry s g body k i j δ) = dep s (mkEntry s g body k i j δ) := by
        intro δ
        rw [dep_on_soil _ _ (by exact hr.2.1)]; rfl
      simp only [e]
      by_cases c3 : s.body (otherLayer k) i j - s.bodySoil (k + 1) i j < q.h
      · rw [if_pos c3]
        obtain ⟨a1, a2⟩ := adds_dep s (mkEntry s g body k i j
          (s.body (otherLayer k) i j - s.bodySoil (k + 1) i j)) hk
          (by show 0 ≤ s.body (otherLayer k) i j - s.bodySoil (k + 1) i j; linarith)
        refine ⟨a1, fun hx => by simp [hw] at hx, fun _ => hnw, fun _ _ => ⟨rfl, rfl, hk, hlow, ?_⟩⟩
        refine full_of hk (show Lower (dep s _) k i j from hlow) ?_
        change s.body (otherLayer k) i j ≤ s.body (k + 1) i j + layerSoil (dep s _) k i j
        have a2' : layerSoil (dep s (mkEntry s g body k i j
          (s.body (otherLayer k) i j - s.bodySoil (k + 1) i j))) k i j = layerSoil s k i j +
          (s.body (otherLayer k) i j - s.bodySoil (k + 1) i j) := a2
        rw [a2']
        linarith
      · rw [if_neg c3]
        exact ⟨(adds_dep s (mkEntry s g body k i j q.h) hk h0).1, fun hx => by simp [hw] at hx,
          fun _ => hnw, fun _ hx => absurd rfl hx⟩
  · rw [if_neg c1]
    rw [soilPres_iff] at c1
    obtain ⟨z0, z1⟩ := layerSoil_of_not_hasSoil c1
    have hz : layerSoil s k i j = 0 := by unfold layerSoil; rw [z0, z1, sub_self]
    have e : ∀ δ, ((s.setBS k i j (s.body (k + 1) i j)).setBS (k + 1) i j
        (s.body (k + 1) i j + δ)).pushPos (mkEntry s g body k i j δ) =
        dep s (mkEntry s g body k i j δ) := by
      intro δ
      rw [dep_on_bare _ _ (by exact c1)]; rfl
    simp only [e]
    by_cases c3 : s.body (otherLayer k) i j - s.body (k + 1) i j < q.h
    · rw [if_pos c3]
      obtain ⟨a1, a2⟩ := adds_dep s (mkEntry s g body k i j
        (s.body (otherLayer k) i j - s.body (k + 1) i j)) hk
        (by show 0 ≤ s.body (otherLayer k) i j - s.body (k + 1) i j; linarith)
      refine ⟨a1, fun hx => by simp [hw] at hx, fun _ => hnw, fun _ _ => ⟨rfl, rfl, hk, hlow, ?_⟩⟩
      refine full_of hk (show Lower (dep s _) k i j from hlow) ?_
      change s.body (otherLayer k) i j ≤ s.body (k + 1) i j + layerSoil (dep s _) k i j
      have a2' : layerSoil (dep s (mkEntry s g body k i j
        (s.body (otherLayer k) i j - s.body (k + 1) i j))) k i j = layerSoil s k i j +
        (s.body (otherLayer k) i j - s.body (k + 1) i j) := a2
      rw [a2', hz]
      linarith
    · rw [if_neg c3]
      exact ⟨(adds_dep s (mkEntry s g body k i j q.h) hk h0).1, fun hx => by simp [hw] at hx,
        fun _ => hnw, fun _ hx => absurd rfl hx⟩

theorem moveBodySoil_step (t : TolOK c tol) (hB : BodyOK c s) (h : SoilOK c s) (q : Probe K)
    {f maxH : K} {i j : ℤ} (hij : s.InGrid i j) (h0 : 0 ≤ q.h) (hw : q.wall = false)
    (hf : f = s.body (q.ind + 1) q.ii q.jj) (hfa : Al c f) (hma : Al c maxH) :
    ProbeStep s q f maxH i j (moveBodySoil s q maxH i j g body tol) := by
  classical
  unfold moveBodySoil
  simp only [Bool.and_eq_true, bodyAbs_iff, ex_lt, decide_eq_true_eq]
  by_cases b0 : HasBody s 0 i j
  · by_cases b2 : HasBody s 2 i j
    · simp only [b0, b2, not_true_eq_false, and_self, if_false]
      split_ifs with c1
      · exact moveBodySoil2_step t hB h q rfl hij (.inl rfl) b0 b2 c1.le h0 hw
      · exact moveBodySoil2_step t hB h q rfl hij (.inr rfl) b2 b0 (not_lt.mp c1) h0 hw
    · simp only [b0, b2, not_true_eq_false, not_false_eq_true, false_and, if_false, if_true]
      exact moveBodySoil1_step t hB h q hij (.inl rfl) b0 b2 h0 hw hf hfa hma
  · by_cases b2 : HasBody s 2 i j
    · simp only [b0, b2, not_true_eq_false, not_false_eq_true, and_false, if_false, if_true]
      exact moveBodySoil1_step t hB h q hij (.inr rfl) b2 b0 h0 hw hf hfa hma
    · simp only [b0, b2, not_false_eq_true, and_self, if_true, ex_add, ex_zero]
      refine ⟨adds_addT s i j q.h, fun hx => by simp [hw] at hx, fun _ => ?_, fun _ hx => absurd rfl hx⟩
      rintro ⟨k, rfl | rfl, hb, -⟩
      · exact b0 hb
      · exact b2 hb

theorem max_lower {s : SimOut K} {k : ℕ} {i j : ℤ} (hk : k = 0 ∨ k = 2) (h : Lower s k i j) :
    Max.max (s.body 0 i j) (s.body 2 i j) = s.body (otherLayer k) i j := by
  have := h.2.2
  rcases hk with rfl | rfl
  · exact max_eq_right this.le
  · exact max_eq_left this.le

theorem exploreDir_stop (ii jj : ℤ) (d : ℤ × ℤ) (fuel : ℕ) (pp : ℤ) (s : SimOut K) (q : Probe K)
    (maxH : K) (h : q.wall = true ∨ ¬ tol < q.h) :
    exploreDir g body tol ii jj d fuel pp s q maxH = .ok (s, q.h) := by
  unfold exploreDir
  have : (!q.wall && FOps.lt tol q.h) = false := by
    simp only [ex_lt]
    rcases h with h | h <;> simp [h]
  rw [this]
  simp

/-- The soil explored from column `(ii, jj)` in direction `d` -/
structure Explored (c : K) (s : SimOut K) (ii jj : ℤ) (d : ℤ × ℤ) (x : SimOut K × K) : Prop where
  soil : SoilOK c x.1
  nonneg : 0 ≤ x.2
  al : Al c x.2
  body : SameBody s x.1
  mono : ∀ k a b, k = 0 ∨ k = 2 → layerSoil s k a b ≤ layerSoil x.1 k a b
  only : ∀ a b, Received s x.1 a b → ∃ n, Opens s ii jj d n ∧ a = ii + n * d.1 ∧ b = jj + n * d.2
  left : 0 < x.2 → ∃ n, Closed s ii jj d n ∧
    ∀ m, 1 ≤ m → m < n → Full x.1 (ii + m * d.1) (jj + m * d.2)

theorem exploreDir_path (t : TolOK c tol) (ii jj : ℤ) (d : ℤ × ℤ) (fuel : ℕ)
    (pp : ℤ) (hpp : 0 ≤ pp) (s : SimOut K) (q : Probe K) (maxH : K) (hB : BodyOK c s)
    (h : SoilOK c s) (h0 : 0 ≤ q.h) (hqa : Al c q.h) (hw : q.wall = false) (hpos : 0 < q.h)
    (hcor : Corridor s ii jj d (pp + 1)) (hi : q.ii = ii + pp * d.1) (hj : q.jj = jj + pp * d.2)
    (hk : q.ind = 0 ∨ q.ind = 2) (hin : s.InGrid q.ii q.jj) (hl : Lower s q.ind q.ii q.jj)
    (hm : maxH = s.body (otherLayer q.ind) q.ii q.jj)
    (hfull : ∀ m, 1 ≤ m → m < pp + 1 → Full s (ii + m * d.1) (jj + m * d.2)) :
    Post (exploreDir g body tol ii jj d fuel pp s q maxH) (Explored c s ii jj d) := by
  induction fuel generalizing pp s q maxH with
  | zero =>
    unfold exploreDir
    split_ifs with hc
    · exact Post.error
    · exfalso
      apply hc
      simp only [ex_lt, hw, Bool.not_false, Bool.true_and, decide_eq_true_eq]
      exact (t.tol_lt hqa).mpr hpos
  | succ n ih =>
    unfold exploreDir
    split_ifs with hc
    swap
    · exfalso
      apply hc
      simp only [ex_lt, hw, Bool.not_false, Bool.true_and, decide_eq_true_eq]
      exact (t.tol_lt hqa).mpr hpos
    refine Post.guard fun hg => ?_
    obtain ⟨⟨r1, r2, r3⟩, -⟩ := moveBodySoil_ok (g := g) (body := body) t hB h q maxH hg h0 hqa
    have st := moveBodySoil_step (g := g) (body := body) (f := s.body (q.ind + 1) q.ii q.jj) t hB h q hg
      h0 hw rfl (hB.al _ _ _ hin) (hm ▸ hB.al _ _ _ hin : Al c maxH)
    generalize moveBodySoil s q maxH (ii + (pp + 1) * d.1) (jj + (pp + 1) * d.2) g body tol = x at *
    obtain ⟨s1, q1⟩ := x
    dsimp only at r1 r2 r3 ⊢
    obtain ⟨st1, st2, st3, st4⟩ := st
    dsimp only at st1 st2 st3 st4
    have hgap := Lower.gap hk hl
    have hgap' : Gap s (ii + (pp + 1 - 1) * d.1) (jj + (pp + 1 - 1) * d.2)
        (s.body (q.ind + 1) q.ii q.jj) maxH := by
      rw [add_sub_cancel_right, ← hi, ← hj, hm]; exact hgap
    have hopen : q1.wall = false → Opens s ii jj d (pp + 1) := by
      intro hw1
      refine ⟨hcor, fun f m hG => ?_⟩
      rw [add_sub_cancel_right, ← hi, ← hj] at hG
      obtain ⟨rfl, rfl⟩ := hG.eq hk hl
      rw [← hm]
      exact st3 hw1
    by_cases hw1 : q1.wall = true
    · rw [exploreDir_stop _ _ _ _ _ _ _ _ (.inl hw1)]
      obtain ⟨e1, hwall⟩ := st2 hw1
      subst e1
      refine Post.ok ⟨h, r2, r3, ⟨rfl, rfl, rfl, rfl⟩, fun _ _ _ _ => le_rfl,
        fun _ _ hr => hr.irrefl.elim, fun _ => ⟨pp + 1, ⟨hcor, _, _, hgap', hwall⟩, hfull⟩⟩
    · have hw1 : q1.wall = false := by simpa using hw1
      by_cases hz : q1.h = 0
      · rw [exploreDir_stop _ _ _ _ _ _ _ _ (.inr (by rw [hz]; exact t.pos.le.not_gt))]
        refine Post.ok ⟨r1.soil, r2, r3, st1.body, st1.mono, fun a b hr => ?_, fun hx => ?_⟩
        · obtain ⟨rfl, rfl⟩ := st1.only a b hr
          exact ⟨pp + 1, hopen hw1, rfl, rfl⟩
        · dsimp only at hx
          rw [hz] at hx; exact absurd hx (lt_irrefl _)
      · obtain ⟨i1, j1, k1, l1, f1⟩ := st4 hw1 hz
        have hl1 : Lower s1 q1.ind q1.ii q1.jj := by
          rw [i1, j1]
          exact (r1.loc.lower _ _ _).mpr l1
        refine (ih (pp + 1) (by omega) s1 q1 _ (hB.loc r1.loc) r1.soil r2 r3 hw1
          (lt_of_le_of_ne r2 (Ne.symm hz)) ?_ i1 j1 k1 ?_ hl1 ?_ ?_).mono ?_
        · rw [corridor_congr st1.body]
          refine ⟨by omega, fun m h1 h2 => ?_⟩
          by_cases he : m = pp + 1
          · subst he
            exact ⟨_, _, Lower.gap k1 l1⟩
          · exact hcor.2 m h1 (by omega)
        · rw [i1, j1]; exact (r1.loc.inGrid _ _).mpr hg
        · simp only [ex_max]
          exact max_lower k1 hl1
        · intro m h1 h2
          by_cases he : m = pp + 1
          · subst he; exact f1
          · exact full_mono st1.body st1.mono (hfull m h1 (by omega))
        · rintro ⟨s2, h2⟩ E
          refine ⟨E.soil, E.nonneg, E.al, st1.body.trans E.body,
            fun k a b hk => (st1.mono k a b hk).trans (E.mono k a b hk), fun a b hr => ?_, fun hx => ?_⟩
          · rcases hr.split (s' := s1) with hr | hr
            · obtain ⟨rfl, rfl⟩ := st1.only a b hr
              exact ⟨pp + 1, hopen hw1, rfl, rfl⟩
            · obtain ⟨m, ho, ha, hb⟩ := E.only a b hr
              exact ⟨m, (opens_congr st1.body).mp ho, ha, hb⟩
          · obtain ⟨m, hC, hF⟩ := E.left hx
            exact ⟨m, (closed_congr st1.body).mp hC, hF⟩

/-- The soil explored from column `(ii, jj)` in all directions of a list -/
structure ExploredAll (c : K) (s : SimOut K) (ii jj : ℤ) (ds : List (ℤ × ℤ)) (x : SimOut K × K) : Prop where
  soil : SoilOK c x.1
  nonneg : 0 ≤ x.2
  al : Al c x.2
  body : SameBody s x.1
  mono : ∀ k a b, k = 0 ∨ k = 2 → layerSoil s k a b ≤ layerSoil x.1 k a b
  only : ∀ a b, Received s x.1 a b → ∃ d ∈ ds, ∃ n, Opens s ii jj d n ∧ a = ii + n * d.1 ∧ b = jj + n * d.2
  left : 0 < x.2 → ∀ d ∈ ds, ∃ n, Closed s ii jj d n ∧
    ∀ m, 1 ≤ m → m < n → Full x.1 (ii + m * d.1) (jj + m * d.2)

theorem exploreDirs_path (t : TolOK c tol) (fuel ind : ℕ) (ii jj : ℤ) (ds : List (ℤ × ℤ))
    (s : SimOut K) (h : K) (hB : BodyOK c s)
    (hs : SoilOK c s) (h0 : 0 ≤ h) (ha : Al c h) (hpos : 0 < h) (hin : s.InGrid ii jj)
    (hk : ind = 0 ∨ ind = 2) (hl : Lower s ind ii jj) :
    Post (exploreDirs fuel g body tol ind (otherLayer ind) ii jj ds s h) (ExploredAll c s ii jj ds) := by
  induction ds generalizing s h with
  | nil =>
    exact Post.ok ⟨hs, h0, ha, ⟨rfl, rfl, rfl, rfl⟩, fun _ _ _ _ => le_rfl, fun _ _ hr => hr.irrefl.elim,
      by simp⟩
  | cons d ds ih =>
    unfold exploreDirs
    refine Post.bind (exploreDir_path t ii jj d fuel 0 le_rfl s ⟨ind, ii, jj, h, false⟩ _ hB hs h0 ha rfl
      hpos ?_ (by simp) (by simp) hk hin hl rfl (by intro m h1 h2; omega)) ?_
    · refine ⟨by omega, fun m h1 h2 => ?_⟩
      have : m = 0 := by omega
      subst this
      simp only [zero_mul, add_zero]
      exact ⟨_, _, Lower.gap hk hl⟩
    · rintro ⟨s1, h1⟩ E
      dsimp only
      have hloc : BodyOK c s1 := hB.congr E.body.1 E.body.2.2.1 E.body.2.2.2
      split_ifs with hc
      · simp only [ex_lt, decide_eq_true_eq] at hc
        refine Post.ok ⟨E.soil, E.nonneg, E.al, E.body, E.mono, fun a b hr => ?_, fun hx => ?_⟩
        · obtain ⟨n, hn⟩ := E.only a b hr
          exact ⟨d, List.mem_cons_self, n, hn⟩
        · exact absurd ((t.tol_lt E.al).mpr hx) hc.le.not_gt
      · simp only [ex_lt, decide_eq_true_eq] at hc
        have hp1 : 0 < h1 := by
          by_contra hn
          exact hc (lt_of_le_of_lt (not_lt.mp hn) t.pos)
        have hl1 : Lower s1 ind ii jj := by
          unfold Lower HasBody at hl ⊢; rwa [E.body.1]
        refine (ih s1 h1 hloc E.soil E.nonneg E.al hp1 ?_ hl1).mono ?_
        · unfold SimOut.InGrid at hin ⊢; rw [E.body.2.2.1, E.body.2.2.2]; exact hin
        · rintro ⟨s2, h2⟩ E2
          refine ⟨E2.soil, E2.nonneg, E2.al, E.body.trans E2.body,
            fun k a b hk => (E.mono k a b hk).trans (E2.mono k a b hk), fun a b hr => ?_, fun hx => ?_⟩
          · rcases hr.split (s' := s1) with hr | hr
            · obtain ⟨n, hn⟩ := E.only a b hr
              exact ⟨d, List.mem_cons_self, n, hn⟩
            · obtain ⟨d', hd', n, ho, hn⟩ := E2.only a b hr
              exact ⟨d', List.mem_cons_of_mem _ hd', n, (opens_congr E.body).mp ho, hn⟩
          · intro d' hd'
            rcases List.mem_cons.mp hd' with rfl | hd'
            · obtain ⟨n, hC, hF⟩ := E.left hp1
              exact ⟨n, hC, fun m a b => full_mono E2.body E2.mono (hF m a b)⟩
            · obtain ⟨n, hC, hF⟩ := E2.left hx d' hd'
              exact ⟨n, (closed_congr E.body).mp hC, hF⟩

theorem lateral_iff (d : ℤ × ℤ) : d ∈ directions8 ↔ Lateral d := by
  obtain ⟨a, b⟩ := d
  unfold Lateral directions8
  constructor
  · intro h
    simp only [List.mem_cons, Prod.mk.injEq, List.not_mem_nil, or_false] at h
    rcases h with ⟨rfl, rfl⟩ | ⟨rfl, rfl⟩ | ⟨rfl, rfl⟩ | ⟨rfl, rfl⟩ | ⟨rfl, rfl⟩ | ⟨rfl, rfl⟩ |
      ⟨rfl, rfl⟩ | ⟨rfl, rfl⟩ <;> simp
  · rintro ⟨⟨h1, h2⟩, ⟨h3, h4⟩, h⟩
    dsimp only at h1 h2 h3 h4
    have ha : a = -1 ∨ a = 0 ∨ a = 1 := by omega
    have hb : b = -1 ∨ b = 0 ∨ b = 1 := by omega
    rcases ha with rfl | rfl | rfl <;> rcases hb with rfl | rfl | rfl <;> simp_all

/-- The soil pushed out, from `w` to `w'` -/
structure Driven (w w' : World K) : Prop where
  body : SameBody w.out w'.out
  full : ∀ a b, Full w.out a b → Full w'.out a b
  only : ∀ a b, Received w.out w'.out a b →
    ∃ i j d n, Lateral d ∧ Opens w.out i j d n ∧ a = i + n * d.1 ∧ b = j + n * d.2
  left : ∃ m, w'.log = w.log ++ m ∧ ∀ x ∈ m, ∃ i j, ∀ d, Lateral d → ∃ n, Closed w.out i j d n ∧
    ∀ m, 0 ≤ m → m < n → Full w'.out (i + m * d.1) (j + m * d.2)

theorem Driven.refl (w : World K) : Driven w w :=
  ⟨⟨rfl, rfl, rfl, rfl⟩, fun _ _ h => h, fun _ _ h => h.irrefl.elim, [], by simp, by simp⟩

theorem Driven.trans {w w' w'' : World K} (h : Driven w w') (h' : Driven w' w'') : Driven w w'' := by
  refine ⟨h.body.trans h'.body, fun a b hf => h'.full a b (h.full a b hf), fun a b hr => ?_, ?_⟩
  · rcases hr.split (s' := w'.out) with hr | hr
    · exact h.only a b hr
    · obtain ⟨i, j, d, n, hd, ho, e⟩ := h'.only a b hr
      exact ⟨i, j, d, n, hd, (opens_congr h.body).mp ho, e⟩
  · obtain ⟨m, e, hm⟩ := h.left
    obtain ⟨m', e', hm'⟩ := h'.left
    refine ⟨m ++ m', by rw [e', e, List.append_assoc], fun x hx => ?_⟩
    rcases List.mem_append.mp hx with hx | hx
    · obtain ⟨i, j, H⟩ := hm x hx
      refine ⟨i, j, fun d hd => ?_⟩
      obtain ⟨n, h1, h2⟩ := H d hd
      exact ⟨n, h1, fun m a b => h'.full _ _ (h2 m a b)⟩
    · obtain ⟨i, j, H⟩ := hm' x hx
      refine ⟨i, j, fun d hd => ?_⟩
      obtain ⟨n, h1, h2⟩ := H d hd
      exact ⟨n, (closed_congr h.body).mp h1, h2⟩

theorem moveIntersectingEntries_path (t : TolOK c tol) (fuel fuelN nn : ℕ) (ds : List (ℤ × ℤ))
    (hds : ds.Perm directions8) (w : World K) (hB : BodyOK c w.out) (hS : SoilOK c w.out) :
    Post (moveIntersectingEntries fuel g body tol fuelN nn ds w) (Driven w) := by
  induction fuelN generalizing nn ds w with
  | zero =>
    unfold moveIntersectingEntries
    cases he : w.out.bodySoilPos[nn]? with
    | none => exact Post.ok (.refl w)
    | some e => exact Post.error
  | succ fuelN ih =>
    unfold moveIntersectingEntries
    cases he : w.out.bodySoilPos[nn]? with
    | none => exact Post.ok (.refl w)
    | some e =>
      have hmem : e ∈ w.out.bodySoilPos := List.mem_iff_getElem?.mpr ⟨nn, he⟩
      obtain ⟨hij, hk⟩ := hS.entries e hmem
      have hot : (if e.ind = 0 then 2 else 0) = otherLayer e.ind := rfl
      dsimp only
      rw [hot]
      refine Post.guard fun _ => ?_
      have hal := fun k => hB.al k e.ii e.jj hij
      have hsl := fun k => hS.soil_al k e.ii e.jj hij
      simp only [ex_lt, ex_sub, ex_zero]
      by_cases c1 : w.out.bodyAbs (otherLayer e.ind) e.ii e.jj = true
      · rw [if_pos c1]
        exact ih (nn + 1) ds hds w hB hS
      rw [if_neg c1]
      rw [bodyAbs_iff, not_not] at c1
      by_cases c2 : (decide (w.out.body e.ind e.ii e.jj < w.out.body (otherLayer e.ind) e.ii e.jj) &&
          decide (w.out.body (otherLayer e.ind) e.ii e.jj <
            w.out.bodySoil (e.ind + 1) e.ii e.jj - tol)) = true
      swap
      · rw [if_neg c2]
        exact ih (nn + 1) ds hds w hB hS
      rw [if_pos c2]
      simp only [Bool.and_eq_true, decide_eq_true_eq] at c2
      obtain ⟨hlow, hex⟩ := c2
      rw [t.lt_sub (hal _) (hsl _)] at hex
      have hea := hS.entry_al e hmem
      have he0 := hS.entry_nonneg e hmem
      -- the amount taken
      obtain ⟨δ, hδ⟩ : ∃ δ, δ = if e.h < w.out.bodySoil (e.ind + 1) e.ii e.jj -
          w.out.body (otherLayer e.ind) e.ii e.jj then e.h else
          w.out.bodySoil (e.ind + 1) e.ii e.jj - w.out.body (otherLayer e.ind) e.ii e.jj :=
        ⟨_, rfl⟩
      have hsplit : (if decide (e.h < w.out.bodySoil (e.ind + 1) e.ii e.jj -
          w.out.body (otherLayer e.ind) e.ii e.jj) = true then (w.out.setH nn 0, e.h) else
          (w.out.setH nn (e.h - (w.out.bodySoil (e.ind + 1) e.ii e.jj -
            w.out.body (otherLayer e.ind) e.ii e.jj)), w.out.bodySoil (e.ind + 1) e.ii e.jj -
            w.out.body (otherLayer e.ind) e.ii e.jj)) = (w.out.setH nn (e.h - δ), δ) := by
        simp only [decide_eq_true_eq]
        split_ifs at hδ ⊢ with hc
        · rw [hδ, sub_self]
        · rw [hδ]
      rw [hsplit]
      have h0 : 0 ≤ δ := by rw [hδ]; split_ifs <;> linarith
      have h1 : δ ≤ e.h := by
        rw [hδ]; split_ifs with hc
        · exact le_rfl
        · exact not_lt.mp hc
      have hδx : δ ≤ w.out.bodySoil (e.ind + 1) e.ii e.jj - w.out.body (otherLayer e.ind) e.ii e.jj := by
        rw [hδ]; split_ifs with hc
        · exact hc.le
        · exact le_rfl
      have ha : Al c δ := by
        rw [hδ]; split_ifs
        · exact hea
        · exact (hsl _).sub (hal _)
      have hst : (w.out.setH nn (e.h - δ)).setBS (e.ind + 1) e.ii e.jj
          ((w.out.setH nn (e.h - δ)).bodySoil (e.ind + 1) e.ii e.jj - δ) =
          wdPart w.out nn e δ := by rfl
      dsimp only
      rw [hst]
      have hloc1 : Loc w.out (wdPart w.out nn e δ) := ((Local.refl _).setBS trivial _).setH _ _
      have hdp : (shuffle ds w.rng).1.Perm directions8 := (shuffle_perm _ _).trans hds
      have hS1 : SoilOK c (wdPart w.out nn e δ) := hS.wdPart he h0 h1 ha
      have hB1 : BodyOK c (wdPart w.out nn e δ) := hB.loc hloc1
      have hle : ∀ k i j, k = 0 ∨ k = 2 → layerSoil (wdPart w.out nn e δ) k i j ≤ layerSoil w.out k i j := by
        intro k i j hk'
        by_cases hc : k = e.ind ∧ i = e.ii ∧ j = e.jj
        · obtain ⟨rfl, rfl, rfl⟩ := hc
          unfold layerSoil
          rw [(wdPart_soil_here w.out nn e δ).1, (wdPart_soil_here w.out nn e δ).2]
          linarith
        · unfold layerSoil
          rw [(wdPart_soil_other w.out nn e δ hk hk' hc).1, (wdPart_soil_other w.out nn e δ hk hk' hc).2]
      have hhere : 0 < δ → HasSoil w.out e.ind e.ii e.jj ∧ Lower w.out e.ind e.ii e.jj ∧
          Full (wdPart w.out nn e δ) e.ii e.jj := by
        intro hp
        have hs := hS.entry_hasSoil hmem (lt_of_lt_of_le hp h1)
        have hl : Lower w.out e.ind e.ii e.jj := ⟨(hS.rest _ _ _ hij hk hs).1, c1, hlow⟩
        refine ⟨hs, hl, full_of hk ((hloc1.lower _ _ _).mpr hl) ?_⟩
        have htop := hS.top_eq hij hk hs
        have : layerSoil (wdPart w.out nn e δ) e.ind e.ii e.jj = layerSoil w.out e.ind e.ii e.jj - δ := by
          unfold layerSoil
          rw [(wdPart_soil_here w.out nn e δ).1, (wdPart_soil_here w.out nn e δ).2]
          ring
        rw [this, hloc1.body.1]
        linarith
      -- taking the soil out
      have hP1 : ∀ r, Driven w (World.mk (wdPart w.out nn e δ) r w.log) := by
        intro r
        refine ⟨hloc1.body, fun a b hf => ?_, fun a b hr => ?_, [], by simp, by simp⟩
        · by_cases hc : a = e.ii ∧ b = e.jj
          · obtain ⟨rfl, rfl⟩ := hc
            rcases h0.lt_or_eq with hp | hp
            · exact (hhere hp).2.2
            · intro k hk' hlt
              have : layerSoil (wdPart w.out nn e δ) k e.ii e.jj = layerSoil w.out k e.ii e.jj := by
                by_cases hc : k = e.ind
                · subst hc
                  unfold layerSoil
                  rw [(wdPart_soil_here w.out nn e δ).1, (wdPart_soil_here w.out nn e δ).2, ← hp, sub_zero]
                · have hc' : ¬ (k = e.ind ∧ e.ii = e.ii ∧ e.jj = e.jj) := fun q => hc q.1
                  unfold layerSoil
                  rw [(wdPart_soil_other w.out nn e δ hk hk' hc').1,
                    (wdPart_soil_other w.out nn e δ hk hk' hc').2]
              show (wdPart w.out nn e δ).body _ _ _ ≤ (wdPart w.out nn e δ).body _ _ _ + _
              rw [this]
              exact hf k hk' hlt
          · intro k hk' hlt
            have hc' : ¬ (k = e.ind ∧ a = e.ii ∧ b = e.jj) := fun q => hc q.2
            have : layerSoil (wdPart w.out nn e δ) k a b = layerSoil w.out k a b := by
              unfold layerSoil
              rw [(wdPart_soil_other w.out nn e δ hk hk' hc').1,
                (wdPart_soil_other w.out nn e δ hk hk' hc').2]
            show (wdPart w.out nn e δ).body _ _ _ ≤ (wdPart w.out nn e δ).body _ _ _ + _
            rw [this]
            exact hf k hk' hlt
        · rcases hr with hr | ⟨k, hk', hr⟩
          · exact absurd hr (lt_irrefl _)
          · exact absurd hr (hle k a b hk').not_gt
      rcases h0.lt_or_eq with hp | hp
      swap
      · rw [← hp] at hP1 hS1 hB1 ⊢
        rw [exploreDirs_zero t]
        simp only [ok_bind, t.pos.le.not_gt, decide_false, Bool.false_eq_true, if_false]
        exact (ih (nn + 1) _ hdp (World.mk (wdPart w.out nn e 0) (shuffle ds w.rng).2 w.log) hB1 hS1).mono
          fun w' h => (hP1 _).trans h
      obtain ⟨-, hl, hF⟩ := hhere hp
      have hl1 := (hloc1.lower e.ind e.ii e.jj).mpr hl
      refine Post.bind (exploreDirs_path t fuel e.ind e.ii e.jj _ (wdPart w.out nn e δ) δ hB1 hS1 h0 ha hp
        ((hloc1.inGrid _ _).mpr hij) hk hl1) ?_
      rintro ⟨s1, h'⟩ E
      dsimp only
      have hB2 : BodyOK c s1 := hB1.congr E.body.1 E.body.2.2.1 E.body.2.2.2
      have hmem8 : ∀ d, d ∈ (shuffle ds w.rng).1 ↔ Lateral d := fun d =>
        hdp.mem_iff.trans (lateral_iff d)
      have honly : ∀ a b, Received (wdPart w.out nn e δ) s1 a b →
          ∃ i j d n, Lateral d ∧ Opens (wdPart w.out nn e δ) i j d n ∧ a = i + n * d.1 ∧ b = j + n * d.2 := by
        intro a b hr
        obtain ⟨d, hd, n, ho, q⟩ := E.only a b hr
        exact ⟨e.ii, e.jj, d, n, (hmem8 d).mp hd, ho, q⟩
      by_cases hw : tol < h'
      · simp only [hw, decide_true, if_true]
        have hP2 : Driven (World.mk (wdPart w.out nn e δ) (shuffle ds w.rng).2 w.log)
            ((World.mk s1 (shuffle ds w.rng).2 w.log).warn (.soilRemoved h')) := by
          refine ⟨E.body, fun a b hf => full_mono E.body E.mono hf, honly, [.soilRemoved h'], rfl, ?_⟩
          intro x _
          refine ⟨e.ii, e.jj, fun d hd => ?_⟩
          obtain ⟨n, hC, hF'⟩ := E.left ((t.tol_lt E.al).mp hw) d ((hmem8 d).mpr hd)
          refine ⟨n, hC, fun m h0 hm => ?_⟩
          by_cases hm0 : m = 0
          · subst hm0
            simp only [zero_mul, add_zero]
            exact full_mono E.body E.mono hF
          · exact hF' m (by omega) hm
        exact (ih (nn + 1) _ hdp ((World.mk s1 (shuffle ds w.rng).2 w.log).warn (.soilRemoved h'))
          hB2 E.soil).mono fun w' h => (hP1 _).trans (hP2.trans h)
      · simp only [hw, decide_false, Bool.false_eq_true, if_false]
        have hP2 : Driven (World.mk (wdPart w.out nn e δ) (shuffle ds w.rng).2 w.log)
            (World.mk s1 (shuffle ds w.rng).2 w.log) :=
          ⟨E.body, fun a b hf => full_mono E.body E.mono hf, honly, [], by simp, by simp⟩
        exact (ih (nn + 1) _ hdp (World.mk s1 (shuffle ds w.rng).2 w.log)
          hB2 E.soil).mono fun w' h => (hP1 _).trans (hP2.trans h)

end Soil
