import Verif.Proof.Total
import Mathlib.Algebra.Order.Archimedean.Basic
import Mathlib.Algebra.Order.Floor.Ring

/-! # Rounds of relaxation lower the energy, which is bounded below -/

set_option linter.unusedSectionVars false
set_option linter.unusedSimpArgs false

namespace Soil

variable {K : Type} [Field K] [LinearOrder K] [FloorRing K] [Transc K] [IsStrictOrderedRing K]

/-- one round: the energy does not rise, and falls by a definite amount when soil moves -/
theorem relaxOnce_falls {g : Grid K} {p : SimParam K} {tol : K} (S : Setup g p tol) (body : Body K)
    (hc : g.cellZ ≤ dhMax g p) (w : World K) (h : Sound g w.out) :
    Post (relaxOnce g body p tol w) fun w' => Falls g.cellZ w.out w'.out := by
  intro w' hw
  unfold relaxOnce at hw
  obtain ⟨w1, h1, h2⟩ := bind_eq_ok.mp hw
  have h0 : WellFormed g.cellZ (w.mapOut fun s => { s with impactArea := impactOf s }).out :=
    h.wf.congr rfl rfl rfl rfl rfl rfl
  have f1 := relaxTerrain_wf g body p tol S.tolOK _ h0 w1 h1
  have m1 := relaxTerrain_move g body p tol S.tolOK _ h0 hc w1 h1
  have sb := (relaxTerrain_frame _ _ _ _ _ _ h1).1
  have e0 : energy (w.mapOut fun s => { s with impactArea := impactOf s }).out = energy w.out :=
    energy_congr rfl rfl rfl rfl
  rw [e0] at m1
  have hpos : 0 ≤ g.cellZ ^ 2 := sq_nonneg _
  have k1 : Falls g.cellZ w.out w1.out := by
    rcases m1 with ⟨-, a, b, -⟩ | m1
    · exact (Falls.refl _ w.out).congr a b sb.2.2.1 sb.2.2.2
    · exact ⟨by linarith, .inr m1⟩
  have k2 : Falls g.cellZ w1.out (shuffleEntries w1).out := (Falls.refl _ _).congr rfl rfl rfl rfl
  exact (k1.trans k2).trans
    (relaxBodySoil_falls g body p tol S.tolOK hc _ (shuffleEntries_wf f1) w' h2)

/-- a lower bound of the energy that only depends on the body -/
def floorEnergy (s : SimOut K) : K :=
  ∑ q ∈ gridCols s, -(s.body 1 q.1 q.2 ^ 2 + s.body 3 q.1 q.2 ^ 2)

theorem floorEnergy_le {c : K} {s : SimOut K} (h : SoilOK c s) : floorEnergy s ≤ energy s := by
  unfold floorEnergy energy totalSoil
  apply Finset.sum_le_sum
  rintro ⟨i, j⟩ hq
  have hg : s.InGrid i j := by
    unfold gridCols at hq
    simp only [Finset.mem_product, Finset.mem_Ico] at hq
    exact ⟨hq.1.1, hq.1.2, hq.2.1, hq.2.2⟩
  have aux : ∀ k, k = 0 ∨ k = 2 →
      -(s.body (k + 1) i j ^ 2) ≤ s.bodySoil (k + 1) i j ^ 2 - s.bodySoil k i j ^ 2 := by
    intro k hk
    have n1 := sq_nonneg (s.bodySoil (k + 1) i j)
    have n2 := sq_nonneg (s.body (k + 1) i j)
    by_cases hs : HasSoil s k i j
    · rw [(h.rest k i j hg hk hs).2.1]; linarith
    · obtain ⟨z0, z1⟩ := layerSoil_of_not_hasSoil hs
      rw [z0, z1]; simp; exact n2
  have a0 := aux 0 (.inl rfl)
  have a2 := aux 2 (.inr rfl)
  have n1 := sq_nonneg (s.terrain i j)
  simp only [columnSoil, layerSoil, sq, zero_add] at *
  norm_num at *
  linarith

theorem floorEnergy_congr {s r : SimOut K} (h : SameBody s r) : floorEnergy r = floorEnergy s := by
  unfold floorEnergy gridCols
  rw [h.1, h.2.2.1, h.2.2.2]

/-- A quantity that falls by `d` at each of the rounds in `I` and never rises can only do so finitely
often. -/
theorem card_drops {E : ℕ → K} {L d : K} (hd : 0 < d) (hlow : ∀ n, L ≤ E n)
    (hmono : ∀ n, E (n + 1) ≤ E n) (I : Finset ℕ) (hI : ∀ n ∈ I, E (n + 1) + d ≤ E n) :
    (I.card : K) * d ≤ E 0 - L := by
  have key : ∀ N, ((I.filter (· < N)).card : K) * d ≤ E 0 - E N := by
    intro N
    induction N with
    | zero => simp
    | succ N ih =>
      have hm := hmono N
      by_cases hN : N ∈ I
      · have : I.filter (· < N + 1) = insert N (I.filter (· < N)) := by
          ext x; simp only [Finset.mem_filter, Finset.mem_insert]
          constructor
          · rintro ⟨h1, h2⟩
            rcases Nat.lt_succ_iff_lt_or_eq.mp h2 with h | h
            · exact .inr ⟨h1, h⟩
            · exact .inl h
          · rintro (rfl | ⟨h1, h2⟩)
            · exact ⟨hN, Nat.lt_succ_self _⟩
            · exact ⟨h1, h2.trans (Nat.lt_succ_self _)⟩
        rw [this, Finset.card_insert_of_notMem (by simp)]
        have := hI N hN
        push_cast
        linarith
      · have : I.filter (· < N + 1) = I.filter (· < N) := by
          ext x; simp only [Finset.mem_filter]
          constructor
          · rintro ⟨h1, h2⟩
            refine ⟨h1, lt_of_le_of_ne (Nat.lt_succ_iff.mp h2) ?_⟩
            rintro rfl; exact hN h1
          · rintro ⟨h1, h2⟩
            exact ⟨h1, h2.trans (Nat.lt_succ_self _)⟩
        rw [this]
        linarith
  obtain ⟨N, hN⟩ : ∃ N, ∀ n ∈ I, n < N := by
    obtain ⟨N, hN⟩ := I.bddAbove
    exact ⟨N + 1, fun n hn => Nat.lt_succ_iff.mpr (hN hn)⟩
  have := key N
  rw [Finset.filter_true_of_mem hN] at this
  linarith [hlow N]

/-! ## Without a body -/

/-- no body anywhere in the grid -/
def BodyFree (s : SimOut K) : Prop :=
  ∀ k i j, s.InGrid i j → k = 0 ∨ k = 2 → ¬ HasBody s k i j

theorem relaxBodyEntries_idle (g : Grid K) (body : Body K) (dh tol : K) (count n : ℕ)
    (ds : List (ℤ × ℤ)) (s : SimOut K) (q : List (BodySoil K)) (r : Rng)
    (h : ∀ e ∈ s.bodySoilPos, e.h < tol) :
    Post (relaxBodyEntries g body dh tol count n ds s q r) fun x => x.1 = s := by
  induction count generalizing n with
  | zero => exact Post.ok rfl
  | succ count ih =>
    unfold relaxBodyEntries
    split
    · exact Post.error
    · rename_i e he
      have := h e (List.mem_iff_getElem?.mpr ⟨n, he⟩)
      simp only [ex_lt, decide_eq_true_eq, this, if_true]
      exact ih _

theorem BodyFree.entries {c tol : K} (ht : 0 < tol) {s : SimOut K} (hf : BodyFree s)
    (h : SoilOK c s) : ∀ e ∈ s.bodySoilPos, e.h < tol := by
  intro e he
  obtain ⟨hij, hk⟩ := h.entries e he
  have hle := h.entry_le he
  have : ¬ HasSoil s e.ind e.ii e.jj := fun hs => hf _ _ _ hij hk (h.rest _ _ _ hij hk hs).1
  obtain ⟨z0, z1⟩ := layerSoil_of_not_hasSoil this
  unfold layerSoil at hle
  rw [z0, z1] at hle
  linarith

/-- one round without a body: equilibrium, or the energy falls by a definite amount -/
theorem relaxOnce_bodyFree {g : Grid K} {p : SimParam K} {tol : K} (S : Setup g p tol) (body : Body K)
    (hc : g.cellZ ≤ dhMax g p) (w : World K) (h : Sound g w.out) (hf : BodyFree w.out) :
    Post (relaxOnce g body p tol w) fun w' => w'.out.equilibrium = true ∨
      energy w'.out + g.cellZ ^ 2 ≤ energy w.out := by
  intro w' hw
  unfold relaxOnce at hw
  obtain ⟨w1, h1, h2⟩ := bind_eq_ok.mp hw
  have h0 : WellFormed g.cellZ (w.mapOut fun s => { s with impactArea := impactOf s }).out :=
    h.wf.congr rfl rfl rfl rfl rfl rfl
  have f1 := shuffleEntries_wf (relaxTerrain_wf g body p tol S.tolOK _ h0 w1 h1)
  have m1 := relaxTerrain_move g body p tol S.tolOK _ h0 hc w1 h1
  have sb := (relaxTerrain_frame _ _ _ _ _ _ h1).1
  have e0 : energy (w.mapOut fun s => { s with impactArea := impactOf s }).out = energy w.out :=
    energy_congr rfl rfl rfl rfl
  rw [e0] at m1
  have hf1 : BodyFree (shuffleEntries w1).out := by
    intro k i j hij hk hb
    have : w1.out.body = w.out.body := sb.1
    refine hf k i j ?_ hk ?_
    · have hij' : w1.out.InGrid i j := hij
      unfold SimOut.InGrid at hij' ⊢
      rw [sb.2.2.1, sb.2.2.2] at hij'
      exact hij'
    · have hb' : HasBody w1.out k i j := hb
      unfold HasBody at hb' ⊢
      rwa [this] at hb'
  have hent := hf1.entries S.tolPos f1.soilOK
  unfold relaxBodySoil at h2
  obtain ⟨⟨s2, q2, r2⟩, h3, h2⟩ := bind_eq_ok.mp h2
  have := relaxBodyEntries_idle g body _ tol _ _ _ _ _ _ hent _ h3
  cases h2
  dsimp only at this ⊢
  subst this
  exact m1.imp (fun h => h.1) fun h => h

theorem relaxLoop_bodyFree {g : Grid K} {p : SimParam K} {tol : K} (S : Setup g p tol) (body : Body K)
    (hc : g.cellZ ≤ dhMax g p) (N : ℕ) (fuel : ℕ) (it : ℤ) (w : World K) (h : Sound g w.out)
    (hf : BodyFree w.out) (hN : energy w.out < floorEnergy w.out + N * g.cellZ ^ 2)
    (hfuel : N ≤ fuel) (hit : it + N ≤ p.maxIterations) :
    ∃ w' n, relaxLoop g body p tol fuel it w = .ok (w', n) ∧ w'.out.equilibrium = true ∧
      n ≤ it + N := by
  induction N generalizing fuel it w with
  | zero =>
    have := floorEnergy_le h.wf.soilOK
    push_cast at hN
    linarith
  | succ N ih =>
    unfold relaxLoop
    cases he : w.out.equilibrium with
    | true =>
      simp only [Bool.not_true, Bool.false_and, Bool.false_eq_true, if_false]
      exact ⟨w, it, rfl, he, by omega⟩
    | false =>
      have hlt : it < p.maxIterations := by push_cast at hit; omega
      simp only [Bool.not_false, Bool.true_and, hlt, decide_true, if_true]
      obtain ⟨fuel, rfl⟩ : ∃ f, fuel = f + 1 := ⟨fuel - 1, by omega⟩
      dsimp only
      obtain ⟨w1, h1⟩ := relaxOnce_ok S body w h
      rw [h1, ok_bind]
      have s1 := (relaxOnce_sound S body w h w1 h1).1
      rcases relaxOnce_bodyFree S body hc w h hf w1 h1 with heq | hlow
      · refine ⟨w1, it + 1, ?_, heq, by push_cast; omega⟩
        unfold relaxLoop
        simp [heq]
      · have sb := (relaxOnce_frame _ _ _ _ _ _ h1).1
        have hf1 : BodyFree w1.out := by
          intro k i j hij hk hb
          refine hf k i j ?_ hk ?_
          · unfold SimOut.InGrid at hij ⊢
            rwa [sb.2.2.1, sb.2.2.2] at hij
          · unfold HasBody at hb ⊢
            rwa [sb.1] at hb
        obtain ⟨w', n, e1, e2, e3⟩ := ih fuel (it + 1) w1 s1 hf1
          (by rw [floorEnergy_congr sb]; push_cast at hN; linarith) (by omega)
          (by push_cast at hit; omega)
        exact ⟨w', n, e1, e2, by push_cast; omega⟩

end Soil
