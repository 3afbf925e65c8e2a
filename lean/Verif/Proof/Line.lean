import Verif.Proof.Basic
import Verif.Model.BodyPos
import Verif.Spec.Line
import Mathlib.Tactic.Positivity
import Mathlib.Tactic.FieldSimp

/-! # Rasterisation of segments -/

set_option linter.unusedSectionVars false
set_option linter.unusedSimpArgs false

namespace Soil

variable {K : Type} [Field K] [LinearOrder K] [FloorRing K] [Transc K] [IsStrictOrderedRing K]

/-- Runs of the loop: the numbers of steps made along the three axes -/
inductive Trace (tx ty tz : ℕ → K) (N : K) : ℕ × ℕ × ℕ → List (ℕ × ℕ × ℕ) → Prop
  | stop (n : ℕ × ℕ × ℕ) (hx : N ≤ tx n.1) (hy : N ≤ ty n.2.1) (hz : N ≤ tz n.2.2) :
    Trace tx ty tz N n []
  | X (n : ℕ × ℕ × ℕ) (l) (hN : tx n.1 < N) (hy : tx n.1 ≤ ty n.2.1) (hz : tx n.1 ≤ tz n.2.2)
    (h : Trace tx ty tz N (n.1 + 1, n.2.1, n.2.2) l) :
    Trace tx ty tz N n ((n.1 + 1, n.2.1, n.2.2) :: l)
  | Y (n : ℕ × ℕ × ℕ) (l) (hN : ty n.2.1 < N) (hx : ty n.2.1 ≤ tx n.1) (hz : ty n.2.1 ≤ tz n.2.2)
    (h : Trace tx ty tz N (n.1, n.2.1 + 1, n.2.2) l) :
    Trace tx ty tz N n ((n.1, n.2.1 + 1, n.2.2) :: l)
  | Z (n : ℕ × ℕ × ℕ) (l) (hN : tz n.2.2 < N) (hx : tz n.2.2 ≤ tx n.1) (hy : tz n.2.2 ≤ ty n.2.1)
    (h : Trace tx ty tz N (n.1, n.2.1, n.2.2 + 1) l) :
    Trace tx ty tz N n ((n.1, n.2.1, n.2.2 + 1) :: l)

/-- `τ` is a time spent in the cell reached after `n` steps -/
def InT (t : ℕ → K) (n : ℕ) (τ : K) : Prop := (∀ m, n = m + 1 → t m ≤ τ) ∧ τ ≤ t n

/-- the same for the three axes -/
def In3 (tx ty tz : ℕ → K) (n : ℕ × ℕ × ℕ) (τ : K) : Prop :=
  InT tx n.1 τ ∧ InT ty n.2.1 τ ∧ InT tz n.2.2 τ

section Trace
variable {tx ty tz : ℕ → K} {N : K}

theorem InT.later {t : ℕ → K} {n : ℕ} {τ τ' : K} (h : InT t n τ) (h1 : τ ≤ τ') (h2 : τ' ≤ t n) :
    InT t n τ' := ⟨fun m hm => (h.1 m hm).trans h1, h2⟩

theorem InT.next {t : ℕ → K} (ht : Monotone t) (n : ℕ) : InT t (n + 1) (t n) :=
  ⟨fun m hm => by rw [Nat.succ.inj hm], ht (Nat.le_succ n)⟩

/-- every cell reached is touched at some time, and at every time some cell reached is touched -/
theorem Trace.touch (mx : Monotone tx) (my : Monotone ty) (mz : Monotone tz)
    {n : ℕ × ℕ × ℕ} {l : List (ℕ × ℕ × ℕ)} (h : Trace tx ty tz N n l) {T : K} (h0 : 0 ≤ T)
    (hT : In3 tx ty tz n T) :
    (∀ m ∈ l, ∃ τ, 0 ≤ τ ∧ τ ≤ N ∧ In3 tx ty tz m τ) ∧
    (∀ τ, T ≤ τ → τ ≤ N → ∃ m ∈ n :: l, In3 tx ty tz m τ) := by
  induction h generalizing T with
  | stop n hx hy hz =>
    refine ⟨by simp, fun τ h1 h2 => ⟨n, by simp, hT.1.later h1 (h2.trans hx),
      hT.2.1.later h1 (h2.trans hy), hT.2.2.later h1 (h2.trans hz)⟩⟩
  | X n l hN hy hz h ih =>
    have hle := hT.1.2
    have hn : In3 tx ty tz (n.1 + 1, n.2.1, n.2.2) (tx n.1) :=
      ⟨InT.next mx n.1, hT.2.1.later hle hy, hT.2.2.later hle hz⟩
    obtain ⟨i1, i2⟩ := ih (h0.trans hle) hn
    constructor
    · intro m hm
      rcases List.mem_cons.mp hm with rfl | hm
      · exact ⟨_, h0.trans hle, hN.le, hn⟩
      · exact i1 m hm
    · intro τ h1 h2
      rcases le_total τ (tx n.1) with h3 | h3
      · exact ⟨n, by simp, hT.1.later h1 h3, hT.2.1.later h1 (h3.trans hy),
          hT.2.2.later h1 (h3.trans hz)⟩
      · obtain ⟨m, hm, hi⟩ := i2 τ h3 h2
        exact ⟨m, List.mem_cons_of_mem _ hm, hi⟩
  | Y n l hN hx hz h ih =>
    have hle := hT.2.1.2
    have hn : In3 tx ty tz (n.1, n.2.1 + 1, n.2.2) (ty n.2.1) :=
      ⟨hT.1.later hle hx, InT.next my n.2.1, hT.2.2.later hle hz⟩
    obtain ⟨i1, i2⟩ := ih (h0.trans hle) hn
    constructor
    · intro m hm
      rcases List.mem_cons.mp hm with rfl | hm
      · exact ⟨_, h0.trans hle, hN.le, hn⟩
      · exact i1 m hm
    · intro τ h1 h2
      rcases le_total τ (ty n.2.1) with h3 | h3
      · exact ⟨n, by simp, hT.1.later h1 (h3.trans hx), hT.2.1.later h1 h3,
          hT.2.2.later h1 (h3.trans hz)⟩
      · obtain ⟨m, hm, hi⟩ := i2 τ h3 h2
        exact ⟨m, List.mem_cons_of_mem _ hm, hi⟩
  | Z n l hN hx hy h ih =>
    have hle := hT.2.2.2
    have hn : In3 tx ty tz (n.1, n.2.1, n.2.2 + 1) (tz n.2.2) :=
      ⟨hT.1.later hle hx, hT.2.1.later hle hy, InT.next mz n.2.2⟩
    obtain ⟨i1, i2⟩ := ih (h0.trans hle) hn
    constructor
    · intro m hm
      rcases List.mem_cons.mp hm with rfl | hm
      · exact ⟨_, h0.trans hle, hN.le, hn⟩
      · exact i1 m hm
    · intro τ h1 h2
      rcases le_total τ (tz n.2.2) with h3 | h3
      · exact ⟨n, by simp, hT.1.later h1 (h3.trans hx), hT.2.1.later h1 (h3.trans hy),
          hT.2.2.later h1 h3⟩
      · obtain ⟨m, hm, hi⟩ := i2 τ h3 h2
        exact ⟨m, List.mem_cons_of_mem _ hm, hi⟩

/-- number of steps along an axis: only steps at times before `N` were made -/
def Early (t : ℕ → K) (N : K) (n : ℕ) : Prop := ∀ m, n = m + 1 → t m < N

/-- the steps made are early, and the last cell is reached when no step is left -/
theorem Trace.early {n : ℕ × ℕ × ℕ} {l : List (ℕ × ℕ × ℕ)} (h : Trace tx ty tz N n l)
    (e : Early tx N n.1 ∧ Early ty N n.2.1 ∧ Early tz N n.2.2) :
    (∀ m ∈ n :: l, Early tx N m.1 ∧ Early ty N m.2.1 ∧ Early tz N m.2.2) ∧
    ∀ m, (n :: l).getLast? = some m → N ≤ tx m.1 ∧ N ≤ ty m.2.1 ∧ N ≤ tz m.2.2 := by
  have nx : ∀ {t : ℕ → K} {n : ℕ}, t n < N → Early t N (n + 1) := by
    intro t n h m hm; rw [← Nat.succ.inj hm]; exact h
  induction h with
  | stop n hx hy hz =>
    refine ⟨by simpa using e, ?_⟩
    intro m hm
    simp only [List.getLast?_singleton, Option.some.injEq] at hm
    subst hm
    exact ⟨hx, hy, hz⟩
  | X n l hN hy hz h ih =>
    obtain ⟨i1, i2⟩ := ih ⟨nx hN, e.2⟩
    refine ⟨fun m hm => ?_, fun m hm => i2 m (by simpa using hm)⟩
    rcases List.mem_cons.mp hm with rfl | hm
    · exact e
    · exact i1 m hm
  | Y n l hN hy hz h ih =>
    obtain ⟨i1, i2⟩ := ih ⟨e.1, nx hN, e.2.2⟩
    refine ⟨fun m hm => ?_, fun m hm => i2 m (by simpa using hm)⟩
    rcases List.mem_cons.mp hm with rfl | hm
    · exact e
    · exact i1 m hm
  | Z n l hN hy hz h ih =>
    obtain ⟨i1, i2⟩ := ih ⟨e.1, e.2.1, nx hN⟩
    refine ⟨fun m hm => ?_, fun m hm => i2 m (by simpa using hm)⟩
    rcases List.mem_cons.mp hm with rfl | hm
    · exact e
    · exact i1 m hm

/-- one step along one axis -/
def Step3 (n m : ℕ × ℕ × ℕ) : Prop :=
  m = (n.1 + 1, n.2.1, n.2.2) ∨ m = (n.1, n.2.1 + 1, n.2.2) ∨ m = (n.1, n.2.1, n.2.2 + 1)

theorem Trace.chain {n : ℕ × ℕ × ℕ} {l : List (ℕ × ℕ × ℕ)} (h : Trace tx ty tz N n l) :
    List.IsChain Step3 (n :: l) := by
  induction h with
  | stop n hx hy hz => exact List.IsChain.singleton _
  | X n l hN hy hz h ih => exact List.IsChain.cons_cons (.inl rfl) ih
  | Y n l hN hy hz h ih => exact List.IsChain.cons_cons (.inr (.inl rfl)) ih
  | Z n l hN hy hz h ih => exact List.IsChain.cons_cons (.inr (.inr rfl)) ih

end Trace

theorem cellOf_eq (p : Vec3 K) : cellOf p = .ok (roundAway p.x, roundAway p.y, ⌈p.z⌉) := by
  unfold cellOf
  simp only [ex_round, ex_ceil, castInt_exact, truncZ_intCast]
  rfl

/-- position after `n` steps -/
def posAt (c : LineCfg K) (p : Vec3 K) (n : ℕ × ℕ × ℕ) : Vec3 K :=
  ⟨p.x + c.stepX * n.1, p.y + c.stepY * n.2.1, p.z + c.stepZ * n.2.2⟩

/-- cell after `n` steps -/
def cellAt (c : LineCfg K) (p : Vec3 K) (n : ℕ × ℕ × ℕ) : Cell3 :=
  (roundAway (posAt c p n).x, roundAway (posAt c p n).y, ⌈(posAt c p n).z⌉)

/-- state after `n` steps -/
def lineAt (c : LineCfg K) (p : Vec3 K) (ox oy oz : K) (n : ℕ × ℕ × ℕ) : LineSt K :=
  ⟨posAt c p n, (ox + n.1) * c.dX, (oy + n.2.1) * c.dY, (oz + n.2.2) * c.dZ⟩

theorem lineStep_at (c : LineCfg K) (p : Vec3 K) (ox oy oz : K) (n : ℕ × ℕ × ℕ) :
    lineStep c (lineAt c p ox oy oz n) =
      if (ox + n.1) * c.dX < (oy + n.2.1) * c.dY then
        if (ox + n.1) * c.dX < (oz + n.2.2) * c.dZ then lineAt c p ox oy oz (n.1 + 1, n.2.1, n.2.2)
        else lineAt c p ox oy oz (n.1, n.2.1, n.2.2 + 1)
      else if (oy + n.2.1) * c.dY < (oz + n.2.2) * c.dZ then
        lineAt c p ox oy oz (n.1, n.2.1 + 1, n.2.2)
      else lineAt c p ox oy oz (n.1, n.2.1, n.2.2 + 1) := by
  unfold lineStep lineAt posAt
  dsimp only
  simp only [ex_lt, decide_eq_true_eq, ex_add, ex_ofInt]
  have e : ∀ (s o d x : K) (m : ℕ), x + s * (m : K) + s = x + s * ((m + 1 : ℕ) : K) ∧
      (o + (m : K)) * d + d = (o + ((m + 1 : ℕ) : K)) * d := by
    intro s o d x m; push_cast; constructor <;> ring
  split_ifs <;> simp only [(e _ ox c.dX _ n.1).1, (e 0 ox c.dX 0 n.1).2, (e _ oy c.dY _ n.2.1).1,
    (e 0 oy c.dY 0 n.2.1).2, (e _ oz c.dZ _ n.2.2).1, (e 0 oz c.dZ 0 n.2.2).2]

theorem lineLoop_trace (c : LineCfg K) (p : Vec3 K) (ox oy oz : K) (Bx By Bz : ℕ)
    (bx : ∀ n : ℕ, (ox + n) * c.dX < c.norm → n < Bx)
    (byy : ∀ n : ℕ, (oy + n) * c.dY < c.norm → n < By)
    (bz : ∀ n : ℕ, (oz + n) * c.dZ < c.norm → n < Bz) (fuel : ℕ) (n : ℕ × ℕ × ℕ)
    (hf : (Bx - n.1) + (By - n.2.1) + (Bz - n.2.2) ≤ fuel) :
    ∃ l, lineLoop c fuel (lineAt c p ox oy oz n) = .ok (l.map (cellAt c p)) ∧
      Trace (fun n => (ox + (n : K)) * c.dX) (fun n => (oy + (n : K)) * c.dY)
        (fun n => (oz + (n : K)) * c.dZ) c.norm n l := by
  induction fuel generalizing n with
  | zero =>
    refine ⟨[], ?_, .stop n ?_ ?_ ?_⟩
    · unfold lineLoop
      rw [if_neg]; · rfl
      unfold lineCont lineAt
      simp only [ex_lt, Bool.or_eq_true, decide_eq_true_eq, not_or]
      refine ⟨⟨fun h => ?_, fun h => ?_⟩, fun h => ?_⟩
      · have := bx _ h; omega
      · have := byy _ h; omega
      · have := bz _ h; omega
    · by_contra h; have := bx _ (not_le.mp h); omega
    · by_contra h; have := byy _ (not_le.mp h); omega
    · by_contra h; have := bz _ (not_le.mp h); omega
  | succ fuel ih =>
    unfold lineLoop
    by_cases hc : lineCont c (lineAt c p ox oy oz n) = true
    · rw [if_pos hc]
      dsimp only
      unfold lineCont lineAt at hc
      simp only [ex_lt, Bool.or_eq_true, decide_eq_true_eq] at hc
      rw [lineStep_at]
      have go : ∀ m : ℕ × ℕ × ℕ, (Bx - m.1) + (By - m.2.1) + (Bz - m.2.2) ≤ fuel →
          ∃ l, (do
            let cell ← cellOf (lineAt c p ox oy oz m).p
            let rest ← lineLoop c fuel (lineAt c p ox oy oz m)
            return cell :: rest : M (List Cell3)) = .ok ((m :: l).map (cellAt c p)) ∧
            Trace (fun n => (ox + (n : K)) * c.dX) (fun n => (oy + (n : K)) * c.dY)
              (fun n => (oz + (n : K)) * c.dZ) c.norm m l := by
        intro m hm
        obtain ⟨l, h1, h2⟩ := ih m hm
        refine ⟨l, ?_, h2⟩
        rw [cellOf_eq, ok_bind, h1]
        rfl
      have cx : (ox + n.1) * c.dX < c.norm → (Bx - (n.1 + 1)) + (By - n.2.1) + (Bz - n.2.2) ≤ fuel := by
        intro h; have := bx _ h; omega
      have cy : (oy + n.2.1) * c.dY < c.norm →
          (Bx - n.1) + (By - (n.2.1 + 1)) + (Bz - n.2.2) ≤ fuel := by
        intro h; have := byy _ h; omega
      have cz : (oz + n.2.2) * c.dZ < c.norm →
          (Bx - n.1) + (By - n.2.1) + (Bz - (n.2.2 + 1)) ≤ fuel := by
        intro h; have := bz _ h; omega
      by_cases h1 : (ox + n.1) * c.dX < (oy + n.2.1) * c.dY
      · rw [if_pos h1]
        by_cases h2 : (ox + n.1) * c.dX < (oz + n.2.2) * c.dZ
        · rw [if_pos h2]
          have hN : (ox + n.1) * c.dX < c.norm := by
            rcases hc with (hc | hc) | hc
            · exact hc
            · exact h1.trans hc
            · exact h2.trans hc
          obtain ⟨l, g1, g2⟩ := go (n.1 + 1, n.2.1, n.2.2) (cx hN)
          exact ⟨_, g1, .X n l hN h1.le h2.le g2⟩
        · rw [if_neg h2]
          have h2' := not_lt.mp h2
          have hN : (oz + n.2.2) * c.dZ < c.norm := by
            rcases hc with (hc | hc) | hc
            · exact h2'.trans_lt hc
            · exact (h2'.trans_lt h1).trans hc
            · exact hc
          obtain ⟨l, g1, g2⟩ := go (n.1, n.2.1, n.2.2 + 1) (cz hN)
          exact ⟨_, g1, .Z n l hN h2' (h2'.trans h1.le) g2⟩
      · rw [if_neg h1]
        have h1' := not_lt.mp h1
        by_cases h2 : (oy + n.2.1) * c.dY < (oz + n.2.2) * c.dZ
        · rw [if_pos h2]
          have hN : (oy + n.2.1) * c.dY < c.norm := by
            rcases hc with (hc | hc) | hc
            · exact h1'.trans_lt hc
            · exact hc
            · exact h2.trans hc
          obtain ⟨l, g1, g2⟩ := go (n.1, n.2.1 + 1, n.2.2) (cy hN)
          exact ⟨_, g1, .Y n l hN h1' h2.le g2⟩
        · rw [if_neg h2]
          have h2' := not_lt.mp h2
          have hN : (oz + n.2.2) * c.dZ < c.norm := by
            rcases hc with (hc | hc) | hc
            · exact (h2'.trans h1').trans_lt hc
            · exact h2'.trans_lt hc
            · exact hc
          obtain ⟨l, g1, g2⟩ := go (n.1, n.2.1, n.2.2 + 1) (cz hN)
          exact ⟨_, g1, .Z n l hN (h2'.trans h1') h2' g2⟩
    · rw [if_neg hc]
      unfold lineCont lineAt at hc
      simp only [ex_lt, Bool.or_eq_true, decide_eq_true_eq, not_or, not_lt] at hc
      exact ⟨[], rfl, .stop n hc.1.1 hc.1.2 hc.2⟩

/-- more fuel does not change the result -/
theorem lineLoop_more (c : LineCfg K) {f f' : ℕ} (h : f ≤ f') (l : LineSt K) (r : List Cell3)
    (hr : lineLoop c f l = .ok r) : lineLoop c f' l = .ok r := by
  induction f generalizing f' l r with
  | zero =>
    unfold lineLoop at hr ⊢
    by_cases hc : lineCont c l = true
    · rw [if_pos hc] at hr; cases hr
    · rw [if_neg hc] at hr ⊢; exact hr
  | succ f ih =>
    obtain ⟨f', rfl⟩ : ∃ k, f' = k + 1 := ⟨f' - 1, by omega⟩
    unfold lineLoop at hr ⊢
    by_cases hc : lineCont c l = true
    · rw [if_pos hc] at hr ⊢
      dsimp only at hr ⊢
      obtain ⟨cell, h1, hr⟩ := bind_eq_ok.mp hr
      obtain ⟨rest, h2, hr⟩ := bind_eq_ok.mp hr
      rw [h1, ok_bind, ih (by omega) _ _ h2, ok_bind]
      exact hr
    · rw [if_neg hc] at hr ⊢; exact hr

/-! ## One axis -/

/-- direction of the steps along one axis -/
def axS (p q : K) : ℤ := if p < q then 1 else -1

/-- length along one axis, as modified by the code -/
def axD (p q : K) : K := if q - p = 0 then 1 / 10000000000 else |q - p|

/-- offset in X and Y, as modified by the code -/
def axO (p q : K) : K :=
  if p < q then (if roundAway p + 1 / 2 - p = 0 then 1 else roundAway p + 1 / 2 - p)
  else (if p - roundAway p + 1 / 2 = 0 then 1 else p - roundAway p + 1 / 2)

/-- offset in Z, as modified by the code -/
def axOz (p q : K) : K :=
  if p < q then (if ⌈p⌉ - p = 0 then 1 else ⌈p⌉ - p) else (if p - ⌊p⌋ = 0 then 1 else p - ⌊p⌋)

theorem axD_pos (p q : K) : 0 < axD p q := by
  unfold axD; split_ifs with h
  · norm_num
  · exact abs_pos.mpr h

theorem axO_pos (p q : K) : 0 < axO p q := by
  have := abs_le.mp (abs_roundAway_sub_le p)
  unfold axO; split_ifs with h1 h2 h2
  · exact one_pos
  · rcases lt_or_eq_of_le (show 0 ≤ (roundAway p : K) + 1 / 2 - p by linarith) with h | h
    · exact h
    · exact absurd h.symm h2
  · exact one_pos
  · rcases lt_or_eq_of_le (show 0 ≤ p - (roundAway p : K) + 1 / 2 by linarith) with h | h
    · exact h
    · exact absurd h.symm h2

theorem axOz_pos (p q : K) : 0 < axOz p q := by
  have h3 := Int.le_ceil p
  have h4 := Int.floor_le p
  unfold axOz; split_ifs with h1 h2 h2
  · exact one_pos
  · rcases lt_or_eq_of_le (show 0 ≤ (⌈p⌉ : K) - p by linarith) with h | h
    · exact h
    · exact absurd h.symm h2
  · exact one_pos
  · rcases lt_or_eq_of_le (show 0 ≤ p - (⌊p⌋ : K) by linarith) with h | h
    · exact h
    · exact absurd h.symm h2

/-- away from ties rounding is strict -/
theorem round_strict {p : K} (h : ∀ n : ℤ, p ≠ n + 1 / 2) : |p - roundAway p| < 1 / 2 := by
  have := abs_le.mp (abs_roundAway_sub_le p)
  have h1 := h (roundAway p)
  have h2 := h (roundAway p - 1)
  rw [abs_lt]
  constructor
  · rcases lt_or_eq_of_le (show -(1 / 2) ≤ p - (roundAway p : K) by linarith) with h | h
    · exact h
    · exfalso; apply h2; push_cast; linarith
  · rcases lt_or_eq_of_le (show p - (roundAway p : K) ≤ 1 / 2 by linarith) with h | h
    · exact h
    · exfalso; apply h1; linarith

theorem roundAway_eq_of_abs_le {q : K} (h : ∀ n : ℤ, q ≠ n + 1 / 2) {z : ℤ} (hz : |q - z| ≤ 1 / 2) :
    roundAway q = z := by
  apply roundAway_eq_of_abs_lt
  have h1 := h z
  have h2 := h (z - 1)
  obtain ⟨h3, h4⟩ := abs_le.mp hz
  rw [abs_lt]
  constructor
  · refine lt_of_le_of_ne h3 fun e => h2 ?_
    push_cast; linarith
  · refine lt_of_le_of_ne h4 fun e => h1 ?_
    linarith

theorem round_shift {p : K} (h : ∀ n : ℤ, p ≠ n + 1 / 2) (m : ℤ) :
    roundAway (p + m) = roundAway p + m := by
  apply roundAway_eq_of_abs_lt
  have := round_strict h
  push_cast
  rwa [add_sub_add_right_eq_sub]

/-- the offset is the distance to the first boundary -/
theorem axO_eq {p : K} (h : ∀ n : ℤ, p ≠ n + 1 / 2) (q : K) :
    axO p q = 1 / 2 - axS p q * (p - roundAway p) := by
  have := abs_lt.mp (round_strict h)
  unfold axO axS
  split_ifs with h1 h2 h2
  · linarith
  · push_cast; ring
  · linarith
  · push_cast; ring

theorem axOz_eq {p q : K} (h : p < q → ∀ n : ℤ, p ≠ n) :
    axOz p q = if p < q then ⌈p⌉ - p else p - ⌈p⌉ + 1 := by
  unfold axOz
  split_ifs with h1 h2 h2
  · exact absurd (by linarith) (h h1 ⌈p⌉)
  · rfl
  · have : p = (⌊p⌋ : ℤ) := by linarith
    have h3 : ⌈p⌉ = ⌊p⌋ := by
      conv_lhs => rw [this]
      simp
    rw [h3]; linarith
  · have : ⌈p⌉ = ⌊p⌋ + 1 := by
      apply le_antisymm (Int.ceil_le_floor_add_one p)
      have h3 : ⌊p⌋ < ⌈p⌉ := by
        rw [Int.lt_ceil]
        exact lt_of_le_of_ne (Int.floor_le p) fun e => h2 (by rw [e]; ring)
      omega
    rw [this]; push_cast; ring

/-- displacement along an axis which is not parallel to the boundaries -/
theorem axD_eq {p q : K} (h : p ≠ q) : (q - p) = axS p q * axD p q ∧ axD p q = |q - p| := by
  have h0 : q - p ≠ 0 := sub_ne_zero.mpr (Ne.symm h)
  unfold axS axD
  rw [if_neg h0]
  refine ⟨?_, rfl⟩
  split_ifs with h1
  · rw [abs_of_pos (sub_pos.mpr h1)]; push_cast; ring
  · rw [abs_of_nonpos (sub_nonpos.mpr (not_lt.mp h1))]; push_cast; ring

theorem axS_sq (p q : K) : (axS p q : K) = 1 ∨ (axS p q : K) = -1 := by
  unfold axS; split_ifs
  · left; norm_num
  · right; norm_num

/-- number of steps when the segment is parallel to the boundaries -/
theorem flat_zero {p q o u : K} (hp : p = q) (ho : 1 / 10000000000 < o) (h1 : u ≤ 1)
    {n : ℕ} (hn : ∀ m, n = m + 1 → o + m ≤ u * axD p q) : n = 0 := by
  cases n with
  | zero => rfl
  | succ m =>
    exfalso
    have := hn m rfl
    unfold axD at this
    rw [if_pos (by rw [hp]; ring)] at this
    have hm : (0 : K) ≤ m := Nat.cast_nonneg m
    nlinarith

/-- cell in X or Y at time `u` -/
theorem axis_touch {p q u : K} (hp : ∀ n : ℤ, p ≠ n + 1 / 2)
    (hf : p = q → ∀ n : ℤ, n + 1 / 2 < p → n + 1 / 2 + 1 / 10000000000 < p)
    (h0 : 0 ≤ u) (h1 : u ≤ 1) {n : ℕ} (hn : ∀ m, n = m + 1 → axO p q + m ≤ u * axD p q)
    (hn' : u * axD p q ≤ axO p q + n) :
    |p + u * (q - p) - (roundAway (p + axS p q * n) : ℤ)| ≤ 1 / 2 := by
  have hr : roundAway (p + axS p q * n) = roundAway p + axS p q * n := by
    have := round_shift hp (axS p q * n)
    push_cast at this ⊢; exact this
  have hs := abs_lt.mp (round_strict hp)
  rw [hr]
  have ho := axO_eq hp q
  by_cases he : p = q
  · have hpos : 1 / 10000000000 < axO p q := by
      have := hf he (roundAway p - 1) (by push_cast; linarith)
      rw [ho]
      have hS : axS p q = -1 := by unfold axS; rw [if_neg (by rw [he]; exact lt_irrefl _)]
      rw [hS]; push_cast at this ⊢; linarith
    have := flat_zero he hpos h1 hn
    subst this
    have e1 : p + u * (q - p) - ((roundAway p + axS p q * ((0 : ℕ) : ℤ) : ℤ) : K) = p - roundAway p := by
      rw [he]; push_cast; ring
    rw [e1]
    exact (abs_lt.mpr hs).le
  · have hd := (axD_eq he).1
    have e1 : p + u * (q - p) - ((roundAway p + axS p q * (n : ℤ) : ℤ) : K) =
        (p - roundAway p) + axS p q * (u * axD p q - n) := by
      rw [hd]; push_cast; ring
    rw [e1, abs_le]
    have hD := (axD_pos p q).le
    have hlow : -(1 / 2) - axS p q * (p - roundAway p) ≤ u * axD p q - n := by
      cases n with
      | zero =>
        have := mul_nonneg h0 hD
        have e : -(1 / 2) ≤ (axS p q : K) * (p - roundAway p) := by
          rcases axS_sq p q with e | e <;> rw [e] <;> linarith
        push_cast; linarith
      | succ m =>
        have := hn m rfl
        rw [ho] at this; push_cast; linarith
    rw [ho] at hn'
    rcases axS_sq p q with e | e <;> rw [e] at hn' hlow ⊢ <;> constructor <;> linarith

/-- last cell in X or Y -/
theorem axis_last {p q : K} (hp : ∀ n : ℤ, p ≠ n + 1 / 2) (hq : ∀ n : ℤ, q ≠ n + 1 / 2)
    (hf : p = q → ∀ n : ℤ, n + 1 / 2 < p → n + 1 / 2 + 1 / 10000000000 < p)
    {n : ℕ} (hn : ∀ m, n = m + 1 → axO p q + m < axD p q) (hn' : axD p q ≤ axO p q + n) :
    |q - (roundAway (p + axS p q * n) : ℤ)| < 1 / 2 := by
  have := axis_touch (u := 1) hp hf zero_le_one le_rfl (n := n)
    (fun m hm => by rw [one_mul]; exact (hn m hm).le) (by rw [one_mul]; exact hn')
  have e : p + 1 * (q - p) = q := by ring
  rw [e] at this
  rw [← roundAway_eq_of_abs_le hq this]
  exact round_strict hq

/-- cell in Z at time `u` -/
theorem axis_touch_z {p q u : K} (hp : p < q → ∀ n : ℤ, p ≠ n)
    (hf : p = q → ∀ n : ℤ, (n : K) < p → n + 1 / 10000000000 < p)
    (h0 : 0 ≤ u) (h1 : u ≤ 1) {n : ℕ} (hn : ∀ m, n = m + 1 → axOz p q + m ≤ u * axD p q)
    (hn' : u * axD p q ≤ axOz p q + n) :
    ((⌈p + axS p q * n⌉ : ℤ) : K) - 1 ≤ p + u * (q - p) ∧
      p + u * (q - p) ≤ ((⌈p + axS p q * n⌉ : ℤ) : K) := by
  have hr : ⌈p + axS p q * n⌉ = ⌈p⌉ + axS p q * n := by
    have := Int.ceil_add_intCast p (axS p q * n)
    push_cast at this ⊢; exact this
  have hc1 := Int.le_ceil p
  have hc2 := Int.ceil_lt_add_one p
  rw [hr]
  have ho := axOz_eq hp
  by_cases he : p = q
  · have hnlt : ¬ p < q := by rw [he]; exact lt_irrefl _
    rw [if_neg hnlt] at ho
    have hpos : 1 / 10000000000 < axOz p q := by
      have := hf he (⌈p⌉ - 1) (by push_cast; linarith)
      rw [ho]; push_cast at this; linarith
    have := flat_zero he hpos h1 hn
    subst this
    have e1 : p + u * (q - p) = p := by rw [he]; ring
    rw [e1]; push_cast
    constructor <;> linarith
  · have hd := (axD_eq he).1
    have e1 : p + u * (q - p) = p + axS p q * (u * axD p q) := by rw [hd]; ring
    rw [e1]
    have hD := mul_nonneg h0 (axD_pos p q).le
    push_cast
    by_cases hlt : p < q
    · rw [if_pos hlt] at ho
      have hS : (axS p q : K) = 1 := by unfold axS; rw [if_pos hlt]; norm_num
      rw [hS]
      refine ⟨?_, by linarith⟩
      cases n with
      | zero => push_cast; linarith
      | succ m => have := hn m rfl; push_cast; linarith
    · rw [if_neg hlt] at ho
      have hS : (axS p q : K) = -1 := by unfold axS; rw [if_neg hlt]; norm_num
      rw [hS]
      refine ⟨by linarith, ?_⟩
      cases n with
      | zero => push_cast; linarith
      | succ m => have := hn m rfl; push_cast; linarith

theorem axis_last_z {p q : K} (hp : p < q → ∀ n : ℤ, p ≠ n) (hq : q < p → ∀ n : ℤ, q ≠ n)
    (hf : p = q → ∀ n : ℤ, (n : K) < p → n + 1 / 10000000000 < p)
    {n : ℕ} (hn : ∀ m, n = m + 1 → axOz p q + m < axD p q) (hn' : axD p q ≤ axOz p q + n) :
    ((⌈p + axS p q * n⌉ : ℤ) : K) - 1 < q ∧ q ≤ ((⌈p + axS p q * n⌉ : ℤ) : K) := by
  have ht := axis_touch_z (u := 1) hp hf zero_le_one le_rfl (n := n)
    (fun m hm => by rw [one_mul]; exact (hn m hm).le) (by rw [one_mul]; exact hn')
  have e : p + 1 * (q - p) = q := by ring
  rw [e] at ht
  refine ⟨lt_of_le_of_ne ht.1 ?_, ht.2⟩
  intro heq
  rcases lt_trichotomy p q with h | h | h
  · -- ascending: the last step was made strictly before the end
    have ho := axOz_eq hp
    rw [if_pos h] at ho
    have hr : ⌈p + axS p q * n⌉ = ⌈p⌉ + axS p q * n := by
      have := Int.ceil_add_intCast p (axS p q * n)
      push_cast at this ⊢; exact this
    have hS : axS p q = 1 := by unfold axS; rw [if_pos h]
    rw [hr, hS] at heq
    have hd := (axD_eq h.ne).1
    rw [hS] at hd
    push_cast at heq hd
    cases n with
    | zero =>
      have := Int.ceil_lt_add_one p
      push_cast at heq
      linarith
    | succ m =>
      have := hn m rfl
      push_cast at heq
      linarith
  · subst h
    have h0 := Int.ceil_lt_add_one p
    have ho := axOz_eq hp
    rw [if_neg (lt_irrefl _)] at ho
    have hpos : 1 / 10000000000 < axOz p p := by
      have := hf rfl (⌈p⌉ - 1) (by push_cast; linarith)
      rw [ho]; push_cast at this; linarith
    have := flat_zero (u := 1) rfl hpos le_rfl (n := n)
      (fun m hm => by rw [one_mul]; exact (hn m hm).le)
    subst this
    simp at heq
    linarith
  · apply hq h (⌈p + axS p q * n⌉ - 1)
    push_cast; exact heq.symm

/-! ## The whole segment -/

theorem toIndex_eq (g : Grid K) (a : Vec3 K) : toIndex g a = idx g a := by
  unfold toIndex idx
  simp [ex_add, ex_sub, ex_div, ex_ofInt, ex_ofRat]

/-- what the initialisation computes -/
structure CfgOK (c : LineCfg K) (p q : Vec3 K) : Prop where
  sx : c.stepX = axS p.x q.x
  sy : c.stepY = axS p.y q.y
  sz : c.stepZ = axS p.z q.z
  dx : 0 < c.dX ∧ c.dX * axD p.x q.x = c.norm
  dy : 0 < c.dY ∧ c.dY * axD p.y q.y = c.norm
  dz : 0 < c.dZ ∧ c.dZ * axD p.z q.z = c.norm
  norm : 0 < c.norm

theorem ifZero_abs (p q : K) : |ifZero (FOps.sub q p) (FOps.ofRat (1 / 10000000000))| = axD p q := by
  unfold ifZero axD
  simp only [ex_sub, ex_eq, ex_zero, decide_eq_true_eq, ex_ofRat]
  split_ifs
  · rw [abs_of_pos] <;> norm_num
  · rfl

theorem tDelta_mul (hs : SqrtLaw K) {d e f : K} (hd : d ≠ 0) :
    0 < tDelta d e f ∧ tDelta d e f * |d| = Transc.sqrt (d * d + e * e + f * f) := by
  unfold tDelta
  simp only [ex_sqrt, ex_add, ex_mul, ex_div, ex_ofRat]
  push_cast
  have hd2 : 0 < d * d := mul_self_pos.mpr hd
  have h1 : 0 < 1 + (e * e + f * f) / (d * d) := by
    have := div_nonneg (add_nonneg (mul_self_nonneg e) (mul_self_nonneg f)) hd2.le
    linarith
  have h2 : 0 < d * d + e * e + f * f := by
    have := mul_self_nonneg e; have := mul_self_nonneg f; linarith
  obtain ⟨a1, a2⟩ := hs _ h1.le
  obtain ⟨b1, b2⟩ := hs _ h2.le
  set A := Transc.sqrt (1 + (e * e + f * f) / (d * d))
  set B := Transc.sqrt (d * d + e * e + f * f)
  have hA : 0 < A := by
    rcases lt_or_eq_of_le a1 with h | h
    · exact h
    · rw [← h] at a2; simp at a2; linarith
  refine ⟨hA, ?_⟩
  have h3 : A * |d| * (A * |d|) = B * B := by
    rw [b2]
    have : A * |d| * (A * |d|) = A * A * (|d| * |d|) := by ring
    rw [this, abs_mul_abs_self, a2]
    field_simp
    ring
  exact (mul_self_inj (by positivity) b1).mp h3

theorem lineInit_spec (hs : SqrtLaw K) (p q : Vec3 K) :
    ∃ c, lineInit p q = (c, lineAt c p (axO p.x q.x) (axO p.y q.y) (axOz p.z q.z) (0, 0, 0)) ∧
      CfgOK c p q := by
  have hst : ∀ a b : K, (if FOps.lt a b = true then (1 : ℤ) else -1) = axS a b := by
    intro a b; unfold axS; simp only [ex_lt, decide_eq_true_eq]
  have hoff : ∀ a b : K, ifZero (offsetXY (axS a b) a) (FOps.ofRat 1) = axO a b := by
    intro a b
    unfold ifZero offsetXY axO axS
    simp only [ex_eq, ex_zero, ex_ofRat, ex_add, ex_sub, ex_round, decide_eq_true_eq]
    by_cases h : a < b
    · simp only [if_pos h, if_true]; push_cast; rfl
    · simp only [if_neg h]
      rw [if_neg (show ¬ (-1 : ℤ) = 1 by decide)]; push_cast; rfl
  have hoffz : ∀ a b : K, ifZero (offsetZ (axS a b) a) (FOps.ofRat 1) = axOz a b := by
    intro a b
    unfold ifZero offsetZ axOz axS
    simp only [ex_eq, ex_zero, ex_ofRat, ex_add, ex_sub, ex_floor, ex_ceil, decide_eq_true_eq]
    by_cases h : a < b
    · simp only [if_pos h, if_true]; push_cast; rfl
    · simp only [if_neg h]
      rw [if_neg (show ¬ (-1 : ℤ) = 1 by decide)]; push_cast; rfl
  have habs : ∀ x : K, 0 < |x| → x ≠ 0 := fun x h => abs_pos.mp h
  have ax := ifZero_abs p.x q.x
  have ay := ifZero_abs p.y q.y
  have az := ifZero_abs p.z q.z
  unfold lineInit
  dsimp only
  simp only [hst, hoff, hoffz]
  set dx := ifZero (FOps.sub q.x p.x) (FOps.ofRat (1 / 10000000000))
  set dy := ifZero (FOps.sub q.y p.y) (FOps.ofRat (1 / 10000000000))
  set dz := ifZero (FOps.sub q.z p.z) (FOps.ofRat (1 / 10000000000))
  have nx : dx ≠ 0 := habs _ (by rw [ax]; exact axD_pos _ _)
  have ny : dy ≠ 0 := habs _ (by rw [ay]; exact axD_pos _ _)
  have nz : dz ≠ 0 := habs _ (by rw [az]; exact axD_pos _ _)
  have tx := tDelta_mul hs (e := dy) (f := dz) nx
  have ty := tDelta_mul hs (e := dx) (f := dz) ny
  have tz := tDelta_mul hs (e := dx) (f := dy) nz
  rw [ax] at tx; rw [ay] at ty; rw [az] at tz
  rw [show dy * dy + dx * dx + dz * dz = dx * dx + dy * dy + dz * dz by ring] at ty
  rw [show dz * dz + dx * dx + dy * dy = dx * dx + dy * dy + dz * dz by ring] at tz
  refine ⟨⟨axS p.x q.x, axS p.y q.y, axS p.z q.z, tDelta dx dy dz, tDelta dy dx dz,
    tDelta dz dx dy, Transc.sqrt (dx * dx + dy * dy + dz * dz)⟩, ?_, ⟨rfl, rfl, rfl, ?_, ?_, ?_, ?_⟩⟩
  · unfold lineAt posAt
    simp
  · exact tx
  · exact ty
  · exact tz
  · change 0 < Transc.sqrt (dx * dx + dy * dy + dz * dz)
    rw [← tx.2]; exact mul_pos tx.1 (axD_pos _ _)

/-- the times of the steps along one axis -/
theorem times_mono {o D : K} (hD : 0 < D) : Monotone fun n : ℕ => (o + (n : K)) * D := by
  intro a b h
  have : (a : K) ≤ b := by exact_mod_cast h
  exact mul_le_mul_of_nonneg_right (by linarith) hD.le

theorem times_le {o D d N u : K} (hD : 0 < D) (h : D * d = N) (n : ℕ) :
    (o + n) * D ≤ u * N ↔ o + n ≤ u * d := by
  rw [← h, show u * (D * d) = (u * d) * D by ring]
  exact mul_le_mul_iff_of_pos_right hD

theorem times_ge {o D d N u : K} (hD : 0 < D) (h : D * d = N) (n : ℕ) :
    u * N ≤ (o + n) * D ↔ u * d ≤ o + n := by
  rw [← h, show u * (D * d) = (u * d) * D by ring]
  exact mul_le_mul_iff_of_pos_right hD

theorem times_lt {o D d N : K} (hD : 0 < D) (h : D * d = N) (n : ℕ) :
    (o + n) * D < N ↔ o + n < d := by
  rw [← h, show D * d = d * D by ring]
  exact mul_lt_mul_iff_of_pos_right hD

theorem times_bound {o D d N : K} (ho : 0 < o) (hD : 0 < D) (h : D * d = N) (n : ℕ)
    (hn : (o + n) * D < N) : n < ⌈d⌉.toNat := by
  rw [times_lt hD h] at hn
  have : (n : K) < d := by linarith
  have h2 : ((n : ℤ) : K) < (⌈d⌉ : ℤ) := lt_of_lt_of_le (by exact_mod_cast this) (Int.le_ceil d)
  have h3 : (n : ℤ) < ⌈d⌉ := by exact_mod_cast h2
  omega

/-- Fuel that is enough for a segment -/
def lineFuel (p q : Vec3 K) : ℕ :=
  ⌈axD p.x q.x⌉.toNat + ⌈axD p.y q.y⌉.toNat + ⌈axD p.z q.z⌉.toNat

theorem calcLinePos_trace (hs : SqrtLaw K) (a b : Vec3 K) (g : Grid K) :
    ∃ c l, CfgOK c (idx g a) (idx g b) ∧
      (∀ fuel, lineFuel (idx g a) (idx g b) ≤ fuel →
        calcLinePos fuel a b g = .ok (((0, 0, 0) :: l).map (cellAt c (idx g a)))) ∧
      Trace (fun n => (axO (idx g a).x (idx g b).x + (n : K)) * c.dX)
        (fun n => (axO (idx g a).y (idx g b).y + (n : K)) * c.dY)
        (fun n => (axOz (idx g a).z (idx g b).z + (n : K)) * c.dZ) c.norm (0, 0, 0) l := by
  set p := idx g a with hp
  set q := idx g b with hq
  obtain ⟨c, hc, ok⟩ := lineInit_spec hs p q
  obtain ⟨l, hl, tr⟩ := lineLoop_trace c p (axO p.x q.x) (axO p.y q.y) (axOz p.z q.z) ⌈axD p.x q.x⌉.toNat
      ⌈axD p.y q.y⌉.toNat ⌈axD p.z q.z⌉.toNat
      (fun n => times_bound (axO_pos _ _) ok.dx.1 ok.dx.2 n)
      (fun n => times_bound (axO_pos _ _) ok.dy.1 ok.dy.2 n)
      (fun n => times_bound (axOz_pos _ _) ok.dz.1 ok.dz.2 n) (lineFuel p q) (0, 0, 0) (by
        unfold lineFuel; simp)
  refine ⟨c, l, ok, ?_, tr⟩
  intro fuel hf
  unfold calcLinePos
  dsimp only
  rw [toIndex_eq, toIndex_eq, ← hp, ← hq, hc]
  dsimp only
  rw [cellOf_eq, ok_bind]
  rw [lineLoop_more c hf _ _ hl, ok_bind]
  change (Except.ok _ : M (List Cell3)) = _
  rw [List.map_cons]
  congr 2
  unfold cellAt posAt
  simp

theorem In3.conv {c : LineCfg K} {p q : Vec3 K} (ok : CfgOK c p q) {n : ℕ × ℕ × ℕ} {u : K}
    (h : In3 (fun n => (axO p.x q.x + (n : K)) * c.dX) (fun n => (axO p.y q.y + (n : K)) * c.dY)
      (fun n => (axOz p.z q.z + (n : K)) * c.dZ) n (u * c.norm)) :
    ((∀ m, n.1 = m + 1 → axO p.x q.x + m ≤ u * axD p.x q.x) ∧
      u * axD p.x q.x ≤ axO p.x q.x + n.1) ∧
    ((∀ m, n.2.1 = m + 1 → axO p.y q.y + m ≤ u * axD p.y q.y) ∧
      u * axD p.y q.y ≤ axO p.y q.y + n.2.1) ∧
    ((∀ m, n.2.2 = m + 1 → axOz p.z q.z + m ≤ u * axD p.z q.z) ∧
      u * axD p.z q.z ≤ axOz p.z q.z + n.2.2) := by
  obtain ⟨⟨x1, x2⟩, ⟨y1, y2⟩, ⟨z1, z2⟩⟩ := h
  exact ⟨⟨fun m hm => (times_le ok.dx.1 ok.dx.2 m).mp (x1 m hm), (times_ge ok.dx.1 ok.dx.2 _).mp x2⟩,
    ⟨fun m hm => (times_le ok.dy.1 ok.dy.2 m).mp (y1 m hm), (times_ge ok.dy.1 ok.dy.2 _).mp y2⟩,
    ⟨fun m hm => (times_le ok.dz.1 ok.dz.2 m).mp (z1 m hm), (times_ge ok.dz.1 ok.dz.2 _).mp z2⟩⟩

theorem In3.touches {c : LineCfg K} {p q : Vec3 K} (ok : CfgOK c p q) (hg : StartGeneric p q)
    {n : ℕ × ℕ × ℕ} {u : K} (h0 : 0 ≤ u) (h1 : u ≤ 1)
    (h : In3 (fun n => (axO p.x q.x + (n : K)) * c.dX) (fun n => (axO p.y q.y + (n : K)) * c.dY)
      (fun n => (axOz p.z q.z + (n : K)) * c.dZ) n (u * c.norm)) :
    Touches (cellAt c p n) (segPoint p q u) := by
  obtain ⟨⟨x1, x2⟩, ⟨y1, y2⟩, ⟨z1, z2⟩⟩ := h.conv ok
  unfold Touches cellAt posAt segPoint
  dsimp only
  rw [ok.sx, ok.sy, ok.sz]
  exact ⟨axis_touch hg.x hg.flat_x h0 h1 x1 x2, axis_touch hg.y hg.flat_y h0 h1 y1 y2,
    axis_touch_z hg.z hg.flat_z h0 h1 z1 z2⟩

theorem InT.zero {o D : K} (ho : 0 < o) (hD : 0 < D) : InT (fun n : ℕ => (o + (n : K)) * D) 0 0 :=
  ⟨fun m hm => absurd hm (by omega), by simpa using (mul_pos ho hD).le⟩

theorem Early.zero (t : ℕ → K) (N : K) : Early t N 0 := fun m hm => absurd hm (by omega)

theorem Early.conv {o D d N : K} (hD : 0 < D) (h : D * d = N) {n : ℕ}
    (e : Early (fun n : ℕ => (o + (n : K)) * D) N n) : ∀ m, n = m + 1 → o + m < d :=
  fun m hm => (times_lt hD h m).mp (e m hm)

/-- steps along an axis stay within one cell of the segment -/
theorem axis_box {p q o : K} (ho : 0 < o) {n : ℕ} (hn : ∀ m, n = m + 1 → o + m < axD p q) :
    min p q - 1 ≤ p + axS p q * n ∧ p + axS p q * n ≤ max p q + 1 := by
  have h1 : (n : K) < axD p q + 1 := by
    cases n with
    | zero => have := axD_pos p q; push_cast; linarith
    | succ m => have := hn m rfl; push_cast; linarith
  have h0 : (0 : K) ≤ n := Nat.cast_nonneg n
  rcases lt_trichotomy p q with h | h | h
  · have hd := (axD_eq h.ne).1
    have hS : (axS p q : K) = 1 := by unfold axS; rw [if_pos h]; norm_num
    rw [hS] at hd ⊢
    rw [min_eq_left h.le, max_eq_right h.le]
    constructor <;> linarith
  · subst h
    have hS : (axS p p : K) = -1 := by unfold axS; rw [if_neg (lt_irrefl _)]; norm_num
    rw [hS, min_self, max_self]
    unfold axD at h1
    rw [if_pos (sub_self p)] at h1
    have : (n : K) < 2 := lt_trans h1 (by norm_num)
    have hn2 : n < 2 := by exact_mod_cast this
    have : (n : K) ≤ 1 := by exact_mod_cast Nat.lt_succ_iff.mp hn2
    constructor <;> linarith
  · have hd := (axD_eq h.ne').1
    have hS : (axS p q : K) = -1 := by unfold axS; rw [if_neg h.le.not_gt]; norm_num
    rw [hS] at hd ⊢
    rw [min_eq_right h.le, max_eq_left h.le]
    constructor <;> linarith

/-- Cells of any segment, without conditions: they are within one cell of the segment's box -/
def InBox (p q : Vec3 K) (c : Cell3) : Prop :=
  ∃ x : Vec3 K, c = (roundAway x.x, roundAway x.y, ⌈x.z⌉) ∧
    (min p.x q.x - 1 ≤ x.x ∧ x.x ≤ max p.x q.x + 1) ∧
    (min p.y q.y - 1 ≤ x.y ∧ x.y ≤ max p.y q.y + 1) ∧
    (min p.z q.z - 1 ≤ x.z ∧ x.z ≤ max p.z q.z + 1)

theorem calcLinePos_box (hs : SqrtLaw K) (a b : Vec3 K) (g : Grid K) :
    ∃ cells, (∀ fuel, lineFuel (idx g a) (idx g b) ≤ fuel → calcLinePos fuel a b g = .ok cells) ∧
      cells ≠ [] ∧ ∀ c ∈ cells, InBox (idx g a) (idx g b) c := by
  obtain ⟨c, l, ok, h1, tr⟩ := calcLinePos_trace hs a b g
  refine ⟨_, h1, by simp, ?_⟩
  intro x hx
  obtain ⟨n, hn, rfl⟩ := List.mem_map.mp hx
  obtain ⟨e1, e2, e3⟩ := (tr.early ⟨.zero _ _, .zero _ _, .zero _ _⟩).1 n hn
  refine ⟨posAt c (idx g a) n, rfl, ?_, ?_, ?_⟩
  · unfold posAt; dsimp only; rw [ok.sx]
    exact axis_box (axO_pos _ _) (e1.conv ok.dx.1 ok.dx.2)
  · unfold posAt; dsimp only; rw [ok.sy]
    exact axis_box (axO_pos _ _) (e2.conv ok.dy.1 ok.dy.2)
  · unfold posAt; dsimp only; rw [ok.sz]
    exact axis_box (axOz_pos _ _) (e3.conv ok.dz.1 ok.dz.2)

/-- the result does not depend on the fuel -/
theorem calcLinePos_of_ok {a b : Vec3 K} {g : Grid K} {fuel : ℕ} {r : List Cell3}
    (h : calcLinePos fuel a b g = .ok r) :
    ∀ fuel', fuel ≤ fuel' → calcLinePos fuel' a b g = .ok r := by
  intro fuel' hf
  unfold calcLinePos at h ⊢
  dsimp only at h ⊢
  obtain ⟨x, h1, h⟩ := bind_eq_ok.mp h
  obtain ⟨y, h2, h⟩ := bind_eq_ok.mp h
  rw [h1, ok_bind, lineLoop_more _ hf _ _ h2, ok_bind]
  exact h

theorem chain_map {α β : Type*} {R : α → α → Prop} {S : β → β → Prop} {f : α → β} {l : List α}
    (h : List.IsChain R l) (hf : ∀ a ∈ l, ∀ b ∈ l, R a b → S (f a) (f b)) : List.IsChain S (l.map f) := by
  induction h with
  | nil => exact List.IsChain.nil
  | singleton a => exact List.IsChain.singleton _
  | cons_cons hr h ih =>
    refine List.IsChain.cons_cons (hf _ (by simp) _ (by simp) hr) (ih ?_)
    intro a ha b hb hab
    exact hf a (List.mem_cons_of_mem _ ha) b (List.mem_cons_of_mem _ hb) hab

/-- no step is made along an axis to which the segment is orthogonal -/
theorem flat_axis {p q : K} (hf : p = q → ∀ n : ℤ, n + 1 / 2 < p → n + 1 / 2 + 1 / 10000000000 < p)
    (hp : ∀ n : ℤ, p ≠ n + 1 / 2) {n : ℕ} (hn : ∀ m, n + 1 = m + 1 → axO p q + m < axD p q) : p ≠ q := by
  intro he
  have hs := abs_lt.mp (round_strict hp)
  have ho := axO_eq hp q
  have hpos : 1 / 10000000000 < axO p q := by
    have := hf he (roundAway p - 1) (by push_cast; linarith)
    rw [ho]
    have hS : axS p q = -1 := by unfold axS; rw [if_neg (by rw [he]; exact lt_irrefl _)]
    rw [hS]; push_cast at this ⊢; linarith
  have := flat_zero he hpos le_rfl (n := n + 1) (u := 1) (fun m hm => by
    rw [one_mul]; exact (hn m hm).le)
  omega

theorem flat_axis_z {p q : K} (hf : p = q → ∀ n : ℤ, (n : K) < p → n + 1 / 10000000000 < p)
    (hp : p < q → ∀ n : ℤ, p ≠ n) {n : ℕ} (hn : ∀ m, n + 1 = m + 1 → axOz p q + m < axD p q) :
    p ≠ q := by
  intro he
  have ho := axOz_eq hp
  have hc2 := Int.ceil_lt_add_one p
  have hnlt : ¬ p < q := by rw [he]; exact lt_irrefl _
  rw [if_neg hnlt] at ho
  have hpos : 1 / 10000000000 < axOz p q := by
    have := hf he (⌈p⌉ - 1) (by push_cast; linarith)
    rw [ho]; push_cast at this; linarith
  have := flat_zero he hpos le_rfl (n := n + 1) (u := 1) (fun m hm => by
    rw [one_mul]; exact (hn m hm).le)
  omega

/-- one step moves to the next cell -/
theorem cellAt_move {c : LineCfg K} {p q : Vec3 K} (ok : CfgOK c p q) (hg : StartGeneric p q)
    {n m : ℕ × ℕ × ℕ} (h : Step3 n m)
    (e1 : ∀ k, m.1 = k + 1 → axO p.x q.x + k < axD p.x q.x)
    (e2 : ∀ k, m.2.1 = k + 1 → axO p.y q.y + k < axD p.y q.y)
    (e3 : ∀ k, m.2.2 = k + 1 → axOz p.z q.z + k < axD p.z q.z) :
    Move p q (cellAt c p n) (cellAt c p m) := by
  have rx : ∀ {a b : K} (_ : ∀ n : ℤ, a ≠ n + 1 / 2) (n : ℕ),
      roundAway (a + (axS a b : K) * (n : K)) = roundAway a + axS a b * n := by
    intro a b ha n
    have := round_shift ha (axS a b * n)
    push_cast at this ⊢; exact this
  have rz : ∀ (a b : K) (n : ℕ), ⌈a + (axS a b : K) * (n : K)⌉ = ⌈a⌉ + axS a b * n := by
    intro a b n
    have := Int.ceil_add_intCast a (axS a b * n)
    push_cast at this ⊢; exact this
  have sx : ∀ {a b : K}, a ≠ b → (a < b ∧ axS a b = 1) ∨ (b < a ∧ axS a b = -1) := by
    intro a b h
    rcases lt_or_gt_of_ne h with h | h
    · left; exact ⟨h, by unfold axS; rw [if_pos h]⟩
    · right; exact ⟨h, by unfold axS; rw [if_neg h.le.not_gt]⟩
  unfold Move cellAt posAt
  dsimp only
  rw [ok.sx, ok.sy, ok.sz, rx hg.x, rx hg.y, rz, rx hg.x, rx hg.y, rz]
  rcases h with rfl | rfl | rfl
  · rcases sx (flat_axis hg.flat_x hg.x e1) with ⟨h, s⟩ | ⟨h, s⟩
    · left; refine ⟨h, ?_⟩; rw [s]; push_cast; simp only [Prod.mk.injEq, and_true]; omega
    · right; left; refine ⟨h, ?_⟩; rw [s]; push_cast; simp only [Prod.mk.injEq, and_true]; omega
  · rcases sx (flat_axis hg.flat_y hg.y e2) with ⟨h, s⟩ | ⟨h, s⟩
    · right; right; left; refine ⟨h, ?_⟩; rw [s]; push_cast
      simp only [Prod.mk.injEq, and_true, true_and]; omega
    · right; right; right; left; refine ⟨h, ?_⟩; rw [s]; push_cast
      simp only [Prod.mk.injEq, and_true, true_and]; omega
  · rcases sx (flat_axis_z hg.flat_z hg.z e3) with ⟨h, s⟩ | ⟨h, s⟩
    · right; right; right; right; left; refine ⟨h, ?_⟩; rw [s]; push_cast
      simp only [Prod.mk.injEq, and_true, true_and]; omega
    · right; right; right; right; right; refine ⟨h, ?_⟩; rw [s]; push_cast
      simp only [Prod.mk.injEq, and_true, true_and]; omega

theorem calcLinePos_spec (hs : SqrtLaw K) (a b : Vec3 K) (g : Grid K)
    (hg : StartGeneric (idx g a) (idx g b)) :
    ∃ cells, (∀ fuel, lineFuel (idx g a) (idx g b) ≤ fuel → calcLinePos fuel a b g = .ok cells) ∧
      (∃ c, cells.head? = some c ∧ CellOf c (idx g a)) ∧
      List.IsChain (Move (idx g a) (idx g b)) cells ∧
      (EndGeneric (idx g a) (idx g b) → ∃ c, cells.getLast? = some c ∧ CellOf c (idx g b)) ∧
      (∀ c ∈ cells, ∃ u, 0 ≤ u ∧ u ≤ 1 ∧ Touches c (segPoint (idx g a) (idx g b) u)) ∧
      (∀ u, 0 ≤ u → u ≤ 1 → ∃ c ∈ cells, Touches c (segPoint (idx g a) (idx g b) u)) := by
  obtain ⟨c, l, ok, h1, tr⟩ := calcLinePos_trace hs a b g
  set p := idx g a
  set q := idx g b
  obtain ⟨e1, e2⟩ := tr.early ⟨.zero _ _, .zero _ _, .zero _ _⟩
  have h0 : In3 (fun n => (axO p.x q.x + (n : K)) * c.dX) (fun n => (axO p.y q.y + (n : K)) * c.dY)
      (fun n => (axOz p.z q.z + (n : K)) * c.dZ) (0, 0, 0) 0 :=
    ⟨.zero (axO_pos _ _) ok.dx.1, .zero (axO_pos _ _) ok.dy.1, .zero (axOz_pos _ _) ok.dz.1⟩
  obtain ⟨t1, t2⟩ := tr.touch (times_mono ok.dx.1) (times_mono ok.dy.1) (times_mono ok.dz.1) le_rfl h0
  have hN := ok.norm
  have scale : ∀ τ : K, τ = τ / c.norm * c.norm := fun τ => by field_simp
  refine ⟨_, h1, ⟨_, rfl, ?_⟩, ?_, ?_, ?_, ?_⟩
  · unfold CellOf cellAt posAt
    simp only [Nat.cast_zero, mul_zero, add_zero]
    refine ⟨round_strict hg.x, round_strict hg.y, ?_, Int.le_ceil _⟩
    have := Int.ceil_lt_add_one p.z
    linarith
  · refine chain_map tr.chain ?_
    intro n hn m hm hnm
    obtain ⟨x1, x2, x3⟩ := e1 m hm
    exact cellAt_move ok hg hnm (x1.conv ok.dx.1 ok.dx.2) (x2.conv ok.dy.1 ok.dy.2)
      (x3.conv ok.dz.1 ok.dz.2)
  · intro he
    obtain ⟨m, hm⟩ : ∃ m, ((0, 0, 0) :: l : List (ℕ × ℕ × ℕ)).getLast? = some m :=
      ⟨_, List.getLast?_eq_some_getLast (by simp)⟩
    refine ⟨cellAt c p m, ?_, ?_⟩
    · rw [List.getLast?_map, hm]; rfl
    obtain ⟨y1, y2, y3⟩ := e2 m hm
    obtain ⟨x1, x2, x3⟩ := e1 m (List.mem_of_getLast? hm)
    have conv : ∀ {o D d : K} {n : ℕ}, 0 < D → D * d = c.norm → c.norm ≤ (o + (n : K)) * D →
        d ≤ o + n := by
      intro o D d n hD h hle
      rw [← one_mul c.norm, times_ge hD h, one_mul] at hle
      exact hle
    unfold CellOf cellAt posAt
    dsimp only
    rw [ok.sx, ok.sy, ok.sz]
    exact ⟨axis_last hg.x he.x hg.flat_x (x1.conv ok.dx.1 ok.dx.2) (conv ok.dx.1 ok.dx.2 y1),
      axis_last hg.y he.y hg.flat_y (x2.conv ok.dy.1 ok.dy.2) (conv ok.dy.1 ok.dy.2 y2),
      axis_last_z hg.z he.z hg.flat_z (x3.conv ok.dz.1 ok.dz.2) (conv ok.dz.1 ok.dz.2 y3)⟩
  · intro x hx
    obtain ⟨n, hn, rfl⟩ := List.mem_map.mp hx
    have : ∃ τ, 0 ≤ τ ∧ τ ≤ c.norm ∧ In3 (fun n => (axO p.x q.x + (n : K)) * c.dX)
        (fun n => (axO p.y q.y + (n : K)) * c.dY) (fun n => (axOz p.z q.z + (n : K)) * c.dZ) n τ := by
      rcases List.mem_cons.mp hn with rfl | hn
      · exact ⟨0, le_rfl, hN.le, h0⟩
      · exact t1 n hn
    obtain ⟨τ, g0, g1, g2⟩ := this
    rw [scale τ] at g2
    have u0 : 0 ≤ τ / c.norm := div_nonneg g0 hN.le
    have u1 : τ / c.norm ≤ 1 := (div_le_one hN).mpr g1
    exact ⟨τ / c.norm, u0, u1, g2.touches ok hg u0 u1⟩
  · intro u u0 u1
    obtain ⟨m, hm, hi⟩ := t2 (u * c.norm) (mul_nonneg u0 hN.le) (by nlinarith)
    exact ⟨_, List.mem_map_of_mem hm, hi.touches ok hg u0 u1⟩

end Soil
