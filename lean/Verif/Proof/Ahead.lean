import Verif.Spec.Ahead
import Verif.Proof.Transport
import Verif.Spec.Record

/-! # The search for a wall prefers the direction of the movement -/

set_option linter.unusedSectionVars false
set_option linter.unusedVariables false

namespace Soil

open FOps

variable {K : Type} [Field K] [LinearOrder K] [FloorRing K] [Transc K] [IsStrictOrderedRing K]

/-- The columns searched before the one found are not reachable, and none is if none is found. -/
theorem searchWall_before (g : Grid K) (tol : K) (s : SimOut K) (z : K) (iN jN : ℤ) (ds : List (ℤ × ℤ)) (c : Closest K) :
    Post (searchWall s z (g.cellZ + tol) iN jN ds c) fun r => match r with
      | .inl (k, i, j) => ∀ d ∈ ds, ds.idxOf d < ds.idxOf (i - iN, j - jN) → ¬ WallNear g tol s z (iN + d.1) (jN + d.2)
      | .inr c' => ∀ d ∈ ds, ¬ WallNear g tol s z (iN + d.1) (jN + d.2) := by
  induction ds generalizing c with
  | nil => exact Post.ok (by simp)
  | cons d ds ih =>
    unfold searchWall
    dsimp only
    refine Post.guard fun hg => ?_
    have here : ∀ k : ℕ, Post (.ok (.inl (k, iN + d.1, jN + d.2)) : M ((ℕ × ℤ × ℤ) ⊕ Closest K)) fun r => match r with
      | .inl (k, i, j) => ∀ x ∈ d :: ds, (d :: ds).idxOf x < (d :: ds).idxOf (i - iN, j - jN) → ¬ WallNear g tol s z (iN + x.1) (jN + x.2)
      | .inr c' => ∀ x ∈ d :: ds, ¬ WallNear g tol s z (iN + x.1) (jN + x.2) := by
      intro k
      refine Post.ok ?_
      intro x hx h
      rw [show ((iN + d.1 - iN, jN + d.2 - jN) : ℤ × ℤ) = d by simp, List.idxOf_cons_self] at h
      exact absurd h (Nat.not_lt_zero _)
    have far : ∀ k c c', tryLayer s z (g.cellZ + tol) k (iN + d.1) (jN + d.2) c = some c' →
        ¬ (HasBody s k (iN + d.1) (jN + d.2) ∧ |z - s.body (k + 1) (iN + d.1) (jN + d.2)| < g.cellZ + tol) := by
      rintro k c c' h ⟨hb, hd⟩
      unfold tryLayer at h
      have h1 : s.bodyAbs k (iN + d.1) (jN + d.2) = false := by
        rw [← Bool.not_eq_true, bodyAbs_iff, not_not]; exact hb
      rw [h1] at h
      simp only [Bool.false_eq_true, if_false, ex_abs, ex_sub, ex_lt, decide_eq_true_eq] at h
      rw [if_pos hd] at h
      cases h
    cases h1 : tryLayer s z (g.cellZ + tol) 0 (iN + d.1) (jN + d.2) c with
    | none => exact here 0
    | some c1 =>
      dsimp only
      cases h2 : tryLayer s z (g.cellZ + tol) 2 (iN + d.1) (jN + d.2) c1 with
      | none => exact here 2
      | some c2 =>
        have hno : ¬ WallNear g tol s z (iN + d.1) (jN + d.2) := by
          rintro ⟨k, rfl | rfl, hb⟩
          · exact far 0 _ _ h1 hb
          · exact far 2 _ _ h2 hb
        refine (ih c2).mono ?_
        rintro (⟨k, i, j⟩ | c') h
        · dsimp only at h ⊢
          intro x hx hlt
          rcases List.mem_cons.mp hx with rfl | hx'
          · exact hno
          by_cases hxd : x = d
          · subst hxd; exact hno
          refine h x hx' ?_
          rw [List.idxOf_cons_ne _ (Ne.symm hxd)] at hlt
          by_cases hij : d = (i - iN, j - jN)
          · rw [← hij, List.idxOf_cons_self] at hlt
            exact absurd hlt (Nat.not_lt_zero _)
          · rw [List.idxOf_cons_ne _ hij] at hlt
            omega
        · dsimp only at h ⊢
          intro x hx
          rcases List.mem_cons.mp hx with rfl | hx
          · exact hno
          · exact h x hx

/-- the order of search along X -/
def orderX (sx sy : ℤ) : List (ℤ × ℤ) :=
  [(0, 0), (sx, 0), (sx, sy), (0, sy), (sx, -sy), (0, -sy), (-sx, sy), (-sx, 0), (-sx, -sy)]

/-- the order of search along Y -/
def orderY (sx sy : ℤ) : List (ℤ × ℤ) :=
  [(0, 0), (0, sy), (sx, sy), (sx, 0), (-sx, sy), (-sx, 0), (sx, -sy), (0, -sy), (-sx, -sy)]

theorem orderX_behind : ∀ sx ∈ [(-1 : ℤ), 1], ∀ sy ∈ [(-1 : ℤ), 1], ∀ p ∈ [(-1 : ℤ), 0, 1], ∀ q ∈ [(-1 : ℤ), 0, 1],
    ∀ a ∈ [(-1 : ℤ), 0, 1], ∀ b ∈ [(-1 : ℤ), 0, 1], p * sx < 0 → 0 ≤ a * sx → (orderX sx sy).idxOf (a, b) < (orderX sx sy).idxOf (p, q) := by
  decide +kernel

theorem orderY_behind : ∀ sx ∈ [(-1 : ℤ), 1], ∀ sy ∈ [(-1 : ℤ), 1], ∀ p ∈ [(-1 : ℤ), 0, 1], ∀ q ∈ [(-1 : ℤ), 0, 1],
    ∀ a ∈ [(-1 : ℤ), 0, 1], ∀ b ∈ [(-1 : ℤ), 0, 1], q * sy < 0 → 0 ≤ b * sy → (orderY sx sy).idxOf (a, b) < (orderY sx sy).idxOf (p, q) := by
  decide +kernel

theorem orderX_straight : ∀ sx ∈ [(-1 : ℤ), 1], ∀ sy ∈ [(-1 : ℤ), 1], ∀ p ∈ [(-1 : ℤ), 0, 1], ∀ q ∈ [(-1 : ℤ), 0, 1],
    (p, q) ≠ (0, 0) → (p, q) ≠ (sx, 0) → (orderX sx sy).idxOf (sx, 0) < (orderX sx sy).idxOf (p, q) := by
  decide +kernel

theorem orderY_straight : ∀ sx ∈ [(-1 : ℤ), 1], ∀ sy ∈ [(-1 : ℤ), 1], ∀ p ∈ [(-1 : ℤ), 0, 1], ∀ q ∈ [(-1 : ℤ), 0, 1],
    (p, q) ≠ (0, 0) → (p, q) ≠ (0, sy) → (orderY sx sy).idxOf (0, sy) < (orderY sx sy).idxOf (p, q) := by
  decide +kernel

theorem orderX_side : ∀ sx ∈ [(-1 : ℤ), 1], ∀ sy ∈ [(-1 : ℤ), 1], ∀ p ∈ [(-1 : ℤ), 0, 1], ∀ q ∈ [(-1 : ℤ), 0, 1],
    q * sy < 0 → (orderX sx sy).idxOf (p, -q) < (orderX sx sy).idxOf (p, q) := by
  decide +kernel

theorem orderY_side : ∀ sx ∈ [(-1 : ℤ), 1], ∀ sy ∈ [(-1 : ℤ), 1], ∀ p ∈ [(-1 : ℤ), 0, 1], ∀ q ∈ [(-1 : ℤ), 0, 1],
    p * sx < 0 → (orderY sx sy).idxOf (-p, q) < (orderY sx sy).idxOf (p, q) := by
  decide +kernel

theorem order_own : ∀ sx ∈ [(-1 : ℤ), 1], ∀ sy ∈ [(-1 : ℤ), 1], ∀ p ∈ [(-1 : ℤ), 0, 1], ∀ q ∈ [(-1 : ℤ), 0, 1], (p, q) ≠ (0, 0) →
    (orderX sx sy).idxOf (0, 0) < (orderX sx sy).idxOf (p, q) ∧ (orderY sx sy).idxOf (0, 0) < (orderY sx sy).idxOf (p, q) := by
  decide +kernel

/-- the sign used by the search -/
def sgn1 (d : K) : ℤ := if d < 0 then -1 else 1

theorem sgn1_mem (d : K) : sgn1 d ∈ [(-1 : ℤ), 1] := by
  unfold sgn1
  split_ifs <;> simp

theorem sgn1_neg {d : K} {a : ℤ} (h : (a : K) * d < 0) : a * sgn1 d < 0 := by
  unfold sgn1
  split_ifs with hd
  · have : (0 : K) < a := by
      by_contra hn
      have := mul_nonneg_of_nonpos_of_nonpos (not_lt.mp hn) hd.le
      linarith
    have : 0 < a := by exact_mod_cast this
    omega
  · have : (a : K) < 0 := by
      by_contra hn
      have := mul_nonneg (not_lt.mp hn) (not_lt.mp hd)
      linarith
    have : a < 0 := by exact_mod_cast this
    omega

theorem sgn1_pos {d : K} {a : ℤ} (h : 0 < (a : K) * d) : 0 < a * sgn1 d := by
  unfold sgn1
  split_ifs with hd
  · have : (a : K) < 0 := by
      by_contra hn
      have := mul_nonpos_of_nonneg_of_nonpos (not_lt.mp hn) hd.le
      linarith
    have : a < 0 := by exact_mod_cast this
    omega
  · have : (0 : K) < a := by
      by_contra hn
      have := mul_nonpos_of_nonpos_of_nonneg (not_lt.mp hn) (not_lt.mp hd)
      linarith
    have : 0 < a := by exact_mod_cast this
    omega

theorem sgn1_nonneg {d : K} (hd : d ≠ 0) {a : ℤ} (h : 0 ≤ (a : K) * d) : 0 ≤ a * sgn1 d := by
  rcases lt_or_eq_of_le h with h | h
  · exact (sgn1_pos h).le
  · have : (a : K) = 0 := by
      rcases mul_eq_zero.mp h.symm with h | h
      · exact h
      · exact absurd h hd
    have : a = 0 := by exact_mod_cast this
    simp [this]

theorem exploreOrder_eq (dx dy : K) :
    exploreOrder dx dy = if |dy| < |dx| then orderX (sgn1 dx) (sgn1 dy) else orderY (sgn1 dx) (sgn1 dy) := by
  unfold exploreOrder sgn1 orderX orderY
  simp only [ex_signBit, ex_abs, ex_lt, decide_eq_true_eq]

theorem mem3 {a : ℤ} (h : |a| ≤ 1) : a ∈ [(-1 : ℤ), 0, 1] := by
  obtain ⟨h1, h2⟩ := abs_le.mp h
  have : a = -1 ∨ a = 0 ∨ a = 1 := by omega
  rcases this with rfl | rfl | rfl <;> simp

theorem eq_sgn1 {d : K} {a : ℤ} (ha : |a| ≤ 1) (h : 0 < (a : K) * d) : a = sgn1 d := by
  have h1 := sgn1_pos h
  have h2 := mem3 ha
  have h3 := sgn1_mem d
  simp only [List.mem_cons, List.not_mem_nil, or_false] at h2 h3
  rcases h2 with rfl | rfl | rfl <;> rcases h3 with h3 | h3 <;> rw [h3] at h1 ⊢ <;> omega

theorem ahead_of {g : Grid K} {tol : K} {s : SimOut K} {o q : Vec3 K} {i j : ℤ}
    (hpres : ∃ k, (k = 0 ∨ k = 2) ∧ HasBody s k i j) (hi : |i - colX g q| ≤ 1) (hj : |j - colY g q| ≤ 1)
    (h : ∀ d : ℤ × ℤ, |d.1| ≤ 1 → |d.2| ≤ 1 → (exploreOrder (q.x - o.x) (q.y - o.y)).idxOf d <
      (exploreOrder (q.x - o.x) (q.y - o.y)).idxOf (i - colX g q, j - colY g q) →
      ¬ WallNear g tol s q.z (colX g q + d.1) (colY g q + d.2)) : Ahead g tol s o q i j := by
  rw [exploreOrder_eq] at h
  have mx := sgn1_mem (q.x - o.x)
  have my := sgn1_mem (q.y - o.y)
  have mi := mem3 hi
  have mj := mem3 hj
  have one : ∀ d : K, |sgn1 d| ≤ 1 := by
    intro d; unfold sgn1; split_ifs <;> simp
  constructor
  · exact hpres
  · intro hr
    by_contra hn
    have hne : ((i - colX g q, j - colY g q) : ℤ × ℤ) ≠ (0, 0) := by
      intro e
      simp only [Prod.mk.injEq] at e
      exact hn ⟨by omega, by omega⟩
    have := order_own _ mx _ my _ mi _ mj hne
    refine h (0, 0) (by simp) (by simp) ?_ (by simpa using hr)
    split_ifs
    · exact this.1
    · exact this.2
  · intro hm hb a b ha hb' hp
    rw [if_pos hm] at h
    have : (q.x - o.x) ≠ 0 := by rintro e; rw [e, abs_zero] at hm; exact absurd hm (not_lt.mpr (abs_nonneg _))
    exact h (a, b) ha hb' (orderX_behind _ mx _ my _ mi _ mj _ (mem3 ha) _ (mem3 hb') (sgn1_neg hb) (sgn1_nonneg this hp))
  · intro hm hb a b ha hb' hp
    rw [if_neg (not_lt.mpr hm)] at h
    have : (q.y - o.y) ≠ 0 := by rintro e; rw [e, mul_zero] at hb; exact lt_irrefl _ hb
    exact h (a, b) ha hb' (orderY_behind _ mx _ my _ mi _ mj _ (mem3 ha) _ (mem3 hb') (sgn1_neg hb) (sgn1_nonneg this hp))
  · intro hm hne a ha hp hne'
    rw [if_pos hm] at h
    obtain rfl := eq_sgn1 ha hp
    have k := h (sgn1 (q.x - o.x), 0) (one _) (by simp) (orderX_straight _ mx _ my _ mi _ mj
      (fun e => hne (by simp only [Prod.mk.injEq] at e ⊢; omega)) (fun e => hne' (by simp only [Prod.mk.injEq] at e ⊢; omega)))
    simpa using k
  · intro hm hne b hb hp hne'
    rw [if_neg (not_lt.mpr hm)] at h
    obtain rfl := eq_sgn1 hb hp
    have k := h (0, sgn1 (q.y - o.y)) (by simp) (one _) (orderY_straight _ mx _ my _ mi _ mj
      (fun e => hne (by simp only [Prod.mk.injEq] at e ⊢; omega)) (fun e => hne' (by simp only [Prod.mk.injEq] at e ⊢; omega)))
    simpa using k
  · intro hm hb
    rw [if_pos hm] at h
    have k := h (i - colX g q, -(j - colY g q)) hi (by rwa [abs_neg]) (orderX_side _ mx _ my _ mi _ mj (sgn1_neg hb))
    rw [show colX g q + (i - colX g q, -(j - colY g q)).1 = i by simp,
      show colY g q + (i - colX g q, -(j - colY g q)).2 = 2 * colY g q - j by dsimp only; ring] at k
    exact k
  · intro hm hb
    rw [if_neg (not_lt.mpr hm)] at h
    have k := h (-(i - colX g q), j - colY g q) (by rwa [abs_neg]) hj (orderY_side _ mx _ my _ mi _ mj (sgn1_neg hb))
    rw [show colX g q + (-(i - colX g q), j - colY g q).1 = 2 * colX g q - i by dsimp only; ring,
      show colY g q + (-(i - colX g q), j - colY g q).2 = j by simp] at k
    exact k

theorem updateEntry_ahead {pos : Vec3 K} {ori : Quat K} {g : Grid K} {body : Body K} {tol : K} {e : BodySoil K} {w w' : World K}
    (h : updateEntry pos ori g body tol e w = .ok w') : w'.out.body = w.out.body ∧
      ∀ e' ∈ w'.out.bodySoilPos, e' ∈ w.out.bodySoilPos ∨ SameFrame e e' ∧
        Ahead g tol w.out (movedTo body.pos body.ori e) (movedTo pos ori e) e'.ii e'.jj := by
  unfold updateEntry at h
  by_cases hs : (e.h <ᶠ ofRat (9 / 10) *ᶠ g.cellZ) = true
  · rw [if_pos hs] at h
    cases h
    exact ⟨rfl, fun e' he => .inl he⟩
  rw [if_neg hs] at h
  dsimp only at h
  have hq : (calcRotationQuaternion ori ⟨e.xb, e.yb, e.zb⟩).addF pos = movedTo pos ori e := rfl
  have ho : (calcRotationQuaternion body.ori ⟨e.xb, e.yb, e.zb⟩).addF body.pos = movedTo body.pos body.ori e := rfl
  rw [hq, ho] at h
  generalize movedTo pos ori e = q at *
  generalize movedTo body.pos body.ori e = o at *
  simp only [ex_round, ex_add, ex_div, ex_ofInt, castInt_exact, truncZ_intCast, ok_bind, ex_sub] at h
  change (searchWall w.out q.z (g.cellZ + tol) (colX g q) (colY g q) (exploreOrder (q.x - o.x) (q.y - o.y)) _ >>= _) = _ at h
  obtain ⟨r, hr, h⟩ := bind_eq_ok.mp h
  have hbef := searchWall_before g tol w.out q.z (colX g q) (colY g q) _ _ r hr
  obtain ⟨hhead, hsp⟩ := searchWall_spec w.out q.z (g.cellZ + tol) ((2 * g.halfZ : ℤ) : K) _ _ _
    (fun _ _ => False) ⟨((2 * g.halfZ : ℤ) : K), none⟩
    ⟨fun _ _ _ h => h.elim, le_rfl, .inl ⟨rfl, rfl⟩⟩ r hr
  have hall : ∀ d : ℤ × ℤ, |d.1| ≤ 1 → |d.2| ≤ 1 → d ∈ exploreOrder (q.x - o.x) (q.y - o.y) := by
    intro d h1 h2
    obtain ⟨a1, a2⟩ := abs_le.mp h1
    obtain ⟨b1, b2⟩ := abs_le.mp h2
    exact exploreOrder_all _ _ _ _ a1 a2 b1 b2
  have hclose : ∀ {i j : ℤ}, (∃ d ∈ exploreOrder (q.x - o.x) (q.y - o.y), i = colX g q + d.1 ∧ j = colY g q + d.2) →
      |i - colX g q| ≤ 1 ∧ |j - colY g q| ≤ 1 := by
    rintro i j ⟨d, hd, rfl, rfl⟩
    have := exploreOrder_near _ _ d hd
    constructor <;> rw [abs_le] <;> constructor <;> omega
  have fin : ∀ (k : ℕ) (a b : ℤ) (hv : K), Ahead g tol w.out o q a b → (placeOn w.out k a b e hv).body = w.out.body ∧
      ∀ e' ∈ (placeOn w.out k a b e hv).bodySoilPos,
      e' ∈ w.out.bodySoilPos ∨ SameFrame e e' ∧ Ahead g tol w.out o q e'.ii e'.jj := by
    intro k a b hv hab
    refine ⟨rfl, fun e' he => ?_⟩
    have he : e' ∈ w.out.bodySoilPos ++ [⟨k, a, b, e.xb, e.yb, e.zb, hv⟩] := he
    rcases List.mem_append.mp he with he | he
    · exact .inl he
    · obtain rfl := List.mem_singleton.mp he
      exact .inr ⟨⟨rfl, rfl, rfl⟩, hab⟩
  rcases r with ⟨k, a, b⟩ | c
  · cases h
    obtain ⟨n1, n2⟩ := hclose hsp.2.2.2.2
    exact fin k a b _ (ahead_of ⟨k, hsp.1, hsp.2.2.1⟩ n1 n2 fun d h1 h2 hlt => hbef d (hall d h1 h2) hlt)
  · dsimp only at h hsp hbef
    split_ifs at h
    · rcases hsp.loc with ⟨l1, l2⟩ | ⟨k, i, j, l1, l2, l3, l4, l5, l6, l7⟩
      · rw [l2] at h
        cases h
      · rw [l1] at h
        cases h
        rcases l4 with l4 | l4
        · exact l4.elim
        obtain ⟨n1, n2⟩ := hclose l4
        exact fin k i j _ (ahead_of ⟨k, l3, l6⟩ n1 n2 fun d h1 h2 _ => hbef d (hall d h1 h2))
    · cases h
      exact ⟨rfl, fun e' he => .inl he⟩

theorem Ahead.congr {g : Grid K} {tol : K} {s s' : SimOut K} (hb : s'.body = s.body) {o q : Vec3 K} {i j : ℤ}
    (h : Ahead g tol s o q i j) : Ahead g tol s' o q i j := by
  have e : ∀ z a b, WallNear g tol s' z a b ↔ WallNear g tol s z a b := by
    intro z a b
    unfold WallNear HasBody
    rw [hb]
  obtain ⟨h0, h1, h2, h3, h4, h5, h6, h7⟩ := h
  constructor
  · unfold HasBody at h0 ⊢
    rw [hb]
    exact h0
  all_goals simpa only [e]

theorem updateEntries_ahead {pos : Vec3 K} {ori : Quat K} {g : Grid K} {body : Body K} {tol : K} {l : List (BodySoil K)} {w w' : World K}
    (h : updateEntries pos ori g body tol l w = .ok w') : w'.out.body = w.out.body ∧
      ∀ e' ∈ w'.out.bodySoilPos, e' ∈ w.out.bodySoilPos ∨ ∃ e ∈ l, SameFrame e e' ∧
        Ahead g tol w.out (movedTo body.pos body.ori e) (movedTo pos ori e) e'.ii e'.jj := by
  induction l generalizing w with
  | nil => cases h; exact ⟨rfl, fun e' he => .inl he⟩
  | cons e l ih =>
    unfold updateEntries at h
    obtain ⟨w1, h1, h2⟩ := bind_eq_ok.mp h
    obtain ⟨b1, k1⟩ := updateEntry_ahead h1
    obtain ⟨b2, k2⟩ := ih h2
    refine ⟨b2.trans b1, fun e' he => ?_⟩
    rcases k2 e' he with he | ⟨e1, m1, m2, m3⟩
    · rcases k1 e' he with he | k
      · exact .inl he
      · exact .inr ⟨e, List.mem_cons_self, k⟩
    · exact .inr ⟨e1, List.mem_cons_of_mem _ m1, m2, m3.congr b1.symm⟩

theorem resetBodySoil_body {l : List (BodySoil K)} {s s' : SimOut K} (h : resetBodySoil l s = .ok s') : s'.body = s.body := by
  induction l generalizing s with
  | nil => cases h; rfl
  | cons e l ih =>
    unfold resetBodySoil at h
    obtain ⟨_, -, h⟩ := bind_eq_ok.mp h
    exact (ih h).trans rfl

end Soil
