import Verif.Proof.PoseFlt
import Verif.Proof.SimPos
import Verif.Spec.Footprint

/-! # `CalcBodyPos` returns when the columns found are inside the grid -/

namespace Soil

open FOps

section Any

variable {F : Type} [FOps F]

theorem includeNewBodyPos_ok {s : SimOut F} {i j : ℤ} {lo hi tol : F} (h : s.InGrid i j) :
    ∃ s', includeNewBodyPos s i j lo hi tol = .ok s' := by
  unfold includeNewBodyPos
  rw [guardOob_of h, ok_bind]
  dsimp only
  split_ifs <;> exact ⟨_, rfl⟩

theorem zAt_ok {g : Grid F} {k : ℤ} (h : 0 ≤ k ∧ k ≤ 2 * g.halfZ) : zAt g k = .ok (g.vectZ k) := by
  unfold zAt
  rw [guardOob_of ⟨h.1, by omega⟩]
  rfl

theorem OnlyCol.inGrid {i j : ℤ} {s s' : SimOut F} (h : OnlyCol i j s s') (a b : ℤ) : s'.InGrid a b ↔ s.InGrid a b := by
  rw [h.1]
  rfl

theorem OnlyCols.inGrid {P : ℤ → ℤ → Prop} {s s' : SimOut F} (h : OnlyCols P s s') (a b : ℤ) : s'.InGrid a b ↔ s.InGrid a b := by
  rw [h.1]
  rfl

theorem updateBodyLoop_ok {g : Grid F} {tol : F} (l : List Cell3) (s : SimOut F) (ii jj : ℤ) (lo hi : F)
    (h : s.InGrid ii jj) (hl : ∀ x ∈ l, s.InGrid x.1 x.2.1 ∧ 0 ≤ x.2.2 ∧ x.2.2 ≤ 2 * g.halfZ) :
    ∃ s', updateBodyLoop g tol l s ii jj lo hi = .ok s' := by
  induction l generalizing s ii jj lo hi with
  | nil => exact includeNewBodyPos_ok h
  | cons x l ih =>
    obtain ⟨i, j, k⟩ := x
    obtain ⟨h1, h2⟩ := hl _ List.mem_cons_self
    have hl' : ∀ x ∈ l, s.InGrid x.1 x.2.1 ∧ 0 ≤ x.2.2 ∧ x.2.2 ≤ 2 * g.halfZ := fun y hy => hl y (List.mem_cons_of_mem _ hy)
    unfold updateBodyLoop
    rw [zAt_ok h2]
    split_ifs
    · obtain ⟨s1, e1⟩ := includeNewBodyPos_ok (lo := lo) (hi := hi) (tol := tol) h
      rw [e1, ok_bind, ok_bind]
      have eq := (includeNewBodyPos_only e1).inGrid
      exact ih s1 i j _ _ ((eq i j).mpr h1) fun y hy => ⟨(eq _ _).mpr (hl' y hy).1, (hl' y hy).2⟩
    · rw [ok_bind]
      exact ih s ii jj _ _ h hl'

theorem updateWalls_ok {g : Grid F} {tol : F} (ws : List (List Cell3)) (s : SimOut F)
    (hw : ∀ w ∈ ws, w ≠ [] ∧ ∀ x ∈ w, s.InGrid x.1 x.2.1 ∧ 0 ≤ x.2.2 ∧ x.2.2 ≤ 2 * g.halfZ) :
    ∃ s', updateWalls g tol ws s = .ok s' := by
  induction ws generalizing s with
  | nil => exact ⟨s, rfl⟩
  | cons w ws ih =>
    obtain ⟨hne, hc⟩ := hw w List.mem_cons_self
    have hs : ∀ x ∈ sortCells w, s.InGrid x.1 x.2.1 ∧ 0 ≤ x.2.2 ∧ x.2.2 ≤ 2 * g.halfZ := fun x hx => hc x (mem_sortCells.mp hx)
    have hn : sortCells w ≠ [] := by
      obtain ⟨x, hx⟩ := List.exists_mem_of_ne_nil w hne
      exact List.ne_nil_of_mem (mem_sortCells.mpr hx)
    have key : ∃ s1, updateBody (sortCells w) s g tol = .ok s1 ∧ ∀ a b, s1.InGrid a b ↔ s.InGrid a b := by
      unfold updateBody
      generalize sortCells w = v at hs hn
      cases v with
      | nil => exact absurd rfl hn
      | cons x l =>
        obtain ⟨i, j, k⟩ := x
        have h0 := hs _ List.mem_cons_self
        dsimp only
        rw [zAt_ok h0.2, ok_bind]
        obtain ⟨s1, e⟩ := updateBodyLoop_ok (tol := tol) _ s i j (g.vectZ k -ᶠ g.cellZ) (g.vectZ k) h0.1 hs
        exact ⟨s1, e, (updateBodyLoop_only (P := fun _ _ => True) _ _ _ _ _ _ _ trivial (fun _ _ => trivial) e).inGrid⟩
    obtain ⟨s1, e1, eq⟩ := key
    unfold updateWalls
    rw [e1, ok_bind]
    refine ih s1 fun v hv => ?_
    obtain ⟨a, b⟩ := hw v (List.mem_cons_of_mem _ hv)
    exact ⟨a, fun x hx => ⟨(eq _ _).mpr (b x hx).1, (b x hx).2⟩⟩

/-- Erasing the old body -/
theorem resetBody_any (l : List (ℤ × ℤ)) (s : SimOut F) (h : ∀ p ∈ l, s.InGrid p.1 p.2) :
    ∃ s', resetBody l s = .ok s' ∧ s' = { s with body := s'.body } ∧
      (∀ p ∈ l, ∀ k, k < 4 → s'.body k p.1 p.2 = zero) ∧
      (∀ p, p ∉ l → ∀ k, s'.body k p.1 p.2 = s.body k p.1 p.2) ∧
      (∀ k i j, s'.body k i j = zero ∨ s'.body k i j = s.body k i j) := by
  induction l generalizing s with
  | nil => exact ⟨s, rfl, rfl, by simp, by simp, fun _ _ _ => .inr rfl⟩
  | cons p l ih =>
    unfold resetBody
    rw [guardOob_of (h p List.mem_cons_self), ok_bind]
    obtain ⟨s', e, h1, h2, h3, h4⟩ := ih
      ((((s.setB 0 p.1 p.2 zero).setB 1 p.1 p.2 zero).setB 2 p.1 p.2 zero).setB 3 p.1 p.2 zero)
      fun q hq => h q (List.mem_cons_of_mem _ hq)
    have hb : ∀ k i j, ((((s.setB 0 p.1 p.2 FOps.zero).setB 1 p.1 p.2 FOps.zero).setB 2 p.1 p.2
        FOps.zero).setB 3 p.1 p.2 (FOps.zero : F)).body k i j =
        if k < 4 ∧ i = p.1 ∧ j = p.2 then zero else s.body k i j := by
      intro k i j
      unfold SimOut.setB upd3
      dsimp only
      by_cases hp : i = p.1 ∧ j = p.2
      · obtain ⟨rfl, rfl⟩ := hp
        rcases k with _ | _ | _ | _ | k <;> simp
      · have e : ∀ n, ¬ (k = n ∧ i = p.1 ∧ j = p.2) := fun n h => hp h.2
        rw [if_neg (e 3), if_neg (e 2), if_neg (e 1), if_neg (e 0), if_neg (fun h => hp h.2)]
    refine ⟨s', e, by rw [h1]; rfl, ?_, ?_, ?_⟩
    · intro q hq k hk
      rcases List.mem_cons.mp hq with rfl | hq
      · rcases h4 k q.1 q.2 with h | h
        · exact h
        · rw [h, hb, if_pos ⟨hk, rfl, rfl⟩]
      · exact h2 q hq k hk
    · intro q hq k
      simp only [List.mem_cons, not_or] at hq
      rw [h3 q hq.2, hb, if_neg]
      rintro ⟨-, h5, h6⟩
      exact hq.1 (Prod.ext h5 h6)
    · intro k i j
      rcases h4 k i j with h | h
      · exact .inl h
      · rw [h, hb]
        split_ifs
        · exact .inl rfl
        · exact .inr rfl

/-- If the columns are found, inside the grid, then `CalcBodyPos` returns. -/
theorem calcBodyPos_place {fuel : ℕ} {s : SimOut F} {q : Vec3 F × Quat F} {g : Grid F} {body : Body F} {p : SimParam F} {tol : F}
    (hX : s.lenX = 2 * g.halfX + 1) (hY : s.lenY = 2 * g.halfY + 1) (ha : AreaInside s.bodyArea s)
    {area : Area} {walls : List (List Cell3)} (hf : bodyFootprint fuel g p tol body q = .ok (area, walls))
    (hA : 1 ≤ area.minX ∧ area.maxX ≤ 2 * g.halfX ∧ 1 ≤ area.minY ∧ area.maxY ≤ 2 * g.halfY)
    (hW : ∀ w ∈ walls, w ≠ [] ∧ ∀ t ∈ w, area.Has t.1 t.2.1 ∧ 0 ≤ t.2.2 ∧ t.2.2 ≤ 2 * g.halfZ) :
    ∃ s', calcBodyPos fuel s q.1 q.2 g body p tol = .ok s' ∧ s' = { s with body := s'.body, bodyArea := area } ∧
      ∀ k i j, k < 4 → ¬ area.Has i j →
        s'.body k i j = if s.bodyArea.minX ≤ i ∧ i < s.bodyArea.maxX ∧ s.bodyArea.minY ≤ j ∧ j < s.bodyArea.maxY then zero
          else s.body k i j := by
  obtain ⟨a1, a2, a3, a4⟩ := ha
  obtain ⟨s1, e1, r1, r2, r3, -⟩ := resetBody_any s.bodyArea.cells s (by
    intro c hc
    obtain ⟨i, j⟩ := c
    rw [Area.mem_cells] at hc
    unfold SimOut.InGrid
    dsimp only at hc ⊢
    omega)
  have hin : ∀ i j, area.Has i j → SimOut.InGrid { s1 with bodyArea := area } i j := by
    intro i j h
    unfold Area.Has at h
    unfold SimOut.InGrid
    dsimp only
    rw [r1]
    dsimp only
    omega
  obtain ⟨s', e2⟩ := updateWalls_ok (g := g) (tol := tol) walls { s1 with bodyArea := area }
    (fun w hw => ⟨(hW w hw).1, fun x hx => ⟨hin _ _ ((hW w hw).2 x hx).1, ((hW w hw).2 x hx).2⟩⟩)
  have o := updateWalls_only (P := fun i j => area.Has i j) walls _ s' (fun w hw x hx => ((hW w hw).2 x hx).1) e2
  refine ⟨s', ?_, ?_, ?_⟩
  · rw [calcBodyPos_footprint, e1, ok_bind, show (q.1, q.2) = q from rfl, hf, ok_bind]
    exact e2
  · have := o.1
    rw [this, r1]
  · intro k i j hk hn
    rw [o.2 k i j hn]
    dsimp only
    split_ifs with h
    · exact r2 (i, j) (Area.mem_cells.mpr h) k hk
    · exact r3 (i, j) (fun hm => h (Area.mem_cells.mp hm)) k

end Any

section Rounded

variable {R : Rounding} {prec : ℕ} {u : ℚ}

theorem PoseSetup.accurate {B H : ℤ} {g : Grid (Flt R)} {p : SimParam (Flt R)} (P : PoseSetup prec u B H g p)
    (hR : R.rnd = roundBinary prec) (hu : 2 ^ (-(prec : ℤ)) ≤ u) (hs : SqrtAccurate R u) : Accurate R prec u := by
  have hB := P.small.one
  have hp : 1 ≤ prec := by
    rcases Nat.eq_zero_or_pos prec with h | h
    · have := P.small.digits
      rw [h] at this
      omega
    · exact h
  have u0 : 0 ≤ u := (two_zpow_pos _).le.trans hu
  refine ⟨hR ▸ roundBinary_binary hp, fun x => ?_, u0, ?_, hs⟩
  · rw [hR]
    exact (roundBinary_rel hp x).trans (mul_le_mul_of_nonneg_right hu (abs_nonneg x))
  · have h1 := P.small.room
    have h2 : (1 : ℚ) ≤ B := by exact_mod_cast hB
    have h3 : (4 : ℚ) * 10 * u ≤ ((B : ℚ) + 3) * (B + 9) * u := mul_le_mul_of_nonneg_right (by nlinarith) u0
    linarith

theorem PoseSetup.sqrt_three {B H : ℤ} {g : Grid (Flt R)} {p : SimParam (Flt R)} (P : PoseSetup prec u B H g p)
    (hu : 2 ^ (-(prec : ℤ)) ≤ u) (hs : SqrtAccurate R u) : 1 ≤ R.sqrt 3 ∧ R.sqrt 3 ≤ 2 := by
  have hu0 : 0 < u := lt_of_lt_of_le (two_zpow_pos _) hu
  have hu1 : u ≤ 1 / 320 := by
    have h1 := P.small.room
    have h2 : (1 : ℚ) ≤ B := by exact_mod_cast P.small.one
    nlinarith [mul_nonneg (sub_nonneg.mpr h2) hu0.le, mul_nonneg (mul_self_nonneg ((B : ℚ) - 1)) hu0.le]
  have s0 := hs.nonneg 3 (by norm_num)
  have s1 := hs.lower 3 (by norm_num)
  have s2 := hs.upper 3 (by norm_num)
  constructor <;>
  · by_contra h
    push Not at h
    nlinarith

theorem poseFits_flt (A : Accurate R prec u) {B H : ℤ} {g : Grid (Flt R)} {p : SimParam (Flt R)} (P : PoseSetup prec u B H g p)
    {tol : Flt R} (htol : 0 ≤ tol.val) {body : Body (Flt R)} {q : Vec3 (Flt R) × Quat (Flt R)}
    (hq : ∀ v ∈ usedVertices g tol body q, VertexFits g H v) (fuel : ℕ) : PoseFits fuel g p tol body q := by
  intro area walls e
  rcases footprint_flt A P htol hq fuel with ⟨h, -⟩ | ⟨r, h1, h2, h3⟩
  · rw [h] at e; cases e
  · rw [h1] at e
    cases e
    exact ⟨h2, fun w hw x hx => ⟨((h3 w hw).2 x hx).1, ((h3 w hw).2 x hx).2.1⟩⟩

end Rounded

/-! ## A square root -/

/-- The square root truncated to at least `k` binary digits -/
def sqrtDigits (k : ℕ) (x : ℚ) : ℚ :=
  if x ≤ 0 then 0 else (Nat.sqrt ⌊x / 4 ^ (Int.log 2 x / 2 - k)⌋.toNat : ℚ) * 2 ^ (Int.log 2 x / 2 - k)

theorem sqrtDigits_accurate (k : ℕ) (x : ℚ) (hx : 0 ≤ x) : 0 ≤ sqrtDigits k x ∧
    x * (1 - 2 ^ (-(k : ℤ))) ^ 2 ≤ sqrtDigits k x ^ 2 ∧ sqrtDigits k x ^ 2 ≤ x := by
  rcases hx.eq_or_lt with rfl | hx
  · simp [sqrtDigits]
  unfold sqrtDigits
  rw [if_neg (not_le.mpr hx)]
  set e : ℤ := Int.log 2 x / 2 - k with he
  have h4 : (0 : ℚ) < 4 ^ e := by positivity
  have h2 : (0 : ℚ) < 2 ^ e := by positivity
  have e4 : (4 : ℚ) ^ e = (2 ^ e) ^ 2 := by
    rw [show (4 : ℚ) = 2 * 2 by norm_num, mul_zpow, pow_two]
  set y := x / 4 ^ e with hy
  have xy : x = y * 4 ^ e := by rw [hy]; field_simp
  have y1 : (4 : ℚ) ^ k ≤ y := by
    rw [hy, le_div_iff₀ h4]
    have h := Int.zpow_log_le_self (R := ℚ) (b := 2) (by norm_num) hx
    push_cast at h
    refine le_trans ?_ h
    rw [← zpow_natCast, ← zpow_add₀ (by norm_num : (4 : ℚ) ≠ 0), he, show (4 : ℚ) = 2 ^ (2 : ℤ) by norm_num, ← zpow_mul]
    exact zpow_le_zpow_right₀ (by norm_num) (by omega)
  have y0 : 0 ≤ y := le_trans (by positivity) y1
  set n := Nat.sqrt ⌊y⌋.toNat with hn
  have f0 : 0 ≤ ⌊y⌋ := Int.floor_nonneg.mpr y0
  have n1 : (n : ℚ) ^ 2 ≤ y := by
    have h := Nat.sqrt_le' ⌊y⌋.toNat
    rw [← hn] at h
    have h' : ((n ^ 2 : ℕ) : ℤ) ≤ ⌊y⌋ := by omega
    have h'' : (((n ^ 2 : ℕ) : ℤ) : ℚ) ≤ y := (Int.cast_le.mpr h').trans (Int.floor_le y)
    push_cast at h''
    exact h''
  have n2 : y ≤ ((n : ℚ) + 1) ^ 2 := by
    have h := Nat.lt_succ_sqrt' ⌊y⌋.toNat
    rw [← hn] at h
    have h' : ⌊y⌋ + 1 ≤ (((n + 1) ^ 2 : ℕ) : ℤ) := by
      have : ⌊y⌋.toNat < (n + 1) ^ 2 := h
      omega
    have h'' : ((⌊y⌋ + 1 : ℤ) : ℚ) ≤ ((((n + 1) ^ 2 : ℕ) : ℤ) : ℚ) := by exact_mod_cast h'
    push_cast at h''
    exact (Int.lt_floor_add_one y).le.trans h''
  have n3 : (2 : ℚ) ^ k ≤ n := by
    have h : 2 ^ k ≤ n := by
      rw [hn, Nat.le_sqrt']
      have : (((2 ^ k) ^ 2 : ℕ) : ℤ) ≤ ⌊y⌋ := by
        rw [Int.le_floor]
        push_cast
        rw [← pow_mul, mul_comm, pow_mul]
        norm_num
        exact y1
      omega
    exact_mod_cast h
  have k0 : (0 : ℚ) < 2 ^ k := by positivity
  have inv : (2 : ℚ) ^ (-(k : ℤ)) * 2 ^ k = 1 := by
    rw [← zpow_natCast, ← zpow_add₀ (by norm_num : (2 : ℚ) ≠ 0)]
    simp
  set t : ℚ := 2 ^ (-(k : ℤ)) with ht
  have t0 : 0 < t := by positivity
  have t1 : t ≤ 1 := by
    have : (1 : ℚ) ≤ 2 ^ k := one_le_pow₀ (by norm_num)
    nlinarith
  have key : ((n : ℚ) + 1) * (1 - t) ≤ n := by nlinarith
  refine ⟨by positivity, ?_, ?_⟩
  · rw [xy, mul_pow, ← e4]
    have : y * (1 - t) ^ 2 ≤ (n : ℚ) ^ 2 := by
      calc y * (1 - t) ^ 2 ≤ ((n : ℚ) + 1) ^ 2 * (1 - t) ^ 2 := mul_le_mul_of_nonneg_right n2 (sq_nonneg _)
        _ = (((n : ℚ) + 1) * (1 - t)) ^ 2 := by ring
        _ ≤ (n : ℚ) ^ 2 := pow_le_pow_left₀ (mul_nonneg (by positivity) (by linarith)) key 2
    calc y * 4 ^ e * (1 - t) ^ 2 = y * (1 - t) ^ 2 * 4 ^ e := by ring
      _ ≤ (n : ℚ) ^ 2 * 4 ^ e := mul_le_mul_of_nonneg_right this h4.le
  · rw [mul_pow, ← e4]
    conv_rhs => rw [xy]
    exact mul_le_mul_of_nonneg_right n1 h4.le

end Soil
