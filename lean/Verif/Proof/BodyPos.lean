import Verif.Proof.Walls
import Verif.Proof.Plane
import Verif.Proof.Lattice
import Verif.Spec.Footprint

/-! # Position of the body -/

set_option linter.unusedSectionVars false
set_option linter.unusedSimpArgs false

namespace Soil

open scoped FOps

variable {K : Type} [Field K] [LinearOrder K] [FloorRing K] [Transc K] [IsStrictOrderedRing K]

/-- Cell near a box: the rounding of a position at most one cell outside -/
def Foot (B : Box3 K) (c : Cell3) : Prop :=
  ∃ x : Vec3 K, c = (roundAway x.x, roundAway x.y, ⌈x.z⌉) ∧
    (B.xlo - 1 ≤ x.x ∧ x.x ≤ B.xhi + 1) ∧ (B.ylo - 1 ≤ x.y ∧ x.y ≤ B.yhi + 1) ∧
    (B.zlo - 1 ≤ x.z ∧ x.z ≤ B.zhi + 1)

theorem InBox.foot {B : Box3 K} {p q : Vec3 K} {c : Cell3} (h : InBox p q c) (hp : B.Has p)
    (hq : B.Has q) : Foot B c := by
  obtain ⟨x, hc, h1, h2, h3⟩ := h
  obtain ⟨p1, p2, p3⟩ := hp
  obtain ⟨q1, q2, q3⟩ := hq
  have lo : ∀ {a b m : K}, m ≤ a → m ≤ b → m ≤ min a b := fun h h' => le_min h h'
  have hi : ∀ {a b m : K}, a ≤ m → b ≤ m → max a b ≤ m := fun h h' => max_le h h'
  exact ⟨x, hc,
    ⟨by linarith [lo p1.1 q1.1, h1.1], by linarith [hi p1.2 q1.2, h1.2]⟩,
    ⟨by linarith [lo p2.1 q2.1, h2.1], by linarith [hi p2.2 q2.2, h2.2]⟩,
    ⟨by linarith [lo p3.1 q3.1, h3.1], by linarith [hi p3.2 q3.2, h3.2]⟩⟩

theorem calcLinePos_foot (hs : SqrtLaw K) {B : Box3 K} {a b : Vec3 K} {g : Grid K}
    (ha : B.Has (idx g a)) (hb : B.Has (idx g b)) :
    ∃ cells, (∀ fuel, lineFuel (idx g a) (idx g b) ≤ fuel → calcLinePos fuel a b g = .ok cells) ∧
      (∀ fuel r, calcLinePos fuel a b g = .ok r → r = cells) ∧ cells ≠ [] ∧ ∀ c ∈ cells, Foot B c := by
  obtain ⟨cells, h1, h2, h3⟩ := calcLinePos_box hs a b g
  refine ⟨cells, h1, ?_, h2, fun c hc => (h3 c hc).foot ha hb⟩
  intro fuel r hr
  have e1 := calcLinePos_of_ok hr (max fuel (lineFuel (idx g a) (idx g b))) (le_max_left _ _)
  rw [h1 _ (le_max_right _ _)] at e1
  cases e1; rfl

/-- columns around an inner lattice line -/
theorem around_col {lo hi a b : K} {m i : ℤ} (ha : lo ≤ a) (hb : b ≤ hi) (h1 : ⌊a⌋ ≤ m)
    (h2 : m < ⌈b⌉) (hi' : i = m ∨ i = m + 1) : lo - 1 ≤ (i : K) ∧ (i : K) ≤ hi + 1 := by
  have f1 := Int.lt_floor_add_one a
  have f2 := Int.ceil_lt_add_one b
  have c1 : (⌊a⌋ : K) ≤ m := by exact_mod_cast h1
  have c2 : (m : K) + 1 ≤ ⌈b⌉ := by exact_mod_cast h2
  rcases hi' with rfl | rfl <;> push_cast <;> constructor <;> linarith

theorem foldmin_ge {a b c d m : K} (ha : m ≤ a) (hb : m ≤ b) (hc : m ≤ c) (hd : m ≤ d) :
    m ≤ min (min (min a b) c) d := le_min (le_min (le_min ha hb) hc) hd

theorem foldmax_le {a b c d m : K} (ha : a ≤ m) (hb : b ≤ m) (hc : c ≤ m) (hd : d ≤ m) :
    max (max (max a b) c) d ≤ m := max_le (max_le (max_le ha hb) hc) hd

theorem calcRectanglePos_foot (hs : SqrtLaw K) {B : Box3 K} {a b c d : Vec3 K} {g : Grid K} {tol : K}
    (ht : 0 ≤ tol) (ha : B.Has (idx g a)) (hb : B.Has (idx g b)) (hc : B.Has (idx g c))
    (hd : B.Has (idx g d))
    (hz : B.zlo - 1 ≤ (idx g b).z + (idx g d).z - (idx g a).z ∧
      (idx g b).z + (idx g d).z - (idx g a).z ≤ B.zhi + 1) :
    ∃ N cells, (∀ fuel, N ≤ fuel → calcRectanglePos fuel a b c d g tol = .ok cells) ∧
      (∀ fuel r, calcRectanglePos fuel a b c d g tol = .ok r → r = cells) ∧ cells ≠ [] ∧
      ∀ x ∈ cells, Foot B x := by
  obtain ⟨l1, h1, u1, n1, f1⟩ := calcLinePos_foot hs ha hb
  obtain ⟨l2, h2, u2, n2, f2⟩ := calcLinePos_foot hs hb hc
  obtain ⟨l3, h3, u3, n3, f3⟩ := calcLinePos_foot hs hc hd
  obtain ⟨l4, h4, u4, n4, f4⟩ := calcLinePos_foot hs hd ha
  obtain ⟨r, e1, hr⟩ := calcRectanglePos_spec a b c d g tol
  have hok : ∀ fuel, lineFuel (idx g a) (idx g b) + lineFuel (idx g b) (idx g c) +
      lineFuel (idx g c) (idx g d) + lineFuel (idx g d) (idx g a) ≤ fuel →
      calcRectanglePos fuel a b c d g tol = .ok (r ++ l1 ++ l2 ++ l3 ++ l4) := fun fuel hf =>
    e1 fuel l1 l2 l3 l4 (h1 fuel (by omega)) (h2 fuel (by omega)) (h3 fuel (by omega))
      (h4 fuel (by omega))
  refine ⟨_, _, hok, ?_, by simp [n1], ?_⟩
  · intro fuel x hx
    have hx' := hx
    unfold calcRectanglePos at hx'
    simp only [boundingInt_eq, ok_bind] at hx'
    obtain ⟨i1, -, hx'⟩ := bind_eq_ok.mp hx'
    obtain ⟨i2, -, hx'⟩ := bind_eq_ok.mp hx'
    obtain ⟨k1, g1, hx'⟩ := bind_eq_ok.mp hx'
    obtain ⟨k2, g2, hx'⟩ := bind_eq_ok.mp hx'
    obtain ⟨k3, g3, hx'⟩ := bind_eq_ok.mp hx'
    obtain ⟨k4, g4, hx'⟩ := bind_eq_ok.mp hx'
    have := e1 fuel k1 k2 k3 k4 g1 g2 g3 g4
    rw [hx] at this
    cases this
    rw [u1 _ _ g1, u2 _ _ g2, u3 _ _ g3, u4 _ _ g4]
  · intro x hx
    simp only [List.mem_append] at hx
    rcases hx with (((hx | hx) | hx) | hx) | hx
    · obtain ⟨m, n, ⟨m1, m2⟩, ⟨k1, k2⟩, hi, ⟨a1, a2, a3, a4⟩⟩ := (hr x).mp hx
      rw [inRect_iff] at hi
      set u := coefAB (edgeIdx g a b) (edgeIdx g a d) (idx g a) ((m : K) + 1 / 2) ((n : K) + 1 / 2)
      set v := coefAD (edgeIdx g a b) (edgeIdx g a d) (idx g a) ((m : K) + 1 / 2) ((n : K) + 1 / 2)
      set z := (idx g a).z + u * (edgeIdx g a b).z + v * (edgeIdx g a d).z with hzd
      obtain ⟨i1, i2, i3, i4⟩ := hi
      obtain ⟨ax, ay, az⟩ := ha
      obtain ⟨bx, hby, bz⟩ := hb
      obtain ⟨cx, cy, cz⟩ := hc
      obtain ⟨dx, dy, dz⟩ := hd
      refine ⟨⟨(x.1 : K), (x.2.1 : K), z⟩, ?_, ?_, ?_, ?_⟩
      · have : ⌈z⌉ = x.2.2 := by rw [Int.ceil_eq_iff]; exact ⟨a3, a4⟩
        dsimp only
        rw [roundAway_intCast, roundAway_intCast, this]
      · exact around_col (foldmin_ge ax.1 bx.1 cx.1 dx.1) (foldmax_le ax.2 bx.2 cx.2 dx.2) m1 m2 a1
      · exact around_col (foldmin_ge ay.1 hby.1 cy.1 dy.1) (foldmax_le ay.2 hby.2 cy.2 dy.2) k1 k2 a2
      · unfold edgeIdx at hzd
        dsimp only at hzd ⊢
        have u0 : 0 ≤ u := by linarith
        have v0 : 0 ≤ v := by linarith
        have u1 : u ≤ 1 := by linarith
        have v1 : v ≤ 1 := by linarith
        have p1 := mul_nonneg (sub_nonneg.mpr u1) (sub_nonneg.mpr v1)
        have p2 := mul_nonneg u0 (sub_nonneg.mpr v1)
        have p3 := mul_nonneg (sub_nonneg.mpr u1) v0
        have p4 := mul_nonneg u0 v0
        have comb : z = (1 - u) * (1 - v) * (idx g a).z + u * (1 - v) * (idx g b).z +
            (1 - u) * v * (idx g d).z + u * v * ((idx g b).z + (idx g d).z - (idx g a).z) := by
          rw [hzd]; ring
        have hsum : (1 - u) * (1 - v) + u * (1 - v) + (1 - u) * v + u * v = 1 := by ring
        rw [comb]
        constructor
        · have q1 := mul_le_mul_of_nonneg_left (show B.zlo - 1 ≤ (idx g a).z by linarith [az.1]) p1
          have q2 := mul_le_mul_of_nonneg_left (show B.zlo - 1 ≤ (idx g b).z by linarith [bz.1]) p2
          have q3 := mul_le_mul_of_nonneg_left (show B.zlo - 1 ≤ (idx g d).z by linarith [dz.1]) p3
          have q4 := mul_le_mul_of_nonneg_left hz.1 p4
          have : ((1 - u) * (1 - v) + u * (1 - v) + (1 - u) * v + u * v) * (B.zlo - 1) =
            B.zlo - 1 := by rw [hsum, one_mul]
          linarith
        · have q1 := mul_le_mul_of_nonneg_left (show (idx g a).z ≤ B.zhi + 1 by linarith [az.2]) p1
          have q2 := mul_le_mul_of_nonneg_left (show (idx g b).z ≤ B.zhi + 1 by linarith [bz.2]) p2
          have q3 := mul_le_mul_of_nonneg_left (show (idx g d).z ≤ B.zhi + 1 by linarith [dz.2]) p3
          have q4 := mul_le_mul_of_nonneg_left hz.2 p4
          have : ((1 - u) * (1 - v) + u * (1 - v) + (1 - u) * v + u * v) * (B.zhi + 1) =
            B.zhi + 1 := by rw [hsum, one_mul]
          linarith
    · exact f1 x hx
    · exact f2 x hx
    · exact f3 x hx
    · exact f4 x hx

theorem calcTrianglePos_foot (hs : SqrtLaw K) {B : Box3 K} {a b c : Vec3 K} {g : Grid K} {tol : K}
    (ht : 0 ≤ tol) (ha : B.Has (idx g a)) (hb : B.Has (idx g b)) (hc : B.Has (idx g c)) :
    ∃ N cells, (∀ fuel, N ≤ fuel → calcTrianglePos fuel a b c g tol = .ok cells) ∧
      (∀ fuel r, calcTrianglePos fuel a b c g tol = .ok r → r = cells) ∧ cells ≠ [] ∧
      ∀ x ∈ cells, Foot B x := by
  obtain ⟨l1, h1, u1, n1, f1⟩ := calcLinePos_foot hs ha hb
  obtain ⟨l2, h2, u2, n2, f2⟩ := calcLinePos_foot hs hb hc
  obtain ⟨l3, h3, u3, n3, f3⟩ := calcLinePos_foot hs hc ha
  obtain ⟨r, e1, hr⟩ := calcTrianglePos_spec a b c g tol
  have hok : ∀ fuel, lineFuel (idx g a) (idx g b) + lineFuel (idx g b) (idx g c) +
      lineFuel (idx g c) (idx g a) ≤ fuel →
      calcTrianglePos fuel a b c g tol = .ok (r ++ l1 ++ l2 ++ l3) := fun fuel hf =>
    e1 fuel l1 l2 l3 (h1 fuel (by omega)) (h2 fuel (by omega)) (h3 fuel (by omega))
  refine ⟨_, _, hok, ?_, by simp [n1], ?_⟩
  · intro fuel x hx
    have hx' := hx
    unfold calcTrianglePos at hx'
    simp only [boundingInt_eq, ok_bind] at hx'
    obtain ⟨i1, -, hx'⟩ := bind_eq_ok.mp hx'
    obtain ⟨i2, -, hx'⟩ := bind_eq_ok.mp hx'
    obtain ⟨k1, g1, hx'⟩ := bind_eq_ok.mp hx'
    obtain ⟨k2, g2, hx'⟩ := bind_eq_ok.mp hx'
    obtain ⟨k3, g3, hx'⟩ := bind_eq_ok.mp hx'
    have := e1 fuel k1 k2 k3 g1 g2 g3
    rw [hx] at this
    cases this
    rw [u1 _ _ g1, u2 _ _ g2, u3 _ _ g3]
  · intro x hx
    simp only [List.mem_append] at hx
    rcases hx with ((hx | hx) | hx) | hx
    · obtain ⟨m, n, ⟨m1, m2⟩, ⟨k1, k2⟩, hi, ⟨a1, a2, a3, a4⟩⟩ := (hr x).mp hx
      rw [inTri_iff] at hi
      set u := coefAB (edgeIdx g a b) (edgeIdx g a c) (idx g a) ((m : K) + 1 / 2) ((n : K) + 1 / 2)
      set v := coefAD (edgeIdx g a b) (edgeIdx g a c) (idx g a) ((m : K) + 1 / 2) ((n : K) + 1 / 2)
      set z := (idx g a).z + u * (edgeIdx g a b).z + v * (edgeIdx g a c).z with hzd
      obtain ⟨i1, i2, i3⟩ := hi
      obtain ⟨ax, ay, az⟩ := ha
      obtain ⟨bx, hby, bz⟩ := hb
      obtain ⟨cx, cy, cz⟩ := hc
      refine ⟨⟨(x.1 : K), (x.2.1 : K), z⟩, ?_, ?_, ?_, ?_⟩
      · have : ⌈z⌉ = x.2.2 := by rw [Int.ceil_eq_iff]; exact ⟨a3, a4⟩
        dsimp only
        rw [roundAway_intCast, roundAway_intCast, this]
      · exact around_col (le_min (le_min ax.1 bx.1) cx.1) (max_le (max_le ax.2 bx.2) cx.2) m1 m2 a1
      · exact around_col (le_min (le_min ay.1 hby.1) cy.1) (max_le (max_le ay.2 hby.2) cy.2) k1 k2 a2
      · unfold edgeIdx at hzd
        dsimp only at hzd ⊢
        have u0 : 0 ≤ u := by linarith
        have v0 : 0 ≤ v := by linarith
        have w0 : 0 ≤ 1 - u - v := by linarith
        have comb : z = (1 - u - v) * (idx g a).z + u * (idx g b).z + v * (idx g c).z := by
          rw [hzd]; ring
        rw [comb]
        constructor
        · have q1 := mul_le_mul_of_nonneg_left az.1 w0
          have q2 := mul_le_mul_of_nonneg_left bz.1 u0
          have q3 := mul_le_mul_of_nonneg_left cz.1 v0
          linarith
        · have q1 := mul_le_mul_of_nonneg_left az.2 w0
          have q2 := mul_le_mul_of_nonneg_left bz.2 u0
          have q3 := mul_le_mul_of_nonneg_left cz.2 v0
          linarith
    · exact f1 x hx
    · exact f2 x hx
    · exact f3 x hx

/-! ## Erasing the old body -/

theorem resetBody_spec (l : List (ℤ × ℤ)) (s s' : SimOut K) (h : resetBody l s = .ok s') :
    s' = { s with body := s'.body } ∧
    (∀ p ∈ l, ∀ k, k < 4 → s'.body k p.1 p.2 = 0) ∧
    (∀ p, p ∉ l → ∀ k, s'.body k p.1 p.2 = s.body k p.1 p.2) ∧
    (∀ k i j, s'.body k i j = 0 ∨ s'.body k i j = s.body k i j) := by
  induction l generalizing s with
  | nil => cases h; exact ⟨rfl, by simp, by simp, fun _ _ _ => .inr rfl⟩
  | cons p l ih =>
    unfold resetBody at h
    obtain ⟨-, h⟩ := guardOob_bind.mp h
    obtain ⟨h1, h2, h3, h4⟩ := ih _ h
    have hb : ∀ k i j, ((((s.setB 0 p.1 p.2 FOps.zero).setB 1 p.1 p.2 FOps.zero).setB 2 p.1 p.2
        FOps.zero).setB 3 p.1 p.2 (FOps.zero : K)).body k i j =
        if k < 4 ∧ i = p.1 ∧ j = p.2 then 0 else s.body k i j := by
      intro k i j
      unfold SimOut.setB upd3
      dsimp only
      by_cases hp : i = p.1 ∧ j = p.2
      · obtain ⟨rfl, rfl⟩ := hp
        rcases k with _ | _ | _ | _ | k <;> simp
      · have e : ∀ n, ¬ (k = n ∧ i = p.1 ∧ j = p.2) := fun n h => hp h.2
        rw [if_neg (e 3), if_neg (e 2), if_neg (e 1), if_neg (e 0), if_neg (fun h => hp h.2)]
    refine ⟨by rw [h1]; rfl, ?_, ?_, ?_⟩
    · intro q hq k hk
      rcases List.mem_cons.mp hq with rfl | hq
      · rcases h4 k q.1 q.2 with h | h
        · exact h
        · rw [h, hb, if_pos ⟨hk, rfl, rfl⟩]
      · exact h2 q hq k hk
    · intro q hq k
      simp only [List.mem_cons, not_or] at hq
      rw [h3 q hq.2, hb, if_neg]
      rintro ⟨-, h5, h6⟩
      exact hq.1 (Prod.ext h5 h6)
    · intro k i j
      rcases h4 k i j with h | h
      · exact .inl h
      · rw [h, hb]
        split_ifs
        · exact .inl rfl
        · exact .inr rfl

theorem resetBody_ok (l : List (ℤ × ℤ)) (s : SimOut K) (h : ∀ p ∈ l, s.InGrid p.1 p.2) :
    ∃ s', resetBody l s = .ok s' := by
  induction l generalizing s with
  | nil => exact ⟨s, rfl⟩
  | cons p l ih =>
    unfold resetBody
    rw [guardOob_of (h p List.mem_cons_self), ok_bind]
    exact ih _ fun q hq => h q (List.mem_cons_of_mem _ hq)

/-! ## Nudging the vertices -/

theorem convex_mem {m M t a b c d : K} (ht : 0 ≤ t) (ht' : t ≤ 1 / 3) (ha : m ≤ a ∧ a ≤ M)
    (hb : m ≤ b ∧ b ≤ M) (hc : m ≤ c ∧ c ≤ M) (hd : m ≤ d ∧ d ≤ M) :
    m ≤ a + t * ((b - a) + (c - a) + (d - a)) ∧ a + t * ((b - a) + (c - a) + (d - a)) ≤ M := by
  have h0 : 0 ≤ 1 - 3 * t := by linarith
  have e : a + t * ((b - a) + (c - a) + (d - a)) = (1 - 3 * t) * a + t * b + t * c + t * d := by ring
  rw [e]
  constructor
  · have := mul_le_mul_of_nonneg_left ha.1 h0
    have := mul_le_mul_of_nonneg_left hb.1 ht
    have := mul_le_mul_of_nonneg_left hc.1 ht
    have := mul_le_mul_of_nonneg_left hd.1 ht
    linarith
  · have := mul_le_mul_of_nonneg_left ha.2 h0
    have := mul_le_mul_of_nonneg_left hb.2 ht
    have := mul_le_mul_of_nonneg_left hc.2 ht
    have := mul_le_mul_of_nonneg_left hd.2 ht
    linarith

theorem nudge1_mem {m M t jr jl br bl tr tl : K} (ht : 0 ≤ t) (ht' : t ≤ 1 / 3)
    (h1 : m ≤ jr ∧ jr ≤ M) (h2 : m ≤ jl ∧ jl ≤ M) (h3 : m ≤ br ∧ br ≤ M) (h4 : m ≤ bl ∧ bl ≤ M)
    (h5 : m ≤ tr ∧ tr ≤ M) (h6 : m ≤ tl ∧ tl ≤ M) :
    (m ≤ (nudge1 t jr jl br bl tr tl).1 ∧ (nudge1 t jr jl br bl tr tl).1 ≤ M) ∧
    (m ≤ (nudge1 t jr jl br bl tr tl).2.1 ∧ (nudge1 t jr jl br bl tr tl).2.1 ≤ M) ∧
    (m ≤ (nudge1 t jr jl br bl tr tl).2.2.1 ∧ (nudge1 t jr jl br bl tr tl).2.2.1 ≤ M) ∧
    (m ≤ (nudge1 t jr jl br bl tr tl).2.2.2.1 ∧ (nudge1 t jr jl br bl tr tl).2.2.2.1 ≤ M) ∧
    (m ≤ (nudge1 t jr jl br bl tr tl).2.2.2.2.1 ∧ (nudge1 t jr jl br bl tr tl).2.2.2.2.1 ≤ M) ∧
    (m ≤ (nudge1 t jr jl br bl tr tl).2.2.2.2.2 ∧ (nudge1 t jr jl br bl tr tl).2.2.2.2.2 ≤ M) := by
  unfold nudge1
  simp only [ex_add, ex_sub, ex_mul]
  have a1 := convex_mem ht ht' h1 h2 h3 h5
  have a2 := convex_mem ht ht' h2 a1 h4 h6
  have a3 := convex_mem ht ht' h3 h4 a1 h5
  have a4 := convex_mem ht ht' h4 a3 a2 h6
  have a5 := convex_mem ht ht' h5 h6 a1 a3
  have a6 := convex_mem ht ht' h6 a5 a2 a4
  exact ⟨a1, a2, a3, a4, a5, a6⟩

theorem div_mem {c h lo hi x : K} (hc : 0 < c) :
    (lo ≤ x / c + h ∧ x / c + h ≤ hi) ↔ ((lo - h) * c ≤ x ∧ x ≤ (hi - h) * c) := by
  rw [← le_div_iff₀ hc, ← div_le_iff₀ hc, sub_le_iff_le_add, le_sub_iff_add_le]

theorem div_mem' {c h lo hi x : K} (hc : 0 < c) :
    (lo ≤ x / c + h - 1 ∧ x / c + h - 1 ≤ hi) ↔
      ((lo + 1 - h) * c ≤ x ∧ x ≤ (hi + 1 - h) * c) := by
  rw [← le_div_iff₀ hc, ← div_le_iff₀ hc]
  constructor <;> rintro ⟨h1, h2⟩ <;> constructor <;> linarith

/-- the six vertices lie in the box -/
def CornersIn (B : Box3 K) (g : Grid K) (c : Corners K) : Prop :=
  B.Has (idx g c.jr) ∧ B.Has (idx g c.jl) ∧ B.Has (idx g c.br) ∧ B.Has (idx g c.bl) ∧
  B.Has (idx g c.tr) ∧ B.Has (idx g c.tl)

theorem nudge_in {B : Box3 K} {g : Grid K} {c : Corners K} {tol : K} (hc : 0 < g.cellXY)
    (hz : 0 < g.cellZ) (ht : 0 ≤ tol) (ht' : tol ≤ 1 / 3) (h : CornersIn B g c) :
    CornersIn B g (nudge tol c) := by
  unfold CornersIn Box3.Has idx at h ⊢
  dsimp only at h ⊢
  simp only [div_mem hc, div_mem' hz] at h ⊢
  obtain ⟨⟨x1, y1, z1⟩, ⟨x2, y2, z2⟩, ⟨x3, y3, z3⟩, ⟨x4, y4, z4⟩, ⟨x5, y5, z5⟩, ⟨x6, y6, z6⟩⟩ := h
  have X := nudge1_mem ht ht' x1 x2 x3 x4 x5 x6
  have Y := nudge1_mem ht ht' y1 y2 y3 y4 y5 y6
  have Z := nudge1_mem ht ht' z1 z2 z3 z4 z5 z6
  exact ⟨⟨X.1, Y.1, Z.1⟩, ⟨X.2.1, Y.2.1, Z.2.1⟩, ⟨X.2.2.1, Y.2.2.1, Z.2.2.1⟩,
    ⟨X.2.2.2.1, Y.2.2.2.1, Z.2.2.2.1⟩, ⟨X.2.2.2.2.1, Y.2.2.2.2.1, Z.2.2.2.2.1⟩,
    ⟨X.2.2.2.2.2, Y.2.2.2.2.2, Z.2.2.2.2.2⟩⟩

/-! ## The active area -/

theorem roundAway_add_one (x : K) : roundAway x + 1 ≤ roundAway (x + 1) := by
  unfold roundAway
  split_ifs with h1 h2 h2
  · rw [show x + 1 + 1 / 2 = x + 1 / 2 + 1 by ring, Int.floor_add_one]
  · exfalso; linarith
  · have : ⌈x - 1 / 2⌉ ≤ ⌊x + 1 / 2⌋ := by
      rw [Int.ceil_le]
      have := Int.lt_floor_add_one (x + 1 / 2)
      linarith
    rw [show x + 1 + 1 / 2 = x + 1 / 2 + 1 by ring, Int.floor_add_one]
    omega
  · rw [show x + 1 - 1 / 2 = x - 1 / 2 + 1 by ring, Int.ceil_add_one]

theorem areaLo_eq (g : Grid K) (half b : ℤ) (x : K) :
    areaLo g half b x = .ok (max (roundAway (x / g.cellXY + half - b)) 1) := by
  unfold areaLo
  have : (FOps.max (FOps.round (x /ᶠ g.cellXY +ᶠ FOps.ofInt half -ᶠ FOps.ofInt b)) (FOps.ofRat 1) : K)
      = ((max (roundAway (x / g.cellXY + half - b)) 1 : ℤ) : K) := by
    simp
  rw [this, castInt_exact, truncZ_intCast]

theorem areaHi_eq (g : Grid K) (half b : ℤ) (x : K) :
    areaHi g half b x = .ok (min (roundAway (x / g.cellXY + half + b)) (2 * half)) := by
  unfold areaHi
  have : (FOps.min (FOps.round (x /ᶠ g.cellXY +ᶠ FOps.ofInt half +ᶠ FOps.ofInt b))
      (FOps.ofRat 2 *ᶠ FOps.ofInt half) : K)
      = ((min (roundAway (x / g.cellXY + half + b)) (2 * half) : ℤ) : K) := by
    simp
  rw [this, castInt_exact, truncZ_intCast]

theorem minL_le {x : K} {l : List K} {y : K} (h : y ∈ x :: l) : FOps.minL x l ≤ y := by
  unfold FOps.minL
  induction l generalizing x y with
  | nil => simp at h; subst h; rfl
  | cons z l ih =>
    rw [List.foldl_cons, ex_min]
    rcases List.mem_cons.mp h with rfl | h
    · exact (ih (x := min y z) List.mem_cons_self).trans (min_le_left _ _)
    · rcases List.mem_cons.mp h with rfl | h
      · exact (ih (x := min x y) List.mem_cons_self).trans (min_le_right _ _)
      · exact ih (List.mem_cons_of_mem _ h)

theorem le_maxL {x : K} {l : List K} {y : K} (h : y ∈ x :: l) : y ≤ FOps.maxL x l := by
  unfold FOps.maxL
  induction l generalizing x y with
  | nil => simp at h; subst h; rfl
  | cons z l ih =>
    rw [List.foldl_cons, ex_max]
    rcases List.mem_cons.mp h with rfl | h
    · exact (le_max_left _ _).trans (ih (x := max y z) List.mem_cons_self)
    · rcases List.mem_cons.mp h with rfl | h
      · exact (le_max_right _ _).trans (ih (x := max x y) List.mem_cons_self)
      · exact ih (List.mem_cons_of_mem _ h)

theorem minL_mem (x : K) (l : List K) : FOps.minL x l ∈ x :: l := by
  unfold FOps.minL
  induction l generalizing x with
  | nil => simp
  | cons z l ih =>
    rw [List.foldl_cons, ex_min]
    have := ih (min x z)
    rcases List.mem_cons.mp this with h | h
    · rw [h]
      rcases min_choice x z with e | e <;> rw [e] <;> simp
    · simp [h]

theorem maxL_mem (x : K) (l : List K) : FOps.maxL x l ∈ x :: l := by
  unfold FOps.maxL
  induction l generalizing x with
  | nil => simp
  | cons z l ih =>
    rw [List.foldl_cons, ex_max]
    have := ih (max x z)
    rcases List.mem_cons.mp this with h | h
    · rw [h]
      rcases max_choice x z with e | e <;> rw [e] <;> simp
    · simp [h]

/-- The active area: `lo`, `hi` are the extreme index coordinates of the vertices -/
theorem bodyAreaOf_spec (g : Grid K) (p : SimParam K) (v : Vec3 K) (l : List (Vec3 K))
    (hc : 0 < g.cellXY) :
    ∃ xlo xhi ylo yhi : K, bodyAreaOf g p v l = .ok
      ⟨max (roundAway (xlo - p.cellBuffer)) 1, min (roundAway (xhi + p.cellBuffer)) (2 * g.halfX),
       max (roundAway (ylo - p.cellBuffer)) 1, min (roundAway (yhi + p.cellBuffer)) (2 * g.halfY)⟩ ∧
      ((∀ u ∈ v :: l, xlo ≤ (idx g u).x) ∧ ∃ u ∈ v :: l, (idx g u).x = xlo) ∧
      ((∀ u ∈ v :: l, (idx g u).x ≤ xhi) ∧ ∃ u ∈ v :: l, (idx g u).x = xhi) ∧
      ((∀ u ∈ v :: l, ylo ≤ (idx g u).y) ∧ ∃ u ∈ v :: l, (idx g u).y = ylo) ∧
      ((∀ u ∈ v :: l, (idx g u).y ≤ yhi) ∧ ∃ u ∈ v :: l, (idx g u).y = yhi) := by
  refine ⟨FOps.minL v.x (l.map (·.x)) / g.cellXY + g.halfX,
    FOps.maxL v.x (l.map (·.x)) / g.cellXY + g.halfX,
    FOps.minL v.y (l.map (·.y)) / g.cellXY + g.halfY,
    FOps.maxL v.y (l.map (·.y)) / g.cellXY + g.halfY, ?_, ⟨?_, ?_⟩, ⟨?_, ?_⟩, ⟨?_, ?_⟩, ⟨?_, ?_⟩⟩
  · unfold bodyAreaOf
    simp only [areaLo_eq, areaHi_eq, ok_bind]
    rfl
  · intro u hu
    have : u.x ∈ v.x :: l.map (·.x) := by
      rw [← List.map_cons (f := fun a : Vec3 K => a.x)]; exact List.mem_map_of_mem hu
    have := minL_le this
    unfold idx
    dsimp only
    gcongr
  · have := minL_mem v.x (l.map (·.x))
    rw [← List.map_cons (f := fun a : Vec3 K => a.x)] at this
    obtain ⟨u, hu, e⟩ := List.mem_map.mp this
    exact ⟨u, hu, by unfold idx; dsimp only; rw [e]⟩
  · intro u hu
    have : u.x ∈ v.x :: l.map (·.x) := by
      rw [← List.map_cons (f := fun a : Vec3 K => a.x)]; exact List.mem_map_of_mem hu
    have := le_maxL this
    unfold idx
    dsimp only
    gcongr
  · have := maxL_mem v.x (l.map (·.x))
    rw [← List.map_cons (f := fun a : Vec3 K => a.x)] at this
    obtain ⟨u, hu, e⟩ := List.mem_map.mp this
    exact ⟨u, hu, by unfold idx; dsimp only; rw [e]⟩
  · intro u hu
    have : u.y ∈ v.y :: l.map (·.y) := by
      rw [← List.map_cons (f := fun a : Vec3 K => a.y)]; exact List.mem_map_of_mem hu
    have := minL_le this
    unfold idx
    dsimp only
    gcongr
  · have := minL_mem v.y (l.map (·.y))
    rw [← List.map_cons (f := fun a : Vec3 K => a.y)] at this
    obtain ⟨u, hu, e⟩ := List.mem_map.mp this
    exact ⟨u, hu, by unfold idx; dsimp only; rw [e]⟩
  · intro u hu
    have : u.y ∈ v.y :: l.map (·.y) := by
      rw [← List.map_cons (f := fun a : Vec3 K => a.y)]; exact List.mem_map_of_mem hu
    have := le_maxL this
    unfold idx
    dsimp only
    gcongr
  · have := maxL_mem v.y (l.map (·.y))
    rw [← List.map_cons (f := fun a : Vec3 K => a.y)] at this
    obtain ⟨u, hu, e⟩ := List.mem_map.mp this
    exact ⟨u, hu, by unfold idx; dsimp only; rw [e]⟩

/-! ## The walls -/

/-- Heights of the fourth vertices of the parallelograms spanned by three vertices -/
def paraZ (g : Grid K) (c : Corners K) : List K :=
  [(idx g c.bl).z + (idx g c.tr).z - (idx g c.br).z, (idx g c.bl).z + (idx g c.jr).z - (idx g c.br).z,
    (idx g c.tl).z + (idx g c.jr).z - (idx g c.tr).z]

theorem bucketWalls_foot (hs : SqrtLaw K) {B : Box3 K} {g : Grid K} {tol : K} {c : Corners K}
    (ht : 0 ≤ tol) (hc : CornersIn B g c) (hp : ∀ z ∈ paraZ g c, B.zlo - 1 ≤ z ∧ z ≤ B.zhi + 1) :
    ∃ N walls, (∀ fuel, N ≤ fuel → bucketWalls fuel g tol c = .ok walls) ∧
      (∀ fuel r, bucketWalls fuel g tol c = .ok r → r = walls) ∧ (∀ w ∈ walls, w ≠ []) ∧
      ∀ w ∈ walls, ∀ x ∈ w, Foot B x := by
  obtain ⟨h1, h2, h3, h4, h5, h6⟩ := hc
  obtain ⟨N1, w1, a1, b1, c1, d1⟩ := calcRectanglePos_foot hs ht h3 h4 h6 h5
    (hp _ (by simp [paraZ]))
  obtain ⟨N2, w2, a2, b2, c2, d2⟩ := calcRectanglePos_foot hs ht h3 h4 h2 h1
    (hp _ (by simp [paraZ]))
  obtain ⟨N3, w3, a3, b3, c3, d3⟩ := calcTrianglePos_foot hs ht h1 h3 h5
  obtain ⟨N4, w4, a4, b4, c4, d4⟩ := calcTrianglePos_foot hs ht h2 h4 h6
  refine ⟨N1 + N2 + N3 + N4, [w1, w2, w3, w4], ?_, ?_, ?_, ?_⟩
  · intro fuel hf
    unfold bucketWalls
    rw [a1 fuel (by omega), ok_bind, a2 fuel (by omega), ok_bind, a3 fuel (by omega), ok_bind,
      a4 fuel (by omega), ok_bind]
    rfl
  · intro fuel r hr
    unfold bucketWalls at hr
    obtain ⟨r1, e1, hr⟩ := bind_eq_ok.mp hr
    obtain ⟨r2, e2, hr⟩ := bind_eq_ok.mp hr
    obtain ⟨r3, e3, hr⟩ := bind_eq_ok.mp hr
    obtain ⟨r4, e4, hr⟩ := bind_eq_ok.mp hr
    rw [← b1 _ _ e1, ← b2 _ _ e2, ← b3 _ _ e3, ← b4 _ _ e4]
    exact (Except.ok.inj hr).symm
  · simp [c1, c2, c3, c4]
  · intro w hw
    simp only [List.mem_cons, List.not_mem_nil, or_false] at hw
    rcases hw with rfl | rfl | rfl | rfl <;> assumption

theorem bladeWalls_foot (hs : SqrtLaw K) {B : Box3 K} {g : Grid K} {tol : K} {c b : Corners K}
    (ht : 0 ≤ tol) (hc : CornersIn B g c) (hp : ∀ z ∈ paraZ g c, B.zlo - 1 ≤ z ∧ z ≤ B.zhi + 1)
    (hb : CornersIn B g b) (hp' : ∀ z ∈ paraZ g b, B.zlo - 1 ≤ z ∧ z ≤ B.zhi + 1) :
    ∃ N walls, (∀ fuel, N ≤ fuel → bladeWalls fuel g tol c b = .ok walls) ∧
      (∀ fuel r, bladeWalls fuel g tol c b = .ok r → r = walls) ∧ (∀ w ∈ walls, w ≠ []) ∧
      ∀ w ∈ walls, ∀ x ∈ w, Foot B x := by
  obtain ⟨h1, h2, h3, h4, h5, h6⟩ := hc
  obtain ⟨k1, k2, k3, k4, k5, k6⟩ := hb
  obtain ⟨N1, w1, a1, b1, c1, d1⟩ := calcRectanglePos_foot hs ht h3 h4 h2 h1
    (hp _ (by simp [paraZ]))
  obtain ⟨N2, w2, a2, b2, c2, d2⟩ := calcRectanglePos_foot hs ht k3 k4 k2 k1
    (hp' _ (by simp [paraZ]))
  obtain ⟨N3, w3, a3, b3, c3, d3⟩ := calcRectanglePos_foot hs ht h5 h6 h2 h1
    (hp _ (by simp [paraZ]))
  obtain ⟨N4, w4, a4, b4, c4, d4⟩ := calcRectanglePos_foot hs ht k5 k6 k2 k1
    (hp' _ (by simp [paraZ]))
  refine ⟨N1 + N2 + N3 + N4, [w1, w2, w3, w4], ?_, ?_, ?_, ?_⟩
  · intro fuel hf
    unfold bladeWalls
    rw [a1 fuel (by omega), ok_bind, a2 fuel (by omega), ok_bind, a3 fuel (by omega), ok_bind,
      a4 fuel (by omega), ok_bind]
    rfl
  · intro fuel r hr
    unfold bladeWalls at hr
    obtain ⟨r1, e1, hr⟩ := bind_eq_ok.mp hr
    obtain ⟨r2, e2, hr⟩ := bind_eq_ok.mp hr
    obtain ⟨r3, e3, hr⟩ := bind_eq_ok.mp hr
    obtain ⟨r4, e4, hr⟩ := bind_eq_ok.mp hr
    rw [← b1 _ _ e1, ← b2 _ _ e2, ← b3 _ _ e3, ← b4 _ _ e4]
    exact (Except.ok.inj hr).symm
  · simp [c1, c2, c3, c4]
  · intro w hw
    simp only [List.mem_cons, List.not_mem_nil, or_false] at hw
    rcases hw with rfl | rfl | rfl | rfl <;> assumption

/-- The groups of six vertices: one for a bucket, two for a blade -/
def cornerSets (g : Grid K) (pos : Vec3 K) (ori : Quat K) (body : Body K) : List (Corners K) :=
  let c := calcBodyCornerPos pos ori body
  match body.kind with
  | .bucket => [c]
  | .blade => [c, bladeBack g c]

theorem bodyVertices_eq (g : Grid K) (pos : Vec3 K) (ori : Quat K) (body : Body K) :
    bodyVertices g pos ori body = (cornerSets g pos ori body).flatMap Corners.toList := by
  unfold bodyVertices cornerSets
  cases body.kind <;> simp

theorem cornersIn_iff {B : Box3 K} {g : Grid K} {c : Corners K} :
    CornersIn B g c ↔ ∀ v ∈ c.toList, B.Has (idx g v) := by
  unfold CornersIn Corners.toList
  simp

/-- The vertices used for the walls -/
def nudgedVertices (g : Grid K) (tol : K) (pos : Vec3 K) (ori : Quat K) (body : Body K) :
    List (Vec3 K) :=
  (cornerSets g pos ori body).flatMap fun c => (nudge tol c).toList

/-- The cells of the walls -/
def wallsOf (fuel : ℕ) (g : Grid K) (tol : K) (pos : Vec3 K) (ori : Quat K) (body : Body K) :
    M (List (List Cell3)) :=
  let c := calcBodyCornerPos pos ori body
  match body.kind with
  | .bucket => bucketWalls fuel g tol (nudge tol c)
  | .blade => bladeWalls fuel g tol (nudge tol c) (nudge tol (bladeBack g c))

theorem calcBodyPos_struct (hs : SqrtLaw K) (pos : Vec3 K) (ori : Quat K) (g : Grid K)
    (body : Body K) (p : SimParam K) (tol : K) (ht : 0 ≤ tol) (hc : 0 < g.cellXY) (zlo zhi : K)
    (hz : ∀ v ∈ nudgedVertices g tol pos ori body, zlo ≤ (idx g v).z ∧ (idx g v).z ≤ zhi)
    (hp : ∀ c ∈ cornerSets g pos ori body, ∀ z ∈ paraZ g (nudge tol c), zlo - 1 ≤ z ∧ z ≤ zhi + 1) :
    ∃ (N : ℕ) (walls : List (List Cell3)) (xlo xhi ylo yhi : K),
      let area : Area := ⟨max (roundAway (xlo - p.cellBuffer)) 1,
        min (roundAway (xhi + p.cellBuffer)) (2 * g.halfX),
        max (roundAway (ylo - p.cellBuffer)) 1, min (roundAway (yhi + p.cellBuffer)) (2 * g.halfY)⟩
      (∀ s fuel, N ≤ fuel → calcBodyPos fuel s pos ori g body p tol =
        (resetBody s.bodyArea.cells s).bind fun s1 =>
          updateWalls g tol walls { s1 with bodyArea := area }) ∧
      (∀ s fuel s', calcBodyPos fuel s pos ori g body p tol = .ok s' →
        ∃ s1, resetBody s.bodyArea.cells s = .ok s1 ∧ wallsOf fuel g tol pos ori body = .ok walls ∧
          updateWalls g tol walls { s1 with bodyArea := area } = .ok s') ∧
      (∀ w ∈ walls, w ≠ []) ∧ (∀ w ∈ walls, ∀ x ∈ w, Foot ⟨xlo, xhi, ylo, yhi, zlo, zhi⟩ x) ∧
      ((∀ v ∈ nudgedVertices g tol pos ori body, xlo ≤ (idx g v).x) ∧
        ∃ v ∈ nudgedVertices g tol pos ori body, (idx g v).x = xlo) ∧
      ((∀ v ∈ nudgedVertices g tol pos ori body, (idx g v).x ≤ xhi) ∧
        ∃ v ∈ nudgedVertices g tol pos ori body, (idx g v).x = xhi) ∧
      ((∀ v ∈ nudgedVertices g tol pos ori body, ylo ≤ (idx g v).y) ∧
        ∃ v ∈ nudgedVertices g tol pos ori body, (idx g v).y = ylo) ∧
      ((∀ v ∈ nudgedVertices g tol pos ori body, (idx g v).y ≤ yhi) ∧
        ∃ v ∈ nudgedVertices g tol pos ori body, (idx g v).y = yhi) := by
  unfold nudgedVertices cornerSets at *
  unfold wallsOf
  dsimp only at hz hp ⊢
  generalize hcc : calcBodyCornerPos pos ori body = c at hz hp ⊢
  cases hk : body.kind with
  | bucket =>
    rw [hk] at hz hp
    dsimp only at hz hp ⊢
    simp only [List.flatMap_cons, List.flatMap_nil, List.append_nil, List.mem_singleton,
      forall_eq] at hz hp ⊢
    obtain ⟨xlo, xhi, ylo, yhi, harea, e1, e2, e3, e4⟩ := bodyAreaOf_spec g p (nudge tol c).jr
      [(nudge tol c).jl, (nudge tol c).br, (nudge tol c).bl, (nudge tol c).tr, (nudge tol c).tl] hc
    obtain ⟨N, walls, w1, w2, w3, w4⟩ := bucketWalls_foot hs
      (B := ⟨xlo, xhi, ylo, yhi, zlo, zhi⟩) (c := nudge tol c) ht
      (cornersIn_iff.mpr fun v hv => ⟨⟨e1.1 v hv, e2.1 v hv⟩, ⟨e3.1 v hv, e4.1 v hv⟩, hz v hv⟩) hp
    refine ⟨N, walls, xlo, xhi, ylo, yhi, ?_, ?_, w3, w4, e1, e2, e3, e4⟩
    · intro s fuel hf
      unfold calcBodyPos
      rw [hcc, hk]
      dsimp only
      cases h1 : resetBody s.bodyArea.cells s with
      | error e => rfl
      | ok s1 =>
        rw [ok_bind, harea, ok_bind, w1 fuel hf, ok_bind]
        rfl
    · intro s fuel s' h
      unfold calcBodyPos at h
      rw [hcc, hk] at h
      dsimp only at h
      obtain ⟨s1, h1, h⟩ := bind_eq_ok.mp h
      rw [harea, ok_bind] at h
      obtain ⟨w, hw, h⟩ := bind_eq_ok.mp h
      rw [w2 _ _ hw] at h hw
      exact ⟨s1, h1, hw, h⟩
  | blade =>
    rw [hk] at hz hp
    dsimp only at hz hp ⊢
    simp only [List.flatMap_cons, List.flatMap_nil, List.append_nil, List.mem_cons,
      List.not_mem_nil, or_false, forall_eq_or_imp, forall_eq] at hz hp ⊢
    obtain ⟨xlo, xhi, ylo, yhi, harea, e1, e2, e3, e4⟩ := bodyAreaOf_spec g p (nudge tol c).jr
      ([(nudge tol c).jl, (nudge tol c).br, (nudge tol c).bl, (nudge tol c).tr, (nudge tol c).tl] ++
        (nudge tol (bladeBack g c)).toList) hc
    rw [← List.cons_append] at e1 e2 e3 e4
    obtain ⟨N, walls, w1, w2, w3, w4⟩ := bladeWalls_foot hs
      (B := ⟨xlo, xhi, ylo, yhi, zlo, zhi⟩) (c := nudge tol c) (b := nudge tol (bladeBack g c)) ht
      (cornersIn_iff.mpr fun v hv => by
        have hv' := List.mem_append_left (nudge tol (bladeBack g c)).toList hv
        exact ⟨⟨e1.1 v hv', e2.1 v hv'⟩, ⟨e3.1 v hv', e4.1 v hv'⟩, hz v hv'⟩) hp.1
      (cornersIn_iff.mpr fun v hv => by
        have hv' := List.mem_append_right (nudge tol c).toList hv
        exact ⟨⟨e1.1 v hv', e2.1 v hv'⟩, ⟨e3.1 v hv', e4.1 v hv'⟩, hz v hv'⟩) hp.2
    refine ⟨N, walls, xlo, xhi, ylo, yhi, ?_, ?_, w3, w4, e1, e2, e3, e4⟩
    · intro s fuel hf
      unfold calcBodyPos
      rw [hcc, hk]
      dsimp only
      cases h1 : resetBody s.bodyArea.cells s with
      | error e => rfl
      | ok s1 =>
        rw [ok_bind, harea, ok_bind, w1 fuel hf, ok_bind]
        rfl
    · intro s fuel s' h
      unfold calcBodyPos at h
      rw [hcc, hk] at h
      dsimp only at h
      obtain ⟨s1, h1, h⟩ := bind_eq_ok.mp h
      rw [harea, ok_bind] at h
      obtain ⟨w, hw, h⟩ := bind_eq_ok.mp h
      rw [w2 _ _ hw] at h hw
      exact ⟨s1, h1, hw, h⟩

/-- bounds on the vertices hold for the nudged ones -/
theorem nudgedVertices_in {B : Box3 K} {g : Grid K} {tol : K} {pos : Vec3 K} {ori : Quat K}
    {body : Body K} (hc : 0 < g.cellXY) (hz : 0 < g.cellZ) (ht : 0 ≤ tol) (ht' : tol ≤ 1 / 3)
    (h : ∀ v ∈ bodyVertices g pos ori body, B.Has (idx g v)) :
    ∀ v ∈ nudgedVertices g tol pos ori body, B.Has (idx g v) := by
  rw [bodyVertices_eq] at h
  unfold nudgedVertices
  intro v hv
  obtain ⟨c, hcs, hv⟩ := List.mem_flatMap.mp hv
  exact cornersIn_iff.mp (nudge_in hc hz ht ht'
    (cornersIn_iff.mpr fun u hu => h u (List.mem_flatMap.mpr ⟨c, hcs, hu⟩))) v hv

theorem exists_bounds (l : List K) : ∃ lo hi, ∀ z ∈ l, lo ≤ z ∧ z ≤ hi := by
  cases l with
  | nil => exact ⟨0, 0, by simp⟩
  | cons x l => exact ⟨_, _, fun z hz => ⟨minL_le hz, le_maxL hz⟩⟩

/-- bounds exist for vertices -/
theorem exists_box (g : Grid K) (l : List (Vec3 K)) : ∃ B : Box3 K, ∀ v ∈ l, B.Has (idx g v) := by
  obtain ⟨a, b, h1⟩ := exists_bounds (l.map fun v => (idx g v).x)
  obtain ⟨c, d, h2⟩ := exists_bounds (l.map fun v => (idx g v).y)
  obtain ⟨e, f, h3⟩ := exists_bounds (l.map fun v => (idx g v).z)
  exact ⟨⟨a, b, c, d, e, f⟩, fun v hv => ⟨h1 _ (List.mem_map_of_mem hv), h2 _ (List.mem_map_of_mem hv),
    h3 _ (List.mem_map_of_mem hv)⟩⟩

/-! ## The new body -/

theorem foot_col {lo hi x : K} {half b : ℤ} (hb : 2 ≤ b) (hlo : 3 / 2 ≤ lo)
    (hhi : hi < 2 * (half : K) - 3 / 2) (h1 : lo - 1 ≤ x) (h2 : x ≤ hi + 1) :
    1 ≤ roundAway x ∧ roundAway x ≤ 2 * half - 1 ∧ max (roundAway (lo - b)) 1 ≤ roundAway x ∧
      roundAway x < min (roundAway (hi + b)) (2 * half) := by
  have hbK : (2 : K) ≤ b := by exact_mod_cast hb
  have a1 : 1 ≤ roundAway x := by
    have e : roundAway (1 / 2 : K) = 1 := by
      unfold roundAway
      rw [if_pos (by norm_num), show (1 / 2 + 1 / 2 : K) = 1 by norm_num, Int.floor_one]
    rw [← e]
    exact roundAway_mono (by linarith)
  have a2 : roundAway x ≤ 2 * half - 1 := by
    have := (abs_le.mp (abs_roundAway_sub_le x)).2
    have : (roundAway x : K) < ((2 * half : ℤ) : K) := by push_cast; linarith
    have := Int.cast_lt.mp this
    omega
  refine ⟨a1, a2, max_le (roundAway_mono (by linarith)) a1, lt_min ?_ (by omega)⟩
  have b1 := roundAway_mono h2
  have b2 := roundAway_add_one (hi + 1)
  have b3 : roundAway (hi + 1 + 1) ≤ roundAway (hi + b) := roundAway_mono (by linarith)
  omega

/-- With a buffer of three columns the neighbours are in the area too. -/
theorem foot_near {lo hi x : K} {half b i : ℤ} (hb : 3 ≤ b) (h1 : lo - 1 ≤ x) (h2 : x ≤ hi + 1)
    (hi1 : roundAway x - 1 ≤ i ∧ i ≤ roundAway x + 1) (hi2 : 1 ≤ i ∧ i < 2 * half) :
    max (roundAway (lo - b)) 1 ≤ i ∧ i < min (roundAway (hi + b)) (2 * half) := by
  have hbK : (3 : K) ≤ b := by exact_mod_cast hb
  refine ⟨max_le ?_ hi2.1, lt_min ?_ hi2.2⟩
  · have b1 : roundAway (lo - b + 1) ≤ roundAway x := roundAway_mono (by linarith)
    have b2 := roundAway_add_one (lo - b)
    omega
  · have b1 := roundAway_mono h2
    have b2 := roundAway_add_one (hi + 1)
    have b4 := roundAway_add_one (hi + 1 + 1)
    have b3 : roundAway (hi + 1 + 1 + 1) ≤ roundAway (hi + b) := roundAway_mono (by linarith)
    omega

theorem Al.intMul {c x : K} (hx : Al c x) (k : ℤ) : Al c (x + k * c) := by
  obtain ⟨n, rfl⟩ := hx
  exact ⟨n + k, by push_cast; ring⟩

/-- The new body when the cells found are inside the area and off the border -/
theorem newBody_fit {g : Grid K} {tol : K} (hz : ZGrid g) (ht : 0 < tol)
    (hA : Al g.cellZ (g.vectZ 0)) {s s1 : SimOut K}
    {walls : List (List Cell3)} (hsz : SameSize g s) (hIn : BodyInArea s)
    (hal : ∀ k i j, s.InGrid i j → Al g.cellZ (s.body k i j))
    (h1 : resetBody s.bodyArea.cells s = .ok s1) (hne : ∀ w ∈ walls, w ≠ [])
    (hC : ∀ w ∈ walls, ∀ x ∈ w, CellOK g s x) {area : Area}
    (hcell : ∀ w ∈ walls, ∀ x ∈ w, (1 ≤ x.1 ∧ x.1 ≤ 2 * g.halfX - 1 ∧ 1 ≤ x.2.1 ∧
      x.2.1 ≤ 2 * g.halfY - 1) ∧ area.Has x.1 x.2.1)
    (harea : 1 ≤ area.minX ∧ area.maxX ≤ 2 * g.halfX ∧ 1 ≤ area.minY ∧ area.maxY ≤ 2 * g.halfY) :
    Ok (updateWalls g tol walls { s1 with bodyArea := area }) fun s' =>
      s' = { s with body := s'.body, bodyArea := area } ∧ BodyOK g.cellZ s' ∧ BodyInArea s' ∧
        AreaInside s'.bodyArea s' ∧
        (∀ k i j, s'.InGrid i j → k = 0 ∨ k = 2 → HasBody s' k i j →
          ∃ w ∈ walls, ∃ n, (i, j, n) ∈ w) ∧
        (∀ i j h, s'.InGrid i j → Occ s' i j h → ∃ x y, x ≤ h ∧ h ≤ y ∧
          (∃ n, (∃ w ∈ walls, (i, j, n) ∈ w) ∧ InCell g n x) ∧
          (∃ n, (∃ w ∈ walls, (i, j, n) ∈ w) ∧ InCell g n y)) ∧
        (∀ w ∈ walls, ∀ x ∈ w, ∀ h, InCell g x.2.2 h → Occ s' x.1 x.2.1 h) := by
  obtain ⟨r1, r2, r3, r4⟩ := resetBody_spec _ _ _ h1
  have hgrid1 : ∀ i j, ({ s1 with bodyArea := area } : SimOut K).InGrid i j ↔ s.InGrid i j := by
    intro i j; rw [r1]; rfl
  have hno : ∀ k i j, s.InGrid i j → k < 4 → s1.body k i j = 0 := by
    intro k i j hij hk
    by_cases hm : (i, j) ∈ s.bodyArea.cells
    · exact r2 _ hm k hk
    · rw [r3 (i, j) hm k]
      by_contra h0
      have key : ∀ k', k' = 0 ∨ k' = 2 → HasBody s k' i j → False := fun k' hk' hb' =>
        hm (Area.mem_cells.mpr (hIn k' i j hij hk' hb'))
      have : k = 0 ∨ k = 1 ∨ k = 2 ∨ k = 3 := by omega
      rcases this with rfl | rfl | rfl | rfl
      · exact key 0 (.inl rfl) (.inl h0)
      · exact key 0 (.inl rfl) (.inr h0)
      · exact key 2 (.inr rfl) (.inl h0)
      · exact key 2 (.inr rfl) (.inr h0)
  have hnone : ∀ k i j, s.InGrid i j → k = 0 ∨ k = 2 →
      ¬ HasBody { s1 with bodyArea := area } k i j := by
    rintro k i j hij hk (h | h)
    · exact h (hno k i j hij (by omega))
    · exact h (hno (k + 1) i j hij (by omega))
  have hcol : ∀ a b, ({ s1 with bodyArea := area } : SimOut K).InGrid a b →
      ColOK tol { s1 with bodyArea := area } a b := by
    intro a b hab
    rw [hgrid1] at hab
    exact ⟨fun k hk hb' => absurd hb' (hnone k a b hab hk),
      fun h0 => absurd h0 (hnone 0 a b hab (.inl rfl))⟩
  refine (updateWalls_written hz ht walls { s1 with bodyArea := area } hne (by
    intro w hw x hx
    have := hC w hw x hx
    exact ⟨(hgrid1 _ _).mpr this.1, this.2⟩) hcol).mono ?_
  intro s' ⟨hW, hcov⟩
  have hgrid : ∀ i j, s'.InGrid i j ↔ s.InGrid i j := fun i j =>
    (hW.inGrid i j).trans (hgrid1 i j)
  have hwall : ∀ k i j, s'.InGrid i j → k = 0 ∨ k = 2 → HasBody s' k i j →
      ∃ w ∈ walls, ∃ n, (i, j, n) ∈ w := by
    intro k i j hij hk hb'
    by_contra hcon
    push Not at hcon
    have e := fun k => hW.other k i j fun n ⟨w, hw, hm⟩ => hcon w hw n hm
    rw [hgrid] at hij
    apply hnone k i j hij hk
    unfold HasBody at hb' ⊢
    rw [e, e] at hb'
    exact hb'
  have hcols : ∀ k i j, s'.InGrid i j → k = 0 ∨ k = 2 → HasBody s' k i j →
      (1 ≤ i ∧ i ≤ 2 * g.halfX - 1 ∧ 1 ≤ j ∧ j ≤ 2 * g.halfY - 1) ∧ area.Has i j := by
    intro k i j hij hk hb'
    obtain ⟨w, hw, n, hm⟩ := hwall k i j hij hk hb'
    exact hcell w hw _ hm
  have heq : s' = { s with body := s'.body, bodyArea := area } := by
    conv_lhs => rw [hW.eq, r1]
  have hlen : s'.lenX = 2 * g.halfX + 1 ∧ s'.lenY = 2 * g.halfY + 1 := by
    rw [heq]; exact hsz
  have hba : s'.bodyArea = area := by rw [heq]
  have hok : ∀ i j, s'.InGrid i j → ColOK tol s' i j := fun i j hij =>
    hW.ok i j ((hW.inGrid i j).mp hij) (hcol i j ((hW.inGrid i j).mp hij))
  refine ⟨heq, ⟨?_, ?_, ?_, ?_⟩, ?_, ?_, hwall, ?_, hcov⟩
  · intro k i j hij
    have hij' := (hgrid i j).mp hij
    refine hW.val (Al g.cellZ) i j ⟨0, by simp⟩ ?_ ?_ k
    · intro k
      show Al g.cellZ (s1.body k i j)
      rcases r4 k i j with h | h
      · rw [h]; exact ⟨0, by simp⟩
      · rw [h]; exact hal k i j hij'
    · rintro n ⟨w, hw, hm⟩
      have hc := hC w hw _ hm
      rw [hz.step n hc.2.1 hc.2.2]
      refine ⟨hA.intMul n, ?_⟩
      have := hA.intMul (n - 1)
      push_cast at this
      rwa [show g.vectZ 0 + (n : K) * g.cellZ - g.cellZ = g.vectZ 0 + ((n : K) - 1) * g.cellZ by ring]
  · intro k i j hij hk hb'
    exact (hok i j hij).order k hk hb'
  · intro i j hij b0 b2
    rcases (hok i j hij).apart b0 b2 with h | h
    · exact .inl (by linarith)
    · exact .inr (by linarith)
  · intro k i j hij hbd hk hb'
    have := (hcols k i j hij hk hb').1
    unfold OnBorder at hbd
    rw [hlen.1, hlen.2] at hbd
    omega
  · intro k i j hij hk hb'
    rw [hba]
    exact (hcols k i j hij hk hb').2
  · rw [hba]
    unfold AreaInside
    rw [hlen.1, hlen.2]
    omega
  · intro i j h hij hocc
    rw [hgrid] at hij
    have hnocc : ∀ z, ¬ Occ { s1 with bodyArea := area } i j z := by
      rintro z ⟨k, hk, hb', -⟩
      exact hnone k i j hij hk hb'
    obtain ⟨x, y, hxh, hhy, hx', hy'⟩ := hW.hull i j h hocc
    refine ⟨x, y, hxh, hhy, ?_, ?_⟩
    · rcases hx' with hx' | ⟨n, h3, h4⟩
      · exact absurd hx' (hnocc x)
      · exact ⟨n, h3, h4⟩
    · rcases hy' with hx' | ⟨n, h3, h4⟩
      · exact absurd hx' (hnocc y)
      · exact ⟨n, h3, h4⟩

theorem newBody {g : Grid K} {p : SimParam K} {tol : K} (hz : ZGrid g) (ht : 0 < tol)
    (hb : 2 ≤ p.cellBuffer) (hA : Al g.cellZ (g.vectZ 0)) {s s1 : SimOut K}
    {walls : List (List Cell3)} {B : Box3 K} (hsz : SameSize g s) (hIn : BodyInArea s)
    (hal : ∀ k i j, s.InGrid i j → Al g.cellZ (s.body k i j))
    (hx : 3 / 2 ≤ B.xlo ∧ B.xhi < 2 * (g.halfX : K) - 3 / 2)
    (hy : 3 / 2 ≤ B.ylo ∧ B.yhi < 2 * (g.halfY : K) - 3 / 2)
    (h1 : resetBody s.bodyArea.cells s = .ok s1) (hne : ∀ w ∈ walls, w ≠ [])
    (hf : ∀ w ∈ walls, ∀ x ∈ w, Foot B x)
    (hC : ∀ w ∈ walls, ∀ x ∈ w, CellOK g s x) {area : Area}
    (harea : area = ⟨max (roundAway (B.xlo - p.cellBuffer)) 1,
        min (roundAway (B.xhi + p.cellBuffer)) (2 * g.halfX),
        max (roundAway (B.ylo - p.cellBuffer)) 1,
        min (roundAway (B.yhi + p.cellBuffer)) (2 * g.halfY)⟩) :
    Ok (updateWalls g tol walls { s1 with bodyArea := area }) fun s' =>
      s' = { s with body := s'.body, bodyArea := area } ∧ BodyOK g.cellZ s' ∧ BodyInArea s' ∧
        AreaInside s'.bodyArea s' ∧
        (∀ k i j, s'.InGrid i j → k = 0 ∨ k = 2 → HasBody s' k i j →
          ∃ w ∈ walls, ∃ n, (i, j, n) ∈ w) ∧
        (∀ i j h, s'.InGrid i j → Occ s' i j h → ∃ x y, x ≤ h ∧ h ≤ y ∧
          (∃ n, (∃ w ∈ walls, (i, j, n) ∈ w) ∧ InCell g n x) ∧
          (∃ n, (∃ w ∈ walls, (i, j, n) ∈ w) ∧ InCell g n y)) ∧
        (∀ w ∈ walls, ∀ x ∈ w, ∀ h, InCell g x.2.2 h → Occ s' x.1 x.2.1 h) := by
  refine (newBody_fit hz ht hA hsz hIn hal h1 hne hC (area := area) ?_ ?_).mono ?_
  · intro w hw y hm
    obtain ⟨x, e, ⟨x1, x2⟩, ⟨y1, y2⟩, -⟩ := hf w hw _ hm
    obtain ⟨y1, y2, y3⟩ := y
    simp only [Prod.mk.injEq] at e
    obtain ⟨rfl, rfl, -⟩ := e
    have c1 := foot_col hb hx.1 hx.2 x1 x2
    have c2 := foot_col hb hy.1 hy.2 (by assumption) (by assumption)
    refine ⟨⟨c1.1, c1.2.1, c2.1, c2.2.1⟩, ?_⟩
    rw [harea]
    exact ⟨c1.2.2.1, c1.2.2.2, c2.2.2.1, c2.2.2.2⟩
  · rw [harea]
    exact ⟨le_max_right _ _, min_le_right _ _, le_max_right _ _, min_le_right _ _⟩
  · exact fun _ h => h

/-- what `CalcBodyPos` establishes -/
structure NewBody (g : Grid K) (s s' : SimOut K) : Prop where
  eq : s' = { s with body := s'.body, bodyArea := s'.bodyArea }
  bodyOK : BodyOK g.cellZ s'
  inArea : BodyInArea s'
  area : AreaInside s'.bodyArea s'

/-- The interior columns around a column of the body are in its area. -/
def BodyNear (g : Grid K) (s : SimOut K) : Prop :=
  ∀ k a b, s.InGrid a b → k = 0 ∨ k = 2 → HasBody s k a b → ∀ i j, (a - 1 ≤ i ∧ i ≤ a + 1) →
    (b - 1 ≤ j ∧ j ≤ b + 1) → (1 ≤ i ∧ i < 2 * g.halfX) → (1 ≤ j ∧ j < 2 * g.halfY) →
    s.bodyArea.Has i j

theorem offBorder_box {g : Grid K} {pos : Vec3 K} {ori : Quat K} {body : Body K} {tol : K}
    (hc : 0 < g.cellXY) (hz : 0 < g.cellZ) (ht : 0 ≤ tol) (ht' : tol ≤ 1 / 3)
    (h : ∀ v ∈ bodyVertices g pos ori body, OffBorder g v) :
    ∀ v ∈ nudgedVertices g tol pos ori body, OffBorder g v := by
  obtain ⟨B, hB⟩ := exists_box g (bodyVertices g pos ori body)
  -- the largest coordinates are attained
  have key : ∀ f : Vec3 K → K, (∃ lo hi, (∀ v ∈ bodyVertices g pos ori body, lo ≤ f v ∧ f v ≤ hi) ∧
      (bodyVertices g pos ori body ≠ [] → ∃ v ∈ bodyVertices g pos ori body, f v = hi)) := by
    intro f
    cases hl : bodyVertices g pos ori body with
    | nil => exact ⟨0, 0, by simp, by simp⟩
    | cons v l =>
      refine ⟨FOps.minL (f v) (l.map f), FOps.maxL (f v) (l.map f), ?_, ?_⟩
      · intro u hu
        have : f u ∈ f v :: l.map f := by
          rw [← List.map_cons]; exact List.mem_map_of_mem hu
        exact ⟨minL_le this, le_maxL this⟩
      · intro _
        have := maxL_mem (f v) (l.map f)
        rw [← List.map_cons] at this
        obtain ⟨u, hu, e⟩ := List.mem_map.mp this
        exact ⟨u, hu, e⟩
  have hne : bodyVertices g pos ori body ≠ [] := by
    unfold bodyVertices Corners.toList
    cases body.kind <;> simp
  obtain ⟨xl, xh, hx, hx'⟩ := key fun v => (idx g v).x
  obtain ⟨yl, yh, hy, hy'⟩ := key fun v => (idx g v).y
  obtain ⟨vx, vxm, rfl⟩ := hx' hne
  obtain ⟨vy, vym, rfl⟩ := hy' hne
  have := nudgedVertices_in (B := ⟨3 / 2, (idx g vx).x, 3 / 2, (idx g vy).y, B.zlo, B.zhi⟩)
    hc hz ht ht' (fun v hv => ⟨⟨(h v hv).1.1, (hx v hv).2⟩, ⟨(h v hv).2.1, (hy v hv).2⟩, (hB v hv).2.2⟩)
  intro v hv
  obtain ⟨⟨a1, a2⟩, ⟨b1, b2⟩, -⟩ := this v hv
  exact ⟨⟨a1, a2.trans_lt (h vx vxm).1.2⟩, ⟨b1, b2.trans_lt (h vy vym).2.2⟩⟩

/-- `CalcBodyPos` when it returns: conventions, area and shape of the new body -/
theorem calcBodyPos_full (hs : SqrtLaw K) {fuel : ℕ} {s s' : SimOut K} {pos : Vec3 K} {ori : Quat K}
    {g : Grid K} {body : Body K} {p : SimParam K} {tol : K} (hzg : ZGrid g) (hc : 0 < g.cellXY)
    (hA : Al g.cellZ (g.vectZ 0)) (ht : 0 < tol) (ht' : tol ≤ 1 / 3) (hb : 2 ≤ p.cellBuffer)
    (hsz : SameSize g s) (hIn : BodyInArea s)
    (hal : ∀ k i j, s.InGrid i j → Al g.cellZ (s.body k i j))
    (hoff : ∀ v ∈ bodyVertices g pos ori body, OffBorder g v) {zlo zhi : K}
    (hz : ∀ v ∈ nudgedVertices g tol pos ori body, zlo ≤ (idx g v).z ∧ (idx g v).z ≤ zhi)
    (hp : ∀ c ∈ cornerSets g pos ori body, ∀ z ∈ paraZ g (nudge tol c), zlo - 1 ≤ z ∧ z ≤ zhi + 1)
    (h : calcBodyPos fuel s pos ori g body p tol = .ok s') :
    (NewBody g s s' ∧ (3 ≤ p.cellBuffer → BodyNear g s')) ∧
    ∃ walls, wallsOf fuel g tol pos ori body = .ok walls ∧
      (∀ w ∈ walls, ∀ x ∈ w, CellOK g s x ∧ zlo - 1 ≤ x.2.2 ∧ (x.2.2 : K) < zhi + 2) ∧
      (∀ i j h, s'.InGrid i j → Occ s' i j h → ∃ x y, x ≤ h ∧ h ≤ y ∧
          (∃ n, (∃ w ∈ walls, (i, j, n) ∈ w) ∧ InCell g n x) ∧
          (∃ n, (∃ w ∈ walls, (i, j, n) ∈ w) ∧ InCell g n y)) ∧
      (∀ w ∈ walls, ∀ x ∈ w, ∀ h, InCell g x.2.2 h → Occ s' x.1 x.2.1 h) := by
  obtain ⟨N, walls, xlo, xhi, ylo, yhi, -, hrun, hne, hf, ⟨-, v1, m1, e1⟩, ⟨-, v2, m2, e2⟩,
    ⟨-, v3, m3, e3⟩, ⟨-, v4, m4, e4⟩⟩ := calcBodyPos_struct hs pos ori g body p tol ht.le hc zlo zhi hz hp
  have hoff' := offBorder_box hc hzg.pos ht.le ht' hoff
  obtain ⟨s1, h1, h0, h2⟩ := hrun s fuel s' h
  have hx : 3 / 2 ≤ xlo ∧ xhi < 2 * (g.halfX : K) - 3 / 2 := by
    rw [← e1, ← e2]; exact ⟨(hoff' v1 m1).1.1, (hoff' v2 m2).1.2⟩
  have hy : 3 / 2 ≤ ylo ∧ yhi < 2 * (g.halfY : K) - 3 / 2 := by
    rw [← e3, ← e4]; exact ⟨(hoff' v3 m3).2.1, (hoff' v4 m4).2.2⟩
  have hC : ∀ w ∈ walls, ∀ x ∈ w, CellOK g s x := by
    obtain ⟨r1, r2, r3, r4⟩ := resetBody_spec _ _ _ h1
    have hno : ∀ k i j, s.InGrid i j → k < 4 → s1.body k i j = 0 := by
      intro k i j hij hk
      by_cases hm : (i, j) ∈ s.bodyArea.cells
      · exact r2 _ hm k hk
      · rw [r3 (i, j) hm k]
        by_contra h0
        have key : ∀ k', k' = 0 ∨ k' = 2 → HasBody s k' i j → False := fun k' hk' hb' =>
          hm (Area.mem_cells.mpr (hIn k' i j hij hk' hb'))
        have : k = 0 ∨ k = 1 ∨ k = 2 ∨ k = 3 := by omega
        rcases this with rfl | rfl | rfl | rfl
        · exact key 0 (.inl rfl) (.inl h0)
        · exact key 0 (.inl rfl) (.inr h0)
        · exact key 2 (.inr rfl) (.inl h0)
        · exact key 2 (.inr rfl) (.inr h0)
    have hgr : ∀ i j (a : Area), ({ s1 with bodyArea := a } : SimOut K).InGrid i j ↔ s.InGrid i j := by
      intro i j a; rw [r1]; rfl
    have := (updateWalls_guard hzg ht _ _ _ (by
      intro a b hab
      rw [hgr] at hab
      refine ⟨fun k hk hb' => ?_, fun h0 => ?_⟩
      · rcases hb' with h | h
        · exact absurd (hno k a b hab (by omega)) h
        · exact absurd (hno (k + 1) a b hab (by omega)) h
      · rcases h0 with h | h
        · exact absurd (hno 0 a b hab (by omega)) h
        · exact absurd (hno 1 a b hab (by omega)) h) h2).2
    intro w hw x hx
    exact ⟨(hgr _ _ _).mp (this w hw x hx).1, (this w hw x hx).2⟩
  obtain ⟨q1, q2, q3, q4, q5, q6, q7⟩ := (newBody hzg ht hb hA (B := ⟨xlo, xhi, ylo, yhi, zlo, zhi⟩) hsz hIn hal
    hx hy h1 hne hf hC rfl).post _ h2
  refine ⟨⟨⟨by rw [q1], q2, q3, q4⟩, fun hb3 k a b hab hk hbd i j hi hj hi' hj' => ?_⟩, walls, h0, ?_, q6, q7⟩
  swap
  · intro w hw x hx
    refine ⟨hC w hw x hx, ?_⟩
    obtain ⟨y, rfl, -, -, z1, z2⟩ := hf w hw x hx
    exact ⟨z1.trans (Int.le_ceil _), by have := Int.ceil_lt_add_one y.z; linarith⟩
  obtain ⟨w, hw, n, hm⟩ := q5 k a b hab hk hbd
  obtain ⟨x, e, ⟨x1, x2⟩, ⟨y1, y2⟩, -⟩ := hf w hw _ hm
  simp only [Prod.mk.injEq] at e
  obtain ⟨rfl, rfl, -⟩ := e
  have c1 := foot_near hb3 x1 x2 hi hi'
  have c2 := foot_near hb3 y1 y2 hj hj'
  rw [q1]
  exact ⟨c1.1, c1.2, c2.1, c2.2⟩

theorem calcBodyPos_post' (hs : SqrtLaw K) {fuel : ℕ} {s s' : SimOut K} {pos : Vec3 K} {ori : Quat K}
    {g : Grid K} {body : Body K} {p : SimParam K} {tol : K} (hzg : ZGrid g) (hc : 0 < g.cellXY)
    (hA : Al g.cellZ (g.vectZ 0)) (ht : 0 < tol) (ht' : tol ≤ 1 / 3) (hb : 2 ≤ p.cellBuffer)
    (hsz : SameSize g s) (hIn : BodyInArea s)
    (hal : ∀ k i j, s.InGrid i j → Al g.cellZ (s.body k i j))
    (hoff : ∀ v ∈ bodyVertices g pos ori body, OffBorder g v)
    (h : calcBodyPos fuel s pos ori g body p tol = .ok s') :
    NewBody g s s' ∧ (3 ≤ p.cellBuffer → BodyNear g s') := by
  obtain ⟨zlo, zhi, hzb⟩ := exists_bounds
    ((nudgedVertices g tol pos ori body).map (fun v => (idx g v).z) ++
      (cornerSets g pos ori body).flatMap fun c => paraZ g (nudge tol c))
  exact (calcBodyPos_full hs hzg hc hA ht ht' hb hsz hIn hal hoff (zlo := zlo) (zhi := zhi)
    (fun v hv => hzb _ (List.mem_append_left _ (List.mem_map_of_mem hv)))
    (fun c hc z hz => by
      have := hzb z (List.mem_append_right _ (List.mem_flatMap.mpr ⟨c, hc, hz⟩))
      constructor <;> linarith) h).1

theorem calcBodyPos_post (hs : SqrtLaw K) {fuel : ℕ} {s s' : SimOut K} {pos : Vec3 K} {ori : Quat K}
    {g : Grid K} {body : Body K} {p : SimParam K} {tol : K} (hzg : ZGrid g) (hc : 0 < g.cellXY)
    (hA : Al g.cellZ (g.vectZ 0)) (ht : 0 < tol) (ht' : tol ≤ 1 / 3) (hb : 2 ≤ p.cellBuffer)
    (hsz : SameSize g s) (hIn : BodyInArea s)
    (hal : ∀ k i j, s.InGrid i j → Al g.cellZ (s.body k i j))
    (hoff : ∀ v ∈ bodyVertices g pos ori body, OffBorder g v)
    (h : calcBodyPos fuel s pos ori g body p tol = .ok s') : NewBody g s s' :=
  (calcBodyPos_post' hs hzg hc hA ht ht' hb hsz hIn hal hoff h).1

/-! ## Normal return -/

theorem nudge_move {m M t a b c d : K} (ht : 0 ≤ t) (ha : m ≤ a ∧ a ≤ M) (hb : m ≤ b ∧ b ≤ M)
    (hc : m ≤ c ∧ c ≤ M) (hd : m ≤ d ∧ d ≤ M) :
    |a + t * ((b - a) + (c - a) + (d - a)) - a| ≤ 3 * t * (M - m) := by
  rw [add_sub_cancel_left, abs_mul, abs_of_nonneg ht]
  have : |(b - a) + (c - a) + (d - a)| ≤ 3 * (M - m) := by
    rw [abs_le]; constructor <;> linarith [ha.1, ha.2, hb.1, hb.2, hc.1, hc.2, hd.1, hd.2]
  calc t * |(b - a) + (c - a) + (d - a)| ≤ t * (3 * (M - m)) := mul_le_mul_of_nonneg_left this ht
    _ = 3 * t * (M - m) := by ring

theorem nudge1_move {m M t jr jl br bl tr tl : K} (ht : 0 ≤ t) (ht' : t ≤ 1 / 3)
    (h1 : m ≤ jr ∧ jr ≤ M) (h2 : m ≤ jl ∧ jl ≤ M) (h3 : m ≤ br ∧ br ≤ M) (h4 : m ≤ bl ∧ bl ≤ M)
    (h5 : m ≤ tr ∧ tr ≤ M) (h6 : m ≤ tl ∧ tl ≤ M) :
    |(nudge1 t jr jl br bl tr tl).1 - jr| ≤ 3 * t * (M - m) ∧
    |(nudge1 t jr jl br bl tr tl).2.1 - jl| ≤ 3 * t * (M - m) ∧
    |(nudge1 t jr jl br bl tr tl).2.2.1 - br| ≤ 3 * t * (M - m) ∧
    |(nudge1 t jr jl br bl tr tl).2.2.2.1 - bl| ≤ 3 * t * (M - m) ∧
    |(nudge1 t jr jl br bl tr tl).2.2.2.2.1 - tr| ≤ 3 * t * (M - m) ∧
    |(nudge1 t jr jl br bl tr tl).2.2.2.2.2 - tl| ≤ 3 * t * (M - m) := by
  unfold nudge1
  simp only [ex_add, ex_sub, ex_mul]
  have a1 := convex_mem ht ht' h1 h2 h3 h5
  have a2 := convex_mem ht ht' h2 a1 h4 h6
  have a3 := convex_mem ht ht' h3 h4 a1 h5
  have a4 := convex_mem ht ht' h4 a3 a2 h6
  have a5 := convex_mem ht ht' h5 h6 a1 a3
  exact ⟨nudge_move ht h1 h2 h3 h5, nudge_move ht h2 a1 h4 h6, nudge_move ht h3 h4 a1 h5,
    nudge_move ht h4 a3 a2 h6, nudge_move ht h5 h6 a1 a3, nudge_move ht h6 a5 a2 a4⟩

/-- The three edges along the width are parallel -/
def Parallel (c : Corners K) : Prop :=
  c.bl.z - c.br.z = c.jl.z - c.jr.z ∧ c.tl.z - c.tr.z = c.jl.z - c.jr.z

theorem cornerSets_parallel (g : Grid K) (pos : Vec3 K) (ori : Quat K) (body : Body K) :
    ∀ c ∈ cornerSets g pos ori body, Parallel c := by
  have h0 : Parallel (calcBodyCornerPos pos ori body) := by
    unfold Parallel calcBodyCornerPos Vec3.addF Vec3.subF
    simp only [ex_add, ex_sub]
    constructor <;> ring
  have h1 : Parallel (bladeBack g (calcBodyCornerPos pos ori body)) := by
    generalize calcBodyCornerPos pos ori body = c at h0 ⊢
    unfold Parallel at h0 ⊢
    unfold bladeBack Vec3.addF
    simp only [ex_add, ex_sub]
    constructor
    · linear_combination h0.1
    · linear_combination h0.2
  unfold cornerSets
  cases body.kind <;> simp [h0, h1]

theorem paraZ_in {g : Grid K} {tol zlo zhi : K} {c : Corners K} (hz : 0 < g.cellZ) (ht : 0 ≤ tol)
    (ht' : tol ≤ 1 / 3) (hsm : 9 * tol * (zhi - zlo) ≤ 1) (hp : Parallel c)
    (h : ∀ v ∈ c.toList, zlo ≤ (idx g v).z ∧ (idx g v).z ≤ zhi) :
    ∀ z ∈ paraZ g (nudge tol c), zlo - 1 ≤ z ∧ z ≤ zhi + 1 := by
  have h' : ∀ v ∈ c.toList, (zlo + 1 - g.halfZ) * g.cellZ ≤ v.z ∧ v.z ≤ (zhi + 1 - g.halfZ) * g.cellZ := by
    intro v hv
    have := h v hv
    unfold idx at this
    exact (div_mem' hz).mp this
  unfold Corners.toList at h'
  simp only [List.mem_cons, List.not_mem_nil, or_false, forall_eq_or_imp, forall_eq] at h'
  obtain ⟨h1, h2, h3, h4, h5, h6⟩ := h'
  have M := nudge1_move ht ht' h1 h2 h3 h4 h5 h6
  set D := 3 * tol * ((zhi + 1 - g.halfZ) * g.cellZ - (zlo + 1 - g.halfZ) * g.cellZ) with hD
  have hD' : 3 * D ≤ g.cellZ := by
    have : 3 * D = 9 * tol * (zhi - zlo) * g.cellZ := by rw [hD]; ring
    rw [this]
    calc 9 * tol * (zhi - zlo) * g.cellZ ≤ 1 * g.cellZ := mul_le_mul_of_nonneg_right hsm hz.le
      _ = g.cellZ := one_mul _
  have conv : ∀ a b d : Vec3 K, (idx g a).z + (idx g b).z - (idx g d).z =
      (a.z + b.z - d.z) / g.cellZ + g.halfZ - 1 := by
    intro a b d; unfold idx; ring
  simp only [abs_le] at M
  obtain ⟨M1, M2, M3, M4, M5, M6⟩ := M
  obtain ⟨P1, P2⟩ := hp
  intro z hz'
  unfold paraZ at hz'
  simp only [conv, List.mem_cons, List.not_mem_nil, or_false] at hz'
  have lo : (zlo - 1 + 1 - g.halfZ) * g.cellZ = (zlo + 1 - g.halfZ) * g.cellZ - g.cellZ := by ring
  have hi : (zhi + 1 + 1 - g.halfZ) * g.cellZ = (zhi + 1 - g.halfZ) * g.cellZ + g.cellZ := by ring
  rcases hz' with rfl | rfl | rfl
  all_goals
    rw [div_mem' hz, lo, hi]
    unfold nudge
    dsimp only
    constructor <;> linarith [h1.1, h1.2, h2.1, h2.2, h3.1, h3.2, h4.1, h4.2, h5.1, h5.2, h6.1, h6.2]

/-- `CalcBodyPos` returns when the body is inside the grid -/
theorem calcBodyPos_ok (hs : SqrtLaw K) {s : SimOut K} {pos : Vec3 K} {ori : Quat K}
    {g : Grid K} {body : Body K} {p : SimParam K} {tol : K} (hzg : ZGrid g) (hc : 0 < g.cellXY)
    (hA : Al g.cellZ (g.vectZ 0)) (ht : 0 < tol) (ht' : tol ≤ 1 / 3)
    (hsm : 18 * tol * g.halfZ ≤ 1) (hb : 2 ≤ p.cellBuffer)
    (hsz : SameSize g s) (hIn : BodyInArea s) (harea : AreaInside s.bodyArea s)
    (hal : ∀ k i j, s.InGrid i j → Al g.cellZ (s.body k i j))
    (hoff : ∀ v ∈ bodyVertices g pos ori body, OffBorder g v)
    (hin : ∀ v ∈ bodyVertices g pos ori body, InsideZ g v) :
    ∃ N, ∀ fuel, N ≤ fuel → ∃ s', calcBodyPos fuel s pos ori g body p tol = .ok s' := by
  obtain ⟨B, hB⟩ := exists_box g (bodyVertices g pos ori body)
  -- tight lower height
  have hne : bodyVertices g pos ori body ≠ [] := by
    unfold bodyVertices Corners.toList
    cases body.kind <;> simp
  obtain ⟨zlo, hlo, vz, vzm, hvz⟩ : ∃ lo, (∀ v ∈ bodyVertices g pos ori body, lo ≤ (idx g v).z) ∧
      ∃ v ∈ bodyVertices g pos ori body, (idx g v).z = lo := by
    cases hl : bodyVertices g pos ori body with
    | nil => exact absurd hl hne
    | cons v l =>
      refine ⟨FOps.minL (idx g v).z (l.map fun u => (idx g u).z), ?_, ?_⟩
      · intro u hu
        refine minL_le ?_
        rw [← List.map_cons (f := fun u : Vec3 K => (idx g u).z)]; exact List.mem_map_of_mem hu
      · have := minL_mem (idx g v).z (l.map fun u => (idx g u).z)
        rw [← List.map_cons (f := fun u : Vec3 K => (idx g u).z)] at this
        obtain ⟨u, hu, e⟩ := List.mem_map.mp this
        exact ⟨u, hu, e⟩
  have hzlo : 0 < zlo := by rw [← hvz]; exact (hin vz vzm).1
  have hlo1 : zlo ≤ 2 * (g.halfZ : K) - 1 := by rw [← hvz]; exact (hin vz vzm).2
  set zhi : K := 2 * (g.halfZ : K) - 1 with hzhi
  have hzv : ∀ v ∈ bodyVertices g pos ori body, zlo ≤ (idx g v).z ∧ (idx g v).z ≤ zhi := fun v hv =>
    ⟨hlo v hv, (hin v hv).2⟩
  have hnv := nudgedVertices_in (tol := tol) (B := ⟨B.xlo, B.xhi, B.ylo, B.yhi, zlo, zhi⟩)
    hc hzg.pos ht.le ht' (fun v hv => ⟨(hB v hv).1, (hB v hv).2.1, hzv v hv⟩)
  obtain ⟨N, walls, xlo, xhi, ylo, yhi, hrun, -, hne', hf, ⟨-, v1, m1, e1⟩, ⟨-, v2, m2, e2⟩,
    ⟨-, v3, m3, e3⟩, ⟨-, v4, m4, e4⟩⟩ := calcBodyPos_struct hs pos ori g body p tol ht.le hc zlo zhi
    (fun v hv => (hnv v hv).2.2)
    (fun c hcm => paraZ_in hzg.pos ht.le ht' (by
      have : 9 * tol * (zhi - zlo) ≤ 9 * tol * (2 * g.halfZ) :=
        mul_le_mul_of_nonneg_left (by linarith) (by positivity)
      linarith) (cornerSets_parallel g pos ori body c hcm) (fun v hv => hzv v (by
        rw [bodyVertices_eq]; exact List.mem_flatMap.mpr ⟨c, hcm, hv⟩)))
  have hoff' := offBorder_box hc hzg.pos ht.le ht' hoff
  have hx : 3 / 2 ≤ xlo ∧ xhi < 2 * (g.halfX : K) - 3 / 2 := by
    rw [← e1, ← e2]; exact ⟨(hoff' v1 m1).1.1, (hoff' v2 m2).1.2⟩
  have hy : 3 / 2 ≤ ylo ∧ yhi < 2 * (g.halfY : K) - 3 / 2 := by
    rw [← e3, ← e4]; exact ⟨(hoff' v3 m3).2.1, (hoff' v4 m4).2.2⟩
  obtain ⟨s1, h1⟩ := resetBody_ok s.bodyArea.cells s (by
    rintro ⟨i, j⟩ hp
    obtain ⟨a1, a2, a3, a4⟩ := Area.mem_cells.mp hp
    obtain ⟨b1, b2, b3, b4⟩ := harea
    unfold SimOut.InGrid
    dsimp only at a1 a2 a3 a4 ⊢
    omega)
  have hC : ∀ w ∈ walls, ∀ x ∈ w, CellOK g s x := by
    intro w hw x hxw
    obtain ⟨y, e, ⟨x1, x2⟩, ⟨y1, y2⟩, ⟨z1, z2⟩⟩ := hf w hw x hxw
    have c1 := foot_col hb hx.1 hx.2 x1 x2
    have c2 := foot_col hb hy.1 hy.2 y1 y2
    subst e
    obtain ⟨s1, s2⟩ := hsz
    refine ⟨?_, ?_, ?_⟩
    · unfold SimOut.InGrid
      dsimp only
      omega
    · dsimp only at z1 z2 ⊢
      have : -1 < ⌈y.z⌉ := by
        rw [Int.lt_ceil]; push_cast; linarith
      omega
    · dsimp only at z1 z2 ⊢
      rw [Int.ceil_le]; push_cast; linarith
  obtain ⟨s', h2, -⟩ := newBody hzg ht hb hA (B := ⟨xlo, xhi, ylo, yhi, zlo, zhi⟩) hsz hIn hal
    hx hy h1 hne' hf hC rfl
  refine ⟨N, fun fuel hfuel => ⟨s', ?_⟩⟩
  rw [hrun s fuel hfuel, h1]
  exact h2

/-! ## Columns that are not written -/

section Frame

variable {F : Type} [FOps F]

/-- only the body of column `(i, j)` may differ -/
def OnlyCol (i j : ℤ) (s s' : SimOut F) : Prop :=
  s' = { s with body := s'.body } ∧ ∀ k a b, ¬ (a = i ∧ b = j) → s'.body k a b = s.body k a b

theorem OnlyCol.refl (i j : ℤ) (s : SimOut F) : OnlyCol i j s s := ⟨rfl, fun _ _ _ _ => rfl⟩

theorem OnlyCol.set {i j : ℤ} {s s' : SimOut F} (h : OnlyCol i j s s') (n : ℕ) (v : F) :
    OnlyCol i j s (s'.setB n i j v) := by
  refine ⟨?_, ?_⟩
  · unfold SimOut.setB
    rw [h.1]
  · intro k a b hab
    unfold SimOut.setB upd3
    dsimp only
    rw [if_neg (fun hh => hab hh.2)]
    exact h.2 k a b hab

theorem mergeClosest_only (s : SimOut F) (i j : ℤ) (lo hi : F) :
    OnlyCol i j s (mergeClosest s i j lo hi) := by
  unfold mergeClosest
  dsimp only
  split_ifs <;> exact (OnlyCol.refl i j s).set _ _

theorem includeNewBodyPos_only {s s' : SimOut F} {i j : ℤ} {lo hi tol : F}
    (h : includeNewBodyPos s i j lo hi tol = .ok s') : OnlyCol i j s s' := by
  unfold includeNewBodyPos at h
  obtain ⟨-, h⟩ := guardOob_bind.mp h
  dsimp only at h
  have r := OnlyCol.refl i j s
  split_ifs at h <;> cases h
  · exact r
  · exact r
  · exact (((r.set _ _).set _ _).set _ _).set _ _
  · exact (r.set _ _).set _ _
  · exact (r.set _ _).set _ _
  · exact (r.set _ _).set _ _
  · exact (r.set _ _).set _ _
  · exact mergeClosest_only s i j lo hi

/-- only the body of the columns satisfying `P` may differ -/
def OnlyCols (P : ℤ → ℤ → Prop) (s s' : SimOut F) : Prop :=
  s' = { s with body := s'.body } ∧ ∀ k a b, ¬ P a b → s'.body k a b = s.body k a b

theorem OnlyCols.trans {P : ℤ → ℤ → Prop} {s s' s'' : SimOut F} (h : OnlyCols P s s')
    (h' : OnlyCols P s' s'') : OnlyCols P s s'' :=
  ⟨by rw [h'.1, h.1], fun k a b hp => (h'.2 k a b hp).trans (h.2 k a b hp)⟩

theorem OnlyCol.cols {P : ℤ → ℤ → Prop} {i j : ℤ} {s s' : SimOut F} (h : OnlyCol i j s s')
    (hp : P i j) : OnlyCols P s s' :=
  ⟨h.1, fun k a b hn => h.2 k a b (by rintro ⟨rfl, rfl⟩; exact hn hp)⟩

theorem updateBodyLoop_only {g : Grid F} {tol : F} {P : ℤ → ℤ → Prop} (l : List Cell3)
    (s s' : SimOut F) (ii jj : ℤ) (lo hi : F) (hp : P ii jj) (hl : ∀ x ∈ l, P x.1 x.2.1)
    (h : updateBodyLoop g tol l s ii jj lo hi = .ok s') : OnlyCols P s s' := by
  induction l generalizing s ii jj lo hi with
  | nil => exact (includeNewBodyPos_only h).cols hp
  | cons x l ih =>
    obtain ⟨i, j, k⟩ := x
    unfold updateBodyLoop at h
    have hx := hl _ List.mem_cons_self
    have hl' : ∀ x ∈ l, P x.1 x.2.1 := fun y hy => hl y (List.mem_cons_of_mem _ hy)
    split_ifs at h
    · obtain ⟨s1, h1, h⟩ := bind_eq_ok.mp h
      obtain ⟨z, -, h⟩ := bind_eq_ok.mp h
      exact ((includeNewBodyPos_only h1).cols hp).trans (ih s1 i j _ _ hx hl' h)
    · obtain ⟨z, -, h⟩ := bind_eq_ok.mp h
      exact ih s ii jj _ _ hp hl' h

theorem updateWalls_only {g : Grid F} {tol : F} {P : ℤ → ℤ → Prop} (ws : List (List Cell3))
    (s s' : SimOut F) (hl : ∀ w ∈ ws, ∀ x ∈ w, P x.1 x.2.1)
    (h : updateWalls g tol ws s = .ok s') : OnlyCols P s s' := by
  induction ws generalizing s with
  | nil => cases h; exact ⟨rfl, fun _ _ _ _ => rfl⟩
  | cons w ws ih =>
    unfold updateWalls at h
    obtain ⟨s1, h1, h⟩ := bind_eq_ok.mp h
    refine OnlyCols.trans ?_ (ih s1 (fun v hv => hl v (List.mem_cons_of_mem _ hv)) h)
    have hw : ∀ x ∈ sortCells w, P x.1 x.2.1 := fun x hx =>
      hl w List.mem_cons_self x (mem_sortCells.mp hx)
    unfold updateBody at h1
    generalize sortCells w = v at h1 hw
    cases v with
    | nil => cases h1
    | cons x l =>
      obtain ⟨i, j, k⟩ := x
      obtain ⟨z, -, h1⟩ := bind_eq_ok.mp h1
      exact updateBodyLoop_only _ _ _ _ _ _ _ (hw (i, j, k) List.mem_cons_self) hw h1

end Frame

end Soil
