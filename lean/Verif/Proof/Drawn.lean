import Verif.Spec.Drawn
import Verif.Proof.SimStart
import Verif.Props.Step

/-! # Steps and runs in whole numbers of cells show the body at its pose -/

set_option linter.unusedSectionVars false
set_option linter.unusedVariables false

namespace Soil

open FOps

variable {F : Type} [FOps F] {cell tol : F} {N C : ℤ}
  {P : Pair F ℚ cell tol (1 : ℚ) (1 / 4) N C} {lo hi vol : ℤ} {g : Grid F} {p : SimParam F} {g' : Grid ℚ} {p' : SimParam ℚ}

theorem Drawn.congr {walls : List (List Cell3)} {s s' : SimOut F} (h : Drawn g walls s) (hb : SameBody s s') :
    Drawn g walls s' := by
  obtain ⟨h1, h2, h3, h4⟩ := hb
  have e : ∀ i j, s'.InGrid i j ↔ s.InGrid i j := by intro i j; unfold SimOut.InGrid; rw [h3, h4]
  have e' : ∀ l i j, s'.bodyAbs l i j = s.bodyAbs l i j := by intro l i j; unfold SimOut.bodyAbs; rw [h1]
  refine ⟨fun w hw t ht => ?_, fun l i j hij hl hb => ?_⟩
  · obtain ⟨k1, l, k2, k3, k4, k5⟩ := h.covers w hw t ht
    exact ⟨(e _ _).mpr k1, l, k2, by rw [e']; exact k3, by rw [h1]; exact k4, by rw [h1]; exact k5⟩
  · have := h.only l i j ((e _ _).mp hij) hl (by rw [← e']; exact hb)
    rw [h1]
    exact this

/-- The body after its placement -/
theorem calcBodyPos_drawn (S : Shadow P lo hi vol g p g' p')
    {fuel : ℕ} {pos : Vec3 F} {ori : Quat F} {body : Body F} 
    (hfit : PoseFits fuel g p tol body (pos, ori)) {s : SimOut F} {z : SimOut ℚ}
    (h : RInv P lo hi vol s z) (hs : Sound g' z) :
    Post (calcBodyPos fuel s pos ori g body p tol) fun s' => ∃ area walls,
      bodyFootprint fuel g p tol body (pos, ori) = .ok (area, walls) ∧ s'.bodyArea = area ∧ Drawn g walls s' := by
  have hZ := S.setup.zgrid
  have hc : g'.cellZ = 1 := S.grid.cellZ'
  have hx := S.grid.halfX
  have hy := S.grid.halfY
  have hl : Al 1 (g'.vectZ 0) := by rw [← hc]; exact S.setup.level
  rw [calcBodyPos_footprint]
  intro s' hs'
  obtain ⟨s1, e1, hs'⟩ := bind_eq_ok.mp hs'
  obtain ⟨⟨area, walls⟩, e2, e3⟩ := bind_eq_ok.mp hs'
  dsimp only at e3
  rw [h.rep.bodyArea] at e1
  obtain ⟨z1, f1, r1⟩ := (resetBody_sim _ h.rep).of_ok e1
  have r2 : Rep P 1 { s1 with bodyArea := area } { z1 with bodyArea := area } := by
    obtain ⟨q1, q2, q3, q4, q5, q6, q7, q8, q9, q10⟩ := r1
    exact ⟨q1, q2, q3, rfl, q5, q6, q7, q8, q9, q10⟩
  obtain ⟨z', f3, r3⟩ := (updateWalls_sim S.z walls r2).of_ok e3
  obtain ⟨fa, fw⟩ := hfit _ _ e2
  obtain ⟨k1, k2, k3, k4⟩ := resetBody_spec _ _ _ f1
  have t4 : (0 : ℚ) < 1 / 4 := by norm_num
  have hcol : ∀ a b, ({ z1 with bodyArea := area } : SimOut ℚ).InGrid a b →
      ColOK (1 / 4) { z1 with bodyArea := area } a b := by
    intro a b hab
    have hab' : z.InGrid a b := by rw [k1] at hab; exact hab
    have hno : ∀ k, k = 0 ∨ k = 2 → ¬ HasBody ({ z1 with bodyArea := area } : SimOut ℚ) k a b := by
      intro k hk hb
      have hb : z1.body k a b ≠ 0 ∨ z1.body (k + 1) a b ≠ 0 := hb
      by_cases hm : (a, b) ∈ z.bodyArea.cells
      · rw [k2 _ hm k (by omega), k2 _ hm (k + 1) (by omega)] at hb
        simp at hb
      · rw [k3 (a, b) hm k, k3 (a, b) hm (k + 1)] at hb
        exact hm (Area.mem_cells.mpr (hs.inArea k a b hab' hk hb))
    exact ⟨fun k hk hb' => absurd hb' (hno k hk), fun h0 => absurd h0 (hno 0 (.inl rfl))⟩
  obtain ⟨hne, hC⟩ := updateWalls_guard hZ t4 walls _ _ hcol f3
  have hC' : ∀ w ∈ walls, ∀ x ∈ w, CellOK g' z x := by
    intro w hw x hx
    have := hC w hw x hx
    refine ⟨?_, this.2⟩
    have h1 := this.1
    rw [k1] at h1
    exact h1
  obtain ⟨n1, n2, n3, n4, n5, n6, n7⟩ := (newBody_fit hZ t4 (by rw [hc]; exact hl) hs.size hs.inArea
    (by rw [hc]; exact h.wf.bodyOK.al) f1 hne hC' (area := area) (by
      intro w hw x hx'
      have q := fw w hw x hx'
      refine ⟨?_, q.1.1, q.1.2, q.2.1, q.2.2⟩
      rw [← hx, ← hy]
      omega) (by rw [← hx, ← hy]; exact fa)).post _ f3
  have hgr : ∀ i j, z'.InGrid i j ↔ z.InGrid i j := by intro i j; rw [n1]; rfl
  have abs_iff : ∀ l i j, z'.InGrid i j → l = 0 ∨ l = 2 → (s'.bodyAbs l i j = false ↔ HasBody z' l i j) := by
    intro l i j hij hl
    rw [r3.bodyAbs hij (by omega)]
    unfold SimOut.bodyAbs HasBody
    simp only [ex_eq, ex_zero, Bool.and_eq_false_iff, decide_eq_false_iff_not]
  refine ⟨area, walls, e2, by rw [r3.bodyArea, n1], ⟨fun w hw t ht => ?_, fun l i j hij hl hb => ?_⟩⟩
  · have ct := hC' w hw t ht
    have hin : z'.InGrid t.1 t.2.1 := (hgr _ _).mpr ct.1
    obtain ⟨l, hl, hB, b1, b2⟩ := n7 w hw t ht (g'.vectZ t.2.2 - g'.cellZ) ⟨le_rfl, by rw [hc]; linarith⟩
    obtain ⟨l2, hl2, hB2, c1, c2⟩ := n7 w hw t ht (g'.vectZ t.2.2) ⟨by rw [hc]; linarith, le_rfl⟩
    have hsep := n2.apart t.1 t.2.1 hin
    have one : l = l2 := by
      by_contra hne'
      have key : ∀ a b : ℚ, a < b → g'.vectZ t.2.2 - g'.cellZ ≤ a → b ≤ g'.vectZ t.2.2 →
          (∀ k, k = 0 ∨ k = 2 → HasBody z' k t.1 t.2.1 → z'.body (k + 1) t.1 t.2.1 ≤ a ∨ b ≤ z'.body k t.1 t.2.1) →
          False := by
        intro a b hab h1 h2 h3
        obtain ⟨k, hk, hB', d1, d2⟩ := n7 w hw t ht ((a + b) / 2) ⟨by linarith, by linarith⟩
        rcases h3 k hk hB' with h | h <;> linarith
      rcases hl with rfl | rfl <;> rcases hl2 with rfl | rfl
      · exact hne' rfl
      · rcases hsep hB hB2 with h | h
        · exact key _ _ h (by simpa using b2) (by simpa using c1) (by
            rintro k (rfl | rfl) -
            · exact .inl le_rfl
            · exact .inr le_rfl)
        · have := n2.order 0 _ _ hin (.inl rfl) hB
          have := n2.order 2 _ _ hin (.inr rfl) hB2
          norm_num at *
          linarith
      · rcases hsep hB2 hB with h | h
        · have := n2.order 0 _ _ hin (.inl rfl) hB2
          have := n2.order 2 _ _ hin (.inr rfl) hB
          norm_num at *
          linarith
        · exact key _ _ h (by simpa using b2) (by simpa using c1) (by
            rintro k (rfl | rfl) -
            · exact .inr le_rfl
            · exact .inl le_rfl)
      · exact hne' rfl
    subst one
    have q1 := r3.B l _ _ hin (by omega)
    have q2 := r3.B (l + 1) _ _ hin (by omega)
    have ck := ct.2
    refine ⟨by rw [r3.inGrid]; exact hin, l, hl, (abs_iff l _ _ hin hl).mpr hB, ?_, ?_⟩
    · rw [V.lt (S.z.bot _ ck.1 (by have := ck.2; omega)) q1]
      simpa [ex_lt, ex_sub] using b1
    · rw [V.lt q2 (S.z.top _ ck.1 (by have := ck.2; omega))]
      simpa [ex_lt] using c2
  · rw [r3.inGrid] at hij
    have hB := (abs_iff l i j hij hl).mp hb
    have ho := n2.order l i j hij hl hB
    obtain ⟨x, -, hx1, -, ⟨m, hm, hx2, -⟩, -⟩ := n6 i j _ hij ⟨l, hl, hB, le_rfl, ho.le⟩
    obtain ⟨-, y, -, hy1, -, ⟨m', hm', -, hy2⟩⟩ := n6 i j _ hij ⟨l, hl, hB, ho.le, le_rfl⟩
    have b1 := r3.B l i j hij (by omega)
    have b2 := r3.B (l + 1) i j hij (by omega)
    have q1 := hm
    obtain ⟨w, hw, hw1⟩ := q1
    have q2 := hm'
    obtain ⟨w', hw', hw1'⟩ := q2
    have c1 := (hC' w hw _ hw1).2
    have c2 := (hC' w' hw' _ hw1').2
    refine ⟨⟨m, hm, ?_⟩, m', hm', ?_⟩
    · rw [V.lt b1 (S.z.bot m c1.1 (by have : m ≤ _ := c1.2; omega))]
      simpa [ex_lt, ex_sub] using hx2.trans hx1
    · rw [V.lt (S.z.top m' c2.1 (by have : m' ≤ _ := c2.2; omega)) b2]
      simpa [ex_lt] using hy1.trans hy2

/-- The body after a run -/
theorem run_drawn (S : Shadow P lo hi vol g p g' p') (fuel : ℕ) (qs : List (Vec3 F × Quat F)) (body : Body F)
    (hfit : ∀ q ∈ qs, PoseFits fuel g p tol body q) {w : World F} {v : World ℚ} (h : HInv P lo hi vol g' w v) :
    Post (run fuel g p tol qs body w) fun r => (r.1 = body ∧ r.2 = w) ∨ ∃ q ∈ qs, r.1 = { body with pos := q.1, ori := q.2 } ∧
      ∃ area walls, bodyFootprint fuel g p tol body q = .ok (area, walls) ∧ r.2.out.bodyArea = area ∧
        Drawn g walls r.2.out := by
  induction qs generalizing body w v with
  | nil => exact Post.ok (.inl ⟨rfl, rfl⟩)
  | cons q qs ih =>
    obtain ⟨pos, ori⟩ := q
    unfold run
    intro r hr
    obtain ⟨r1, h1, h2⟩ := bind_eq_ok.mp hr
    obtain ⟨v1, s1, -⟩ := step_shadow S fuel pos ori body (hfit _ List.mem_cons_self) h r1 h1
    cases hu : r1.updated with
    | false =>
      obtain ⟨e1, e2⟩ := (C12_step fuel pos ori g body p tol w r1 h1).1 hu
      rw [e1, e2] at h2
      rw [e1] at s1
      rcases ih body (fun q hq => hfit q (List.mem_cons_of_mem _ hq)) s1 r h2 with k | ⟨q, hq, k⟩
      · exact .inl k
      · exact .inr ⟨q, List.mem_cons_of_mem _ hq, k⟩
    | true =>
      have e := (C12_step fuel pos ori g body p tol w r1 h1).2 hu
      obtain ⟨s, hs, hsb⟩ := C19_step fuel pos ori g body p tol w r1 h1 hu
      rw [e] at h2
      right
      rcases ih { body with pos := pos, ori := ori } (fun q hq => hfit q (List.mem_cons_of_mem _ hq)) s1 r h2 with ⟨k1, k2⟩ | ⟨q, hq, k⟩
      · obtain ⟨area, walls, f1, f2, f3⟩ := calcBodyPos_drawn S (hfit _ List.mem_cons_self) h.rep.out h.sound s hs
        refine ⟨(pos, ori), List.mem_cons_self, k1, area, walls, f1, ?_, ?_⟩
        · rw [k2, hsb.2.1, f2]
        · rw [k2]; exact f3.congr hsb
      · exact ⟨q, List.mem_cons_of_mem _ hq, k⟩

end Soil
