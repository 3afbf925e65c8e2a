import Verif.Proof.SimBody
import Verif.Spec.Fits
import Verif.Proof.BodyPos

/-!
# Simulation by exact arithmetic with cells of height one: placement of the body
-/

set_option linter.unusedSectionVars false
set_option linter.unusedVariables false

namespace Soil

open FOps

section pair

variable {F G : Type} [FOps F] [FOps G] {cell tol : F} {cell' tol' : G} {N C : ℤ}
  {P : Pair F G cell tol cell' tol' N C}

theorem layerStatus_sim {s : SimOut F} {z : SimOut G} (h : Rep P 1 s z) {i j : ℤ} (hij : z.InGrid i j)
    {a b : F} {a' b' : G} (ha : V P 1 a a') (hb : V P 1 b b') {k : ℕ} (hk : k + 1 < 4) :
    layerStatus s i j a b tol k = layerStatus z i j a' b' tol' k := by
  have h0 := h.B k i j hij (by omega)
  have h1 := h.B (k + 1) i j hij hk
  unfold layerStatus
  rw [h.bodyAbs hij hk, ha.subTol_lt h0, h0.lt_addTol hb, ha.subTol_lt h1, h1.lt_addTol hb,
    h0.lt_addTol ha, hb.subTol_lt h1]

theorem mergeClosest_sim {s : SimOut F} {z : SimOut G} (h : Rep P 1 s z) {i j : ℤ} (hij : z.InGrid i j)
    {a b : F} {a' b' : G} (ha : V P 1 a a') (hb : V P 1 b b') :
    Rep P 1 (mergeClosest s i j a b) (mergeClosest z i j a' b') := by
  have h0 := ((h.B 0 i j hij (by omega)).sub hb).abs
  have h1 := (ha.sub (h.B 1 i j hij (by omega))).abs
  have h2 := ((h.B 2 i j hij (by omega)).sub hb).abs
  have h3 := (ha.sub (h.B 3 i j hij (by omega))).abs
  unfold mergeClosest
  dsimp only
  exact Rep.ite ((h0.min h1 (f := 2)).lt (h2.min h3 (f := 2)))
    (Rep.ite (h0.lt h1) (h.setB _ _ _ ha) (h.setB _ _ _ hb))
    (Rep.ite (h2.lt h3) (h.setB _ _ _ ha) (h.setB _ _ _ hb))

theorem includeNewBodyPos_sim {s : SimOut F} {z : SimOut G} (h : Rep P 1 s z) {i j : ℤ}
    {a b : F} {a' b' : G} (ha : V P 1 a a') (hb : V P 1 b b') :
    Sim (includeNewBodyPos s i j a b tol) (includeNewBodyPos z i j a' b' tol') (Rep P 1) := by
  unfold includeNewBodyPos
  refine Sim.guard (h.inGrid i j) fun hij => ?_
  dsimp only
  rw [layerStatus_sim h hij ha hb (k := 0) (by omega), layerStatus_sim h hij ha hb (k := 2) (by omega)]
  have h0 := h.B 0 i j hij (by omega)
  have h1 := h.B 1 i j hij (by omega)
  have h2 := h.B 2 i j hij (by omega)
  have h3 := h.B 3 i j hij (by omega)
  split_ifs
  · exact Sim.ok h
  · exact Sim.ok h
  · refine Sim.ok ((((h.setB _ _ _ ?_).setB _ _ _ ?_).setB _ _ _ V.zero).setB _ _ _ V.zero)
    · simp only [FOps.minL, List.foldl_cons, List.foldl_nil]
      exact (h0.min h2 (f := 1)).min ha
    · simp only [FOps.maxL, List.foldl_cons, List.foldl_nil]
      exact (h1.max h3 (f := 1)).max hb
  · exact Sim.ok ((h.setB _ _ _ (h0.min ha)).setB _ _ _ (h1.max hb))
  · exact Sim.ok ((h.setB _ _ _ (h2.min ha)).setB _ _ _ (h3.max hb))
  · exact Sim.ok ((h.setB _ _ _ ha).setB _ _ _ hb)
  · exact Sim.ok ((h.setB _ _ _ ha).setB _ _ _ hb)
  · exact Sim.ok (mergeClosest_sim h hij ha hb)

/-- The two grids have related heights. -/
structure ZRep (P : Pair F G cell tol cell' tol' N C) (g : Grid F) (g' : Grid G) : Prop where
  halfZ : g.halfZ = g'.halfZ
  top : ∀ k, 0 ≤ k → k < 2 * g'.halfZ + 1 → V P 1 (g.vectZ k) (g'.vectZ k)
  bot : ∀ k, 0 ≤ k → k < 2 * g'.halfZ + 1 → V P 1 (g.vectZ k -ᶠ g.cellZ) (g'.vectZ k -ᶠ g'.cellZ)

variable {g : Grid F} {g' : Grid G} (hg : ZRep P g g')

include hg

theorem zAt_sim (k : ℤ) : Sim (zAt g k) (zAt g' k) fun x y =>
    V P 1 x y ∧ V P 1 (x -ᶠ g.cellZ) (y -ᶠ g'.cellZ) := by
  unfold zAt
  exact Sim.guard (by rw [hg.halfZ]) fun hk => Sim.ok ⟨hg.top k hk.1 hk.2, hg.bot k hk.1 hk.2⟩

theorem updateBodyLoop_sim (l : List Cell3) {s : SimOut F} {z : SimOut G} (h : Rep P 1 s z) {i j : ℤ}
    {a b : F} {a' b' : G} (ha : V P 1 a a') (hb : V P 1 b b') :
    Sim (updateBodyLoop g tol l s i j a b) (updateBodyLoop g' tol' l z i j a' b') (Rep P 1) := by
  induction l generalizing s z i j a b a' b' with
  | nil => exact includeNewBodyPos_sim h ha hb
  | cons x l ih =>
    obtain ⟨i', j', k⟩ := x
    unfold updateBodyLoop
    split_ifs
    · refine (includeNewBodyPos_sim h ha hb).bind fun s1 z1 _ _ h1 => ?_
      exact (zAt_sim hg k).bind fun x y _ _ hxy => ih h1 hxy.2 hxy.1
    · exact (zAt_sim hg k).bind fun x y _ _ hxy => ih h ha hxy.1

theorem updateBody_sim (l : List Cell3) {s : SimOut F} {z : SimOut G} (h : Rep P 1 s z) :
    Sim (updateBody l s g tol) (updateBody l z g' tol') (Rep P 1) := by
  unfold updateBody
  split
  · exact Sim.error
  · exact (zAt_sim hg _).bind fun x y _ _ hxy => updateBodyLoop_sim hg _ h hxy.2 hxy.1

theorem updateWalls_sim (ws : List (List Cell3)) {s : SimOut F} {z : SimOut G} (h : Rep P 1 s z) :
    Sim (updateWalls g tol ws s) (updateWalls g' tol' ws z) (Rep P 1) := by
  induction ws generalizing s z with
  | nil => exact Sim.ok h
  | cons w ws ih =>
    unfold updateWalls
    exact (updateBody_sim hg _ h).bind fun s1 z1 _ _ h1 => ih h1

omit hg in
theorem resetBody_sim (l : List (ℤ × ℤ)) {s : SimOut F} {z : SimOut G} (h : Rep P 1 s z) :
    Sim (resetBody l s) (resetBody l z) (Rep P 1) := by
  induction l generalizing s z with
  | nil => exact Sim.ok h
  | cons p l ih =>
    unfold resetBody
    refine Sim.guard (h.inGrid _ _) fun _ => ?_
    exact ih ((((h.setB _ _ _ V.zero).setB _ _ _ V.zero).setB _ _ _ V.zero).setB _ _ _ V.zero)

end pair

theorem calcBodyPos_footprint {F : Type} [FOps F] (fuel : ℕ) (s : SimOut F) (pos : Vec3 F)
    (ori : Quat F) (g : Grid F) (body : Body F) (p : SimParam F) (tol : F) :
    calcBodyPos fuel s pos ori g body p tol = (do
      let s1 ← resetBody s.bodyArea.cells s
      let f ← bodyFootprint fuel g p tol body (pos, ori)
      updateWalls g tol f.2 { s1 with bodyArea := f.1 }) := by
  unfold calcBodyPos bodyFootprint
  congr 1
  funext s1
  dsimp only
  cases body.kind
  · dsimp only
    cases bodyAreaOf g p _ _ with
    | error e => rfl
    | ok a =>
      simp only [ok_bind]
      cases bucketWalls fuel g tol _ with
      | error e => rfl
      | ok w => rfl
  · dsimp only
    cases bodyAreaOf g p _ _ with
    | error e => rfl
    | ok a =>
      simp only [ok_bind]
      cases bladeWalls fuel g tol _ _ with
      | error e => rfl
      | ok w => rfl

variable {F : Type} [FOps F] {cell tol : F} {N C : ℤ}
  {P : Pair F ℚ cell tol (1 : ℚ) (1 / 4) N C}

/-- The exact state after the placement of the body in the other arithmetic -/
theorem calcBodyPos_shadow {g : Grid F} {g' : Grid ℚ} (hg : ZRep P g g') (hZ : ZGrid g')
    (hc : g'.cellZ = 1) (hx : g.halfX = g'.halfX) (hy : g.halfY = g'.halfY)
    (hl : Al 1 (g'.vectZ 0)) {lo hi vol : ℤ}
    (hlo : (lo : ℚ) ≤ 0 ∧ ∀ k, 0 ≤ k → k ≤ 2 * g'.halfZ → (lo : ℚ) ≤ g'.vectZ k - 1)
    (hhi : (0 : ℚ) ≤ hi ∧ ∀ k, 0 ≤ k → k ≤ 2 * g'.halfZ → g'.vectZ k ≤ hi)
    {fuel : ℕ} {pos : Vec3 F} {ori : Quat F} {body : Body F} {p : SimParam F}
    (hfit : PoseFits fuel g p tol body (pos, ori)) {s : SimOut F} {z : SimOut ℚ}
    (h : RInv P lo hi vol s z) (hs : Sound g' z) :
    Post (calcBodyPos fuel s pos ori g body p tol) fun s' => ∃ z', DInv P lo hi vol s' z' ∧
      NewBody g' z z' := by
  rw [calcBodyPos_footprint]
  intro s' hs'
  obtain ⟨s1, e1, hs'⟩ := bind_eq_ok.mp hs'
  obtain ⟨⟨area, walls⟩, e2, e3⟩ := bind_eq_ok.mp hs'
  dsimp only at e3
  rw [h.rep.bodyArea] at e1
  obtain ⟨z1, f1, r1⟩ := (resetBody_sim _ h.rep).of_ok e1
  have r2 : Rep P 1 { s1 with bodyArea := area } { z1 with bodyArea := area } := by
    obtain ⟨q1, q2, q3, q4, q5, q6, q7, q8, q9, q10⟩ := r1
    exact ⟨q1, q2, q3, rfl, q5, q6, q7, q8, q9, q10⟩
  obtain ⟨z', f3, r3⟩ := (updateWalls_sim hg walls r2).of_ok e3
  obtain ⟨fa, fw⟩ := hfit _ _ e2
  obtain ⟨k1, k2, k3, k4⟩ := resetBody_spec _ _ _ f1
  have t4 : (0 : ℚ) < 1 / 4 := by norm_num
  have hcol : ∀ a b, ({ z1 with bodyArea := area } : SimOut ℚ).InGrid a b →
      ColOK (1 / 4) { z1 with bodyArea := area } a b := by
    intro a b hab
    have hab' : z.InGrid a b := by rw [k1] at hab; exact hab
    have hno : ∀ k, k = 0 ∨ k = 2 → ¬ HasBody ({ z1 with bodyArea := area } : SimOut ℚ) k a b := by
      intro k hk hb
      have hb : z1.body k a b ≠ 0 ∨ z1.body (k + 1) a b ≠ 0 := hb
      by_cases hm : (a, b) ∈ z.bodyArea.cells
      · rw [k2 _ hm k (by omega), k2 _ hm (k + 1) (by omega)] at hb
        simp at hb
      · rw [k3 (a, b) hm k, k3 (a, b) hm (k + 1)] at hb
        exact hm (Area.mem_cells.mpr (hs.inArea k a b hab' hk hb))
    exact ⟨fun k hk hb' => absurd hb' (hno k hk), fun h0 => absurd h0 (hno 0 (.inl rfl))⟩
  obtain ⟨hne, hC⟩ := updateWalls_guard hZ t4 walls _ _ hcol f3
  have hC' : ∀ w ∈ walls, ∀ x ∈ w, CellOK g' z x := by
    intro w hw x hx
    have := hC w hw x hx
    refine ⟨?_, this.2⟩
    have h1 := this.1
    rw [k1] at h1
    exact h1
  obtain ⟨n1, n2, n3, n4, -, n6, -⟩ := (newBody_fit hZ t4 (by rw [hc]; exact hl) hs.size hs.inArea
    (by rw [hc]; exact h.wf.bodyOK.al) f1 hne hC' (area := area) (by
      intro w hw x hx'
      have q := fw w hw x hx'
      refine ⟨?_, q.1.1, q.1.2, q.2.1, q.2.2⟩
      rw [← hx, ← hy]
      omega) (by rw [← hx, ← hy]; exact fa)).post _ f3
  have n2' := n2
  rw [hc] at n2'
  have hgr : ∀ i j, z'.InGrid i j ↔ z.InGrid i j := by intro i j; rw [n1]; rfl
  refine ⟨z', ⟨r3, n2', ?_, ?_, ?_, ?_⟩, ⟨by rw [n1], n2, n3, n4⟩⟩
  · have hst := h.wf.soilOK.stored
    rw [n1]
    exact ⟨hst.1, hst.2, hst.3, hst.4, hst.5, hst.6, hst.7⟩
  · have := h.room.T
    rw [n1]; exact this
  · -- the heights of the body
    have occ : ∀ i j x, z'.InGrid i j → Occ z' i j x → (lo : ℚ) ≤ x ∧ x ≤ hi := by
      intro i j x hij hox
      obtain ⟨a, b, ha, hb, ⟨m, ⟨w, hw, hm⟩, ha1, ha2⟩, ⟨m', ⟨w', hw', hm'⟩, hb1, hb2⟩⟩ := n6 i j x hij hox
      have c1 := (hC' w hw _ hm).2
      have c2 := (hC' w' hw' _ hm').2
      have l1 := hlo.2 m c1.1 c1.2
      have l2 := hhi.2 m' c2.1 c2.2
      rw [hc] at ha1
      exact ⟨by linarith, by linarith⟩
    have lay : ∀ k i j, z'.InGrid i j → k = 0 ∨ k = 2 → ((lo : ℚ) ≤ z'.body k i j ∧ z'.body k i j ≤ hi) ∧
        (lo : ℚ) ≤ z'.body (k + 1) i j ∧ z'.body (k + 1) i j ≤ hi := by
      intro k i j hij hk
      by_cases hb : HasBody z' k i j
      · have := n2.order k i j hij hk hb
        exact ⟨occ i j _ hij ⟨k, hk, hb, le_rfl, this.le⟩, occ i j _ hij ⟨k, hk, hb, this.le, le_rfl⟩⟩
      · unfold HasBody at hb
        push Not at hb
        rw [hb.1, hb.2]
        exact ⟨⟨hlo.1, hhi.1⟩, hlo.1, hhi.1⟩
    intro k i j hij hk
    have : k = 0 ∨ k = 1 ∨ k = 2 ∨ k = 3 := by omega
    rcases this with rfl | rfl | rfl | rfl
    · exact (lay 0 i j hij (.inl rfl)).1
    · exact (lay 0 i j hij (.inl rfl)).2
    · exact (lay 2 i j hij (.inr rfl)).1
    · exact (lay 2 i j hij (.inr rfl)).2
  · have := h.room.total
    rw [n1]; exact this

end Soil
