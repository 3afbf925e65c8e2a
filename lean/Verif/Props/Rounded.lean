import Verif.Props.Cells
import Verif.Proof.ExamplePlace

/-! # Property C64: placing the body under rounding -/

set_option linter.unusedSectionVars false

namespace Soil

open FOps

variable {R : Rounding} {prec : ℕ} {u : ℚ}

/-- **C64**. Each operation is rounded to `prec` binary digits and the square root has a relative error of at most
`u ≥ 2 ^ -prec`.  If the grid is small compared to the precision and the vertices as computed are at least two
cells from its edges and not too high, then `CalcBodyPos` returns normally from every state whose
`body_area_` is inside the grid.  The new `body_area_` is off the border, nothing but the body and `body_area_`
changes, the columns of the old area that are not in the new one are empty, and the body in all other columns
outside the new area is as before. -/
theorem C64_place (hR : R.rnd = roundBinary prec) (hu : 2 ^ (-(prec : ℤ)) ≤ u) (hs : SqrtAccurate R u) {B H : ℤ}
    {g : Grid (Flt R)} {p : SimParam (Flt R)} (P : PoseSetup prec u B H g p) {tol : Flt R} (htol : 0 ≤ tol.val)
    {body : Body (Flt R)} {q : Vec3 (Flt R) × Quat (Flt R)} (hq : ∀ v ∈ usedVertices g tol body q, VertexFits g H v)
    {s : SimOut (Flt R)} (hX : s.lenX = 2 * g.halfX + 1) (hY : s.lenY = 2 * g.halfY + 1) (ha : AreaInside s.bodyArea s)
    {fuel : ℕ} (hfuel : 3 * B + 4 ≤ fuel) :
    ∃ s', calcBodyPos fuel s q.1 q.2 g body p tol = .ok s' ∧ AreaInside s'.bodyArea s' ∧
      s' = { s with body := s'.body, bodyArea := s'.bodyArea } ∧
      ∀ k i j, k < 4 → ¬ s'.bodyArea.Has i j →
        (s.bodyArea.Has i j → s'.body k i j = zero) ∧ (¬ s.bodyArea.Has i j → s'.body k i j = s.body k i j) := by
  rcases footprint_flt (P.accurate hR hu hs) P htol hq fuel with ⟨-, h⟩ | ⟨r, h1, h2, h3⟩
  · omega
  obtain ⟨area, walls⟩ := r
  obtain ⟨s', e1, e2, e3⟩ := calcBodyPos_place hX hY ha h1 h2 fun w hw =>
    ⟨(h3 w hw).1, fun t ht => by
      obtain ⟨a, b, c⟩ := (h3 w hw).2 t ht
      exact ⟨⟨a.1, a.2, b.1, b.2⟩, c⟩⟩
  have ea : s'.bodyArea = area := by rw [e2]
  refine ⟨s', e1, ?_, by rw [ea]; exact e2, fun k i j hk hn => ?_⟩
  · have l1 : s'.lenX = s.lenX := by rw [e2]
    have l2 : s'.lenY = s.lenY := by rw [e2]
    unfold AreaInside
    rw [ea, l1, l2, hX, hY]
    dsimp only at h2
    omega
  · rw [ea] at hn
    have h := e3 k i j hk hn
    exact ⟨fun ho => h.trans (if_pos ho), fun ho => h.trans (if_neg ho)⟩

/-- A sequence of placements -/
def placeAll {F : Type} [FOps F] (fuel : ℕ) (g : Grid F) (body : Body F) (p : SimParam F) (tol : F) :
    List (Vec3 F × Quat F) → SimOut F → M (SimOut F)
  | [], s => .ok s
  | q :: qs, s => do
    let s ← calcBodyPos fuel s q.1 q.2 g body p tol
    placeAll fuel g body p tol qs s

/-- **C64** (any number of placements). Starting with a body that is inside `body_area_`, all placements return normally
and the body is inside `body_area_` again: nothing of an earlier placement is left elsewhere. -/
theorem C64_places (hR : R.rnd = roundBinary prec) (hu : 2 ^ (-(prec : ℤ)) ≤ u) (hs : SqrtAccurate R u) {B H : ℤ}
    {g : Grid (Flt R)} {p : SimParam (Flt R)} (P : PoseSetup prec u B H g p) {tol : Flt R} (htol : 0 ≤ tol.val)
    {body : Body (Flt R)} (qs : List (Vec3 (Flt R) × Quat (Flt R)))
    (hq : ∀ q ∈ qs, ∀ v ∈ usedVertices g tol body q, VertexFits g H v)
    {s : SimOut (Flt R)} (hX : s.lenX = 2 * g.halfX + 1) (hY : s.lenY = 2 * g.halfY + 1) (ha : AreaInside s.bodyArea s)
    (h0 : ∀ k i j, k < 4 → ¬ s.bodyArea.Has i j → s.body k i j = zero) {fuel : ℕ} (hfuel : 3 * B + 4 ≤ fuel) :
    ∃ s', placeAll fuel g body p tol qs s = .ok s' ∧ AreaInside s'.bodyArea s' ∧
      s' = { s with body := s'.body, bodyArea := s'.bodyArea } ∧
      ∀ k i j, k < 4 → ¬ s'.bodyArea.Has i j → s'.body k i j = zero := by
  induction qs generalizing s with
  | nil => exact ⟨s, rfl, ha, rfl, h0⟩
  | cons q qs ih =>
    obtain ⟨s1, e1, a1, f1, o1⟩ := C64_place hR hu hs P htol (hq q List.mem_cons_self) hX hY ha hfuel
    have l1 : s1.lenX = s.lenX := by rw [f1]
    have l2 : s1.lenY = s.lenY := by rw [f1]
    obtain ⟨s', e2, a2, f2, o2⟩ := ih (fun q' h => hq q' (List.mem_cons_of_mem _ h)) (l1.trans hX) (l2.trans hY) a1
      (fun k i j hk hn => by
        by_cases ho : s.bodyArea.Has i j
        · exact (o1 k i j hk hn).1 ho
        · exact ((o1 k i j hk hn).2 ho).trans (h0 k i j hk ho))
    refine ⟨s', ?_, a2, ?_, o2⟩
    · unfold placeAll
      rw [e1, ok_bind]
      exact e2
    · rw [f2, f1]

/-- **C49** (poses). C49 for rounded arithmetic with a condition on the vertices of the body instead of its
columns. -/
theorem C49_poses (hR : R.rnd = roundBinary prec) (hu : 2 ^ (-(prec : ℤ)) ≤ u) (hs : SqrtAccurate R u) {a : ℤ} {j : ℕ} {tol : ℚ}
    {N C : ℤ} (D : CellDigits prec a j tol N C) {lo hi vol H B Z : ℤ} {g : Grid (Flt R)} {p : SimParam (Flt R)}
    (P : PoseSetup prec u B Z g p) (cellZ : g.cellZ = (2 : ℚ) ^ a)
    (heights : ∃ z0 : ℤ, ∀ k, 0 ≤ k → k ≤ 2 * g.halfZ →
      g.vectZ k = ((z0 + k : ℤ) : ℚ) * 2 ^ a ∧ lo ≤ z0 + k - 1 ∧ z0 + k ≤ hi)
    (slope : ∃ n : ℤ, dhMax g p = (n : ℚ) * 2 ^ a ∧ 0 ≤ n ∧ n ≤ H)
    (hlo : lo ≤ 0) (hhi : 0 ≤ hi) (hvol : 0 ≤ vol) (hH : 2 * vol + hi - lo ≤ H) (hN : 16 * H ≤ N)
    {w : World (Flt R)} {T : ℤ → ℤ → ℤ}
    (terrain : ∀ i j, w.out.InGrid i j → w.out.terrain i j = (T i j : ℚ) * 2 ^ a ∧ lo ≤ T i j)
    (hbody : ∀ k i j, w.out.InGrid i j → k < 4 → w.out.body k i j = (0 : ℚ))
    (hsoil : ∀ k i j, w.out.InGrid i j → k < 4 → w.out.bodySoil k i j = (0 : ℚ))
    (hpos : w.out.bodySoilPos = []) (harea : AreaInside w.out.bodyArea w.out)
    (hrelax : AreaInside w.out.relaxArea w.out) (hX : w.out.lenX = 2 * g.halfX + 1)
    (hY : w.out.lenY = 2 * g.halfY + 1) (hV : ∑ q ∈ gridCols w.out, (T q.1 q.2 - lo) ≤ vol)
    (hlog : w.log = []) (hC : vol - lo * (gridCols w.out).card ≤ C)
    (fuel : ℕ) (qs : List (Vec3 (Flt R) × Quat (Flt R))) (body : Body (Flt R))
    (hq : ∀ q ∈ qs, ∀ v ∈ usedVertices g (tol : Flt R) body q, VertexFits g Z v)
    (body' : Body (Flt R)) (w' : World (Flt R))
    (hr : run fuel g p (tol : Flt R) qs body w = .ok (body', w')) :
    checkSoil w'.out (tol : Flt R) = .ok true ∧
      (∀ i j, w'.out.InGrid i j → ∃ n : ℤ, lo ≤ n ∧ w'.out.terrain i j = (n : ℚ) * 2 ^ a) ∧
      (∀ e ∈ w'.out.bodySoilPos, ∃ n : ℤ, 0 ≤ n ∧ e.h = (n : ℚ) * 2 ^ a) ∧
      ∃ l : List ℤ, (∀ n ∈ l, 0 < n) ∧ removals w'.log = (l.map fun n : ℤ => (n : ℚ) * 2 ^ a) ∧
        checkVolume w'.out ((∑ q ∈ gridCols w.out, T q.1 q.2) - l.sum) g (tol : Flt R) = .ok true := by
  have htol : 0 ≤ (show Flt R from tol).val := by
    show (0 : ℚ) ≤ tol
    have := D.tol_ge
    exact le_trans (by positivity) this
  exact C49_float hR D cellZ heights slope (by have := P.buffer; omega) hlo hhi hvol hH hN terrain hbody hsoil hpos harea hrelax hX hY
    hV hlog hC fuel qs body (fun q h => poseFits_flt (P.accurate hR hu hs) P htol (hq q h) fuel) body' w' hr

/-! ## A concrete case -/

/-- A slightly rotated bucket, and likewise a blade, in a grid of thirteen by thirteen columns: with 24 binary digits the
hypotheses of C64 are met, and the body is written. -/
example (kind : BodyKind) : plcR.rnd = roundBinary 24 ∧ (2 : ℚ) ^ (-((24 : ℕ) : ℤ)) ≤ 2 ^ (-23 : ℤ) ∧ SqrtAccurate plcR (2 ^ (-23 : ℤ)) ∧
    PoseSetup 24 (2 ^ (-23 : ℤ)) 28 4 plcGrid plcParam ∧
    (∀ v ∈ usedVertices plcGrid (1 / 64 : ℚ) (plcBody kind) plcPose, VertexFits plcGrid 4 v) ∧
    ∃ s', calcBodyPos 88 plcWorld.out plcPose.1 plcPose.2 plcGrid (plcBody kind) plcParam (1 / 64 : ℚ) = .ok s' ∧
      FOps.lt (s'.body 0 8 6) FOps.zero = true ∧ AreaInside s'.bodyArea s' ∧
      ∀ k i j, k < 4 → ¬ s'.bodyArea.Has i j → s'.body k i j = FOps.zero := by
  refine ⟨rfl, by norm_num, plcR_sqrt, plcSetup, plcFits kind, ?_⟩
  have hz : ∀ k i j, plcWorld.out.body k i j = FOps.zero := fun k i j => by
    show (0 : ℚ) = roundBinary 24 0
    simp [roundBinary]
  obtain ⟨s', h1, h2, -, h3⟩ := C64_place (R := plcR) rfl (by norm_num) plcR_sqrt plcSetup (tol := (1 / 64 : ℚ))
    (show (0 : ℚ) ≤ 1 / 64 by norm_num) (plcFits kind) (s := plcWorld.out) rfl rfl (by unfold AreaInside; decide) (fuel := 88) (by norm_num)
  have hw := plcWritten kind
  rw [h1] at hw
  dsimp only at hw
  refine ⟨s', h1, hw, h2, fun k i j hk hn => ?_⟩
  by_cases ho : plcWorld.out.bodyArea.Has i j
  · exact (h3 k i j hk hn).1 ho
  · exact ((h3 k i j hk hn).2 ho).trans (hz k i j)

end Soil
