import Verif.Proof.Transport
import Verif.Spec.Record
import Verif.Props.Quaternion
import Verif.Proof.Example

/-!
# C20, C06: transport of the soil resting on the body
-/

set_option linter.unusedSectionVars false

namespace Soil

variable {K : Type} [Field K] [LinearOrder K] [FloorRing K] [Transc K] [IsStrictOrderedRing K]

/-- **C20.** For any new body position and any stored soil (in cells) the transport conserves the
total amount of soil, leaves the body alone, and afterwards the soil conventions hold: soil rests on
body layers and the bookkeeping equals the amount resting on each layer. -/
theorem C20_conserves (pos : Vec3 K) (ori : Quat K) (g : Grid K) (body : Body K) (tol : K)
    (hc : 0 < g.cellZ) (w : World K) (hB : BodyOK g.cellZ w.out) (hS : Stored g.cellZ w.out)
    (w' : World K) (body' : Body K) (h : updateBodySoil pos ori g body tol w = .ok (w', body')) :
    totalSoil w'.out = totalSoil w.out ∧ SoilOK g.cellZ w'.out ∧ Booked w'.out ∧
      SameBody w.out w'.out ∧ body' = { body with pos := pos, ori := ori } := by
  obtain ⟨h1, h2, h3, h4, -⟩ := updateBodySoil_spec pos ori g body tol hc w hB hS _ h
  exact ⟨h4, h3, h3.booked, h2, h1⟩

/-- **C20**: where the soil goes. Every new entry is an old one with the same body-frame position and
the same amount; it lies on a layer present within one column of the moved position, less than a cell
(plus the tolerance) away or with no nearer layer around. Every old entry with soil gets such a place,
unless no layer is near and a warning is issued. Without a warning the terrain is unchanged. -/
theorem C20_follows (pos : Vec3 K) (ori : Quat K) (g : Grid K) (body : Body K) (tol : K)
    (hc : 0 < g.cellZ) (w : World K) (hB : BodyOK g.cellZ w.out) (hS : Stored g.cellZ w.out)
    (w' : World K) (body' : Body K) (h : updateBodySoil pos ori g body tol w = .ok (w', body')) :
    (∀ e' ∈ w'.out.bodySoilPos, ∃ e ∈ w.out.bodySoilPos, 0 < e.h ∧
      e' = ⟨e'.ind, e'.ii, e'.jj, e.xb, e.yb, e.zb, e.h⟩ ∧
      Chosen g tol w.out (movedTo pos ori e) e'.ind e'.ii e'.jj) ∧
    (∀ e ∈ w.out.bodySoilPos, 0 < e.h →
      (∃ k i j, ⟨k, i, j, e.xb, e.yb, e.zb, e.h⟩ ∈ w'.out.bodySoilPos ∧
        Chosen g tol w.out (movedTo pos ori e) k i j) ∨
      (NoWall g w.out (movedTo pos ori e) ∧ Warn.soilToTerrain ∈ w'.log)) ∧
    ∃ n, w'.log = w.log ++ List.replicate n .soilToTerrain ∧
      w'.out.bodySoilPos.length + n = (w.out.bodySoilPos.filter fun e => 0 < e.h).length ∧
      (n = 0 → w'.out.terrain = w.out.terrain) :=
  (updateBodySoil_spec pos ori g body tol hc w hB hS _ h).2.2.2.2

/-- **C20**: the transport returns normally when the nine columns around the moved position of every
entry that is not dropped are in the grid; in particular the "closest location" is never used uninitialised. -/
theorem C20_safe (pos : Vec3 K) (ori : Quat K) (g : Grid K) (body : Body K) (tol : K) (w : World K)
    (he : EntriesInGrid w.out)
    (hg : ∀ e ∈ w.out.bodySoilPos, 9 / 10 * g.cellZ ≤ e.h → ∀ i j, colX g (movedTo pos ori e) - 1 ≤ i →
      i ≤ colX g (movedTo pos ori e) + 1 → colY g (movedTo pos ori e) - 1 ≤ j →
      j ≤ colY g (movedTo pos ori e) + 1 → w.out.InGrid i j) :
    ∃ x, updateBodySoil pos ori g body tol w = .ok x :=
  updateBodySoil_ok pos ori g body tol w he hg

/-- **C06**, replay. When the pose does not change and every entry holding soil has the body-frame position
of the top of the layer it rests on (as computed by `CalcBodyFramePos`), the transport puts every entry
back in the very column it came from, with the same body-frame position and amount. It may only
change the layer of the column, if the tops of its two layers are at most a cell (plus the tolerance) apart.
The terrain does not change and no warning is issued. -/
theorem C06_replay (g : Grid K) (body : Body K) (tol : K) (ht : 0 ≤ tol) (hc : 0 < g.cellZ) (hhz : 0 < g.halfZ)
    (hxy : g.cellXY ≠ 0) (hq : qnormSq body.ori ≠ 0) (gx gy : K)
    (hvx : ∀ i, 0 ≤ i → g.vectX i = -gx + i * g.cellXY) (hvy : ∀ i, 0 ≤ i → g.vectY i = -gy + i * g.cellXY)
    (hx : |gx / g.cellXY - g.halfX| < 1 / 2) (hy : |gy / g.cellXY - g.halfY| < 1 / 2)
    (w : World K) (hB : BodyOK g.cellZ w.out) (hS : Stored g.cellZ w.out)
    (hf : ∀ e ∈ w.out.bodySoilPos, 0 < e.h → HasBody w.out e.ind e.ii e.jj ∧
      ⟨e.xb, e.yb, e.zb⟩ = calcBodyFramePos e.ii e.jj (w.out.body (e.ind + 1) e.ii e.jj) g body)
    (w' : World K) (body' : Body K) (h : updateBodySoil body.pos body.ori g body tol w = .ok (w', body')) :
    (∀ e ∈ w.out.bodySoilPos, 0 < e.h → ∃ k, ⟨k, e.ii, e.jj, e.xb, e.yb, e.zb, e.h⟩ ∈ w'.out.bodySoilPos ∧
      |w.out.body (e.ind + 1) e.ii e.jj - w.out.body (k + 1) e.ii e.jj| < g.cellZ + tol) ∧
    (∀ e' ∈ w'.out.bodySoilPos, ∃ e ∈ w.out.bodySoilPos, 0 < e.h ∧
      e' = ⟨e'.ind, e.ii, e.jj, e.xb, e.yb, e.zb, e.h⟩) ∧
    w'.out.terrain = w.out.terrain ∧ w'.log = w.log := by
  -- the pose carries every entry to the centre of its column
  have hm : ∀ e ∈ w.out.bodySoilPos, 0 < e.h →
      movedTo body.pos body.ori e = ⟨g.vectX e.ii, g.vectY e.jj, w.out.body (e.ind + 1) e.ii e.jj⟩ := by
    intro e he hp
    unfold movedTo
    rw [(hf e he hp).2]
    exact C06_body_frame e.ii e.jj _ g body hq
  have hcol : ∀ e ∈ w.out.bodySoilPos, 0 < e.h → colX g (movedTo body.pos body.ori e) = e.ii ∧
      colY g (movedTo body.pos body.ori e) = e.jj := by
    intro e he hp
    obtain ⟨⟨i0, -, j0, -⟩, -⟩ := hS.entries e he
    rw [hm e he hp]
    refine ⟨roundAway_eq_of_abs_lt _ _ ?_, roundAway_eq_of_abs_lt _ _ ?_⟩
    · dsimp only
      rw [hvx _ i0, show (-gx + e.ii * g.cellXY) / g.cellXY + g.halfX - e.ii = -(gx / g.cellXY - g.halfX) by
        field_simp; ring, abs_neg]
      exact hx
    · dsimp only
      rw [hvy _ j0, show (-gy + e.jj * g.cellXY) / g.cellXY + g.halfY - e.jj = -(gy / g.cellXY - g.halfY) by
        field_simp; ring, abs_neg]
      exact hy
  -- so its own layer is near enough
  have hnear : ∀ e ∈ w.out.bodySoilPos, 0 < e.h → ∀ k i j,
      Chosen g tol w.out (movedTo body.pos body.ori e) k i j → i = e.ii ∧ j = e.jj ∧
      |w.out.body (e.ind + 1) e.ii e.jj - w.out.body (k + 1) e.ii e.jj| < g.cellZ + tol := by
    intro e he hp k i j hch
    obtain ⟨c1, c2⟩ := hcol e he hp
    have hz : (movedTo body.pos body.ori e).z = w.out.body (e.ind + 1) e.ii e.jj := by rw [hm e he hp]
    obtain ⟨o1, o2⟩ := hch.own ⟨e.ind, (hS.entries e he).2, by
      rw [c1, c2]; exact (hf e he hp).1, by rw [c1, c2, hz, sub_self, abs_zero]; linarith⟩
    rw [c1] at o1
    rw [c2] at o2
    refine ⟨o1, o2, ?_⟩
    have hb := hch.best
    rw [hz, o1, o2] at hb
    rcases hb with hb | hb
    · exact hb
    · have := hb e.ind e.ii e.jj (hS.entries e he).2 (by omega) (by omega) (by omega) (by omega) (hf e he hp).1
      rw [sub_self, abs_zero] at this
      linarith
  have hno : ∀ e ∈ w.out.bodySoilPos, 0 < e.h → ¬ NoWall g w.out (movedTo body.pos body.ori e) := by
    intro e he hp hn
    obtain ⟨c1, c2⟩ := hcol e he hp
    have hz : (movedTo body.pos body.ori e).z = w.out.body (e.ind + 1) e.ii e.jj := by rw [hm e he hp]
    have := hn e.ind e.ii e.jj (hS.entries e he).2 (by omega) (by omega) (by omega) (by omega) (hf e he hp).1
    rw [hz, sub_self, abs_zero] at this
    have h1 : (1 : K) ≤ g.halfZ := by exact_mod_cast hhz
    linarith
  obtain ⟨q1, q2⟩ := updateBodySoil_quiet body.pos body.ori g body tol hc w hS hno _ h
  obtain ⟨f1, f2, -⟩ := C20_follows body.pos body.ori g body tol hc w hB hS w' body' h
  refine ⟨?_, ?_, q2, q1⟩
  · intro e he hp
    rcases f2 e he hp with ⟨k, i, j, hin, hch⟩ | ⟨hn, -⟩
    · obtain ⟨rfl, rfl, h3⟩ := hnear e he hp k i j hch
      exact ⟨k, hin, h3⟩
    · exact (hno e he hp hn).elim
  · intro e' he'
    obtain ⟨e, he, hp, h1, hch⟩ := f1 e' he'
    obtain ⟨h2, h3, -⟩ := hnear e he hp _ _ _ hch
    exact ⟨e, he, hp, by rw [← h2, ← h3]; exact h1⟩

/-! ## The hypotheses can be met: soil follows the body by one column -/

example : 0 < exGrid.cellZ ∧ BodyOK exGrid.cellZ exWorld.out ∧ Stored exGrid.cellZ exWorld.out :=
  ⟨by norm_num [exGrid], exState_wf.bodyOK, exState_wf.soilOK.stored⟩

example : (match updateBodySoil ⟨0, 1, 2⟩ ⟨1, 0, 0, 0⟩ exGrid exBody (1 / 100) exWorld with
    | .ok (w', _) => decide (w'.log = [] ∧ w'.out.bodySoil 1 2 3 = 5 ∧ w'.out.bodySoil 1 2 2 = 0 ∧
        w'.out.bodySoilPos = [⟨0, 2, 3, 0, 0, 0, 2⟩, ⟨0, 2, 3, 0, 0, 0, 1⟩])
    | .error _ => false) = true := by decide +kernel

/-- C06, replay: the hypotheses hold for the example with the body two cells up, and both entries are put back in
their column -/
example : (∀ e ∈ exWorld.out.bodySoilPos, 0 < e.h → HasBody exWorld.out e.ind e.ii e.jj ∧
      ⟨e.xb, e.yb, e.zb⟩ = calcBodyFramePos e.ii e.jj (exWorld.out.body (e.ind + 1) e.ii e.jj) exGrid
        { exBody with pos := ⟨0, 0, 2⟩ }) ∧
    (∀ i, 0 ≤ i → exGrid.vectX i = -2 + i * exGrid.cellXY) ∧ |2 / exGrid.cellXY - exGrid.halfX| < 1 / 2 ∧
    (match updateBodySoil ⟨0, 0, 2⟩ ⟨1, 0, 0, 0⟩ exGrid { exBody with pos := ⟨0, 0, 2⟩ } (1 / 100) exWorld with
    | .ok (w', _) => decide (w'.out.bodySoilPos = [⟨0, 2, 2, 0, 0, 0, 2⟩, ⟨0, 2, 2, 0, 0, 0, 1⟩])
    | .error _ => false) = true := by
  refine ⟨by decide +kernel, fun i _ => by simp [exGrid], by norm_num [exGrid], by decide +kernel⟩

example : ∀ e ∈ exWorld.out.bodySoilPos, ∀ i j,
    colX exGrid (movedTo ⟨0, 1, 2⟩ ⟨1, 0, 0, 0⟩ e) - 1 ≤ i →
    i ≤ colX exGrid (movedTo ⟨0, 1, 2⟩ ⟨1, 0, 0, 0⟩ e) + 1 →
    colY exGrid (movedTo ⟨0, 1, 2⟩ ⟨1, 0, 0, 0⟩ e) - 1 ≤ j →
    j ≤ colY exGrid (movedTo ⟨0, 1, 2⟩ ⟨1, 0, 0, 0⟩ e) + 1 → exWorld.out.InGrid i j := by
  have : ∀ e ∈ exWorld.out.bodySoilPos, colX exGrid (movedTo ⟨0, 1, 2⟩ ⟨1, 0, 0, 0⟩ e) = 2 ∧
      colY exGrid (movedTo ⟨0, 1, 2⟩ ⟨1, 0, 0, 0⟩ e) = 3 := by decide +kernel
  intro e he i j
  obtain ⟨h1, h2⟩ := this e he
  rw [h1, h2]
  unfold SimOut.InGrid
  show _ → _ → _ → _ → 0 ≤ i ∧ i < 5 ∧ 0 ≤ j ∧ j < 5
  omega

end Soil
