import Verif.Spec.CarryFits
import Verif.Proof.SimStart
import Verif.Proof.Fuel
import Verif.Proof.TopsFlt
import Verif.Proof.Record
import Verif.Props.Intersect
import Verif.Proof.Total

/-! # A run in whole numbers of cells returns normally -/

set_option linter.unusedSectionVars false
set_option linter.unusedVariables false

namespace Soil

open FOps

variable {F : Type} [FOps F]

theorem searchWall_any (s : SimOut F) (z md : F) (iN jN : ℤ) (ds : List (ℤ × ℤ))
    (hg : ∀ d ∈ ds, s.InGrid (iN + d.1) (jN + d.2)) (d0 : F) (c : Closest F) (hc : c.loc = none → c.dist = d0) :
    ∃ r, searchWall s z md iN jN ds c = .ok r ∧ ∀ c', r = .inr c' → c'.loc = none → c'.dist = d0 := by
  have hl : ∀ k i j (c : Closest F), (c.loc = none → c.dist = d0) → ∀ c', tryLayer s z md k i j c = some c' →
      c'.loc = none → c'.dist = d0 := by
    intro k i j c hc c' h
    unfold tryLayer at h
    dsimp only at h
    split_ifs at h
    · cases h; exact hc
    · cases h; intro h; cases h
    · cases h; exact hc
  induction ds generalizing c with
  | nil => exact ⟨_, rfl, fun c' h => by cases h; exact hc⟩
  | cons d ds ih =>
    unfold searchWall
    dsimp only
    rw [guardOob_of (hg d List.mem_cons_self), ok_bind]
    split
    · exact ⟨_, rfl, fun c' h => by cases h⟩
    · rename_i c1 h1
      split
      · exact ⟨_, rfl, fun c' h => by cases h⟩
      · rename_i c2 h2
        exact ih (fun x hx => hg x (List.mem_cons_of_mem _ hx)) _ (hl _ _ _ _ (hl _ _ _ _ hc _ h1) _ h2)

theorem exploreOrder_near' (dx dy : F) : ∀ d ∈ exploreOrder dx dy, -1 ≤ d.1 ∧ d.1 ≤ 1 ∧ -1 ≤ d.2 ∧ d.2 ≤ 1 := by
  intro d hd
  unfold exploreOrder at hd
  dsimp only at hd
  have h1 : ∀ b : Bool, (if b = true then (-1 : ℤ) else 1) = -1 ∨ (if b = true then (-1 : ℤ) else 1) = 1 := by
    intro b; cases b <;> simp
  rcases h1 (FOps.signBit dx) with e1 | e1 <;> rcases h1 (FOps.signBit dy) with e2 | e2 <;>
    rw [e1, e2] at hd <;> split_ifs at hd <;> simp at hd <;>
    rcases hd with rfl | rfl | rfl | rfl | rfl | rfl | rfl | rfl | rfl <;> simp

theorem updateEntry_any (hne : ∀ x : F, FOps.ne x x = false) {pos : Vec3 F} {ori : Quat F} {g : Grid F} {body : Body F} {tol : F}
    {e : BodySoil F} {w : World F} (hX : w.out.lenX = 2 * g.halfX + 1) (hY : w.out.lenY = 2 * g.halfY + 1)
    (hl : Holds g e → LandsInside g (pos, ori) ⟨e.xb, e.yb, e.zb⟩) :
    ∃ w', updateEntry pos ori g body tol e w = .ok w' ∧ w'.out.lenX = w.out.lenX ∧ w'.out.lenY = w.out.lenY := by
  unfold updateEntry
  by_cases hs : (e.h <ᶠ ofRat (9 / 10) *ᶠ g.cellZ) = true
  · rw [if_pos hs]; exact ⟨_, rfl, rfl, rfl⟩
  obtain ⟨i, j, hi, hj, i1, i2, j1, j2⟩ := hl (by unfold Holds; simpa using hs)
  rw [if_neg hs]
  dsimp only at hi hj ⊢
  rw [hi, ok_bind, hj, ok_bind]
  obtain ⟨r, hr, hu⟩ := searchWall_any w.out ((calcRotationQuaternion ori ⟨e.xb, e.yb, e.zb⟩).addF pos).z (g.cellZ +ᶠ tol) i j
    (exploreOrder (((calcRotationQuaternion ori ⟨e.xb, e.yb, e.zb⟩).addF pos).x -ᶠ
      ((calcRotationQuaternion body.ori ⟨e.xb, e.yb, e.zb⟩).addF body.pos).x)
      (((calcRotationQuaternion ori ⟨e.xb, e.yb, e.zb⟩).addF pos).y -ᶠ
      ((calcRotationQuaternion body.ori ⟨e.xb, e.yb, e.zb⟩).addF body.pos).y)) (by
      intro d hd
      have := exploreOrder_near' _ _ d hd
      unfold SimOut.InGrid
      rw [hX, hY]
      omega) (ofInt (2 * g.halfZ)) ⟨ofInt (2 * g.halfZ), none⟩ (fun _ => rfl)
  rw [hr, ok_bind]
  rcases r with ⟨k, a, b⟩ | c
  · exact ⟨_, rfl, rfl, rfl⟩
  · dsimp only
    split_ifs with hc
    · split
      · exact ⟨_, rfl, rfl, rfl⟩
      · rename_i hn
        rw [hu c rfl hn, hne] at hc
        cases hc
    · exact ⟨_, rfl, rfl, rfl⟩

theorem updateEntries_any (hne : ∀ x : F, FOps.ne x x = false) {pos : Vec3 F} {ori : Quat F} {g : Grid F} {body : Body F} {tol : F}
    (l : List (BodySoil F)) (w : World F) (hX : w.out.lenX = 2 * g.halfX + 1) (hY : w.out.lenY = 2 * g.halfY + 1)
    (hl : ∀ e ∈ l, Holds g e → LandsInside g (pos, ori) ⟨e.xb, e.yb, e.zb⟩) :
    ∃ w', updateEntries pos ori g body tol l w = .ok w' := by
  induction l generalizing w with
  | nil => exact ⟨_, rfl⟩
  | cons e l ih =>
    obtain ⟨w1, h1, l1, l2⟩ := updateEntry_any (body := body) (tol := tol) hne hX hY (hl e List.mem_cons_self)
    unfold updateEntries
    rw [h1, ok_bind]
    exact ih w1 (l1.trans hX) (l2.trans hY) fun x hx => hl x (List.mem_cons_of_mem _ hx)

theorem resetBodySoil_any (l : List (BodySoil F)) (s : SimOut F) (h : ∀ e ∈ l, s.InGrid e.ii e.jj ∧ (e.ind = 0 ∨ e.ind = 2)) :
    ∃ s', resetBodySoil l s = .ok s' ∧ s'.lenX = s.lenX ∧ s'.lenY = s.lenY := by
  induction l generalizing s with
  | nil => exact ⟨_, rfl, rfl, rfl⟩
  | cons e l ih =>
    unfold resetBodySoil
    have := h e List.mem_cons_self
    rw [guardOob_of ⟨this.1, by omega⟩, ok_bind]
    exact ih _ fun x hx => h x (List.mem_cons_of_mem _ hx)

theorem updateBodySoil_any (hne : ∀ x : F, FOps.ne x x = false) {pos : Vec3 F} {ori : Quat F} {g : Grid F} {body : Body F} {tol : F}
    {w : World F} (hX : w.out.lenX = 2 * g.halfX + 1) (hY : w.out.lenY = 2 * g.halfY + 1)
    (he : ∀ e ∈ w.out.bodySoilPos, w.out.InGrid e.ii e.jj ∧ (e.ind = 0 ∨ e.ind = 2))
    (hl : ∀ e ∈ w.out.bodySoilPos, Holds g e → LandsInside g (pos, ori) ⟨e.xb, e.yb, e.zb⟩) :
    ∃ x, updateBodySoil pos ori g body tol w = .ok x := by
  unfold updateBodySoil
  dsimp only
  obtain ⟨s, h1, l1, l2⟩ := resetBodySoil_any _ _ he
  rw [h1, ok_bind]
  obtain ⟨w2, h2⟩ := updateEntries_any (body := body) (tol := tol) hne w.out.bodySoilPos
    { w with out := { s with bodySoilPos := [] } } (l1.trans hX) (l2.trans hY) hl
  rw [h2, ok_bind]
  exact ⟨_, rfl⟩

variable {cell tol : F} {N C : ℤ} {P : Pair F ℚ cell tol (1 : ℚ) (1 / 4) N C}
  {lo hi vol : ℤ} {g : Grid F} {p : SimParam F} {g' : Grid ℚ} {p' : SimParam ℚ}

theorem eq_self (hne : ∀ x : F, FOps.ne x x = false) (x : F) : eq x x = true := by
  have := hne x
  unfold FOps.ne at this
  simpa using this

theorem PosePlaced.fits {fuel : ℕ} {body : Body F} {q : Vec3 F × Quat F} (h : PosePlaced fuel g p tol body q) :
    PoseFits fuel g p tol body q := by
  obtain ⟨area, walls, h1, h2, h3⟩ := h
  intro area' walls' e
  rw [h1] at e
  cases e
  exact ⟨h2, fun w hw x hx => ((h3 w hw).2 x hx).1⟩

theorem step_total (S : Shadow P lo hi vol g p g' p') (hne : ∀ x : F, FOps.ne x x = false) {fuel : ℕ} {pos : Vec3 F} {ori : Quat F}
    {body : Body F} {area : Area} {walls : List (List Cell3)} (hf : bodyFootprint fuel g p tol body (pos, ori) = .ok (area, walls))
    (hA : 1 ≤ area.minX ∧ area.maxX ≤ 2 * g.halfX ∧ 1 ≤ area.minY ∧ area.maxY ≤ 2 * g.halfY)
    (hW : ∀ w ∈ walls, w ≠ [] ∧ ∀ t ∈ w, ((area.minX ≤ t.1 ∧ t.1 < area.maxX) ∧ area.minY ≤ t.2.1 ∧ t.2.1 < area.maxY) ∧
      0 ≤ t.2.2 ∧ t.2.2 ≤ 2 * g.halfZ)
    {w : World F} {v : World ℚ} (h : HInv P lo hi vol g' w v)
    (hl : ∀ e ∈ w.out.bodySoilPos, Holds g e → LandsInside g (pos, ori) ⟨e.xb, e.yb, e.zb⟩) :
    ∃ n r, step n pos ori g body p tol w = .ok r ∧ fuel ≤ n ∧ (r.updated = true →
      TopIn (fun i j z => ∃ w ∈ walls, ∃ t ∈ w, t.1 = i ∧ t.2.1 = j ∧ z = g.vectZ t.2.2) r.world.out) := by
  have hb := S.budget1
  have hP := S.emb
  have hc1 : g'.cellZ = 1 := S.grid.cellZ'
  have hfit : PoseFits fuel g p tol body (pos, ori) := PosePlaced.fits ⟨area, walls, hf, hA, hW⟩
  have hlog := checkBodyMovement_log pos ori g body
  unfold step
  rcases hc : checkBodyMovement pos ori g body with ⟨moved, warns⟩
  rw [hc] at hlog
  dsimp only at hlog ⊢
  obtain ⟨warns', hw1⟩ : ∃ warns' : List (Warn ℚ), WRep P (RInv P lo hi vol)
      { w with log := w.log ++ warns } { v with log := v.log ++ warns' } := by
    rcases hlog with rfl | rfl
    · exact ⟨[], by simpa using h.rep⟩
    · exact ⟨[.largeMovement], ⟨h.rep.out, h.rep.rng, List.rel_append h.rep.log (.cons trivial .nil)⟩⟩
  cases moved with
  | false => exact ⟨fuel, _, rfl, le_rfl, by simp⟩
  | true =>
    simp only [Bool.not_true, Bool.false_eq_true, if_false]
    have hl0 : (lo : ℚ) ≤ 0 := by exact_mod_cast hb.lo_le
    have hh0 : (0 : ℚ) ≤ hi := by exact_mod_cast hb.hi_ge
    have sz := h.sound.size
    unfold SameSize at sz
    have hX : w.out.lenX = 2 * g.halfX + 1 := by rw [h.rep.out.rep.lenX, sz.1, S.grid.halfX]
    have hY : w.out.lenY = 2 * g.halfY + 1 := by rw [h.rep.out.rep.lenY, sz.2, S.grid.halfY]
    have hAr : AreaInside w.out.bodyArea w.out := by
      have := h.sound.area
      unfold AreaInside at this ⊢
      rwa [h.rep.out.rep.bodyArea, h.rep.out.rep.lenX, h.rep.out.rep.lenY]
    -- the body
    obtain ⟨s, h1, hs, -⟩ := calcBodyPos_place hX hY hAr hf hA fun w hw =>
      ⟨(hW w hw).1, fun t ht => by
        obtain ⟨⟨a, b⟩, c⟩ := (hW w hw).2 t ht
        exact ⟨⟨a.1, a.2, b.1, b.2⟩, c⟩⟩
    dsimp only at h1
    obtain ⟨z1, D1, N1⟩ := calcBodyPos_shadow S.z S.setup.zgrid hc1 S.grid.halfX S.grid.halfY
      (by rw [← hc1]; exact S.setup.level) ⟨hl0, S.bottom⟩ ⟨hh0, S.top⟩ hfit h.rep.out h.sound _ h1
    have r1 : WRep P (DInv P lo hi vol) { w with log := w.log ++ warns, out := s }
        { v with log := v.log ++ warns', out := z1 } := ⟨D1, hw1.rng, hw1.log⟩
    have sz1 : SameSize g' z1 := by
      obtain ⟨b, a, rfl⟩ : ∃ b a, z1 = { v.out with body := b, bodyArea := a } := ⟨_, _, N1.eq⟩
      exact h.sound.size
    have ra1 : AreaInside z1.relaxArea z1 := by
      obtain ⟨b, a, rfl⟩ : ∃ b a, z1 = { v.out with body := b, bodyArea := a } := ⟨_, _, N1.eq⟩
      exact h.sound.relax
    -- transport
    have q1 : s.bodySoilPos = w.out.bodySoilPos := by rw [hs]
    obtain ⟨⟨w2, b2⟩, h2⟩ := updateBodySoil_any (body := body) (tol := tol) (pos := pos) (ori := ori)
      (w := { w with log := w.log ++ warns, out := s }) hne
      (show s.lenX = _ by rw [hs]; exact hX) (show s.lenY = _ by rw [hs]; exact hY)
      (by
        intro e he
        obtain ⟨f, hfm, e1, e2, e3, -⟩ := forall₂_mem D1.rep.E he
        have := D1.soil.entries f hfm
        rw [e1, e2, e3]
        exact ⟨(D1.rep.inGrid _ _).mpr this.1, this.2⟩)
      (by
        intro e he
        exact hl e (q1 ▸ he))
    obtain ⟨v2, r2, t2, sb2, n2⟩ := updateBodySoil_shadow hP hb S.grid.cellZ r1 _ h2
    dsimp only at t2 sb2 r2
    have lc2 := (updateBodySoil_loc _ _ _ _ _ _ _ h2).1
    have ra2 : v2.out.relaxArea = z1.relaxArea := by
      rw [← r2.out.rep.relaxArea, ← D1.rep.relaxArea]; exact lc2.relaxArea
    have A2 : BodyInArea v2.out := by
      intro k i j hij hk hB
      obtain ⟨c1, c2, c3, c4⟩ := sb2
      rw [c2]
      refine N1.inArea k i j ?_ hk ?_
      · unfold SimOut.InGrid at hij ⊢; rwa [c3, c4] at hij
      · unfold HasBody at hB ⊢; rwa [c1] at hB
    have AI2 : AreaInside v2.out.bodyArea v2.out := by
      have := N1.area
      unfold AreaInside at this ⊢
      rwa [sb2.2.1, sb2.2.2.1, sb2.2.2.2]
    -- intersecting cells
    obtain ⟨v3, e3⟩ := C24_terminates _ g' anyBody 1 (1 / 4) v2 (by norm_num) (by norm_num) r2.out.body r2.out.soil AI2 le_rfl
    set n3 := (v2.out.bodySoilPos.length + 1) * (1 + 8 * (v2.out.lenX + v2.out.lenY).toNat) with hn3
    obtain ⟨w3, h3, r3⟩ := (moveIntersectingCells_sim (g := g) (g' := g') (body := b2)
      (body' := anyBody) hP hb S.budget n3 w2 v2 r2).of_ok' e3
    have tq : TolOK g'.cellZ (1 / 4) := by rw [hc1]; exact tolQ
    obtain ⟨W3, m, l3, hm, t3⟩ := moveIntersectingCells_post tq (by rw [hc1]; exact r2.out.body)
      (by rw [hc1]; exact r2.out.soil) A2 e3
    have lc3 := moveIntersectingCells_loc _ _ _ _ _ _ e3
    have h23 : SameBody z1 v3.out := SameBody.trans sb2 lc3.body
    have s3 : Sound g' v3.out := by
      have h23' := h23
      obtain ⟨d1, d2, d3, d4⟩ := h23
      refine ⟨W3, ?_, ?_, ?_, ?_⟩
      · intro k i j hij hk hB
        rw [d2]
        refine N1.inArea k i j ?_ hk ?_
        · unfold SimOut.InGrid at hij ⊢; rwa [d3, d4] at hij
        · unfold HasBody at hB ⊢; rwa [d1] at hB
      · have := N1.area
        unfold AreaInside at this ⊢
        rwa [d2, d3, d4]
      · rw [lc3.relaxArea, ra2]
        exact AreaInside.congr ra1 h23'
      · unfold SameSize at sz1 ⊢
        rwa [d3, d4]
    have r3' : WRep P (RInv P lo hi vol) (w3.mapOut fun s => { s with equilibrium := false })
        (v3.mapOut fun s => { s with equilibrium := false }) := by
      refine ⟨RInv.congr (s := w3.out) (z := v3.out) ⟨r3.out.rep, by rw [← hc1]; exact W3, r3.out.room⟩
        (r3.out.rep.setEq false) rfl rfl rfl rfl rfl rfl, r3.rng, r3.log⟩
    -- relaxation
    obtain ⟨⟨v4, it⟩, e4⟩ := relaxLoop_ok S.setup anyBody p'.maxIterations.toNat 0 (by omega)
      (v3.mapOut fun s => { s with equilibrium := false }) (s3.setEq false)
    obtain ⟨⟨w4, it'⟩, h4, r4, -⟩ := (relaxLoop_sim (body := b2) (body' := anyBody) hP hb S.grid
      S.buffer S.slope S.slope0 S.passes p'.maxIterations.toNat 0 r3').of_ok' e4
    refine ⟨max fuel (max n3 p'.maxIterations.toNat), ⟨true, w4, b2, it'⟩, ?_, le_max_left _ _, fun _ => ?_⟩
    · rw [calcBodyPos_ext (le_max_left _ _) _ _ _ _ _ _ _ _ h1, ok_bind, h2, ok_bind]
      dsimp only
      rw [moveIntersectingCells_ext ((le_max_left _ _).trans (le_max_right _ _)) _ _ _ _ _ h3, ok_bind]
      rw [relaxLoop_ext _ _ _ _ ((le_max_right n3 _).trans (le_max_right _ _)) _ _ _ h4, ok_bind]
      rfl
    · have tp := calcBodyPos_topCols (eq_self hne zero) hAr (fun i j hij hn => by
        have hij' := (h.rep.out.rep.inGrid i j).mp hij
        rw [h.rep.out.rep.bodyArea] at hn
        have ab : ∀ k, k = 0 ∨ k = 2 → w.out.bodyAbs k i j = true := by
          intro k hk
          rw [h.rep.out.rep.bodyAbs hij' (by omega), bodyAbs_iff]
          exact fun hb => hn (h.sound.inArea k i j hij' hk hb)
        exact ⟨ab 0 (.inl rfl), ab 2 (.inr rfl)⟩) hf h1
      have f4 := (relaxLoop_frame _ _ _ _ _ _ _ _ h4).1
      have f3 := (moveIntersectingCells_loc _ _ _ _ _ _ h3).body
      have f2 := lc2.body
      have hbd : w4.out.body = s.body := f4.1.trans (f3.1.trans f2.1)
      have hlx : w4.out.lenX = s.lenX := f4.2.2.1.trans (f3.2.2.1.trans f2.2.2.1)
      have hly : w4.out.lenY = s.lenY := f4.2.2.2.trans (f3.2.2.2.trans f2.2.2.2)
      intro i j hij
      refine (tp i j ?_).congr fun k _ => ?_
      · unfold SimOut.InGrid at hij ⊢
        dsimp only at hij
        rwa [hlx, hly] at hij
      · show w4.out.body k i j = _
        rw [hbd]

/-- An entry that holds soil is on a layer of the body. -/
theorem holds_body (S : Shadow P lo hi vol g p g' p') {w : World F} {v : World ℚ} (h : HInv P lo hi vol g' w v)
    {e : BodySoil F} (he : e ∈ w.out.bodySoilPos) (hh : Holds g e) :
    w.out.InGrid e.ii e.jj ∧ (e.ind = 0 ∨ e.ind = 2) ∧ w.out.bodyAbs e.ind e.ii e.jj = false := by
  have R := h.rep.out.rep
  have wf := h.rep.out.wf
  obtain ⟨f, hf, e1, e2, e3, ev⟩ := forall₂_mem R.E he
  obtain ⟨f1, f2⟩ := wf.soilOK.entries f hf
  have f0 := wf.soilOK.entry_nonneg f hf
  have fp : 0 < f.h := by
    rcases f0.eq_or_lt with hz | hp
    · unfold Holds at hh
      rw [S.grid.cellZ, ev.small, ← hz] at hh
      exfalso
      simp at hh
    · exact hp
  have hs : HasSoil v.out f.ind f.ii f.jj := by
    have b := wf.soilOK.booked f.ii f.jj f1 f.ind f2
    have l := le_entrySum wf.soilOK.entry_nonneg hf
    unfold HasSoil
    by_contra hn
    push Not at hn
    unfold layerSoil at b
    rw [hn.1, hn.2] at b
    linarith
  obtain ⟨hb, -⟩ := wf.soilOK.rest _ _ _ f1 f2 hs
  rw [e1, e2, e3]
  refine ⟨(R.inGrid _ _).mpr f1, f2, ?_⟩
  rw [R.bodyAbs f1 (by omega)]
  by_contra hn
  rw [Bool.not_eq_false, bodyAbs_iff] at hn
  exact hn hb

theorem run_total (S : Shadow P lo hi vol g p g' p') (hne : ∀ x : F, FOps.ne x x = false) {fuel : ℕ} {B : Body F}
    {Q : List (Vec3 F × Quat F)} (hplace : ∀ q ∈ Q, ∀ n, fuel ≤ n → PosePlaced n g p tol B q)
    (hcarry : ∀ q ∈ Q, ∀ q' ∈ Q, CarryFits fuel g p tol B q q')
    (qs : List (Vec3 F × Quat F)) (hQ : ∀ q ∈ qs, q ∈ Q) (body : Body F)
    (hB : ∀ pos ori, { body with pos := pos, ori := ori } = { B with pos := pos, ori := ori })
    {w : World F} {v : World ℚ} (h : HInv P lo hi vol g' w v)
    (hl : ∀ e ∈ w.out.bodySoilPos, Holds g e → ∀ q ∈ Q, LandsInside g q ⟨e.xb, e.yb, e.zb⟩) :
    ∃ r n, ∀ m, n ≤ m → run m g p tol qs body w = .ok r := by
  induction qs generalizing body w v with
  | nil => exact ⟨_, 0, fun _ _ => rfl⟩
  | cons q qs ih =>
    obtain ⟨pos, ori⟩ := q
    have hq := hQ _ List.mem_cons_self
    have hfp : ∀ n, bodyFootprint n g p tol body (pos, ori) = bodyFootprint n g p tol B (pos, ori) := by
      intro n
      have e1 := hB pos ori
      show bodyFootprint n g p tol { body with pos := pos, ori := ori } (pos, ori) = bodyFootprint n g p tol { B with pos := pos, ori := ori } (pos, ori)
      rw [e1]
    obtain ⟨area, walls, f1, f2, f3⟩ := hplace _ hq fuel le_rfl
    obtain ⟨n, r, h1, hn, ha⟩ := step_total S hne (body := body) (by rw [hfp]; exact f1) f2 f3 h fun e he hh => hl e he hh _ hq
    have hfit : PoseFits n g p tol body (pos, ori) := by
      have := (hplace _ hq n hn).fits
      unfold PoseFits at this ⊢
      rwa [hfp]
    obtain ⟨v1, H1, -⟩ := step_shadow S n pos ori body hfit h r h1
    have hbody : r.body = body ∨ r.body = { body with pos := pos, ori := ori } := by
      cases hu : r.updated with
      | false => exact .inl ((C12_step n pos ori g body p tol w r h1).1 hu).2
      | true => exact .inr ((C12_step n pos ori g body p tol w r h1).2 hu)
    obtain ⟨r', n', h'⟩ := ih (fun q hq => hQ q (List.mem_cons_of_mem _ hq)) r.body (by
      intro a b
      rcases hbody with e | e <;> rw [e] <;> exact hB a b) H1 (by
      intro e he hh q' hq'
      rcases step_recs _ _ _ _ _ _ _ _ _ h1 e he with ⟨e0, m0, i1, i2, x, y, z⟩ | ⟨hu, ht⟩
      · rw [x, y, z]
        refine hl e0 m0 ?_ q' hq'
        cases hu : r.updated with
        | false => rw [i2 hu]; exact hh
        | true => exact i1 hu
      · obtain ⟨c1, c2, c3⟩ := holds_body S H1 he hh
        obtain ⟨t0, t2⟩ := ha hu e.ii e.jj c1
        obtain ⟨w, hw, t, ht', x, y, z⟩ : ∃ w ∈ walls, ∃ t ∈ w, t.1 = e.ii ∧ t.2.1 = e.jj ∧
            r.world.out.body (e.ind + 1) e.ii e.jj = g.vectZ t.2.2 := by
          rcases c2 with k | k <;> rw [k] at c3 ⊢
          · exact t0.resolve_left (by simp [c3])
          · exact t2.resolve_left (by simp [c3])
        unfold AtTop at ht
        rw [ht, hB pos ori, z, ← x, ← y]
        exact hcarry _ hq _ hq' area walls f1 w hw t ht')
    refine ⟨r', max n n', fun m hm => ?_⟩
    unfold run
    rw [step_ext ((le_max_left _ _).trans hm) _ _ _ _ _ _ _ _ h1, ok_bind]
    exact h' m ((le_max_right _ _).trans hm)

end Soil
