import Verif.Proof.ChartStep
import Verif.Proof.Cone

/-! # Corresponding runs from freshly constructed states

A fresh state has the whole grid as the rectangle of the last relaxation, which does not correspond to the whole of another
grid.  As long as all unstable columns are near a rectangle the same columns are found. -/

set_option linter.unusedSectionVars false

namespace Soil

open FOps

section

variable {F : Type} [FOps F] {c : Chart} {g g' : Grid F} {b b' : Body F} {s s' : SimOut F}

/-! ## Lists of columns -/

theorem intRange_sorted (a b : ℤ) : (intRange a b).Pairwise (· < ·) := by
  unfold intRange
  rw [List.pairwise_map]
  exact List.pairwise_lt_range.imp fun h => by omega

theorem cells_sorted (a : Area) : a.cells.Pairwise fun p q => p.1 < q.1 ∨ p.1 = q.1 ∧ p.2 < q.2 := by
  unfold Area.cells
  rw [List.pairwise_flatMap]
  refine ⟨fun i _ => ?_, ?_⟩
  · rw [List.pairwise_map]
    exact (intRange_sorted _ _).imp fun h => .inr ⟨rfl, h⟩
  · refine (intRange_sorted _ _).imp fun {i i'} h => ?_
    intro p hp q hq
    obtain ⟨y, -, rfl⟩ := List.mem_map.mp hp
    obtain ⟨y', -, rfl⟩ := List.mem_map.mp hq
    exact .inl h

theorem filter_cells_eq {a a' : Area} (f : ℤ × ℤ → Bool) (h : ∀ p, f p = true → (p ∈ a.cells ↔ p ∈ a'.cells)) :
    a.cells.filter f = a'.cells.filter f := by
  refine List.Perm.eq_of_pairwise (le := fun p q : ℤ × ℤ => p.1 < q.1 ∨ p.1 = q.1 ∧ p.2 < q.2) ?_ ?_ ?_ ?_
  · intro p q _ _ h1 h2
    omega
  · exact (cells_sorted a).filter _
  · exact (cells_sorted a').filter _
  · refine (List.perm_ext_iff_of_nodup ((cells_nodup' _).filter _) ((cells_nodup' _).filter _)).mpr fun p => ?_
    simp only [List.mem_filter]
    constructor
    · exact fun hp => ⟨(h p hp.2).mp hp.1, hp.2⟩
    · exact fun hp => ⟨(h p hp.2).mpr hp.1, hp.2⟩

/-! ## Rectangles -/

theorem Chart.Roomy.wide' (hs : c.swap = false) {m : ℤ} {a : Area} (h : c.Roomy g g' m a) :
    Wide g m a ∧ Wide g' m (c.area a) := by
  unfold Chart.Roomy at h
  simpa [hs] using h

/-- the columns at most `r` away, as a half-open rectangle -/
def Area.grow (a : Area) (r : ℤ) : Area := ⟨a.minX - r, a.maxX + r + 1, a.minY - r, a.maxY + r + 1⟩

theorem mem_grow {a : Area} {r : ℤ} {p : ℤ × ℤ} : p ∈ (a.grow r).cells ↔ NearRect a r p.1 p.2 := by
  rw [mem_cells']
  unfold Area.grow NearRect
  dsimp only
  omega

theorem area_grow (hs : c.swap = false) (a : Area) (r : ℤ) : c.area (a.grow r) = (c.area a).grow r := by
  rw [Chart.area_noswap hs, Chart.area_noswap hs]
  unfold Area.grow
  dsimp only
  rw [Area.mk.injEq]
  omega

/-- the rectangle of a fresh state: all columns but those of the border -/
def Grid.whole (g : Grid F) : Area := ⟨1, 2 * g.halfX, 1, 2 * g.halfY⟩

/-- The rectangles of the last relaxation correspond, or are those of fresh states. -/
def RelaxRel (c : Chart) (g g' : Grid F) (s s' : SimOut F) : Prop :=
  s'.relaxArea = c.area s.relaxArea ∨ s.relaxArea = g.whole ∧ s'.relaxArea = g'.whole

theorem impact_whole {m : ℤ} (hm : 0 ≤ m) (h : s.relaxArea = g.whole) (w : Wide g m s.bodyArea) : impactOf s = g.whole := by
  unfold impactOf
  rw [h]
  unfold Grid.whole
  unfold Wide at w
  dsimp only
  rw [Area.mk.injEq]
  omega

/-! ## Unstable columns -/

theorem locate_quiet {a : Area} {r : ℤ} {dh tol : F} (hQ : Quiet a dh tol r s) {l f : List (ℤ × ℤ)}
    (h : locateUnstableCells s dh tol l = .ok f) : ∀ p ∈ f, p ∈ (a.grow r).cells := by
  rcases locateUnstableCells_char s dh tol l with ⟨h1, h2⟩ | ⟨-, h2⟩
  · rw [h2] at h
    cases h
    intro p hp
    obtain ⟨hp, hu⟩ := List.mem_filter.mp hp
    obtain ⟨-, g1, g2, g3, g4⟩ := h1 p hp
    exact mem_grow.mpr (hQ p.1 p.2 g1 g2 g3 g4 hu)
  · rw [h2] at h
    cases h

theorem locate_whole {a : Area} {r : ℤ} {dh tol : F} (hQ : Quiet a dh tol r s) {B : Area} (hB : B = g.whole)
    (hX : s.lenX = 2 * g.halfX + 1 ∧ s.lenY = 2 * g.halfY + 1) {m : ℤ} (hm : 0 ≤ m) (W : Wide g m (a.grow r)) {f : List (ℤ × ℤ)}
    (h : locateUnstableCells s dh tol B.cells = .ok f) :
    (∀ p ∈ (a.grow r).cells, FiveIn s p) ∧ f = (a.grow r).cells.filter fun p => unstableAt s dh tol p.1 p.2 := by
  have W' := W
  unfold Wide at W'
  have five : ∀ p ∈ g.whole.cells, FiveIn s p := by
    intro p hp
    rw [mem_cells'] at hp
    unfold Grid.whole at hp
    dsimp only at hp
    unfold FiveIn SimOut.InGrid
    omega
  have sub : ∀ p ∈ (a.grow r).cells, p ∈ g.whole.cells := by
    intro p hp
    rw [mem_cells'] at hp ⊢
    unfold Grid.whole
    dsimp only
    omega
  refine ⟨fun p hp => five p (sub p hp), ?_⟩
  subst hB
  rcases locateUnstableCells_char s dh tol g.whole.cells with ⟨h1, h2⟩ | ⟨-, h2⟩
  · rw [h2] at h
    cases h
    -- the filter function restricted to columns of the grid
    have e : ∀ l : List (ℤ × ℤ), (∀ p ∈ l, p ∈ g.whole.cells) → l.filter (fun p => unstableAt s dh tol p.1 p.2) =
        l.filter (fun p => unstableAt s dh tol p.1 p.2 && decide (p ∈ g.whole.cells)) := by
      intro l hl
      refine List.filter_congr fun p hp => ?_
      rw [decide_eq_true (hl p hp), Bool.and_true]
    rw [e _ fun p hp => hp, e _ sub]
    refine filter_cells_eq _ fun p hp => ?_
    rw [Bool.and_eq_true, decide_eq_true_eq] at hp
    obtain ⟨-, g1, g2, g3, g4⟩ := five p hp.2
    exact ⟨fun _ => mem_grow.mpr (hQ p.1 p.2 g1 g2 g3 g4 hp.1), fun hp => sub p hp⟩
  · rw [h2] at h
    cases h

theorem locate_fresh (hs : c.swap = false) (h : Like True c s s') {dh tol : F} {a : Area} {r : ℤ}
    (hQ : Quiet a dh tol r s) (hQ' : Quiet (c.area a) dh tol r s') (hX : s.lenX = 2 * g.halfX + 1 ∧ s.lenY = 2 * g.halfY + 1)
    (hX' : s'.lenX = 2 * g'.halfX + 1 ∧ s'.lenY = 2 * g'.halfY + 1) {m : ℤ} (hm : 0 ≤ m) (R : c.Roomy g g' m (a.grow r))
    (hi : s'.impactArea = c.area s.impactArea ∨ s.impactArea = g.whole ∧ s'.impactArea = g'.whole) :
    Corr True (fun f f' => (∀ p ∈ f, p ∈ (a.grow r).cells) ∧ c.Lst (f.map c.on) f') (locateUnstableTerrainCell s dh tol)
      (locateUnstableTerrainCell s' dh tol) := by
  unfold locateUnstableTerrainCell
  rcases hi with hi | ⟨hi, hi'⟩
  · have hcells : c.Lst (s.impactArea.cells.map c.on) s'.impactArea.cells := by
      rw [hi]
      exact c.area_cells _
    intro f hf
    rcases locateUnstableCells_like h dh tol _ _ hcells f hf with ⟨f', h1, h2⟩ | x
    · exact .inl ⟨f', h1, locate_quiet hQ hf, h2.2⟩
    · exact .inr x
  · intro f hf
    obtain ⟨W, W'⟩ := R.wide' hs
    rw [area_grow hs] at W'
    obtain ⟨v1, e1⟩ := locate_whole hQ hi hX hm W hf
    rcases locateUnstableCells_char s' dh tol s'.impactArea.cells with ⟨k1, k2⟩ | ⟨-, k2⟩
    · obtain ⟨v2, e2⟩ := locate_whole hQ' hi' hX' hm W' k2
      refine .inl ⟨_, k2, locate_quiet hQ hf, ?_⟩
      unfold Chart.Lst
      simp only [hs, Bool.false_eq_true, if_false]
      have cl := c.area_cells (a.grow r)
      unfold Chart.Lst at cl
      simp only [hs, Bool.false_eq_true, if_false] at cl
      rw [e2, e1, ← area_grow hs, cl, List.filter_map]
      congr 1
      refine List.filter_congr fun p hp => ?_
      have hp' : c.on p ∈ ((c.area a).grow r).cells := by rw [← area_grow hs]; exact c.mem_area.mpr hp
      exact unstableAt_like h (v1 p hp) (v2 _ hp') dh tol
    · exact .inr ⟨trivial, k2⟩

/-! ## Passes of relaxation -/

theorem CorrW.both' (hs : c.swap = false) {E : Prop} {Q : SimOut F → SimOut F → Prop} {f f' : World F → M (World F)}
    (h : CorrW E c Q f f' s s') {r : Rng} {l l' : List (Warn F)} {w1 w1' : World F}
    (h1 : f ⟨s, r, l⟩ = .ok w1) (h1' : f' ⟨s', r, l'⟩ = .ok w1') :
    Q w1.out w1'.out ∧ w1'.rng = w1.rng ∧ ∃ x, w1.log = l ++ x ∧ w1'.log = l' ++ x := by
  rcases h r l l' w1 h1 with ⟨s1', x, q, e, res⟩ | ⟨-, q, hq, res⟩
  · obtain ⟨q1, hq1, res⟩ := res w1.rng (Chart.Rn.refl _ _)
    rw [hq1 hs, h1'] at res
    cases res
    exact ⟨q, rfl, x, e, rfl⟩
  · rw [hq hs, h1'] at res
    cases res

theorem relaxOnce_fresh (S : SameScene c g g' b b') (hs : c.swap = false) (p : SimParam F) (tol : F) (hb : 0 ≤ p.cellBuffer)
    (h : LikeB True c s s') {a : Area} {r : ℤ} (hQ : Quiet a (dhMax g p) tol r s) (hQ' : Quiet (c.area a) (dhMax g p) tol r s')
    (hX : s.lenX = 2 * g.halfX + 1 ∧ s.lenY = 2 * g.halfY + 1) (hX' : s'.lenX = 2 * g'.halfX + 1 ∧ s'.lenY = 2 * g'.halfY + 1)
    (R : c.Roomy g g' p.cellBuffer (a.grow r)) (hR : RelaxRel c g g' s s') (hB : c.Roomy g g' 0 s.bodyArea) :
    CorrW True c (fun s1 s1' => LikeB True c s1 s1' ∧ RelaxRel c g g' s1 s1')
      (relaxOnce g b p tol) (relaxOnce g' b' p tol) s s' := by
  have h0 : LikeB True c { s with impactArea := impactOf s } { s' with impactArea := impactOf s' } :=
    ⟨h.toLike.setImpact _ _, h.bodyArea⟩
  have hL : Like True c { s with impactArea := impactOf s, equilibrium := true }
    { s' with impactArea := impactOf s', equilibrium := true } := h0.toLike.setEq true
  have hi : impactOf s' = c.area (impactOf s) ∨ impactOf s = g.whole ∧ impactOf s' = g'.whole := by
    rcases hR with hR | ⟨h1, h2⟩
    · exact .inl (impactOf_like ⟨h.toLike, h.bodyArea, hR⟩)
    · obtain ⟨W, W'⟩ := hB.wide' hs
      rw [← h.bodyArea] at W'
      exact .inr ⟨impact_whole le_rfl h1 W, impact_whole le_rfl h2 W'⟩
  have T := relaxTerrain_core S p tol h0 (locate_fresh (g := g) (g' := g') (dh := dhMax g p) (tol := tol) (r := r) hs hL
    hQ hQ' hX hX' hb R hi)
  have B : CorrW True c (fun s1 s1' => LikeB True c s1 s1' ∧ RelaxRel c g g' s1 s1')
      (fun w => relaxTerrain g b p tol w >>= fun w => Except.ok (shuffleEntries w) >>= relaxBodySoil g b p tol)
      (fun w => relaxTerrain g' b' p tol w >>= fun w => Except.ok (shuffleEntries w) >>= relaxBodySoil g' b' p tol)
      { s with impactArea := impactOf s } { s' with impactArea := impactOf s' } := by
    refine T.comp fun s1 s1' q1 => ?_
    have q1' : RelaxRel c g g' s1 s1' := by
      rcases q1.2 with k | ⟨l, hne, hin, e1, e2⟩
      · unfold RelaxRel
        rw [k.1, k.2]
        exact hR
      · rw [← zero_add p.cellBuffer] at R
        obtain ⟨ra, -⟩ := relaxAreaOf_like le_rfl hb R l hne hin
        refine .inl ?_
        rw [e1, e2, ra]
    refine CorrW.mono ((shuffleEntries_likeB q1.1).comp (Q2 := fun s3 s3' => LikeB True c s3 s3' ∧ KeptR s1 s1' s3 s3')
      fun s2 s2' q2 => (relaxBodySoil_likeB S p tol q2.1).mono fun s3 s3' q3 =>
        ⟨q3.1, q3.2.1.1.trans q2.2.1.1, q3.2.1.2.trans q2.2.1.2⟩) ?_
    rintro s3 s3' ⟨q3, k⟩
    refine ⟨q3, ?_⟩
    unfold RelaxRel
    rw [k.1, k.2]
    exact q1'
  intro r log log' w1 hr
  exact B r log log' w1 hr

theorem relaxLoop_fresh (S : SameScene c g g' b b') (hs : c.swap = false) (p : SimParam F) (tol : F) (hb : 0 ≤ p.cellBuffer)
    {a : Area} {N : ℤ} (R : c.Roomy g g' p.cellBuffer (a.grow N)) (fuel : ℕ) (it : ℤ) {r : ℤ} (hr : 0 ≤ r)
    (hrN : r + 2 * (p.maxIterations - it) ≤ N + 2) {w w' x x' : World F} {k k' : ℤ} (h : LikeB True c w.out w'.out)
    (hrng : w'.rng = w.rng) (hO : On (NearRect a 0) w.out) (hE : Ent (NearRect a 0) w.out)
    (hQ : Quiet a (dhMax g p) tol r w.out) (hO' : On (NearRect (c.area a) 0) w'.out) (hE' : Ent (NearRect (c.area a) 0) w'.out)
    (hQ' : Quiet (c.area a) (dhMax g p) tol r w'.out)
    (hX : w.out.lenX = 2 * g.halfX + 1 ∧ w.out.lenY = 2 * g.halfY + 1)
    (hX' : w'.out.lenX = 2 * g'.halfX + 1 ∧ w'.out.lenY = 2 * g'.halfY + 1)
    (hR : RelaxRel c g g' w.out w'.out) (hB : c.Roomy g g' 0 w.out.bodyArea)
    (hx : relaxLoop g b p tol fuel it w = .ok (x, k)) (hx' : relaxLoop g' b' p tol fuel it w' = .ok (x', k')) :
    LikeB True c x.out x'.out ∧ RelaxRel c g g' x.out x'.out ∧ x'.rng = x.rng ∧
      (∃ y, x.log = w.log ++ y ∧ x'.log = w'.log ++ y) ∧ k' = k := by
  induction fuel generalizing it w w' r with
  | zero =>
    unfold relaxLoop at hx hx'
    rw [h.equilibrium] at hx'
    split at hx
    · cases hx
    · rename_i hn
      rw [if_neg hn] at hx'
      cases hx
      cases hx'
      exact ⟨h, hR, hrng, ⟨[], by simp, by simp⟩, rfl⟩
  | succ fuel ih =>
    unfold relaxLoop at hx hx'
    rw [h.equilibrium] at hx'
    split at hx
    · rename_i hc
      rw [if_pos hc] at hx'
      obtain ⟨w1, h1, h2⟩ := bind_eq_ok.mp hx
      obtain ⟨w1', h1', h2'⟩ := bind_eq_ok.mp hx'
      have hit : it < p.maxIterations := by
        rw [Bool.and_eq_true, decide_eq_true_eq] at hc
        exact hc.2
      have R' : c.Roomy g g' p.cellBuffer (a.grow r) := by
        obtain ⟨W, W'⟩ := R.wide' hs
        unfold Chart.Roomy
        simp only [hs, Bool.false_eq_true, if_false]
        rw [area_grow hs] at W' ⊢
        unfold Area.grow Wide at W W' ⊢
        dsimp only at W W' ⊢
        omega
      have C := relaxOnce_cone (B := NearRect a 0) (a := a) (fun _ _ h => h) hr g b p tol w hO hE hQ w1 h1
      have C' := relaxOnce_cone (B := NearRect (c.area a) 0) (a := c.area a) (fun _ _ h => h) hr g' b' p tol w' hO' hE'
        (by rw [dhMax_like S]; exact hQ') w1' h1'
      rw [dhMax_like S] at C'
      obtain ⟨o, q, l⟩ := w
      obtain ⟨o', q', l'⟩ := w'
      dsimp only at hrng
      subst hrng
      obtain ⟨⟨L1, R1⟩, e1, y, y1, y2⟩ := (relaxOnce_fresh S hs p tol hb h hQ hQ' hX hX' R' hR hB).both' hs h1 h1'
      have C1 := C.1
      have C1' := C'.1
      obtain ⟨L2, R2, e2, ⟨z, z1, z2⟩, e3⟩ := ih (it + 1) (r := r + 2) (by omega) (by omega) L1 e1 (hO.same C1) C.2.1 C.2.2.2
        (hO'.same C1') C'.2.1 C'.2.2.2 (by rw [C1.2.2.1, C1.2.2.2]; exact hX) (by rw [C1'.2.2.1, C1'.2.2.2]; exact hX') R1
        (by rw [C1.2.1]; exact hB) h2 h2'
      exact ⟨L2, R2, e2, ⟨y ++ z, by rw [z1, y1, List.append_assoc], by rw [z2, y2, List.append_assoc]⟩, e3⟩
    · rename_i hn
      rw [if_neg hn] at hx'
      cases hx
      cases hx'
      exact ⟨h, hR, hrng, ⟨[], by simp, by simp⟩, rfl⟩

/-! ## Up to the relaxation -/

/-- What step_cone shows up to the relaxation -/
theorem step_coneMid {a : Area} {r : ℤ} (hr : 2 ≤ r) {fuel : ℕ} {pos : Vec3 F} {ori : Quat F}
    {body : Body F} {p : SimParam F} {tol : F} (ht : (tol <ᶠ zero) = false) {w : World F} {s : SimOut F} {lg : List (Warn F)}
    (hl : ∀ e ∈ w.out.bodySoilPos, LandsIn (NearRect a 0) pos ori g e) (ob : OnlyBody w.out s) (on : On (NearRect a 0) s)
    (hq : Quiet a (dhMax g p) tol r w.out) {w1 w2 : World F} {b1 : Body F}
    (h2 : updateBodySoil pos ori g body tol { w with log := lg, out := s } = .ok (w1, b1))
    (h3 : moveIntersectingCells fuel g b1 tol w1 = .ok w2) :
    On (NearRect a 0) w2.out ∧ Ent (NearRect a 0) w2.out ∧ Quiet a (dhMax g p) tol r w2.out ∧
      w2.out.lenX = w.out.lenX ∧ w2.out.lenY = w.out.lenY := by
  have hT : s.terrain = w.out.terrain := by unfold OnlyBody at ob; rw [ob]
  have hP : s.bodySoilPos = w.out.bodySoilPos := by unfold OnlyBody at ob; rw [ob]
  have hX : s.lenX = w.out.lenX ∧ s.lenY = w.out.lenY := by unfold OnlyBody at ob; rw [ob]; exact ⟨rfl, rfl⟩
  obtain ⟨sb1, e1, t1⟩ := updateBodySoil_cone (B := NearRect a 0) _ _ _ _ _ _ (by dsimp only; rw [hP]; exact hl) on _ h2
  dsimp only at sb1 e1 t1 h3
  obtain ⟨l2, e2⟩ := moveIntersectingCells_cone (B := NearRect a 0) (a := a) (fun _ _ h => h) _ _ _ _ ht _
    (on.same sb1) e1 _ h3
  have tt : SameT a 1 w.out w2.out := by
    intro i j hn
    rw [l2.terrain i j hn, t1 i j fun hw => hn (hw.mono (by omega)), hT]
  have q0 : Quiet a (dhMax g p) tol r s := by
    intro i j g1 g2 g3 g4 hu
    have hg : ∀ i j, s.InGrid i j → w.out.InGrid i j := by
      intro i j h; unfold SimOut.InGrid at *; rwa [hX.1, hX.2] at h
    refine hq i j (hg _ _ g1) (hg _ _ g2) (hg _ _ g3) (hg _ _ g4) ?_
    unfold unstableAt at hu ⊢
    rwa [hT] at hu
  have ts : SameT a (r - 1) s w2.out := by
    intro i j hn
    rw [tt i j fun hw => hn (hw.mono (by omega)), hT]
  have q2 : Quiet a (dhMax g p) tol r w2.out := by
    have := q0.next ts (sb1.trans l2.body) (by omega)
    simpa using this
  have e := sb1.trans l2.body
  exact ⟨on.same e, e2, q2, e.2.2.1.trans hX.1, e.2.2.2.trans hX.2⟩

end

/-! ## Steps -/

section

variable {K : Type} [Field K] [LinearOrder K] [IsStrictOrderedRing K] [FloorRing K] [Transc K] {c : Chart} {d : Vec3 K}
  {g g' : Grid K}

/-- The rectangles of the body correspond, or there is no body yet. -/
def BodyRel (c : Chart) (s s' : SimOut K) : Prop :=
  s'.bodyArea = c.area s.bodyArea ∨ (∀ k i j, s.body k i j = 0) ∧ ∀ k i j, s'.body k i j = 0

theorem resetBody_zero (l : List (ℤ × ℤ)) (s s' : SimOut K) (h : resetBody l s = .ok s') (h0 : ∀ k i j, s.body k i j = 0) :
    ∀ k i j, s'.body k i j = 0 := by
  induction l generalizing s with
  | nil =>
    cases h
    exact h0
  | cons p l ih =>
    unfold resetBody at h
    obtain ⟨-, -, h⟩ := bind_eq_ok.mp h
    refine ih _ h fun k i j => ?_
    simp only [SimOut.setB, upd3, ex_zero]
    (repeat' split) <;> first | rfl | exact h0 _ _ _

theorem reset_fresh (P : Placed c d g g') {s s' s2 s2' : SimOut K} (L : Like True c s s') (hB : BodyRel c s s')
    (r : resetBody s.bodyArea.cells s = .ok s2) (r' : resetBody s'.bodyArea.cells s' = .ok s2') : Like True c s2 s2' := by
  rcases hB with hB | ⟨h0, h0'⟩
  · exact resetBody_likeB P ⟨L, hB⟩ r r'
  · have z := resetBody_zero _ _ _ r h0
    have z' := resetBody_zero _ _ _ r' h0'
    have o := resetBody_bodyOnly _ _ _ r
    have o' := resetBody_bodyOnly _ _ _ r'
    unfold OnlyBody at o o'
    have t : s2.terrain = s.terrain ∧ s2.bodySoil = s.bodySoil ∧ s2.bodySoilPos = s.bodySoilPos ∧
        s2.equilibrium = s.equilibrium ∧ ∀ i j, s2.InGrid i j ↔ s.InGrid i j := by
      rw [o]; exact ⟨rfl, rfl, rfl, rfl, fun _ _ => Iff.rfl⟩
    have t' : s2'.terrain = s'.terrain ∧ s2'.bodySoil = s'.bodySoil ∧ s2'.bodySoilPos = s'.bodySoilPos ∧
        s2'.equilibrium = s'.equilibrium ∧ ∀ i j, s2'.InGrid i j ↔ s'.InGrid i j := by
      rw [o']; exact ⟨rfl, rfl, rfl, rfl, fun _ _ => Iff.rfl⟩
    obtain ⟨t1, t2, t3, t4, t5⟩ := t
    obtain ⟨t1', t2', t3', t4', t5'⟩ := t'
    refine ⟨fun i j _ => .inr trivial, fun i j h h' => ?_, fun k i j _ _ => ?_, fun k i j h h' => ?_, ?_, ?_⟩
    · rw [t1, t1']
      exact L.terrain i j ((t5 _ _).mp h) ((t5' _ _).mp h')
    · rw [z, z']
    · rw [t2, t2']
      exact L.bodySoil k i j ((t5 _ _).mp h) ((t5' _ _).mp h')
    · rw [t3, t3']
      exact L.entries
    · rw [t4, t4']
      exact L.equilibrium

theorem step_fresh (P : Placed c d g g') (p : SimParam K) (tol : K) (hb : 0 ≤ p.cellBuffer) (ht : (tol <ᶠ (zero : K)) = false)
    (fuel : ℕ) (b : Body K) (pos : Vec3 K) (ori : Quat K) {w w' : World K} {x x' : StepResult K} (L : Like True c w.out w'.out)
    (hB : BodyRel c w.out w'.out) (hR : RelaxRel c g g' w.out w'.out) (hr : w'.rng = w.rng)
    {a : Area} {N r : ℤ} (R : c.Roomy g g' p.cellBuffer (a.grow N)) (hr2 : 2 ≤ r) (hrN : r + 2 * p.maxIterations ≤ N + 2)
    (hl : ∀ e ∈ w.out.bodySoilPos, LandsIn (NearRect a 0) pos ori g e)
    (hl' : ∀ e ∈ w'.out.bodySoilPos, LandsIn (NearRect (c.area a) 0) (vadd pos d) ori g' e)
    (hO : ∀ s, calcBodyPos fuel w.out pos ori g b p tol = .ok s → On (NearRect a 0) s ∧ c.Roomy g g' 1 s.bodyArea)
    (hO' : ∀ s, calcBodyPos fuel w'.out (vadd pos d) ori g' (b.moved d) p tol = .ok s → On (NearRect (c.area a) 0) s)
    (hQ : Quiet a (dhMax g p) tol r w.out) (hQ' : Quiet (c.area a) (dhMax g p) tol r w'.out)
    (hX : w.out.lenX = 2 * g.halfX + 1 ∧ w.out.lenY = 2 * g.halfY + 1)
    (hX' : w'.out.lenX = 2 * g'.halfX + 1 ∧ w'.out.lenY = 2 * g'.halfY + 1)
    (h : step fuel pos ori g b p tol w = .ok x) (h' : step fuel (vadd pos d) ori g' (b.moved d) p tol w' = .ok x') :
    Like True c x.world.out x'.world.out ∧ BodyRel c x.world.out x'.world.out ∧
      RelaxRel c g g' x.world.out x'.world.out ∧ x'.world.rng = x.world.rng ∧
      (∃ y, x.world.log = w.log ++ y ∧ x'.world.log = w'.log ++ y) ∧ x'.body = x.body.moved d ∧ x'.updated = x.updated ∧
      x'.passes = x.passes := by
  unfold step at h h'
  rw [checkBodyMovement_moved P] at h'
  generalize checkBodyMovement pos ori g b = mw at h h'
  obtain ⟨mv, ws⟩ := mw
  dsimp only at h h'
  cases mv with
  | false =>
    cases h
    cases h'
    exact ⟨L, hB, hR, hr, ⟨ws, rfl, rfl⟩, rfl, rfl, rfl⟩
  | true =>
    simp only [Bool.not_true, Bool.false_eq_true, if_false] at h h'
    obtain ⟨s1, c1, h⟩ := bind_eq_ok.mp h
    obtain ⟨s1', c1', h'⟩ := bind_eq_ok.mp h'
    obtain ⟨⟨w2, b2⟩, c2, h⟩ := bind_eq_ok.mp h
    obtain ⟨⟨w2', b2'⟩, c2', h'⟩ := bind_eq_ok.mp h'
    obtain ⟨w3, c3, h⟩ := bind_eq_ok.mp h
    obtain ⟨w3', c3', h'⟩ := bind_eq_ok.mp h'
    dsimp only at h h'
    obtain ⟨⟨w4, it⟩, c4, h⟩ := bind_eq_ok.mp h
    obtain ⟨⟨w4', it'⟩, c4', h'⟩ := bind_eq_ok.mp h'
    cases h
    cases h'
    have a2 := (updateBodySoil_loc _ _ _ _ _ _ _ c2).1
    have a2' := (updateBodySoil_loc _ _ _ _ _ _ _ c2').2.1
    have a2r := (updateBodySoil_loc _ _ _ _ _ _ _ c2).2.1
    have a3 := moveIntersectingCells_loc _ _ _ _ _ _ c3
    obtain ⟨o1, R1⟩ := hO s1 c1
    have o1' := hO' s1' c1'
    obtain ⟨m1, m2, m3, m4⟩ := step_coneMid hr2 ht hl (calcBodyPos_bodyOnly _ _ _ _ _ _ _ _ _ c1) o1 hQ c2 c3
    have D : dhMax g' p = dhMax g p := dhMax_like (sameScene_moved P b) p
    obtain ⟨m1', m2', m3', m4'⟩ := step_coneMid hr2 ht hl' (calcBodyPos_bodyOnly _ _ _ _ _ _ _ _ _ c1') o1'
      (by rw [D]; exact hQ') c2' c3'
    rw [D] at m3'
    obtain ⟨L1, k1⟩ := calcBodyPos_likeB P p tol hb fuel b pos ori (fun _ _ => reset_fresh P L hB) c1 c1' le_rfl R1
    obtain ⟨L2, k2, ⟨x2, l2, l2'⟩, eb⟩ := updateBodySoil_likeB P pos ori b tol (w := { w with log := w.log ++ ws, out := s1 })
      (w' := { w' with log := w'.log ++ ws, out := s1' }) L1 c2 c2'
    subst eb
    have S := sameScene_moved P b2
    have hr2 : w2'.rng = w2.rng := by rw [a2', a2r]; exact hr
    obtain ⟨o2, q2, g2⟩ := w2
    obtain ⟨o2', q2', g2'⟩ := w2'
    dsimp only at hr2
    subst hr2
    obtain ⟨⟨L3, k3, ba3⟩, hr3, x3, l3, l3'⟩ := (moveIntersectingCells_likeB S tol fuel P.swap L2).both P.swap c3 c3'
    have L3' : LikeB True c (w3.mapOut fun s => { s with equilibrium := false }).out
        (w3'.mapOut fun s => { s with equilibrium := false }).out := ⟨L3.toLike.setEq false, L3.bodyArea⟩
    have eB : w3.out.bodyArea = s1.bodyArea := a3.body.2.1.trans a2.body.2.1
    have hR3 : RelaxRel c g g' w3.out w3'.out := by
      unfold RelaxRel
      unfold KeptR at k1 k2 k3
      dsimp only at k2 k3
      rw [k3.1, k3.2, k2.1, k2.2, k1.1, k1.2]
      exact hR
    have R0 : c.Roomy g g' 0 w3.out.bodyArea := by
      rw [eB]
      have W := R1.wide' P.swap
      unfold Chart.Roomy
      simp only [P.swap, Bool.false_eq_true, if_false]
      unfold Wide at W ⊢
      omega
    obtain ⟨L4, R4, e4, ⟨y, y1, y2⟩, e5⟩ := relaxLoop_fresh S P.swap p tol hb R fuel 0 (r := r) (by omega) (by omega) L3' hr3
      (m1.same ⟨rfl, rfl, rfl, rfl⟩) (m2.of_eq rfl) m3 (m1'.same ⟨rfl, rfl, rfl, rfl⟩) (m2'.of_eq rfl) m3'
      ⟨m4.1.trans hX.1, m4.2.trans hX.2⟩ ⟨m4'.1.trans hX'.1, m4'.2.trans hX'.2⟩ hR3 R0 c4 c4'
    refine ⟨L4.toLike, .inl L4.bodyArea, R4, e4, ⟨ws ++ (x2 ++ (x3 ++ y)), ?_, ?_⟩, rfl, rfl, e5⟩
    · dsimp only at l2 l3 y1 ⊢
      have y1' : w4.log = w3.log ++ y := y1
      rw [y1', l3, l2]
      simp only [List.append_assoc]
    · dsimp only at l2' l3' y2 ⊢
      have y2' : w4'.log = w3'.log ++ y := y2
      rw [y2', l3', l2']
      simp only [List.append_assoc]

end

end Soil
