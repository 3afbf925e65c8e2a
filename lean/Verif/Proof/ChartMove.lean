import Verif.Proof.ChartLoop
import Verif.Proof.Frame

/-! # Intersecting soil of corresponding states -/

namespace Soil

open FOps

variable {F : Type} [FOps F] {E : Prop} {c : Chart} {g g' : Grid F} {b b' : Body F} {s s' : SimOut F}

/-- the probe of the other simulation -/
def Chart.probe (c : Chart) (q : Probe F) : Probe F :=
  { q with ii := (c.on (q.ii, q.jj)).1, jj := (c.on (q.ii, q.jj)).2 }

/-- corresponding states and probes, the probes in columns of both grids -/
structure LikeP (E : Prop) (c : Chart) (x x' : SimOut F × Probe F) : Prop where
  like : Like E c x.1 x'.1
  probe : x'.2 = c.probe x.2
  grid : x.1.InGrid x.2.ii x.2.jj
  grid' : x'.1.InGrid x'.2.ii x'.2.jj

section

variable {i j i' j' : ℤ} {q q' : Probe F} (S : SameScene c g g' b b') (h : LikeP E c (s, q) (s', q'))
  (hi : s.InGrid i j) (hi' : s'.InGrid i' j') (e : c.on (i, j) = (i', j'))

include S h hi hi' e

theorem moveBodySoil1_like (maxH tol : F) (k : ℕ) :
    LikeP E c (moveBodySoil1 s q maxH i j g b tol k) (moveBodySoil1 s' q' maxH i' j' g' b' tol k) := by
  obtain ⟨h0, hp, hq, hq'⟩ := h
  dsimp only at h0 hp hq hq'
  subst hp
  have A := h0.col hi hi' e
  have B := h0.col hq hq' rfl
  have B1 : s'.body (q.ind + 1) (c.probe q).ii (c.probe q).jj = s.body (q.ind + 1) q.ii q.jj := B.body _
  have P0 : ∀ v : F, { c.probe q with h := v } = c.probe { q with h := v } := fun _ => rfl
  unfold moveBodySoil1
  simp only [A.body, A.bodySoil, A.terrain, A.soilPres, show (c.probe q).ind = q.ind from rfl,
    show (c.probe q).h = q.h from rfl, B1]
  split
  · exact ⟨h0.setT e _, rfl, hq, hq'⟩
  · split
    · exact ⟨h0, rfl, hq, hq'⟩
    · have M := mkEntry_like S hi hi' e A k q.h
      refine ⟨?_, rfl, ?_, ?_⟩
      · dsimp only
        split
        · exact (h0.setBS e _ _).pushPos M
        · exact ((h0.setBS e _ _).setBS e _ _).pushPos M
      · dsimp only
        split <;> exact hq
      · dsimp only
        split <;> exact hq'

theorem moveBodySoil2_like (tol : F) (kb kt : ℕ) :
    LikeP E c (moveBodySoil2 s q i j g b tol kb kt) (moveBodySoil2 s' q' i' j' g' b' tol kb kt) := by
  obtain ⟨h0, hp, hq, hq'⟩ := h
  dsimp only at h0 hp hq hq'
  subst hp
  have A := h0.col hi hi' e
  have e1 : (c.on (i, j)).1 = i' := by rw [e]
  have e2 : (c.on (i, j)).2 = j' := by rw [e]
  have P1 : ∀ v : F, ({ c.probe q with ind := kb, ii := i', jj := j', h := v } : Probe F) =
      c.probe { q with ind := kb, ii := i, jj := j, h := v } := by
    intro v
    unfold Chart.probe
    dsimp only
    rw [e1, e2]
  have M := fun v : F => mkEntry_like S hi hi' e A kb v
  unfold moveBodySoil2
  simp only [A.body, A.bodySoil, A.soilPres, show (c.probe q).h = q.h from rfl]
  split
  · split
    · exact ⟨h0, P1 q.h, hi, hi'⟩
    · split
      · exact ⟨(h0.setBS e _ _).pushPos (M _), P1 _, hi, hi'⟩
      · exact ⟨(h0.setBS e _ _).pushPos (M _), rfl, hq, hq'⟩
  · split
    · exact ⟨((h0.setBS e _ _).setBS e _ _).pushPos (M _), P1 _, hi, hi'⟩
    · exact ⟨((h0.setBS e _ _).setBS e _ _).pushPos (M _), rfl, hq, hq'⟩

theorem moveBodySoil_like (maxH tol : F) :
    LikeP E c (moveBodySoil s q maxH i j g b tol) (moveBodySoil s' q' maxH i' j' g' b' tol) := by
  have A : SameCol s s' i j i' j' := h.like.col hi hi' e
  have X1 := moveBodySoil1_like S h hi hi' e maxH tol 0
  have X2 := moveBodySoil1_like S h hi hi' e maxH tol 2
  have Y1 := moveBodySoil2_like S h hi hi' e tol 0 2
  have Y2 := moveBodySoil2_like S h hi hi' e tol 2 0
  obtain ⟨h0, hp, hq, hq'⟩ := h
  dsimp only at h0 hp hq hq'
  subst hp
  unfold moveBodySoil
  simp only [A.body, A.terrain, A.bodyAbs]
  split
  · exact ⟨h0.setT e _, rfl, hq, hq'⟩
  · split
    · exact X2
    · split
      · exact X1
      · split
        · exact Y1
        · exact Y2

end

/-- corresponding states, the same height -/
def LikeH (E : Prop) (c : Chart) (x x' : SimOut F × F) : Prop := Like E c x.1 x'.1 ∧ x'.2 = x.2

theorem exploreDir_like (S : SameScene c g g' b b') (tol : F) {i j i' j' : ℤ} (e : c.on (i, j) = (i', j')) (d : ℤ × ℤ)
    (fuel : ℕ) (pp : ℤ) (s s' : SimOut F) (q q' : Probe F) (h : LikeP E c (s, q) (s', q')) (maxH : F) :
    Corr E (LikeH E c) (exploreDir g b tol i j d fuel pp s q maxH) (exploreDir g' b' tol i' j' (c.lin d) fuel pp s' q' maxH) := by
  induction fuel generalizing pp s s' q q' maxH with
  | zero =>
    obtain ⟨h0, hp, hq, hq'⟩ := h
    dsimp only at h0 hp hq hq'
    subst hp
    unfold exploreDir
    simp only [show (c.probe q).h = q.h from rfl, show (c.probe q).wall = q.wall from rfl]
    split
    · exact Corr.err
    · exact Corr.ok ⟨h0, rfl⟩
  | succ fuel ih =>
    have hw : q'.wall = q.wall := (congrArg Probe.wall h.probe).trans rfl
    have hh : q'.h = q.h := (congrArg Probe.h h.probe).trans rfl
    unfold exploreDir
    simp only [hw, hh]
    split
    · have f : c.on (i + (pp + 1) * d.1, j + (pp + 1) * d.2) = (i' + (pp + 1) * (c.lin d).1, j' + (pp + 1) * (c.lin d).2) := by
        have := c.on_add (i, j) d (pp + 1)
        rw [e] at this
        exact this
      refine Corr.guard (h.like.grid' f) fun hi hi' => ?_
      have R := moveBodySoil_like S h hi hi' f maxH tol
      have B := R.like.col R.grid R.grid' (by rw [R.probe]; rfl)
      have K := ih (pp + 1) _ _ _ _ R (FOps.max ((moveBodySoil s q maxH (i + (pp + 1) * d.1) (j + (pp + 1) * d.2) g b tol).1.body 0
        (moveBodySoil s q maxH (i + (pp + 1) * d.1) (j + (pp + 1) * d.2) g b tol).2.ii
        (moveBodySoil s q maxH (i + (pp + 1) * d.1) (j + (pp + 1) * d.2) g b tol).2.jj)
        ((moveBodySoil s q maxH (i + (pp + 1) * d.1) (j + (pp + 1) * d.2) g b tol).1.body 2
        (moveBodySoil s q maxH (i + (pp + 1) * d.1) (j + (pp + 1) * d.2) g b tol).2.ii
        (moveBodySoil s q maxH (i + (pp + 1) * d.1) (j + (pp + 1) * d.2) g b tol).2.jj))
      rw [B.body, B.body]
      exact K
    · exact Corr.ok ⟨h.like, rfl⟩

theorem exploreDir_grid (tol : F) (i j : ℤ) (d : ℤ × ℤ) (fuel : ℕ) (pp : ℤ) (s : SimOut F) (q : Probe F) (maxH : F) (a e : ℤ) :
    Post (exploreDir g b tol i j d fuel pp s q maxH) (fun x => x.1.InGrid a e ↔ s.InGrid a e) := by
  have M : ∀ (s : SimOut F) (q : Probe F) (maxH : F) (i j : ℤ),
      (moveBodySoil s q maxH i j g b tol).1.InGrid a e ↔ s.InGrid a e := by
    intro s q maxH i j
    unfold moveBodySoil moveBodySoil1 moveBodySoil2
    dsimp only
    (repeat' split) <;> exact Iff.rfl
  induction fuel generalizing pp s q maxH with
  | zero =>
    unfold exploreDir
    split
    · exact Post.error
    · exact Post.ok Iff.rfl
  | succ fuel ih =>
    unfold exploreDir
    split
    · dsimp only
      refine Post.guard fun _ => ?_
      exact (ih _ _ _ _).mono fun x hx => hx.trans (M _ _ _ _ _)
    · exact Post.ok Iff.rfl

theorem exploreDirs_like (S : SameScene c g g' b b') (tol : F) (fuel ind indT : ℕ) {i j i' j' : ℤ} (e : c.on (i, j) = (i', j'))
    (ds : List (ℤ × ℤ)) (s s' : SimOut F) (h : Like E c s s') (hi : s.InGrid i j) (hi' : s'.InGrid i' j') (v : F) :
    Corr E (LikeH E c) (exploreDirs fuel g b tol ind indT i j ds s v) (exploreDirs fuel g' b' tol ind indT i' j' (ds.map c.lin) s' v) := by
  induction ds generalizing s s' v with
  | nil => exact Corr.ok ⟨h, rfl⟩
  | cons d ds ih =>
    unfold exploreDirs
    rw [List.map_cons]
    dsimp only
    rw [(h.col hi hi' e).body]
    have hp : LikeP E c (s, (⟨ind, i, j, v, false⟩ : Probe F)) (s', ⟨ind, i', j', v, false⟩) := by
      refine ⟨h, ?_, hi, hi'⟩
      unfold Chart.probe
      dsimp only
      rw [e]
    have X := exploreDir_like S tol e d fuel 0 s s' _ _ hp (s.body indT i j)
    have Y : Corr E (fun x x' => LikeH E c x x' ∧ x.1.InGrid i j ∧ x'.1.InGrid i' j')
        (exploreDir g b tol i j d fuel 0 s ⟨ind, i, j, v, false⟩ (s.body indT i j))
        (exploreDir g' b' tol i' j' (c.lin d) fuel 0 s' ⟨ind, i', j', v, false⟩ (s.body indT i j)) := by
      intro x hx
      rcases X x hx with ⟨x', hx', r⟩ | r
      · exact .inl ⟨x', hx', r, (exploreDir_grid tol i j d fuel 0 s _ _ i j x hx).mpr hi,
          (exploreDir_grid tol i' j' _ fuel 0 s' _ _ i' j' x' hx').mpr hi'⟩
      · exact .inr r
    refine Corr.bind Y ?_
    rintro ⟨t, v1⟩ ⟨t', v1'⟩ ⟨⟨ht, hv⟩, k1, k2⟩
    dsimp only at ht hv k1 k2 ⊢
    subst hv
    split
    · exact Corr.ok ⟨ht, rfl⟩
    · exact ih t t' ht k1 k2 _

theorem CorrW.guard {P P' : Prop} [Decidable P] [Decidable P'] {Q : SimOut F → SimOut F → Prop} {k k' : World F → M (World F)}
    (h : P → P' ∨ E) (hk : P → P' → CorrW E c Q k k' s s') :
    CorrW E c Q (fun w => guardOob P >>= fun _ => k w) (fun w => guardOob P' >>= fun _ => k' w) s s' := by
  intro r log log' w1 hr
  unfold guardOob at hr ⊢
  by_cases hp : P
  · by_cases hp' : P'
    · simp only [hp, hp', if_true] at hr ⊢
      exact hk hp hp' r log log' w1 hr
    · refine .inr ⟨(h hp).resolve_left hp', r, Chart.Rn.refl c r, ?_⟩
      simp only [hp', if_false]
      rfl
  · simp only [hp, if_false] at hr
    cases hr

theorem CorrW.congr {Q : SimOut F → SimOut F → Prop} {f f' k k' : World F → M (World F)} (h : CorrW E c Q k k' s s')
    (hf : ∀ r log, f ⟨s, r, log⟩ = k ⟨s, r, log⟩) (hf' : ∀ r log, f' ⟨s', r, log⟩ = k' ⟨s', r, log⟩) :
    CorrW E c Q f f' s s' := by
  intro r log log' w1 hr
  rw [hf] at hr
  simp only [hf']
  exact h r log log' w1 hr

theorem CorrW.ret {Q : SimOut F → SimOut F → Prop} (h : Q s s') : CorrW E c Q (fun w => .ok w) (fun w => .ok w) s s' := by
  intro r log log' w1 hr
  cases hr
  exact .inl ⟨s', [], h, by simp, fun q1 hq => ⟨q1, hq, by simp⟩⟩

theorem CorrW.err {Q : SimOut F → SimOut F → Prop} {e : Err} {f' : World F → M (World F)} :
    CorrW E c Q (fun _ => .error e) f' s s' := by
  intro r log log' w1 hr
  cases hr

/-- the warning for soil that found no place -/
def spillWarn (tol : F) (v : F) (w : World F) : World F := if tol <ᶠ v then w.warn (.soilRemoved v) else w

/-- Shuffled directions explored from a state, the rest continued. -/
theorem spill_like (S : SameScene c g g' b b') (tol : F) (fuel ind indT : ℕ) {i j i' j' : ℤ} (e : c.on (i, j) = (i', j'))
    (ds ds' : List (ℤ × ℤ)) (hd : c.Lst (ds.map c.lin) ds') {t t' : SimOut F} (h : Like E c t t') (hi : t.InGrid i j)
    (hi' : t'.InGrid i' j') (v : F) {Q : SimOut F → SimOut F → Prop} (k k' : List (ℤ × ℤ) → World F → M (World F))
    (hk : ∀ l s1 s1', Like E c s1 s1' → CorrW E c Q (k l) (k' (l.map c.lin)) s1 s1') :
    CorrW E c Q
      (fun w => exploreDirs fuel g b tol ind indT i j (shuffle ds w.rng).1 t v >>= fun x =>
        k (shuffle ds w.rng).1 (spillWarn tol x.2 { w with out := x.1, rng := (shuffle ds w.rng).2 }))
      (fun w => exploreDirs fuel g' b' tol ind indT i' j' (shuffle ds' w.rng).1 t' v >>= fun x =>
        k' (shuffle ds' w.rng).1 (spillWarn tol x.2 { w with out := x.1, rng := (shuffle ds' w.rng).2 })) s s' := by
  intro r log log' w1 hr
  dsimp only at hr ⊢
  obtain ⟨⟨s1, v1⟩, h1, h2⟩ := bind_eq_ok.mp hr
  rcases exploreDirs_like S tol fuel ind indT e (shuffle ds r).1 t t' h hi hi' v (s1, v1) h1 with
    ⟨⟨s1', v1'⟩, e1, l1, l2⟩ | ⟨hE, e1⟩
  · dsimp only at l1 l2 h2
    subst l2
    have hw : ∀ (s : SimOut F) (r : Rng) (log : List (Warn F)), spillWarn tol v1' ⟨s, r, log⟩ =
        ⟨s, r, log ++ if tol <ᶠ v1' then [.soilRemoved v1'] else []⟩ := by
      intro s r log
      unfold spillWarn World.warn
      split <;> simp
    rw [hw] at h2
    rcases hk _ _ _ l1 _ _ (log' ++ if tol <ᶠ v1' then [.soilRemoved v1'] else []) _ h2 with
      ⟨s2', x, q2, e2, res⟩ | ⟨hE, qa, hqa, res⟩
    · refine .inl ⟨s2', (if tol <ᶠ v1' then [.soilRemoved v1'] else []) ++ x, q2, ?_, fun q1 hq1 => ?_⟩
      · rw [e2, List.append_assoc]
      · obtain ⟨qa, hqa, ra⟩ := res q1 hq1
        obtain ⟨q, hqr, hsh⟩ := shuffle_like c c.lin ds ds' hd r qa hqa
        refine ⟨q, hqr, ?_⟩
        rw [hsh]
        dsimp only
        rw [e1, ok_bind]
        dsimp only
        rw [hw, ra, List.append_assoc]
    · obtain ⟨q, hqr, hsh⟩ := shuffle_like c c.lin ds ds' hd r qa hqa
      refine .inr ⟨hE, q, hqr, ?_⟩
      rw [hsh]
      dsimp only
      rw [e1, ok_bind]
      dsimp only
      rw [hw, res]
  · obtain ⟨q, hqr, hsh⟩ := shuffle_like c c.lin ds ds' hd r _ (Chart.Rn.refl c _)
    refine .inr ⟨hE, q, hqr, ?_⟩
    rw [hsh]
    dsimp only
    rw [e1]
    rfl

theorem moveIntersectingEntries_like (S : SameScene c g g' b b') (tol : F) (fuel fuelN nn : ℕ) (ds ds' : List (ℤ × ℤ))
    (hd : c.Lst (ds.map c.lin) ds') (s s' : SimOut F) (h : Like E c s s') :
    CorrW E c (Like E c) (moveIntersectingEntries fuel g b tol fuelN nn ds) (moveIntersectingEntries fuel g' b' tol fuelN nn ds')
      s s' := by
  cases hn : s.bodySoilPos[nn]? with
  | none =>
    have hn' : s'.bodySoilPos[nn]? = none := by rw [h.entries, List.getElem?_map, hn]; rfl
    refine CorrW.congr (CorrW.ret h) (fun r log => ?_) fun r log => ?_
    · unfold moveIntersectingEntries
      simp only [hn]
    · unfold moveIntersectingEntries
      simp only [hn']
  | some en =>
    have hn' : s'.bodySoilPos[nn]? = some (c.entry en) := by rw [h.entries, List.getElem?_map, hn]; rfl
    induction fuelN generalizing nn ds ds' s s' en with
    | zero =>
      refine CorrW.congr (CorrW.err (e := .fuel) (f' := fun _ => .error .fuel)) (fun r log => ?_) fun r log => ?_
      · unfold moveIntersectingEntries
        simp only [hn]
      · unfold moveIntersectingEntries
        simp only [hn']
    | succ fuelN ih' =>
      have ih : ∀ nn ds ds' (_ : c.Lst (ds.map c.lin) ds') (s s' : SimOut F), Like E c s s' →
          CorrW E c (Like E c) (moveIntersectingEntries fuel g b tol fuelN nn ds)
            (moveIntersectingEntries fuel g' b' tol fuelN nn ds') s s' := by
        intro nn ds ds' hd s s' h
        cases hn : s.bodySoilPos[nn]? with
        | none =>
          have hn' : s'.bodySoilPos[nn]? = none := by rw [h.entries, List.getElem?_map, hn]; rfl
          refine CorrW.congr (CorrW.ret h) (fun r log => ?_) fun r log => ?_
          · unfold moveIntersectingEntries
            simp only [hn]
          · unfold moveIntersectingEntries
            simp only [hn']
        | some en =>
          exact ih' nn ds ds' hd s s' h en hn (by rw [h.entries, List.getElem?_map, hn]; rfl)
      have G := CorrW.guard (E := E) (c := c) (s := s) (s' := s') (P := s.InGrid en.ii en.jj ∧ en.ind + 1 < 4)
        (P' := s'.InGrid (c.entry en).ii (c.entry en).jj ∧ en.ind + 1 < 4) (Q := Like E c)
        (k := fun w => if s.bodyAbs (if en.ind = 0 then 2 else 0) en.ii en.jj then
            moveIntersectingEntries fuel g b tol fuelN (nn + 1) ds w
          else if s.body en.ind en.ii en.jj <ᶠ s.body (if en.ind = 0 then 2 else 0) en.ii en.jj &&
            s.body (if en.ind = 0 then 2 else 0) en.ii en.jj <ᶠ s.bodySoil (en.ind + 1) en.ii en.jj -ᶠ tol then
            let h := s.bodySoil (en.ind + 1) en.ii en.jj -ᶠ s.body (if en.ind = 0 then 2 else 0) en.ii en.jj
            let x := if en.h <ᶠ h then (s.setH nn zero, en.h) else (s.setH nn (en.h -ᶠ h), h)
            exploreDirs fuel g b tol en.ind (if en.ind = 0 then 2 else 0) en.ii en.jj (shuffle ds w.rng).1
              (x.1.setBS (en.ind + 1) en.ii en.jj (x.1.bodySoil (en.ind + 1) en.ii en.jj -ᶠ x.2)) x.2 >>= fun x =>
              moveIntersectingEntries fuel g b tol fuelN (nn + 1) (shuffle ds w.rng).1
                (spillWarn tol x.2 { w with out := x.1, rng := (shuffle ds w.rng).2 })
          else moveIntersectingEntries fuel g b tol fuelN (nn + 1) ds w)
        (k' := fun w => if s'.bodyAbs (if en.ind = 0 then 2 else 0) (c.entry en).ii (c.entry en).jj then
            moveIntersectingEntries fuel g' b' tol fuelN (nn + 1) ds' w
          else if s'.body en.ind (c.entry en).ii (c.entry en).jj <ᶠ
              s'.body (if en.ind = 0 then 2 else 0) (c.entry en).ii (c.entry en).jj &&
            s'.body (if en.ind = 0 then 2 else 0) (c.entry en).ii (c.entry en).jj <ᶠ
              s'.bodySoil (en.ind + 1) (c.entry en).ii (c.entry en).jj -ᶠ tol then
            let h := s'.bodySoil (en.ind + 1) (c.entry en).ii (c.entry en).jj -ᶠ
              s'.body (if en.ind = 0 then 2 else 0) (c.entry en).ii (c.entry en).jj
            let x := if en.h <ᶠ h then (s'.setH nn zero, en.h) else (s'.setH nn (en.h -ᶠ h), h)
            exploreDirs fuel g' b' tol en.ind (if en.ind = 0 then 2 else 0) (c.entry en).ii (c.entry en).jj (shuffle ds' w.rng).1
              (x.1.setBS (en.ind + 1) (c.entry en).ii (c.entry en).jj
                (x.1.bodySoil (en.ind + 1) (c.entry en).ii (c.entry en).jj -ᶠ x.2)) x.2 >>= fun x =>
              moveIntersectingEntries fuel g' b' tol fuelN (nn + 1) (shuffle ds' w.rng).1
                (spillWarn tol x.2 { w with out := x.1, rng := (shuffle ds' w.rng).2 })
          else moveIntersectingEntries fuel g' b' tol fuelN (nn + 1) ds' w)
        (fun hp => (h.grid' (i' := (c.entry en).ii) (j' := (c.entry en).jj) rfl hp.1).imp (fun x => ⟨x, hp.2⟩) id)
        (fun hp hp' => by
          have A : SameCol s s' en.ii en.jj (c.entry en).ii (c.entry en).jj := h.col hp.1 hp'.1 rfl
          simp only [A.bodyAbs, A.body, A.bodySoil]
          by_cases c1 : s.bodyAbs (if en.ind = 0 then 2 else 0) en.ii en.jj = true
          · simp only [c1, if_true]
            exact ih _ _ _ hd _ _ h
          · simp only [c1, Bool.false_eq_true, if_false]
            by_cases c2 : (s.body en.ind en.ii en.jj <ᶠ s.body (if en.ind = 0 then 2 else 0) en.ii en.jj &&
              s.body (if en.ind = 0 then 2 else 0) en.ii en.jj <ᶠ s.bodySoil (en.ind + 1) en.ii en.jj -ᶠ tol) = true
            · simp only [c2, if_true]
              by_cases c3 : (en.h <ᶠ (s.bodySoil (en.ind + 1) en.ii en.jj -ᶠ s.body (if en.ind = 0 then 2 else 0) en.ii en.jj)) = true
              · simp only [c3, if_true]
                refine spill_like S tol fuel _ _ (i' := (c.entry en).ii) (j' := (c.entry en).jj) rfl ds ds' hd
                  ?_ ?_ ?_ _
                  (moveIntersectingEntries fuel g b tol fuelN (nn + 1))
                  (moveIntersectingEntries fuel g' b' tol fuelN (nn + 1)) fun l s1 s1' h1 => ih _ _ _ (Chart.Lst.refl c _) _ _ h1
                rotate_left
                · exact hp.1
                · exact hp'.1
                have A' := (h.setH nn zero).col hp.1 hp'.1 (i' := (c.entry en).ii) (j' := (c.entry en).jj) rfl
                rw [A'.bodySoil]
                exact (h.setH nn _).setBS rfl _ _
              · simp only [c3, Bool.false_eq_true, if_false]
                refine spill_like S tol fuel _ _ (i' := (c.entry en).ii) (j' := (c.entry en).jj) rfl ds ds' hd
                  ?_ ?_ ?_ _
                  (moveIntersectingEntries fuel g b tol fuelN (nn + 1))
                  (moveIntersectingEntries fuel g' b' tol fuelN (nn + 1)) fun l s1 s1' h1 => ih _ _ _ (Chart.Lst.refl c _) _ _ h1
                rotate_left
                · exact hp.1
                · exact hp'.1
                have A' := (h.setH nn (en.h -ᶠ (s.bodySoil (en.ind + 1) en.ii en.jj -ᶠ
                  s.body (if en.ind = 0 then 2 else 0) en.ii en.jj))).col hp.1 hp'.1 (i' := (c.entry en).ii) (j' := (c.entry en).jj) rfl
                rw [A'.bodySoil]
                exact (h.setH nn _).setBS rfl _ _
            · simp only [c2, Bool.false_eq_true, if_false]
              exact ih _ _ _ hd _ _ h)
      refine CorrW.congr G (fun r log => ?_) fun r log => ?_
      · conv_lhs => unfold moveIntersectingEntries
        simp only [hn]
        rfl
      · conv_lhs => unfold moveIntersectingEntries
        simp only [hn']
        rfl

theorem moveIntersectingBodySoil_likeB (S : SameScene c g g' b b') (tol : F) (fuel : ℕ) (h : LikeB E c s s') :
    CorrW E c (fun s1 s1' => LikeB E c s1 s1' ∧ KeptR s s' s1 s1' ∧ s1.bodyArea = s.bodyArea)
      (moveIntersectingBodySoil fuel g b tol) (moveIntersectingBodySoil fuel g' b' tol) s s' := by
  intro r log log' w1 hr
  have f1 := moveIntersectingBodySoil_loc fuel g b tol ⟨s, r, log⟩ w1 hr
  rcases moveIntersectingEntries_like S tol fuel fuel 0 directions8 directions8 c.dirs8 s s' h.toLike r log log' w1 hr with
    ⟨s1', x, q, e, res⟩ | res
  · obtain ⟨q0, -, e0⟩ := res w1.rng (Chart.Rn.refl c _)
    have f2 := moveIntersectingBodySoil_loc fuel g' b' tol _ _ e0
    refine .inl ⟨s1', x, ⟨⟨q, ?_⟩, ⟨f1.relaxArea, f2.relaxArea⟩, f1.body.2.1⟩, e, res⟩
    rw [f2.body.2.1, f1.body.2.1]
    exact h.bodyArea
  · exact .inr res

/-! ## Terrain intersecting the body: the order of the cells matters, so the axes must not be exchanged -/

theorem intersectingAt_like {i j i' j' : ℤ} (A : SameCol s s' i j i' j') (tol : F) (k : ℕ) :
    intersectingAt s' tol k i' j' = intersectingAt s tol k i j := by
  simp only [intersectingAt, A.bodyAbs, A.body, A.terrain]

/-- the intersecting cell of the other simulation -/
def Chart.cell3 (c : Chart) (x : ℕ × ℤ × ℤ) : ℕ × ℤ × ℤ := (x.1, c.on x.2)

theorem locateIntersectingIn_like (h : Like E c s s') (tol : F) (l : List (ℤ × ℤ)) :
    Corr E (fun x x' => x' = x.map c.cell3) (locateIntersectingIn s tol l) (locateIntersectingIn s' tol (l.map c.on)) := by
  induction l with
  | nil => exact Corr.ok rfl
  | cons p l ih =>
    unfold locateIntersectingIn
    rw [List.map_cons]
    refine Corr.guard (h.grid' (i := p.1) (j := p.2) rfl) fun hi hi' => ?_
    refine Corr.bind ih fun x x' hx => ?_
    have A : SameCol s s' p.1 p.2 (c.on p).1 (c.on p).2 := h.col hi hi' rfl
    refine Corr.ok ?_
    rw [hx, intersectingAt_like A, intersectingAt_like A, List.map_append, List.map_append]
    congr 1
    congr 1
    · split <;> rfl
    · split <;> rfl

theorem bodyBottom_like {i j i' j' : ℤ} (A : SameCol s s' i j i' j') : bodyBottom s' i' j' = bodyBottom s i j := by
  simp only [bodyBottom, A.bodyAbs, A.body]

theorem spreadRing_like (tol : F) {i j i' j' : ℤ} (e : c.on (i, j) = (i', j')) (pp : ℤ) (ds : List (ℤ × ℤ)) (s s' : SimOut F)
    (h : Like E c s s') (v : F) :
    Corr E (LikeH E c) (spreadRing tol i j pp ds s v) (spreadRing tol i' j' pp (ds.map c.lin) s' v) := by
  induction ds generalizing s s' v with
  | nil => exact Corr.ok ⟨h, rfl⟩
  | cons d ds ih =>
    unfold spreadRing
    rw [List.map_cons]
    dsimp only
    have f : c.on (i + d.1 * pp, j + d.2 * pp) = (i' + (c.lin d).1 * pp, j' + (c.lin d).2 * pp) := by
      have := c.on_add (i, j) d pp
      rw [e] at this
      rw [mul_comm d.1, mul_comm d.2, mul_comm (c.lin d).1, mul_comm (c.lin d).2]
      exact this
    refine Corr.guard (h.grid' f) fun hi hi' => ?_
    have A := h.col hi hi' f
    simp only [A.bodyAbs, A.terrain, bodyBottom_like A]
    split
    · exact Corr.ok ⟨h.setT f _, rfl⟩
    · split
      · split
        · exact ih _ _ (h.setT f _) _
        · exact Corr.ok ⟨h.setT f _, rfl⟩
      · exact ih _ _ h _

theorem spreadOut_like (tol : F) {i j i' j' : ℤ} (e : c.on (i, j) = (i', j')) (ds : List (ℤ × ℤ)) (fuel : ℕ) (pp : ℤ)
    (s s' : SimOut F) (h : Like E c s s') (v : F) :
    Corr E (Like E c) (spreadOut tol i j ds fuel pp s v) (spreadOut tol i' j' (ds.map c.lin) fuel pp s' v) := by
  induction fuel generalizing pp s s' v with
  | zero =>
    unfold spreadOut
    split
    · exact Corr.err
    · exact Corr.ok h
  | succ fuel ih =>
    unfold spreadOut
    split
    · refine Corr.bind (spreadRing_like tol e (pp + 1) ds s s' h v) ?_
      rintro ⟨t, v1⟩ ⟨t', v1'⟩ ⟨ht, hv⟩
      dsimp only at ht hv ⊢
      rw [hv]
      exact ih _ _ _ ht _
    · exact Corr.ok h

theorem moveIntersectingBodyCells_like (tol : F) (fuel : ℕ) (cs : List (ℕ × ℤ × ℤ)) (ds ds' : List (ℤ × ℤ))
    (hd : c.Lst (ds.map c.lin) ds') (s s' : SimOut F) (h : Like E c s s') :
    CorrR E c (Like E c) (moveIntersectingBodyCells fuel tol cs ds s)
      (moveIntersectingBodyCells fuel tol (cs.map c.cell3) ds' s') := by
  induction cs generalizing ds ds' s s' with
  | nil =>
    intro r x r1 hr
    cases hr
    exact .inl ⟨s', h, fun q1 hq => ⟨q1, hq, rfl⟩⟩
  | cons p cs ih =>
    obtain ⟨k, i, j⟩ := p
    intro r x r1 hr
    simp only [moveIntersectingBodyCells, List.map_cons, Chart.cell3] at hr ⊢
    obtain ⟨u, hg, hr⟩ := bind_eq_ok.mp hr
    have hi : s.InGrid i j := by
      unfold guardOob at hg
      split at hg
      · assumption
      · cases hg
    by_cases hi' : s'.InGrid (c.on (i, j)).1 (c.on (i, j)).2
    · have hG : guardOob (s'.InGrid (c.on (i, j)).1 (c.on (i, j)).2) = .ok () := by
        unfold guardOob
        rw [if_pos hi']
      have A : SameCol s s' i j (c.on (i, j)).1 (c.on (i, j)).2 := h.col hi hi' rfl
      simp only [hG, ok_bind, A.terrain, A.body]
      by_cases hc : (s.terrain i j -ᶠ tol <ᶠ s.body k i j) = true
      · simp only [hc, if_true] at hr ⊢
        exact ih ds ds' hd s s' h r x r1 hr
      · simp only [hc] at hr ⊢
        obtain ⟨t, h1, h2⟩ := bind_eq_ok.mp hr
        rcases spreadOut_like tol (i := i) (j := j) (i' := (c.on (i, j)).1) (j' := (c.on (i, j)).2) rfl (shuffle ds r).1 fuel 0 s s' h (s.terrain i j -ᶠ s.body k i j) t h1 with
          ⟨t', e1, l1⟩ | ⟨hE, e1⟩
        · have hb : t'.body k (c.on (i, j)).1 (c.on (i, j)).2 = t.body k i j := by
            have b1 := (spreadOut_loc tol i j (shuffle ds r).1 fuel 0 s _ t h1)
            have b2 := (spreadOut_loc tol _ _ _ fuel 0 s' _ t' e1)
            rw [b1.body.1, b2.body.1]
            exact A.body k
          rcases ih (shuffle ds r).1 ((shuffle ds r).1.map c.lin) (Chart.Lst.refl c _) _ _ (l1.setT (i := i) (j := j) (i' := (c.on (i, j)).1) (j' := (c.on (i, j)).2) rfl (t.body k i j))
            (shuffle ds r).2 x r1 h2 with ⟨x', hx, res⟩ | ⟨hE, q2, hq2, res⟩
          · refine .inl ⟨x', hx, fun q1 hq => ?_⟩
            obtain ⟨q2, hq2, res⟩ := res q1 hq
            obtain ⟨q, hqr, hsh⟩ := shuffle_like c c.lin ds ds' hd r q2 hq2
            refine ⟨q, hqr, ?_⟩
            rw [hsh]
            dsimp only [Bool.false_eq_true, if_false]
            rw [if_neg (by simp), e1, ok_bind, hb]
            exact res
          · obtain ⟨q, hqr, hsh⟩ := shuffle_like c c.lin ds ds' hd r q2 hq2
            refine .inr ⟨hE, q, hqr, ?_⟩
            rw [hsh]
            dsimp only
            rw [if_neg (by simp), e1, ok_bind, hb]
            exact res
        · obtain ⟨q, hqr, hsh⟩ := shuffle_like c c.lin ds ds' hd r _ (Chart.Rn.refl c _)
          refine .inr ⟨hE, q, hqr, ?_⟩
          rw [hsh]
          dsimp only
          rw [if_neg (by simp), e1]
          rfl
    · refine .inr ⟨(h.grid i j hi).resolve_left hi', r, Chart.Rn.refl c r, ?_⟩
      unfold guardOob
      rw [if_neg hi']
      rfl

theorem moveIntersectingBody_likeB (tol : F) (fuel : ℕ) (hs : c.swap = false) (h : LikeB E c s s') :
    CorrW E c (fun s1 s1' => LikeB E c s1 s1' ∧ KeptR s s' s1 s1' ∧ s1.bodyArea = s.bodyArea)
      (moveIntersectingBody fuel tol) (moveIntersectingBody fuel tol) s s' := by
  intro r log log' w1 hr
  have f1 := (moveIntersectingBody_loc fuel tol ⟨s, r, log⟩ w1 hr).1
  have hcells : s'.bodyArea.cells = s.bodyArea.cells.map c.on := by
    have := c.area_cells s.bodyArea
    unfold Chart.Lst at this
    rw [hs] at this
    rw [h.bodyArea]
    exact this
  have key : (∃ s1' x, Like E c w1.out s1' ∧ w1.log = log ++ x ∧
      ∀ q1, c.Rn w1.rng q1 → ∃ q, c.Rn r q ∧ moveIntersectingBody fuel tol ⟨s', q, log'⟩ = .ok ⟨s1', q1, log' ++ x⟩) ∨
      (E ∧ ∃ q, c.Rn r q ∧ moveIntersectingBody fuel tol ⟨s', q, log'⟩ = .error .oob) := by
    unfold moveIntersectingBody locateIntersectingCells at hr ⊢
    dsimp only at hr ⊢
    obtain ⟨cs, h1, h2⟩ := bind_eq_ok.mp hr
    rw [hcells]
    rcases locateIntersectingIn_like h.toLike tol _ cs h1 with ⟨cs', e1, rfl⟩ | ⟨hE, e1⟩
    · simp only [e1, ok_bind, List.isEmpty_map]
      cases hem : cs.isEmpty with
      | true =>
        rw [hem] at h2
        cases h2
        exact .inl ⟨s', [], h.toLike, by simp, fun q1 hq => ⟨q1, hq, by simp⟩⟩
      | false =>
        rw [hem] at h2
        simp only [Bool.false_eq_true, if_false] at h2 ⊢
        obtain ⟨⟨t, r1⟩, h3, h4⟩ := bind_eq_ok.mp h2
        cases h4
        rcases moveIntersectingBodyCells_like tol fuel cs directions8 directions8 c.dirs8 s s' h.toLike r t r1 h3 with
          ⟨t', ht, res⟩ | ⟨hE, q, hq, res⟩
        · refine .inl ⟨t', [], ht, by simp, fun q1 hq1 => ?_⟩
          obtain ⟨q, hq, e2⟩ := res q1 hq1
          refine ⟨q, hq, ?_⟩
          rw [e2, List.append_nil]
          rfl
        · refine .inr ⟨hE, q, hq, ?_⟩
          rw [res]
          rfl
    · refine .inr ⟨hE, r, Chart.Rn.refl c r, ?_⟩
      rw [e1]
      rfl
  rcases key with ⟨s1', x, q, e, res⟩ | res
  · obtain ⟨q0, -, e0⟩ := res w1.rng (Chart.Rn.refl c _)
    have f2 := (moveIntersectingBody_loc fuel tol _ _ e0).1
    refine .inl ⟨s1', x, ⟨⟨q, ?_⟩, ⟨f1.relaxArea, f2.relaxArea⟩, f1.body.2.1⟩, e, res⟩
    rw [f2.body.2.1, f1.body.2.1]
    exact h.bodyArea
  · exact .inr res

theorem moveIntersectingCells_likeB (S : SameScene c g g' b b') (tol : F) (fuel : ℕ) (hs : c.swap = false) (h : LikeB E c s s') :
    CorrW E c (fun s1 s1' => LikeB E c s1 s1' ∧ KeptR s s' s1 s1' ∧ s1.bodyArea = s.bodyArea)
      (moveIntersectingCells fuel g b tol) (moveIntersectingCells fuel g' b' tol) s s' :=
  (moveIntersectingBodySoil_likeB S tol fuel h).comp fun _ _ q1 =>
    (moveIntersectingBody_likeB tol fuel hs q1.1).mono fun _ _ q2 =>
      ⟨q2.1, ⟨q2.2.1.1.trans q1.2.1.1, q2.2.1.2.trans q1.2.1.2⟩, q2.2.2.trans q1.2.2⟩

theorem moveIntersectingBodySoil_like (S : SameScene c g g' b b') (tol : F) (fuel : ℕ) (h : LikeA E c s s') :
    CorrW E c (fun s1 s1' => LikeA E c s1 s1' ∧ s1.relaxArea = s.relaxArea ∧ s1.bodyArea = s.bodyArea)
      (moveIntersectingBodySoil fuel g b tol) (moveIntersectingBodySoil fuel g' b' tol) s s' :=
  (moveIntersectingBodySoil_likeB S tol fuel h.toB).mono fun _ _ q => ⟨q.1.toA q.2.1 h.relaxArea, q.2.1.1, q.2.2⟩

theorem moveIntersectingCells_like (S : SameScene c g g' b b') (tol : F) (fuel : ℕ) (hs : c.swap = false) (h : LikeA E c s s') :
    CorrW E c (fun s1 s1' => LikeA E c s1 s1' ∧ s1.relaxArea = s.relaxArea ∧ s1.bodyArea = s.bodyArea)
      (moveIntersectingCells fuel g b tol) (moveIntersectingCells fuel g' b' tol) s s' :=
  (moveIntersectingCells_likeB S tol fuel hs h.toB).mono fun _ _ q => ⟨q.1.toA q.2.1 h.relaxArea, q.2.1.1, q.2.2⟩

end Soil
