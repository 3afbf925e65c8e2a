import Verif.Proof.History
import Verif.Proof.Safe

/-!
# One step returns normally
-/

set_option linter.unusedSectionVars false
set_option linter.unusedSimpArgs false

namespace Soil

section Any
variable {F : Type} [FOps F]

theorem relaxBodyDirs_ok (g : Grid F) (body : Body F) (dh tol : F) (nn : ℕ) (ii jj : ℤ) (ind : ℕ)
    (hk : ind + 1 < 4) (ds : List (ℤ × ℤ)) (hds : ∀ d ∈ ds, d ∈ directions4) (s : SimOut F)
    (q : List (BodySoil F)) (hin : ∀ i j, NearCol ii jj i j → s.InGrid i j) :
    Ok (relaxBodyDirs g body dh tol nn ii jj ind ds s q) fun x => keys x.1 = keys s := by
  induction ds generalizing s q with
  | nil => exact Ok.ok rfl
  | cons d ds ih =>
    have ih' := ih fun x hx => hds x (List.mem_cons_of_mem _ hx)
    have hd := nearCol_dir (hds d List.mem_cons_self) ii jj
    unfold relaxBodyDirs
    dsimp only
    refine Ok.guard ⟨hin _ _ (Or.inl ⟨rfl, rfl⟩), hin _ _ hd, hk⟩ ?_
    split_ifs with hst
    · exact ih' s q hin
    · have hl := relaxUnstableBodyCell_local (P := fun _ _ => True) { s with equilibrium := false }
        (checkUnstableBodyCell s ii jj ind (ii + d.1) (jj + d.2)
          (FOps.sub (s.bodySoil (ind + 1) ii jj) dh) tol) dh nn ii jj ind (ii + d.1) (jj + d.2) g body
          tol trivial trivial
      have hkeys := relaxUnstableBodyCell_keys { s with equilibrium := false }
        (checkUnstableBodyCell s ii jj ind (ii + d.1) (jj + d.2)
          (FOps.sub (s.bodySoil (ind + 1) ii jj) dh) tol) dh nn ii jj ind (ii + d.1) (jj + d.2) g body
          tol
      exact (ih' _ _ fun i j h => (hl.inGrid i j).mpr (hin i j h)).mono fun x hx => hx.trans hkeys

end Any

variable {K : Type} [Field K] [LinearOrder K] [FloorRing K] [Transc K] [IsStrictOrderedRing K]

theorem WellFormed.entry_inside {c : K} {s : SimOut K} (h : WellFormed c s) {e : BodySoil K}
    (he : e ∈ s.bodySoilPos) (hp : 0 < e.h) : ∀ i j, NearCol e.ii e.jj i j → s.InGrid i j := by
  obtain ⟨hg, hk⟩ := h.soilOK.entries e he
  have hs := h.soilOK.entry_hasSoil he hp
  have hb := (h.soilOK.rest _ _ _ hg hk hs).1
  have ho : ¬ OnBorder s e.ii e.jj := fun ho => h.bodyOK.border _ _ _ hg ho hk hb
  intro i j hn
  unfold OnBorder at ho
  unfold NearCol at hn
  unfold SimOut.InGrid at hg ⊢
  omega

theorem relaxBodyEntries_ok (g : Grid K) (body : Body K) (dh tol : K) (t : TolOK g.cellZ tol)
    (hd : Al g.cellZ dh) (hd0 : 0 ≤ dh) (count n : ℕ) (ds : List (ℤ × ℤ))
    (hds : ∀ d ∈ ds, d ∈ directions4) (s : SimOut K) (q : List (BodySoil K)) (r : Rng)
    (h : WellFormed g.cellZ (s.app q)) (hn : n + count ≤ s.bodySoilPos.length) :
    ∃ x, relaxBodyEntries g body dh tol count n ds s q r = .ok x := by
  induction count generalizing n ds s q r with
  | zero => exact ⟨_, rfl⟩
  | succ count ih =>
    unfold relaxBodyEntries
    rw [List.getElem?_eq_getElem (by omega : n < s.bodySoilPos.length)]
    dsimp only
    split_ifs with hlt
    · exact ih _ _ hds _ _ _ h (by omega)
    · have hds' : ∀ d ∈ (shuffle ds r).1, d ∈ directions4 := fun d hd => hds d (mem_shuffle.mp hd)
      set e := s.bodySoilPos[n] with hee
      have hmem : e ∈ (s.app q).bodySoilPos := List.mem_append_left _ (List.getElem_mem _)
      have hpos : 0 < e.h := by
        simp only [ex_lt, decide_eq_true_eq, not_lt] at hlt
        exact lt_of_lt_of_le t.pos hlt
      have hin := h.entry_inside hmem hpos
      have hk := (h.soilOK.entries e hmem).2
      obtain ⟨x, hx, hkeys⟩ := relaxBodyDirs_ok g body dh tol n e.ii e.jj e.ind (by omega) _ hds' s q hin
      rw [hx, ok_bind]
      have hw := (relaxBodyDirs_wf g body dh tol t hd hd0 n e.ii e.jj e.ind _ hds' s q h
          ⟨e, List.getElem?_eq_getElem (by omega), rfl, rfl, rfl⟩ x hx).1
      refine ih _ _ hds' _ _ _ hw ?_
      have : (keys x.1).length = (keys s).length := by rw [hkeys]
      unfold keys at this
      rw [List.length_map, List.length_map] at this
      omega

theorem relaxBodySoil_ok (g : Grid K) (body : Body K) (p : SimParam K) (tol : K)
    (t : TolOK g.cellZ tol) (hd0 : 0 ≤ dhMax g p) (w : World K) (h : WellFormed g.cellZ w.out) :
    ∃ w', relaxBodySoil g body p tol w = .ok w' := by
  unfold relaxBodySoil
  obtain ⟨x, hx⟩ := relaxBodyEntries_ok g body _ tol t (dhMax_al g p) hd0 w.out.bodySoilPos.length 0
    directions4 (fun d hd => hd) w.out [] w.rng (by rw [app_nil]; exact h) (by omega)
  rw [hx, ok_bind]
  exact ⟨_, rfl⟩

theorem relaxOnce_ok {g : Grid K} {p : SimParam K} {tol : K} (S : Setup g p tol) (body : Body K)
    (w : World K) (h : Sound g w.out) : ∃ w', relaxOnce g body p tol w = .ok w' := by
  unfold relaxOnce
  dsimp only
  have h0 : WellFormed g.cellZ (w.mapOut fun s => { s with impactArea := impactOf s }).out :=
    h.wf.congr rfl rfl rfl rfl rfl rfl
  obtain ⟨w1, h1⟩ := relaxTerrain_ok g body p tol
    (w.mapOut fun s => { s with impactArea := impactOf s }) (by
      have a := h.area
      have b := h.relax
      unfold AreaInside World.mapOut impactOf at *
      dsimp only
      omega)
  rw [h1, ok_bind]
  exact relaxBodySoil_ok g body p tol S.tolOK S.dh _
    (shuffleEntries_wf (relaxTerrain_wf g body p tol S.tolOK _ h0 w1 h1))

theorem relaxLoop_ok {g : Grid K} {p : SimParam K} {tol : K} (S : Setup g p tol) (body : Body K)
    (fuel : ℕ) (it : ℤ) (hf : p.maxIterations ≤ it + fuel) (w : World K) (h : Sound g w.out) :
    ∃ x, relaxLoop g body p tol fuel it w = .ok x := by
  induction fuel generalizing it w with
  | zero =>
    unfold relaxLoop
    split_ifs with hc
    · simp only [Bool.and_eq_true, decide_eq_true_eq] at hc
      omega
    · exact ⟨_, rfl⟩
  | succ n ih =>
    unfold relaxLoop
    split_ifs
    · obtain ⟨w1, h1⟩ := relaxOnce_ok S body w h
      dsimp only
      rw [h1, ok_bind]
      exact ih _ (by push_cast at hf; omega) w1 (relaxOnce_sound S body w h w1 h1).1
    · exact ⟨_, rfl⟩

theorem roundAway_bounds {x : K} {n : ℤ} (h1 : 1 / 2 ≤ x) (h2 : x < n - 1 / 2) :
    1 ≤ roundAway x ∧ roundAway x ≤ n - 1 := by
  unfold roundAway
  rw [if_pos (by linarith)]
  constructor
  · rw [Int.le_floor]; push_cast; linarith
  · have : ⌊x + 1 / 2⌋ < n := by rw [Int.floor_lt]; linarith
    omega

/-- A step returns normally when the new pose is inside the grid and the soil is carried inside. -/
theorem step_ok (hs : SqrtLaw K) {g : Grid K} {p : SimParam K} {tol : K} (S : Setup g p tol)
    (hsm : 18 * tol * g.halfZ ≤ 1) (pos : Vec3 K) (ori : Quat K) (body : Body K)
    (hoff : PoseOff g body (pos, ori)) (hin : ∀ v ∈ bodyVertices g pos ori body, InsideZ g v)
    (w : World K) (h : Sound g w.out) (hcar : CarriedInside g pos ori w.out.bodySoilPos) :
    ∃ N, ∀ fuel, N ≤ fuel → ∃ r, step fuel pos ori g body p tol w = .ok r := by
  obtain ⟨N1, hN1⟩ := calcBodyPos_ok hs S.zgrid S.cellXY S.level S.tolPos S.tolThird hsm S.buffer
    h.size h.inArea h.area h.wf.bodyOK.al hoff hin (p := p)
  refine ⟨max N1 (max ((w.out.bodySoilPos.length + 1) * (1 + 8 * (w.out.lenX + w.out.lenY).toNat))
    p.maxIterations.toNat), fun fuel hf => ?_⟩
  have hf1 : N1 ≤ fuel := le_trans (le_max_left _ _) hf
  have hf2 := le_trans (le_trans (le_max_left _ _) (le_max_right _ _)) hf
  have hf3 := le_trans (le_trans (le_max_right _ _) (le_max_right _ _)) hf
  unfold step
  rcases hc : checkBodyMovement pos ori g body with ⟨moved, warns⟩
  dsimp only
  cases moved with
  | false => exact ⟨_, rfl⟩
  | true =>
    simp only [Bool.not_true, Bool.false_eq_true, if_false]
    obtain ⟨s, h1⟩ := hN1 fuel hf1
    have N := calcBodyPos_post hs S.zgrid S.cellXY S.level S.tolPos S.tolThird S.buffer h.size h.inArea
      h.wf.bodyOK.al hoff h1
    rw [h1, ok_bind]
    have hst : Stored g.cellZ s := by
      obtain ⟨b, a, rfl⟩ : ∃ b a, s = { w.out with body := b, bodyArea := a } := ⟨_, _, N.eq⟩
      have := h.wf.soilOK.stored
      exact ⟨this.1, this.2, this.3, this.4, this.5, this.6, this.7⟩
    have hl : s.bodySoilPos = w.out.bodySoilPos := by
      obtain ⟨b, a, rfl⟩ : ∃ b a, s = { w.out with body := b, bodyArea := a } := ⟨_, _, N.eq⟩
      rfl
    have hsz : SameSize g s ∧ s.lenX = w.out.lenX ∧ s.lenY = w.out.lenY := by
      obtain ⟨b, a, rfl⟩ : ∃ b a, s = { w.out with body := b, bodyArea := a } := ⟨_, _, N.eq⟩
      exact ⟨h.size, rfl, rfl⟩
    obtain ⟨⟨w2, b2⟩, h2⟩ := updateBodySoil_ok pos ori g body tol
      { w with out := s, log := w.log ++ warns } hst.entries (by
        intro e he hh i j a1 a2 a3 a4
        dsimp only at he
        rw [hl] at he
        have hp : 0 < e.h := by have := S.zgrid.pos; linarith
        obtain ⟨⟨b1, b2⟩, b3, b4⟩ := hcar e he hp
        have c1 : 1 ≤ colX g (movedTo pos ori e) ∧ colX g (movedTo pos ori e) ≤ 2 * g.halfX - 1 :=
          roundAway_bounds b1 (by push_cast; exact b2)
        have c2 : 1 ≤ colY g (movedTo pos ori e) ∧ colY g (movedTo pos ori e) ≤ 2 * g.halfY - 1 :=
          roundAway_bounds b3 (by push_cast; exact b4)
        have := hsz.1.1
        have := hsz.1.2
        unfold SimOut.InGrid
        dsimp only
        omega)
    rw [h2, ok_bind]
    dsimp only
    obtain ⟨-, sb2, S2, -, -, -, n, -, hlen, -⟩ := updateBodySoil_spec pos ori g body tol S.zgrid.pos
      { w with out := s, log := w.log ++ warns } N.bodyOK hst _ h2
    obtain ⟨c1, c2, c3, c4⟩ := sb2
    dsimp only at S2 hlen c1 c2 c3 c4
    have B2 : BodyOK g.cellZ w2.out := N.bodyOK.congr c1 c3 c4
    have hlen' : w2.out.bodySoilPos.length ≤ w.out.bodySoilPos.length := by
      have := List.length_filter_le (fun e : BodySoil K => decide (0 < e.h)) s.bodySoilPos
      rw [hl] at this hlen
      omega
    obtain ⟨w3, h3⟩ := C24_terminates fuel g b2 g.cellZ tol w2 S.tolPos S.tolCell B2 S2 (by
      have := N.area
      unfold AreaInside at this ⊢
      rwa [c2, c3, c4]) (by
      refine le_trans ?_ hf2
      rw [c3, c4, hsz.2.1, hsz.2.2]
      exact Nat.mul_le_mul_right _ (by omega))
    rw [h3, ok_bind]
    have s3 : Sound g w3.out := (step_mid hs S pos ori body hoff w h h1 h2 h3).1
    obtain ⟨x, hx⟩ := relaxLoop_ok S b2 fuel 0 (by omega)
      (w3.mapOut fun s => { s with equilibrium := false }) (s3.setEq false)
    rw [hx, ok_bind]
    exact ⟨_, rfl⟩

end Soil
