import Verif.Proof.SimRun
import Verif.Proof.History

/-!
# Simulation by exact arithmetic with cells of height one: relaxation of the body soil, relaxation loop
-/

set_option linter.unusedSectionVars false
set_option linter.unusedVariables false

namespace Soil

open FOps

theorem relaxBodyDirs_cons {E : Type} [FOps E] (g : Grid E) (body : Body E) (dh tol : E) (nn : ℕ)
    (ii jj : ℤ) (ind : ℕ) (d : ℤ × ℤ) (ds : List (ℤ × ℤ)) (s : SimOut E) (q : List (BodySoil E)) :
    relaxBodyDirs g body dh tol nn ii jj ind (d :: ds) s q =
      relaxBodyDirs g body dh tol nn ii jj ind [d] s q >>=
        fun x => relaxBodyDirs g body dh tol nn ii jj ind ds x.1 x.2 := by
  have h1 : ∀ ds, relaxBodyDirs g body dh tol nn ii jj ind (d :: ds) s q = (do
      guardOob (s.InGrid ii jj ∧ s.InGrid (ii + d.1) (jj + d.2) ∧ ind + 1 < 4)
      let status := checkUnstableBodyCell s ii jj ind (ii + d.1) (jj + d.2)
        (s.bodySoil (ind + 1) ii jj -ᶠ dh) tol
      if status = 0 then relaxBodyDirs g body dh tol nn ii jj ind ds s q
      else
        let x := relaxUnstableBodyCell { s with equilibrium := false } status dh nn ii jj ind
          (ii + d.1) (jj + d.2) g body tol
        relaxBodyDirs g body dh tol nn ii jj ind ds x.1 (q ++ x.2)) := fun ds => rfl
  have h2 : ∀ s q, relaxBodyDirs g body dh tol nn ii jj ind [] s q = .ok (s, q) := fun _ _ => rfl
  rw [h1 ds, h1 []]
  dsimp only
  rw [bind_assocM]
  congr 1
  funext _
  split_ifs <;> rw [h2, ok_bind]

theorem relaxBodyDirs_keys {E : Type} [FOps E] (g : Grid E) (body : Body E) (dh tol : E) (nn : ℕ)
    (ii jj : ℤ) (ind : ℕ) (ds : List (ℤ × ℤ)) (s : SimOut E) (q : List (BodySoil E)) :
    Post (relaxBodyDirs g body dh tol nn ii jj ind ds s q) fun x => keys x.1 = keys s := by
  induction ds generalizing s q with
  | nil => exact Post.ok rfl
  | cons d ds ih =>
    unfold relaxBodyDirs
    dsimp only
    refine Post.guard fun _ => ?_
    split_ifs
    · exact ih s q
    · refine (ih _ _).mono fun x hx => ?_
      rw [hx, relaxUnstableBodyCell_keys]
      rfl

variable {F : Type} [FOps F] {cell tol : F} {N C : ℤ}
  {P : Pair F ℚ cell tol (1 : ℚ) (1 / 4) N C}

theorem relaxBodyDirs_one_sim {g : Grid F} {g' : Grid ℚ} (hg : GRep P g g') {body : Body F}
    {body' : Body ℚ} {dh : F} {dh' : ℚ} (hdh : V P 1 dh dh') {nn : ℕ} {ii jj : ℤ} {ind : ℕ} {d : ℤ × ℤ}
    {s : SimOut F} {z : SimOut ℚ} {q : List (BodySoil F)} {q' : List (BodySoil ℚ)}
    (h : Rep P 1 s z) (hq : List.Forall₂ (ERep P 1) q q') :
    Sim (relaxBodyDirs g body dh tol nn ii jj ind [d] s q)
      (relaxBodyDirs g' body' dh' (1 / 4) nn ii jj ind [d] z q') (QRep P 12) := by
  unfold relaxBodyDirs
  dsimp only
  refine Sim.guard (by rw [h.inGrid, h.inGrid]) fun ⟨hi, hc, hind⟩ => ?_
  rw [checkUnstableBodyCell_sim h hi hc hind ((h.S (ind + 1) ii jj hi hind).sub hdh)]
  have hq' : List.Forall₂ (ERep P 12) q q' := hq.imp fun _ _ x => x.up (by decide)
  split_ifs
  · exact Sim.ok ⟨h.up (by decide), hq'⟩
  · have := relaxUnstableBodyCell_sim (h.setEq false) hg hdh hi hc nn hind (body := body) (body' := body')
      (checkUnstableBodyCell z ii jj ind (ii + d.1) (jj + d.2)
        (z.bodySoil (ind + 1) ii jj -ᶠ dh') (1 / 4))
    exact Sim.ok ⟨this.1, List.rel_append hq' this.2⟩

/-- The invariant of the relaxation of the body soil: `q` are the queued entries -/
structure BInv (P : Pair F ℚ cell tol (1 : ℚ) (1 / 4) N C) (lo hi vol : ℤ) (s : SimOut F)
    (q : List (BodySoil F)) (z : SimOut ℚ) (q' : List (BodySoil ℚ)) : Prop where
  rep : Rep P 1 s z
  queue : List.Forall₂ (ERep P 1) q q'
  wf : WellFormed 1 (z.app q')
  room : Room lo hi vol z

theorem Room.app {lo hi vol : ℤ} {z : SimOut ℚ} (h : Room lo hi vol z) (q : List (BodySoil ℚ)) :
    Room lo hi vol (z.app q) := ⟨h.T, h.B, h.total⟩

theorem forall₂_get {α β : Type} {R : α → β → Prop} {l : List α} {m : List β} (h : List.Forall₂ R l m)
    (n : ℕ) : (l[n]? = none ∧ m[n]? = none) ∨ ∃ a b, l[n]? = some a ∧ m[n]? = some b ∧ R a b := by
  induction h generalizing n with
  | nil => exact .inl (by simp)
  | cons hab hl ih =>
    cases n with
    | zero => exact .inr ⟨_, _, by simp, by simp, hab⟩
    | succ n => simpa using ih n

theorem forall₂_perm_get {α β : Type} {R : α → β → Prop} {l : List α} {m : List β}
    (h : List.Forall₂ R l m) : l.length = m.length := h.length_eq

section body

variable (hP : ∀ n, P.B.emb n = (n : ℚ))
  {lo hi vol : ℤ} (hb : Budget lo hi vol P.H) {g : Grid F} {g' : Grid ℚ} (hg : GRep P g g')
  {body : Body F} {body' : Body ℚ} {dh : F} {dh' : ℚ} (hdh : V P 1 dh dh') (h0 : 0 ≤ dh')

include hP hb hg hdh h0

theorem relaxBodyDirs_sim (nn : ℕ) (ii jj : ℤ) (ind : ℕ) (ds : List (ℤ × ℤ))
    (hds : ∀ d ∈ ds, d ∈ directions4) (s : SimOut F) (z : SimOut ℚ) (q : List (BodySoil F))
    (q' : List (BodySoil ℚ)) (h : BInv P lo hi vol s q z q')
    (he : ∃ e, z.bodySoilPos[nn]? = some e ∧ e.ind = ind ∧ e.ii = ii ∧ e.jj = jj) :
    Sim (relaxBodyDirs g body dh tol nn ii jj ind ds s q)
      (relaxBodyDirs g' body' dh' (1 / 4) nn ii jj ind ds z q')
      (fun x y => BInv P lo hi vol x.1 x.2 y.1 y.2) := by
  have t : TolOK g'.cellZ (1 / 4) := by rw [hg.cellZ']; exact tolQ
  have hal : Al g'.cellZ dh' := by rw [hg.cellZ']; exact al_of_V hP hdh
  induction ds generalizing s z q q' with
  | nil => exact Sim.ok h
  | cons d ds ih =>
    rw [relaxBodyDirs_cons, relaxBodyDirs_cons g']
    have hd1 : ∀ x ∈ [d], x ∈ directions4 := fun x hx => hds x (by simp_all)
    refine (relaxBodyDirs_one_sim hg hdh h.rep h.queue).bind fun a b ha hb' hab =>
      ih (fun x hx => hds x (List.mem_cons_of_mem _ hx)) a.1 b.1 a.2 b.2 ?_ ?_
    · have w := h.wf
      rw [← hg.cellZ'] at w
      obtain ⟨w1, w2, -, w4, -⟩ := relaxBodyDirs_wf g' body' dh' (1 / 4) t hal h0 nn ii jj ind _ hd1 z q'
        w he b hb'
      rw [hg.cellZ'] at w1
      have hl := relaxBodyDirs_local g' body' dh' (1 / 4) nn ii jj ind _ hd1 z q' b hb'
      have r1 : Room lo hi vol b.1 := h.room.step (fun i j hij =>
          (h.room.T i j ((hl.inGrid i j).mp hij)).trans (w4 i j)) hl.body w2.le
      have hbd := bnd_of hb w1.soilOK (r1.app b.2)
      refine ⟨hab.1.tighten hP ⟨hbd.T, hbd.B, hbd.S, fun e he => hbd.E e (List.mem_append_left _ he)⟩,
        tightenL hP hab.2 fun e he => hbd.E e (List.mem_append_right _ he), w1, r1⟩
    · obtain ⟨e, he1, rfl, rfl, rfl⟩ := he
      exact keys_get (relaxBodyDirs_keys g' body' dh' (1 / 4) nn _ _ _ _ z q' b hb') he1

theorem relaxBodyEntries_sim (count nn : ℕ) (ds : List (ℤ × ℤ))
    (hds : ∀ d ∈ ds, d ∈ directions4) (s : SimOut F) (z : SimOut ℚ) (q : List (BodySoil F))
    (q' : List (BodySoil ℚ)) (r : Rng) (h : BInv P lo hi vol s q z q') :
    Sim (relaxBodyEntries g body dh tol count nn ds s q r)
      (relaxBodyEntries g' body' dh' (1 / 4) count nn ds z q' r)
      (fun x y => BInv P lo hi vol x.1 x.2.1 y.1 y.2.1 ∧ x.2.2 = y.2.2) := by
  induction count generalizing nn ds s z q q' r with
  | zero => exact Sim.ok ⟨h, rfl⟩
  | succ count ih =>
    unfold relaxBodyEntries
    rcases forall₂_get h.rep.E nn with ⟨e1, e2⟩ | ⟨e, f, e1, e2, hef⟩
    · rw [e1, e2]; exact Sim.error
    · rw [e1, e2]
      dsimp only
      rw [hef.2.2.2.lt_tol]
      split_ifs
      · exact ih _ _ hds _ _ _ _ _ h
      · have hds' : ∀ d ∈ (shuffle ds r).1, d ∈ directions4 := fun d hd => hds d (mem_shuffle.mp hd)
        rw [hef.1, hef.2.1, hef.2.2.1]
        exact (relaxBodyDirs_sim hP hb hg hdh h0 nn f.ii f.jj f.ind _ hds' s z q q' h
          ⟨f, e2, rfl, rfl, rfl⟩).bind fun a b _ _ hab => ih _ _ hds' _ _ _ _ _ hab

end body

theorem forall₂_set {α β : Type} {R : α → β → Prop} {l : List α} {m : List β} (h : List.Forall₂ R l m)
    (n : ℕ) {a : α} {b : β} (hab : R a b) : List.Forall₂ R (l.set n a) (m.set n b) := by
  induction h generalizing n with
  | nil => exact .nil
  | cons h1 h2 ih =>
    cases n with
    | zero => exact .cons hab h2
    | succ n => exact .cons h1 (ih n)

theorem forall₂_swapL {α β : Type} {R : α → β → Prop} {l : List α} {m : List β}
    (h : List.Forall₂ R l m) (a b : ℕ) : List.Forall₂ R (swapL l a b) (swapL m a b) := by
  unfold swapL
  rcases forall₂_get h a with ⟨e1, e2⟩ | ⟨x, y, e1, e2, hxy⟩ <;> rw [e1, e2]
  · exact h
  · rcases forall₂_get h b with ⟨e1, e2⟩ | ⟨x', y', e1, e2, hxy'⟩ <;> rw [e1, e2]
    · exact h
    · exact forall₂_set (forall₂_set h a hxy') b hxy

theorem forall₂_shuffleFrom {α β : Type} {R : α → β → Prop} (n : ℕ) {l : List α} {m : List β}
    (h : List.Forall₂ R l m) (r : Rng) :
    List.Forall₂ R (shuffleFrom n l r).1 (shuffleFrom n m r).1 ∧
      (shuffleFrom n l r).2 = (shuffleFrom n m r).2 := by
  induction n generalizing l m r with
  | zero => exact ⟨h, rfl⟩
  | succ n ih =>
    unfold shuffleFrom
    exact ih (forall₂_swapL h _ _) _

theorem forall₂_shuffle {α β : Type} {R : α → β → Prop} {l : List α} {m : List β}
    (h : List.Forall₂ R l m) (r : Rng) :
    List.Forall₂ R (shuffle l r).1 (shuffle m r).1 ∧ (shuffle l r).2 = (shuffle m r).2 := by
  unfold shuffle
  rw [h.length_eq]
  exact forall₂_shuffleFrom _ h r

section loop

variable (hP : ∀ n, P.B.emb n = (n : ℚ))
  {lo hi vol : ℤ} (hb : Budget lo hi vol P.H) {g : Grid F} {g' : Grid ℚ} (hg : GRep P g g')
  {body : Body F} {body' : Body ℚ} {p : SimParam F} {p' : SimParam ℚ}
  (hbuf : p.cellBuffer = p'.cellBuffer) (hdh : V P 1 (dhMax g p) (dhMax g' p'))
  (h0 : 0 ≤ dhMax g' p')

include hP hb hg hbuf hdh h0

theorem relaxBodySoil_sim {w : World F} {v : World ℚ} (h : WRep P (RInv P lo hi vol) w v) :
    Sim (relaxBodySoil g body p tol w) (relaxBodySoil g' body' p' (1 / 4) v)
      (WRep P (RInv P lo hi vol)) := by
  unfold relaxBodySoil
  rw [h.out.rep.E.length_eq, h.rng]
  refine (relaxBodyEntries_sim hP hb hg hdh h0 _ _ _ (fun d hd => hd) _ _ _ _ _
    ⟨h.out.rep, .nil, ?_, h.out.room⟩).bind fun x y _ _ hxy => ?_
  · rw [app_nil]; exact h.out.wf
  · obtain ⟨⟨k1, k2, k3, k4⟩, hr⟩ := hxy
    exact Sim.ok ⟨⟨k1.setPos (List.rel_append k1.E k2), k3, k4.app _⟩, hr, h.log⟩

omit hP hb hg hbuf hdh h0 in
theorem shuffleEntries_sim {w : World F} {v : World ℚ} (h : WRep P (RInv P lo hi vol) w v) :
    WRep P (RInv P lo hi vol) (shuffleEntries w) (shuffleEntries v) := by
  have hw := shuffleEntries_wf h.out.wf
  unfold shuffleEntries at hw ⊢
  dsimp only at hw ⊢
  have hs := forall₂_shuffle h.out.rep.E v.rng
  rw [h.rng]
  exact ⟨⟨h.out.rep.setPos hs.1, hw, ⟨h.out.room.T, h.out.room.B, h.out.room.total⟩⟩, hs.2, h.log⟩

omit hP hb hg hbuf hdh h0 in
theorem impactOf_sim {s : SimOut F} {z : SimOut ℚ} {d : ℕ} (h : Rep P d s z) :
    Rep P d { s with impactArea := impactOf s } { z with impactArea := impactOf z } := by
  have e : impactOf s = impactOf z := by unfold impactOf; rw [h.bodyArea, h.relaxArea]
  obtain ⟨q1, q2, q3, q4, q5, q6, q7, q8, q9, q10⟩ := h
  exact ⟨q1, q2, q3, q4, q5, e, q7, q8, q9, q10⟩

theorem relaxOnce_sim {w : World F} {v : World ℚ} (h : WRep P (RInv P lo hi vol) w v) :
    Sim (relaxOnce g body p tol w) (relaxOnce g' body' p' (1 / 4) v)
      (WRep P (RInv P lo hi vol)) := by
  unfold relaxOnce
  have h1 : WRep P (RInv P lo hi vol) (w.mapOut fun s => { s with impactArea := impactOf s })
      (v.mapOut fun s => { s with impactArea := impactOf s }) :=
    ⟨h.out.congr (impactOf_sim h.out.rep) rfl rfl rfl rfl rfl rfl, h.rng, h.log⟩
  exact (relaxTerrain_sim hP hb hg hbuf hdh h0 h1).bind fun a b _ _ hab =>
    relaxBodySoil_sim hP hb hg hbuf hdh h0 (shuffleEntries_sim hab)

theorem relaxLoop_sim (hit : p.maxIterations = p'.maxIterations) (fuel : ℕ) (it : ℤ) {w : World F}
    {v : World ℚ} (h : WRep P (RInv P lo hi vol) w v) :
    Sim (relaxLoop g body p tol fuel it w) (relaxLoop g' body' p' (1 / 4) fuel it v)
      (fun x y => WRep P (RInv P lo hi vol) x.1 y.1 ∧ x.2 = y.2) := by
  induction fuel generalizing it w v with
  | zero =>
    unfold relaxLoop
    rw [h.out.rep.equilibrium, hit]
    split_ifs
    · exact Sim.error
    · exact Sim.ok ⟨h, rfl⟩
  | succ fuel ih =>
    unfold relaxLoop
    rw [h.out.rep.equilibrium, hit]
    split_ifs
    · exact (relaxOnce_sim hP hb hg hbuf hdh h0 h).bind fun a b _ _ hab => ih _ hab
    · exact Sim.ok ⟨h, rfl⟩

end loop

end Soil
