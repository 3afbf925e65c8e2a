import Verif.Proof.Outside
import Verif.Props.Example
import Verif.Props.Moves
import Verif.Props.Shape

/-! # Property C56: poses outside the grid -/

set_option linter.unusedSectionVars false

namespace Soil

/-! ## One step -/

/-- **C56**, any arithmetic. A step that moves the body returns normally only if the cell of every vertex drawn is in the
grid. -/
theorem C56_cells {F : Type} [FOps F] (fuel : ℕ) (pos : Vec3 F) (ori : Quat F) (g : Grid F) (body : Body F)
    (p : SimParam F) (tol : F) (w : World F) (r : StepResult F) (h : step fuel pos ori g body p tol w = .ok r)
    (hu : r.updated = true) :
    ∀ v ∈ drawnVertices g tol pos ori body, ∃ i j k, cellOf (toIndex g v) = .ok (i, j, k) ∧ w.out.InGrid i j ∧
      0 ≤ k ∧ k ≤ 2 * g.halfZ := by
  intro v hv
  obtain ⟨⟨i, j, k⟩, e, a, b, c⟩ := step_good h hu v hv
  exact ⟨i, j, k, e, a, b, c⟩

/-- A coordinate whose cell is in the grid -/
theorem onGrid_of_round {u c : ℝ} {n : ℤ} (hc : 0 < c) (h0 : 0 ≤ roundAway (u / c + n))
    (h1 : roundAway (u / c + n) < 2 * n + 1) : |u| ≤ (n + 1 / 2) * c := by
  have h2 := abs_le.mp (abs_roundAway_sub_le (u / c + (n : ℝ)))
  have a : (0 : ℝ) ≤ roundAway (u / c + (n : ℝ)) := by exact_mod_cast h0
  have b : (roundAway (u / c + (n : ℝ)) : ℝ) ≤ 2 * n := by
    have : roundAway (u / c + (n : ℝ)) ≤ 2 * n := by omega
    exact_mod_cast this
  have e : u = u / c * c := (div_mul_cancel₀ _ hc.ne').symm
  have l1 : -(n + 1 / 2) ≤ u / c := by linarith
  have l2 : u / c ≤ n + 1 / 2 := by linarith
  rw [abs_le]
  constructor
  · rw [e]; nlinarith
  · rw [e]; nlinarith

theorem forall₂_back {α β : Type} {R : α → β → Prop} {l : List α} {m : List β} (h : List.Forall₂ R l m) :
    ∀ a ∈ l, ∃ b ∈ m, R a b := by
  induction h with
  | nil => simp
  | cons h _ ih =>
    intro a ha
    rcases List.mem_cons.mp ha with rfl | ha
    · exact ⟨_, List.mem_cons_self, h⟩
    · obtain ⟨b, hb, hr⟩ := ih a ha
      exact ⟨b, List.mem_cons_of_mem _ hb, hr⟩

/-- Every vertex of the body is near one that is drawn. -/
theorem drawn_near {g : Grid ℝ} {body : Body ℝ} {R D tol : ℝ} (H : Reach g body R D) (hc : 0 < g.cellXY)
    (ht : 0 ≤ tol) (ht' : tol ≤ 1 / 3) (pos : Vec3 ℝ) {ori : Quat ℝ} (hq : qnormSq ori ≠ 0) :
    ∀ v ∈ bodyVertices g pos ori body, ∃ v' ∈ drawnVertices g tol pos ori body,
      |v'.x - v.x| ≤ 6 * tol * R ∧ |v'.y - v.y| ≤ 6 * tol * R ∧ |v'.z - v.z| ≤ 6 * tol * R := by
  have hl := vertices_len H hc pos hq
  have hb : ∀ v ∈ bodyVertices g pos ori body, (pos.x - R ≤ v.x ∧ v.x ≤ pos.x + R) ∧
      (pos.y - R ≤ v.y ∧ v.y ≤ pos.y + R) ∧ (pos.z - R ≤ v.z ∧ v.z ≤ pos.z + R) := by
    intro v hv
    obtain ⟨a1, a2, a3⟩ := abs_le_len (vsub v pos)
    have h := hl v hv
    have b1 := abs_le.mp (a1.trans h)
    have b2 := abs_le.mp (a2.trans h)
    have b3 := abs_le.mp (a3.trans h)
    dsimp only [vsub] at b1 b2 b3
    refine ⟨⟨?_, ?_⟩, ⟨?_, ?_⟩, ?_, ?_⟩ <;> linarith
  have key : ∀ c : Corners ℝ, (∀ v ∈ c.toList, v ∈ bodyVertices g pos ori body) → ∀ v ∈ c.toList,
      ∃ v' ∈ (nudge tol c).toList,
        |v'.x - v.x| ≤ 6 * tol * R ∧ |v'.y - v.y| ≤ 6 * tol * R ∧ |v'.z - v.z| ≤ 6 * tol * R := by
    intro c hcv v hv
    obtain ⟨v', hv', h⟩ := forall₂_back (C44_nudge tol ht ht' c ⟨pos.x - R, pos.y - R, pos.z - R⟩
      ⟨pos.x + R, pos.y + R, pos.z + R⟩ fun u hu => hb u (hcv u hu)) v hv
    have e : ∀ a : ℝ, 3 * tol * (a + R - (a - R)) = 6 * tol * R := fun a => by ring
    simp only [e] at h
    exact ⟨v', hv', h⟩
  intro v hv
  unfold drawnVertices
  have hv' := hv
  unfold bodyVertices at hv' key
  dsimp only at hv' key ⊢
  cases hk : body.kind with
  | bucket =>
    rw [hk] at hv' key
    exact key _ (fun u hu => hu) v hv'
  | blade =>
    rw [hk] at hv' key
    dsimp only at hv' key ⊢
    rcases List.mem_append.mp hv' with hv' | hv'
    · obtain ⟨u, hu, h⟩ := key _ (fun u hu => List.mem_append_left _ hu) v hv'
      exact ⟨u, List.mem_append_left _ hu, h⟩
    · obtain ⟨u, hu, h⟩ := key _ (fun u hu => List.mem_append_right _ hu) v hv'
      exact ⟨u, List.mem_append_right _ hu, h⟩

/-- **C56**, one step. A step that moves the body returns normally only if no vertex of the body is outside the grid (up
to the displacement of the vertices by the tolerance). -/
theorem C56_step (fuel : ℕ) (pos : Vec3 ℝ) (ori : Quat ℝ) (g : Grid ℝ) (body : Body ℝ) (p : SimParam ℝ) (tol R D : ℝ)
    (hc : 0 < g.cellXY) (hz : 0 < g.cellZ) (ht : 0 ≤ tol) (ht' : tol ≤ 1 / 3) (H : Reach g body R D)
    (hq : qnormSq ori ≠ 0) (w : World ℝ) (hs : SameSize g w.out) (r : StepResult ℝ)
    (h : step fuel pos ori g body p tol w = .ok r) (hu : r.updated = true) :
    ∀ v ∈ bodyVertices g pos ori body, OnGrid g (6 * tol * R) v := by
  intro v hv
  obtain ⟨v', hv', hx, hy, hzz⟩ := drawn_near H hc ht ht' pos hq v hv
  obtain ⟨i, j, k, e, hin, hk0, hk1⟩ := C56_cells fuel pos ori g body p tol w r h hu v' hv'
  rw [cellOf_eq] at e
  simp only [Except.ok.injEq, Prod.mk.injEq] at e
  obtain ⟨rfl, rfl, rfl⟩ := e
  unfold toIndex at hin hk0 hk1
  simp only [ex_add, ex_sub, ex_div, ex_ofInt, ex_ofRat] at hin hk0 hk1
  unfold SimOut.InGrid at hin
  rw [hs.1, hs.2] at hin
  have bx := onGrid_of_round hc hin.1 hin.2.1
  have bY := onGrid_of_round hc hin.2.2.1 hin.2.2.2
  have z0 : (-1 : ℝ) < v'.z / g.cellZ + g.halfZ - (1 : ℚ) := by
    have := Int.ceil_lt_add_one (v'.z / g.cellZ + (g.halfZ : ℝ) - ((1 : ℚ) : ℝ))
    have h0 : (0 : ℝ) ≤ ⌈v'.z / g.cellZ + (g.halfZ : ℝ) - ((1 : ℚ) : ℝ)⌉ := by exact_mod_cast hk0
    linarith
  have z1 : v'.z / g.cellZ + g.halfZ - (1 : ℚ) ≤ 2 * (g.halfZ : ℝ) := by
    have := Int.le_ceil (v'.z / g.cellZ + (g.halfZ : ℝ) - ((1 : ℚ) : ℝ))
    have h0 : (⌈v'.z / g.cellZ + (g.halfZ : ℝ) - ((1 : ℚ) : ℝ)⌉ : ℝ) ≤ 2 * g.halfZ := by exact_mod_cast hk1
    linarith
  push_cast at z0 z1
  have ez : v'.z = v'.z / g.cellZ * g.cellZ := (div_mul_cancel₀ _ hz.ne').symm
  obtain ⟨x1, x2⟩ := abs_le.mp hx
  obtain ⟨y1, y2⟩ := abs_le.mp hy
  obtain ⟨w1, w2⟩ := abs_le.mp hzz
  obtain ⟨p1, p2⟩ := abs_le.mp bx
  obtain ⟨q1, q2⟩ := abs_le.mp bY
  have zz0 : -(g.halfZ * g.cellZ) ≤ v'.z := by rw [ez]; nlinarith
  have zz1 : v'.z ≤ (g.halfZ + 1) * g.cellZ := by rw [ez]; nlinarith
  refine ⟨?_, ?_, ?_, ?_⟩
  · rw [abs_le]; constructor <;> linarith
  · rw [abs_le]; constructor <;> linarith
  · linarith
  · linarith

/-- The arrays keep their sizes in a step. -/
theorem step_size {F : Type} [FOps F] {fuel : ℕ} {pos : Vec3 F} {ori : Quat F} {g : Grid F} {body : Body F}
    {p : SimParam F} {tol : F} {w : World F} {r : StepResult F} (h : step fuel pos ori g body p tol w = .ok r) :
    r.world.out.lenX = w.out.lenX ∧ r.world.out.lenY = w.out.lenY := by
  cases hu : r.updated with
  | false =>
    rw [((C12_step fuel pos ori g body p tol w r h).1 hu).1]
    exact ⟨rfl, rfl⟩
  | true =>
    obtain ⟨s, hs, hb⟩ := C19_step fuel pos ori g body p tol w r h hu
    have ho := calcBodyPos_bodyOnly _ _ _ _ _ _ _ _ _ hs
    unfold OnlyBody at ho
    obtain ⟨-, -, h1, h2⟩ := hb
    rw [h1, h2, ho]
    exact ⟨rfl, rfl⟩

theorem OnGrid.near {g : Grid ℝ} {e d : ℝ} {u v : Vec3 ℝ} (h : OnGrid g e u) (hd : edist3 u v ≤ d) : OnGrid g (e + d) v := by
  rw [edist3_len] at hd
  obtain ⟨a1, a2, a3⟩ := abs_le_len (vsub v u)
  have b1 := abs_le.mp (a1.trans hd)
  have b2 := abs_le.mp (a2.trans hd)
  have b3 := abs_le.mp (a3.trans hd)
  dsimp only [vsub] at b1 b2 b3
  obtain ⟨p1, p2⟩ := abs_le.mp h.x
  obtain ⟨q1, q2⟩ := abs_le.mp h.y
  have l := h.lo
  have u := h.hi
  refine ⟨?_, ?_, ?_, ?_⟩
  · rw [abs_le]; constructor <;> linarith
  · rw [abs_le]; constructor <;> linarith
  · linarith
  · linarith

theorem OnGrid.mono {g : Grid ℝ} {e d : ℝ} {v : Vec3 ℝ} (h : OnGrid g e v) (hd : e ≤ d) : OnGrid g d v :=
  ⟨by linarith [h.x], by linarith [h.y], by linarith [h.lo], by linarith [h.hi]⟩

theorem corner_mem {f : Corners ℝ → Vec3 ℝ} (hf : f ∈ cornerFns) (g : Grid ℝ) (pos : Vec3 ℝ) (ori : Quat ℝ)
    (body : Body ℝ) : f (calcBodyCornerPos pos ori body) ∈ bodyVertices g pos ori body := by
  have : f (calcBodyCornerPos pos ori body) ∈ (calcBodyCornerPos pos ori body).toList := by
    simp only [cornerFns, List.mem_cons, List.not_mem_nil, or_false] at hf
    rcases hf with rfl | rfl | rfl | rfl | rfl | rfl <;> simp [Corners.toList]
  unfold bodyVertices
  dsimp only
  cases body.kind with
  | bucket => exact this
  | blade => exact List.mem_append_left _ this

/-! ## Histories -/

theorem run_onGrid {fuel : ℕ} {g : Grid ℝ} {p : SimParam ℝ} {tol R D : ℝ} (hc : 0 < g.cellXY) (hz : 0 < g.cellZ)
    (ht : 0 ≤ tol) (ht' : tol ≤ 1 / 3) : ∀ (qs : List (Vec3 ℝ × Quat ℝ)) (body : Body ℝ) (w : World ℝ)
    (r : Body ℝ × World ℝ), Reach g body R D → SameSize g w.out → (∀ q ∈ qs, qnormSq q.2 ≠ 0) →
    (∀ f ∈ cornerFns, OnGrid g (6 * tol * R) (f (calcBodyCornerPos body.pos body.ori body))) →
    run fuel g p tol qs body w = .ok r →
    ∀ q ∈ qs, ∀ f ∈ cornerFns, OnGrid g (6 * tol * R + 1 / 2 * Min.min g.cellXY g.cellZ)
      (f (calcBodyCornerPos q.1 q.2 body)) := by
  intro qs
  induction qs with
  | nil => intro body w r _ _ _ _ _ q hq; cases hq
  | cons q qs ih =>
    obtain ⟨pos, ori⟩ := q
    intro body w r H hs hq h0 h
    have hm : 0 ≤ 1 / 2 * Min.min g.cellXY g.cellZ := by
      have := lt_min hc hz; linarith
    simp only [run] at h
    obtain ⟨s, h1, h⟩ := bind_eq_ok.mp h
    have hsz : SameSize g s.world.out := by
      obtain ⟨a, b⟩ := step_size h1
      exact ⟨a.trans hs.1, b.trans hs.2⟩
    have hq0 := hq _ List.mem_cons_self
    have hqs : ∀ q ∈ qs, qnormSq q.2 ≠ 0 := fun q m => hq q (List.mem_cons_of_mem _ m)
    obtain ⟨c1, c2⟩ := C12_step fuel pos ori g body p tol w s h1
    cases hu : s.updated with
    | false =>
      obtain ⟨e1, e2⟩ := c1 hu
      rw [e1, e2] at h
      rw [e1] at hsz
      have hn := C12_updated_iff fuel pos ori g body p tol w s h1
      rw [hu] at hn
      have hn := (C10_no_movement_iff pos ori g body).mp hn.symm
      intro q hqm
      rcases List.mem_cons.mp hqm with rfl | hqm
      · intro f hf
        exact (h0 f hf).near (hn f hf).le
      · exact ih body w r H hs hqs h0 h q hqm
    | true =>
      have hb := C56_step fuel pos ori g body p tol R D hc hz ht ht' H hq0 w hs s h1 hu
      intro q hqm
      rcases List.mem_cons.mp hqm with rfl | hqm
      · intro f hf
        exact (hb _ (corner_mem hf g pos ori body)).mono (by linarith)
      · have e := c2 hu
        rw [e] at h
        intro f hf
        exact ih { body with pos := pos, ori := ori } s.world r ⟨H.width, H.joint, H.base, H.teeth, H.nonneg, H.grown⟩ hsz
          hqs (fun f hf => hb _ (corner_mem hf g pos ori body)) h q hqm f hf

/-- **C56**, histories. A sequence of poses is never simulated to its end if one of them puts a vertex of the body
farther outside the grid than half the smaller cell size (up to the displacement of the vertices by the tolerance),
whatever the other poses are. -/
theorem C56_outside (g : Grid ℝ) (p : SimParam ℝ) (tol R D : ℝ) (hc : 0 < g.cellXY) (hz : 0 < g.cellZ)
    (ht : 0 ≤ tol) (ht' : tol ≤ 1 / 3) (body : Body ℝ) (H : Reach g body R D) (w : World ℝ) (hs : SameSize g w.out)
    (h0 : ∀ f ∈ cornerFns, OnGrid g (6 * tol * R) (f (calcBodyCornerPos body.pos body.ori body)))
    (qs : List (Vec3 ℝ × Quat ℝ)) (hq : ∀ q ∈ qs, qnormSq q.2 ≠ 0) (q : Vec3 ℝ × Quat ℝ) (hm : q ∈ qs)
    (f : Corners ℝ → Vec3 ℝ) (hf : f ∈ cornerFns)
    (ho : ¬ OnGrid g (6 * tol * R + 1 / 2 * Min.min g.cellXY g.cellZ) (f (calcBodyCornerPos q.1 q.2 body))) :
    ∀ fuel, ∃ e, run fuel g p tol qs body w = .error e := by
  intro fuel
  cases h : run fuel g p tol qs body w with
  | error e => exact ⟨e, rfl⟩
  | ok r => exact absurd (run_onGrid hc hz ht ht' qs body w r H hs hq h0 h q hm f hf) ho

/-! ## From the constructors -/

/-- A new body has all its corners in the origin (its orientation is the zero quaternion). -/
theorem fresh_corners {kind : BodyKind} {o j b t : List ℝ} {width : ℝ} {body : Body ℝ}
    (h : mkBody kind o j b t width = .ok body) (f : Corners ℝ → Vec3 ℝ) (hf : f ∈ cornerFns) :
    f (calcBodyCornerPos body.pos body.ori body) = ⟨0, 0, 0⟩ := by
  have h0 : body.pos = ⟨0, 0, 0⟩ ∧ body.ori = ⟨0, 0, 0, 0⟩ := by
    by_cases hv : ValidBodyArgs o j b t width
    · obtain ⟨o0, o1, o2, rfl⟩ := List.length_eq_three.mp hv.o_len
      obtain ⟨j0, j1, j2, rfl⟩ := List.length_eq_three.mp hv.j_len
      obtain ⟨b0, b1, b2, rfl⟩ := List.length_eq_three.mp hv.b_len
      obtain ⟨t0, t1, t2, rfl⟩ := List.length_eq_three.mp hv.t_len
      have e := C02_body_accepts kind ⟨o0, o1, o2⟩ ⟨j0, j1, j2⟩ ⟨b0, b1, b2⟩ ⟨t0, t1, t2⟩ width hv
      dsimp only at e
      rw [h] at e
      cases e
      exact ⟨rfl, rfl⟩
    · obtain ⟨m, e⟩ := C02_body_rejects kind o j b t width hv
      rw [h] at e
      cases e
  have hr : ∀ v : Vec3 ℝ, calcRotationQuaternion (⟨0, 0, 0, 0⟩ : Quat ℝ) v = ⟨0, 0, 0⟩ := by
    intro v
    simp [calcRotationQuaternion, multiplyQuaternion]
  have hc : calcBodyCornerPos body.pos body.ori body =
      ⟨⟨0, 0, 0⟩, ⟨0, 0, 0⟩, ⟨0, 0, 0⟩, ⟨0, 0, 0⟩, ⟨0, 0, 0⟩, ⟨0, 0, 0⟩⟩ := by
    rw [h0.1, h0.2]
    unfold calcBodyCornerPos
    simp only [hr]
    simp [calcNormal, Vec3.addF, Vec3.subF, Vec3.smulF]
  rw [hc]
  simp only [cornerFns, List.mem_cons, List.not_mem_nil, or_false] at hf
  rcases hf with rfl | rfl | rfl | rfl | rfl | rfl <;> rfl

/-- **C56**, from the constructors. -/
theorem C56_end_to_end (gx gy gz cxy cz : ℝ) (hv : ValidGridArgs gx gy gz cxy cz) (g : Grid ℝ)
    (hg : mkGrid gx gy gz cxy cz = .ok g) (p : SimParam ℝ) (tol : ℝ) (ht : 0 ≤ tol) (ht' : tol ≤ 1 / 3) (amp : ℝ)
    (rng : Rng) (w : World ℝ) (hi : init g amp ⟨mkSimOut g, rng, []⟩ = .ok w) (kind : BodyKind) (o j b t : List ℝ)
    (width : ℝ) (body : Body ℝ) (hb : mkBody kind o j b t width = .ok body) (R D : ℝ) (H : Reach g body R D)
    (qs : List (Vec3 ℝ × Quat ℝ)) (hq : ∀ q ∈ qs, qnormSq q.2 ≠ 0) (q : Vec3 ℝ × Quat ℝ) (hm : q ∈ qs)
    (f : Corners ℝ → Vec3 ℝ) (hf : f ∈ cornerFns)
    (ho : ¬ OnGrid g (6 * tol * R + 1 / 2 * Min.min cxy cz) (f (calcBodyCornerPos q.1 q.2 body))) :
    ∀ fuel, ∃ e, run fuel g p tol qs body w = .error e := by
  obtain ⟨g', hg', gs⟩ := C01_grid_accepts hv
  rw [hg] at hg'; cases hg'
  have c0 : 0 < g.cellXY := by rw [gs.cellXY]; exact hv.cxy_pos
  have z0 : 0 < g.cellZ := by rw [gs.cellZ]; exact hv.cz_pos
  have hst := (start_of_init hv hg hi).1
  have hR : 0 ≤ 6 * tol * R := by have := H.R_nonneg c0; positivity
  refine C56_outside g p tol R D c0 z0 ht ht' body H w hst.size (fun f hf => ?_) qs hq q hm f hf ?_
  · rw [fresh_corners hb f hf]
    have hX' : (0 : ℝ) ≤ g.halfX := by
      rw [gs.halfX]
      exact_mod_cast Int.floor_nonneg.mpr (by have := hv.gx_pos; have := hv.cxy_pos; positivity)
    have hY' : (0 : ℝ) ≤ g.halfY := by
      rw [gs.halfY]
      exact_mod_cast Int.floor_nonneg.mpr (by have := hv.gy_pos; have := hv.cxy_pos; positivity)
    have hZ' : (0 : ℝ) ≤ g.halfZ := by
      rw [gs.halfZ]
      exact_mod_cast Int.floor_nonneg.mpr (by have := hv.gz_pos; have := hv.cz_pos; positivity)
    refine ⟨?_, ?_, ?_, ?_⟩ <;> dsimp only
    · rw [abs_zero]; positivity
    · rw [abs_zero]; positivity
    · have : 0 ≤ g.halfZ * g.cellZ := by positivity
      linarith
    · positivity
  · rw [gs.cellXY, gs.cellZ]; exact ho

/-! ## The example program with a blade and a random trajectory -/

/-- The simulation loop makes the steps of the history. -/
theorem run_of_simulate {F : Type} [FOps F] {fuel : ℕ} {g : Grid F} {p : SimParam F} {tol : F} {vol : ℤ} :
    ∀ (l : List (Vec3 F × Quat F)) (body : Body F) (w : World F) (cs : List (Bool × Bool)) (r : Body F × World F),
    simulate fuel g p tol vol l body w = .ok (cs, r) → run fuel g p tol l body w = .ok r := by
  intro l
  induction l with
  | nil => intro body w cs r h; cases h; rfl
  | cons q l ih =>
    obtain ⟨pos, ori⟩ := q
    intro body w cs r h
    simp only [simulate] at h
    obtain ⟨s, h1, h⟩ := bind_eq_ok.mp h
    obtain ⟨c, -, h⟩ := bind_eq_ok.mp h
    obtain ⟨⟨cs', r'⟩, h2, h⟩ := bind_eq_ok.mp h
    cases h
    simp only [run]
    rw [h1, ok_bind]
    exact ih _ _ _ _ h2

/-- More fuel does not change the schedule. -/
theorem evoLoop_ext {F : Type} [FOps F] {g : Grid F} {traj : List (Vec3 F × Vec3 F)} {cs : List (Corners F)}
    {dtInt dt total : F} : ∀ (fuel fuel' : ℕ), fuel ≤ fuel' → ∀ (time dti : F) (l : List (F × Vec3 F × Quat F)),
    evoLoop g traj cs dtInt dt total fuel time dti = .ok l → evoLoop g traj cs dtInt dt total fuel' time dti = .ok l := by
  intro fuel
  induction fuel with
  | zero =>
    intro fuel' _ time dti l h
    unfold evoLoop at h ⊢
    split_ifs at h ⊢
    exact h
  | succ fuel ih =>
    intro fuel' hf time dti l h
    obtain ⟨f', rfl⟩ : ∃ f', fuel' = f' + 1 := ⟨fuel' - 1, by omega⟩
    unfold evoLoop at h ⊢
    split_ifs at h ⊢
    · dsimp only at h ⊢
      obtain ⟨⟨q, t', d'⟩, h1, h⟩ := bind_eq_ok.mp h
      obtain ⟨rest, h2, h⟩ := bind_eq_ok.mp h
      rw [h1, ok_bind]
      dsimp only
      rw [ih f' (by omega) _ _ _ h2, ok_bind]
      exact h
    · exact h

theorem evolution_ext {F : Type} [FOps F] {g : Grid F} {body : Body F} {traj : List (Vec3 F × Vec3 F)} {fuel fuel' : ℕ}
    (hf : fuel ≤ fuel') {r : List F × List (Vec3 F × Quat F)} (h : evolution fuel g body traj = .ok r) :
    evolution fuel' g body traj = .ok r := by
  unfold evolution at h ⊢
  dsimp only at h ⊢
  obtain ⟨a, h1, h⟩ := bind_eq_ok.mp h
  obtain ⟨l, h2, h⟩ := bind_eq_ok.mp h
  rw [h1, ok_bind, evoLoop_ext fuel fuel' hf _ _ _ h2, ok_bind]
  exact h

/-- **C56**, the example program. With its blade and a random trajectory, the example program cannot run to its end if the
random numbers for the start and for the deepest point are small: the blade leaves the grid. -/
theorem C56_random_blade (body : Body ℝ) (hb : shippedBody .blade = .ok body) (u1 u2 u3 u4 : ℝ)
    (h1 : 0 ≤ u1 ∧ u1 ≤ 1 / 20) (h2 : 0 ≤ u2 ∧ u2 ≤ 1) (h3 : 0 ≤ u3 ∧ u3 ≤ 1 / 10) (h4 : 0 ≤ u4 ∧ u4 ≤ 1)
    (hne : u3 = 0 ∨ u2 ≠ u4) (rng : Rng) (fuel : ℕ) :
    ∃ e, soilEvolutionOn fuel body (randomTraj body u1 u2 u3 u4) rng = .error e := by
  cases hr : soilEvolutionOn fuel body (randomTraj body u1 u2 u3 u4) rng with
  | error e => exact ⟨e, rfl⟩
  | ok r =>
  exfalso
  obtain ⟨cs, r⟩ := r
  have hv : ValidGridArgs (4 : ℝ) 4 4 (1 / 20) (1 / 100) := by constructor <;> norm_num
  obtain ⟨g, hg, gs⟩ := C01_grid_accepts hv
  have hX : g.halfX = 80 := by rw [gs.halfX]; norm_num [Int.floor_eq_iff]
  have c0 : g.cellXY = 1 / 20 := gs.cellXY
  have z0 : g.cellZ = 1 / 100 := gs.cellZ
  have hm : Min.min g.cellXY g.cellZ = 1 / 100 := by rw [c0, z0]; norm_num
  have hb' := hb
  rw [shippedBody_blade] at hb'
  set xi : ℝ := -3 + 2 * u1 with hxi
  set zi : ℝ := 1 / 10 + 1 / 10 * u2 with hzi
  set xm : ℝ := -1 / 2 * u3 with hxm
  set zm : ℝ := 1 / 10 + 1 / 10 * u4 with hzm
  have htraj : randomTraj body u1 u2 u3 u4 = calcTrajectory xi zi xm zm 0 (9999 + 1) := by
    cases hb'
    unfold randomTraj
    simp only [ex_ofRat, ex_mul, ex_add, hxi, hzi, hxm, hzm]
    norm_num
  have hZ : |zi - zm| ≤ 1 / 10 := by
    rw [abs_le]; constructor <;> linarith [h2.1, h2.2, h4.1, h4.2]
  have hD1 : 57 / 20 ≤ xm - xi := by linarith [h1.2, h3.2]
  have hD2 : xm - xi ≤ 3 := by linarith [h1.1, h3.1]
  have hz0 : xm = 0 ∨ zi ≠ zm := by
    rcases hne with h | h
    · left; rw [hxm, h]; ring
    · right
      intro e
      apply h
      linarith
  have HP := blade_paced body hb (xm - xi) |zi - zm| (by linarith) hD2 (abs_nonneg _) hZ
  obtain ⟨ts, ps, z, ψ, N, e1, e2, e3, e4, e5, e6, e7⟩ := C54_schedule g body xi zi xm zm 0 (17 / 10) 9999 hz0 (by rw [hm]; exact HP)
  rw [← htraj] at e1
  unfold soilEvolutionOn at hr
  simp only [ex_ofRat] at hr
  norm_num at hr hg
  rw [hg, ok_bind] at hr
  obtain ⟨p, -, hr⟩ := bind_eq_ok.mp hr
  obtain ⟨⟨times, poses⟩, hev, hr⟩ := bind_eq_ok.mp hr
  obtain ⟨w, hi, hr⟩ := bind_eq_ok.mp hr
  obtain ⟨vol, -, hr⟩ := bind_eq_ok.mp hr
  obtain ⟨qs, hqs, hr⟩ := bind_eq_ok.mp hr
  have hev' := e1 (Max.max fuel N) (le_max_right _ _)
  rw [evolution_ext (le_max_left _ _) hev] at hev'
  cases hev'
  dsimp only at hqs
  have hlen : ps.length = (ts ++ [(8 : ℝ)]).length + 1 := by
    rw [e6]; simp
  rw [mapM_nodeAt _ _ (by rw [hlen]; omega)] at hqs
  cases hqs
  have htake : ps.take (ts ++ [(8 : ℝ)]).length = ps.dropLast := by
    rw [List.dropLast_eq_take, hlen]; rfl
  rw [htake] at hr
  have hrun := run_of_simulate _ _ _ _ _ hr
  obtain ⟨tl, htl⟩ : ∃ b, ts.getLast? = some b := by
    cases ts with
    | nil => simp at e2
    | cons a l => exact ⟨_, List.getLast?_eq_some_getLast (by simp)⟩
  have htm : tl ∈ ts := List.mem_of_getLast? htl
  have hmem : ((⟨xi + tl / 8 * (2 * (xm - xi)), 0, z tl⟩ : Vec3 ℝ), angleToQuat (⟨0, ψ tl, 0⟩ : Vec3 ℝ)) ∈ ps.dropLast := by
    rw [e6, List.dropLast_concat]
    exact List.mem_cons_of_mem _ (List.mem_map_of_mem htm)
  have hq : ∀ q ∈ ps.dropLast, qnormSq q.2 ≠ 0 := by
    intro q hq
    have hq' := List.mem_of_mem_dropLast hq
    rw [e6] at hq'
    simp only [List.cons_append, List.mem_cons, List.mem_append, List.mem_map, List.not_mem_nil, or_false] at hq'
    rcases hq' with rfl | ⟨t, ht, rfl⟩ | rfl <;> (rw [normSq_angleToQuat]; norm_num)
  have HP := blade_sizes body hb
  have H : Reach g body (81 / 20) 20 := by
    refine ⟨HP.width, ?_, ?_, ?_, by norm_num, ?_⟩
    · rw [c0]; linarith [HP.joint]
    · rw [c0]; linarith [HP.base]
    · rw [c0]; linarith [HP.teeth]
    · rw [c0, z0]; norm_num
  have hcorn : ∀ f ∈ cornerFns, OnGrid g (6 * (1 / 100000) * (81 / 20) + 1 / 2 * Min.min (1 / 20) (1 / 100))
      (f (calcBodyCornerPos ⟨xi + tl / 8 * (2 * (xm - xi)), 0, z tl⟩ (angleToQuat ⟨0, ψ tl, 0⟩) body)) := by
    intro f hf
    by_contra hcon
    have hb2 := hb
    unfold shippedBody at hb2
    obtain ⟨e, he⟩ := C56_end_to_end 4 4 4 (1 / 20) (1 / 100) hv g (by norm_num; exact hg) p (1 / 100000) (by norm_num)
      (by norm_num) 32 rng w hi _ _ _ _ _ _ body hb2 (81 / 20) 20 H ps.dropLast hq _ hmem f hf hcon fuel
    norm_num at he
    rw [he] at hrun
    cases hrun
  have hnc : NonCollinear body.jInit body.bInit body.tInit := by
    cases hb'
    unfold NonCollinear cross vsub
    norm_num
  have hw : 0 < body.width := by cases hb'; norm_num
  have ht : body.tInit = ⟨8 / 5, 0, -2 / 5⟩ := by cases hb'; rfl
  obtain ⟨-, -, -, hsum⟩ := C09_width ⟨xi + tl / 8 * (2 * (xm - xi)), 0, z tl⟩ (angleToQuat ⟨0, ψ tl, 0⟩) body
    (by rw [normSq_angleToQuat]; norm_num) hnc hw
  have hx := congrArg Vec3.x hsum
  have o1 := (abs_le.mp (hcorn Corners.tr (by simp [cornerFns])).x).2
  have o2 := (abs_le.mp (hcorn Corners.tl (by simp [cornerFns])).x).2
  rw [hX, c0] at o1 o2
  unfold posed at hx
  rw [rot_pitch, ht] at hx
  simp only [vadd, vsmul, rotY, Real.cos_neg, Real.sin_neg] at hx
  have hmin : Min.min (1 / 20 : ℝ) (1 / 100) = 1 / 100 := by norm_num
  rw [hmin] at o1 o2
  norm_num at o1 o2 hx
  -- the angle
  have t0 : 1 / 10 ≤ tl :=
    chain_ge ts _ (e3.imp fun a b h => le_trans (le_add_of_nonneg_right (by positivity)) h.1) e2 tl htm
  have t8 := e4 tl htm
  have t76 := e5 tl htl
  have hψ : |ψ tl| ≤ 2 / 25 := by
    have h := (e7 tl htm).2
    have hD0 : 0 < xm - xi := by linarith
    have a1 : |2 * (zi - zm) * (xi + tl / 8 * (2 * (xm - xi)) - xm) / (xm - xi) ^ 2| ≤ 71 / 1000 := by
      have e : 2 * (zi - zm) * (xi + tl / 8 * (2 * (xm - xi)) - xm) / (xm - xi) ^ 2 =
          2 * (zi - zm) * (tl / 4 - 1) / (xm - xi) := by field_simp; ring
      rw [e, abs_div, abs_mul, abs_mul, abs_of_pos hD0, abs_of_pos (by norm_num : (0 : ℝ) < 2), div_le_iff₀ hD0]
      have : |tl / 4 - 1| ≤ 1 := by rw [abs_le]; constructor <;> linarith
      nlinarith [mul_le_mul hZ this (abs_nonneg _) (by norm_num)]
    have a2 : |Real.arctan (2 * (zi - zm) * (xi + tl / 8 * (2 * (xm - xi)) - xm) / (xm - xi) ^ 2)| ≤ 71 / 1000 := by
      have := arctan_lip (2 * (zi - zm) * (xi + tl / 8 * (2 * (xm - xi)) - xm) / (xm - xi) ^ 2) 0
      rw [Real.arctan_zero, sub_zero, sub_zero] at this
      exact this.trans a1
    have a3 : 8 * |zi - zm| / ((xm - xi) * (9999 : ℕ)) ≤ 1 / 1000 := by
      rw [div_le_iff₀ (by positivity)]
      push_cast
      nlinarith
    rw [sub_zero] at h
    have := abs_le.mp (h.trans a3)
    have b := abs_le.mp a2
    rw [abs_le]
    constructor <;> linarith [this.1, this.2, b.1, b.2]
  have hcos : 1 - (ψ tl) ^ 2 / 2 ≤ Real.cos (ψ tl) := Real.one_sub_sq_div_two_le_cos
  have hsin : |Real.sin (ψ tl)| ≤ 2 / 25 := Real.abs_sin_le_abs.trans hψ
  have hsq : (ψ tl) ^ 2 ≤ (2 / 25) ^ 2 := sq_le_sq' (by linarith [(abs_le.mp hψ).1]) (abs_le.mp hψ).2
  have hs := abs_le.mp hsin
  have hxx : 251 / 100 ≤ xi + tl / 8 * (2 * (xm - xi)) := by nlinarith [h1.2, h3.2]
  linarith [hs.1, hs.2]

/-! ## The hypotheses can be met: a step of the bucket of the example, and a pose far outside -/

/-- The hypotheses of `C56_step` (and of `C56_cells`) for the bucket of the example -/
example (rng : Rng) : ∃ (fuel : ℕ) (g : Grid ℝ) (body : Body ℝ) (p : SimParam ℝ) (w : World ℝ) (r : StepResult ℝ),
    0 < g.cellXY ∧ 0 < g.cellZ ∧ Reach g body 2 10 ∧ SameSize g w.out ∧
    qnormSq (⟨1, 0, 0, 0⟩ : Quat ℝ) ≠ 0 ∧
    step fuel ⟨0, 0, 0⟩ ⟨1, 0, 0, 0⟩ g body p (1 / 100000) w = .ok r ∧ r.updated = true := by
  have hv : ValidGridArgs (4 : ℝ) 4 4 (1 / 20) (1 / 100) := by constructor <;> norm_num
  have hpi : (17 / 20 : ℝ) ≤ Transc.pi / 2 := by
    show (17 / 20 : ℝ) ≤ Real.pi / 2
    linarith [Real.pi_gt_three]
  obtain ⟨g, p, w, hg, hp, hi, h⟩ := C48_margin_end_to_end 4 4 4 (1 / 20) (1 / 100) hv 400 (by norm_num) (17 / 20) 3 4
    ⟨⟨by norm_num, hpi⟩, by norm_num, by norm_num⟩ (1 / 100000) (by norm_num) (by norm_num) (by norm_num) (by norm_num) 32 rng
  obtain ⟨g', hg', gs⟩ := C01_grid_accepts hv
  rw [hg] at hg'; cases hg'
  set body : Body ℝ :=
    ⟨.bucket, ⟨0, 0, 0⟩, ⟨0, 0, -1 / 2⟩, ⟨7 / 10, 0, -1 / 2⟩, 1 / 2, ⟨0, 0, 0⟩, ⟨0, 0, 0, 0⟩⟩ with hbody
  have hb : (shippedBody .bucket : M (Body ℝ)) = .ok body := shippedBody_bucket
  have hq : qnormSq (⟨1, 0, 0, 0⟩ : Quat ℝ) ≠ 0 := by norm_num [qnormSq]
  obtain ⟨b', w', N, hN, -⟩ := h body [(⟨0, 0, 0⟩, ⟨1, 0, 0, 0⟩)] (by
    intro q hqm
    rw [List.mem_singleton] at hqm
    subst hqm
    exact bucket_clear .bucket _ _ g hg 0 0 0 _ (by norm_num) (by norm_num) (by norm_num) hq)
  have hr := hN N le_rfl
  simp only [run] at hr
  obtain ⟨r, hs, -⟩ := bind_eq_ok.mp hr
  have c0 : g.cellXY = 1 / 20 := gs.cellXY
  have z0 : g.cellZ = 1 / 100 := gs.cellZ
  have P := bucket_sizes body hb
  refine ⟨N, g, body, p, w, r, by rw [c0]; norm_num, by rw [z0]; norm_num, ⟨P.width, ?_, ?_, ?_, by norm_num, ?_⟩,
    (start_of_init hv hg hi).1.size, hq, hs, ?_⟩
  · rw [c0]; linarith [P.joint]
  · rw [c0]; linarith [P.base]
  · rw [c0]; linarith [P.teeth]
  · rw [c0, z0]; norm_num
  · rw [C12_updated_iff _ _ _ _ _ _ _ _ _ hs]
    by_contra hcon
    have hn := (C10_no_movement_iff _ _ g body).mp (by simpa using hcon)
    unfold shippedBody at hb
    have a1 := hn Corners.jr (by simp [cornerFns])
    have a2 := hn Corners.jl (by simp [cornerFns])
    rw [fresh_corners hb Corners.jr (by simp [cornerFns])] at a1
    rw [fresh_corners hb Corners.jl (by simp [cornerFns])] at a2
    have hnc : NonCollinear body.jInit body.bInit body.tInit := by
      unfold NonCollinear cross vsub
      norm_num
    obtain ⟨⟨hw, -⟩, -⟩ := C09_width ⟨0, 0, 0⟩ ⟨1, 0, 0, 0⟩ body hq hnc (by norm_num)
    have hm : Min.min g.cellXY g.cellZ = 1 / 100 := by rw [c0, z0]; norm_num
    rw [hm, edist3_len] at a1 a2
    rw [edist3_len] at hw
    have tri := len_sub_le (vsub (calcBodyCornerPos ⟨0, 0, 0⟩ ⟨1, 0, 0, 0⟩ body).jl ⟨0, 0, 0⟩)
      (vsub (calcBodyCornerPos ⟨0, 0, 0⟩ ⟨1, 0, 0, 0⟩ body).jr ⟨0, 0, 0⟩)
    have e : vsub (vsub (calcBodyCornerPos ⟨0, 0, 0⟩ ⟨1, 0, 0, 0⟩ body).jl ⟨0, 0, 0⟩)
        (vsub (calcBodyCornerPos ⟨0, 0, 0⟩ ⟨1, 0, 0, 0⟩ body).jr ⟨0, 0, 0⟩) =
        vsub (calcBodyCornerPos ⟨0, 0, 0⟩ ⟨1, 0, 0, 0⟩ body).jl (calcBodyCornerPos ⟨0, 0, 0⟩ ⟨1, 0, 0, 0⟩ body).jr := by
      unfold vsub; apply Vec3.ext' <;> dsimp only <;> ring
    rw [e, hw] at tri
    have h1 : (1 / 2 : ℝ) < _ := tri.trans_lt (add_lt_add a2 a1)
    norm_num at h1

/-- The hypothesis on the pose in `C56_outside` and `C56_end_to_end`: a pose far outside the grid -/
example (g : Grid ℝ) (body : Body ℝ) (e : ℝ) (ori : Quat ℝ) : ∃ pos : Vec3 ℝ, ∃ f ∈ cornerFns,
    ¬ OnGrid g e (f (calcBodyCornerPos pos ori body)) := by
  by_contra hcon
  push Not at hcon
  have h := hcon ⟨(g.halfX + 1 / 2) * g.cellXY + e + 1 - (calcRotationQuaternion ori body.jInit).x, 0, 0⟩
  have a1 := (abs_le.mp (h Corners.jr (by simp [cornerFns])).x).2
  have a2 := (abs_le.mp (h Corners.jl (by simp [cornerFns])).x).2
  unfold calcBodyCornerPos at a1 a2
  simp only [Vec3.addF, Vec3.subF, ex_add, ex_sub] at a1 a2
  linarith

end Soil
