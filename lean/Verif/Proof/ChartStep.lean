import Verif.Proof.ChartPlace
import Verif.Proof.ChartLoop
import Verif.Proof.BodyPos

/-! # A step at another place -/

namespace Soil

open FOps

variable {K : Type} [Field K] [LinearOrder K] [IsStrictOrderedRing K] [FloorRing K] [Transc K]
variable {c : Chart} {d : Vec3 K} {g g' : Grid K}

theorem roundAway_shift' {x : K} (t : ℤ) (h : 0 ≤ roundAway x) (h' : 1 ≤ roundAway x + t) :
    roundAway (x + t) = roundAway x + t := by
  refine roundAway_shift t h ?_
  rw [roundAway_nonneg_eq h] at h'
  have h1 : (1 : ℤ) ≤ ⌊x + t + 1 / 2⌋ := by
    rw [show x + (t : K) + 1 / 2 = x + 1 / 2 + t by ring, Int.floor_add_intCast]
    exact h'
  rw [Int.le_floor] at h1
  push_cast at h1
  have := roundAway_mono (K := K) (x := 0) (y := x + t) (by linarith)
  rwa [show roundAway (0 : K) = 0 by simpa using roundAway_intCast (K := K) 0] at this

theorem minL_shift (x t : K) (l : List K) : FOps.minL (x + t) (l.map (· + t)) = FOps.minL x l + t := by
  unfold FOps.minL
  induction l generalizing x with
  | nil => rfl
  | cons y l ih =>
    simp only [List.map_cons, List.foldl_cons, ex_min]
    rw [min_add_add_right]
    exact ih _

theorem maxL_shift (x t : K) (l : List K) : FOps.maxL (x + t) (l.map (· + t)) = FOps.maxL x l + t := by
  unfold FOps.maxL
  induction l generalizing x with
  | nil => rfl
  | cons y l ih =>
    simp only [List.map_cons, List.foldl_cons, ex_max]
    rw [max_add_add_right]
    exact ih _

/-- one axis of the rectangle of the body -/
theorem span_shift {cell lo hi x' y' : K} {half half' b t : ℤ} (hc : 0 < cell) (hb : 0 ≤ b) (hlh : lo ≤ hi)
    (hx : x' = lo / cell + half + t) (hy : y' = hi / cell + half + t)
    (h1 : 2 ≤ max (roundAway (lo / cell + half - b)) 1) (h2 : min (roundAway (hi / cell + half + b)) (2 * half) + 1 ≤ 2 * half)
    (h1' : 2 ≤ max (roundAway (lo / cell + half - b)) 1 + t)
    (h2' : min (roundAway (hi / cell + half + b)) (2 * half) + t + 1 ≤ 2 * half') :
    max (roundAway (x' - b)) 1 = max (roundAway (lo / cell + half - b)) 1 + t ∧
      min (roundAway (y' + b)) (2 * half') = min (roundAway (hi / cell + half + b)) (2 * half) + t := by
  have bK : (0 : K) ≤ b := by exact_mod_cast hb
  have hd : lo / cell ≤ hi / cell := div_le_div_of_nonneg_right hlh hc.le
  have mono : roundAway (lo / cell + half - b) ≤ roundAway (hi / cell + half + b) := roundAway_mono (by linarith)
  have e1 : roundAway (x' - b) = roundAway (lo / cell + half - b) + t := by
    rw [hx, show lo / cell + (half : K) + t - b = lo / cell + half - b + t by ring]
    exact roundAway_shift' t (by omega) (by omega)
  have e2 : roundAway (y' + b) = roundAway (hi / cell + half + b) + t := by
    rw [hy, show hi / cell + (half : K) + t + b = hi / cell + half + b + t by ring]
    exact roundAway_shift' t (by omega) (by omega)
  rw [e1, e2]
  omega

theorem Chart.area_noswap (hs : c.swap = false) (a : Area) :
    c.area a = ⟨a.minX + c.tx, a.maxX + c.tx, a.minY + c.ty, a.maxY + c.ty⟩ := by
  unfold Chart.area
  simp [hs]

theorem Chart.Roomy.wide (hs : c.swap = false) {m : ℤ} {a : Area} (h : c.Roomy g g' m a) :
    Wide g m a ∧ Wide g' m (c.area a) := by
  unfold Chart.Roomy at h
  simpa [hs] using h

theorem bodyAreaOf_shift (P : Placed c d g g') (p : SimParam K) (hb : 0 ≤ p.cellBuffer) (v : Vec3 K) (l : List (Vec3 K))
    (a : Area) (h : bodyAreaOf g p v l = .ok a) {m : ℤ} (hm : 1 ≤ m) (R : c.Roomy g g' m a) :
    bodyAreaOf g' p (vadd v d) (l.map (vadd · d)) = .ok (c.area a) := by
  have W := R.wide P.swap
  have hc := P.pos
  have hc' := hc.ne'
  unfold bodyAreaOf at h ⊢
  have m1 : ∀ f : Vec3 K → K, (∀ x, f (vadd x d) = f x + f d) →
      (l.map (vadd · d)).map f = (l.map f).map (· + f d) := by
    intro f hf
    rw [List.map_map, List.map_map]
    exact List.map_congr_left fun x _ => hf x
  rw [m1 (·.x) (fun _ => rfl), m1 (·.y) (fun _ => rfl), show (vadd v d).x = v.x + d.x from rfl,
    show (vadd v d).y = v.y + d.y from rfl, minL_shift, maxL_shift, minL_shift, maxL_shift]
  simp only [areaLo_eq, areaHi_eq, ok_bind, P.cellXY] at h ⊢
  cases h
  obtain ⟨⟨a1, a2, a3, a4⟩, b1, b2, b3, b4⟩ := W
  rw [Chart.area_noswap P.swap] at b1 b2 b3 b4 ⊢
  dsimp only at a1 a2 a3 a4 b1 b2 b3 b4
  have X := span_shift (half' := g'.halfX) hc hb (le_trans (minL_le (x := v.x) (l := l.map (·.x)) List.mem_cons_self)
    (le_maxL (x := v.x) (l := l.map (·.x)) List.mem_cons_self))
    (x' := (FOps.minL v.x (l.map (·.x)) + d.x) / g.cellXY + g'.halfX)
    (y' := (FOps.maxL v.x (l.map (·.x)) + d.x) / g.cellXY + g'.halfX) (half := g.halfX) (t := c.tx)
    (by rw [P.dx]; field_simp; ring) (by rw [P.dx]; field_simp; ring) (by omega) (by omega) (by omega) (by omega)
  have Y := span_shift (half' := g'.halfY) hc hb (le_trans (minL_le (x := v.y) (l := l.map (·.y)) List.mem_cons_self)
    (le_maxL (x := v.y) (l := l.map (·.y)) List.mem_cons_self))
    (x' := (FOps.minL v.y (l.map (·.y)) + d.y) / g.cellXY + g'.halfY)
    (y' := (FOps.maxL v.y (l.map (·.y)) + d.y) / g.cellXY + g'.halfY) (half := g.halfY) (t := c.ty)
    (by rw [P.dy]; field_simp; ring) (by rw [P.dy]; field_simp; ring) (by omega) (by omega) (by omega) (by omega)
  rw [X.1, X.2, Y.1, Y.2]
  rfl

theorem bucketWalls_shift (P : Placed c d g g') (tol : K) (fuel : ℕ) (x : Corners K) (ws ws' : List (List Cell3))
    (h : bucketWalls fuel g tol x = .ok ws) (h' : bucketWalls fuel g' tol (x.moved d) = .ok ws') (n : ∀ w ∈ ws, NN w)
    (n' : ∀ w ∈ ws', NN w) : ws' = ws.map (·.map (csh c)) := by
  unfold bucketWalls at h h'
  unfold Corners.moved at h'
  dsimp only at h'
  obtain ⟨l1, c1, h⟩ := bind_eq_ok.mp h
  obtain ⟨l2, c2, h⟩ := bind_eq_ok.mp h
  obtain ⟨l3, c3, h⟩ := bind_eq_ok.mp h
  obtain ⟨l4, c4, h⟩ := bind_eq_ok.mp h
  obtain ⟨l1', c1', h'⟩ := bind_eq_ok.mp h'
  obtain ⟨l2', c2', h'⟩ := bind_eq_ok.mp h'
  obtain ⟨l3', c3', h'⟩ := bind_eq_ok.mp h'
  obtain ⟨l4', c4', h'⟩ := bind_eq_ok.mp h'
  cases h
  cases h'
  rw [calcRectanglePos_shift P tol fuel _ _ _ _ _ _ c1 c1' (n _ (by simp)) (n' _ (by simp)),
    calcRectanglePos_shift P tol fuel _ _ _ _ _ _ c2 c2' (n _ (by simp)) (n' _ (by simp)),
    calcTrianglePos_shift P tol fuel _ _ _ _ _ c3 c3' (n _ (by simp)) (n' _ (by simp)),
    calcTrianglePos_shift P tol fuel _ _ _ _ _ c4 c4' (n _ (by simp)) (n' _ (by simp))]
  rfl

theorem bladeWalls_shift (P : Placed c d g g') (tol : K) (fuel : ℕ) (x y : Corners K) (ws ws' : List (List Cell3))
    (h : bladeWalls fuel g tol x y = .ok ws) (h' : bladeWalls fuel g' tol (x.moved d) (y.moved d) = .ok ws')
    (n : ∀ w ∈ ws, NN w) (n' : ∀ w ∈ ws', NN w) : ws' = ws.map (·.map (csh c)) := by
  unfold bladeWalls at h h'
  unfold Corners.moved at h'
  dsimp only at h'
  obtain ⟨l1, c1, h⟩ := bind_eq_ok.mp h
  obtain ⟨l2, c2, h⟩ := bind_eq_ok.mp h
  obtain ⟨l3, c3, h⟩ := bind_eq_ok.mp h
  obtain ⟨l4, c4, h⟩ := bind_eq_ok.mp h
  obtain ⟨l1', c1', h'⟩ := bind_eq_ok.mp h'
  obtain ⟨l2', c2', h'⟩ := bind_eq_ok.mp h'
  obtain ⟨l3', c3', h'⟩ := bind_eq_ok.mp h'
  obtain ⟨l4', c4', h'⟩ := bind_eq_ok.mp h'
  cases h
  cases h'
  rw [calcRectanglePos_shift P tol fuel _ _ _ _ _ _ c1 c1' (n _ (by simp)) (n' _ (by simp)),
    calcRectanglePos_shift P tol fuel _ _ _ _ _ _ c2 c2' (n _ (by simp)) (n' _ (by simp)),
    calcRectanglePos_shift P tol fuel _ _ _ _ _ _ c3 c3' (n _ (by simp)) (n' _ (by simp)),
    calcRectanglePos_shift P tol fuel _ _ _ _ _ _ c4 c4' (n _ (by simp)) (n' _ (by simp))]
  rfl

/-- If both calls return, the states correspond. -/
theorem Corr.both {α β : Type} {E : Prop} {R : α → β → Prop} {f : M α} {f' : M β} (h : Corr E R f f') {x : α} {x' : β}
    (hx : f = .ok x) (hx' : f' = .ok x') : R x x' := by
  rcases h x hx with ⟨y, e, r⟩ | ⟨-, e⟩
  · rw [hx'] at e
    cases e
    exact r
  · rw [hx'] at e
    cases e

theorem walls_NN {g : Grid K} {tol : K} {ws : List (List Cell3)} {s s' : SimOut K} (h : updateWalls g tol ws s = .ok s') :
    ∀ w ∈ ws, NN w := fun w hw x hx => ⟨(walls_good ws s s' h w hw x hx).1.1, (walls_good ws s s' h w hw x hx).1.2.2.1⟩

theorem calcBodyPos_likeB (P : Placed c d g g') (p : SimParam K) (tol : K) (hb : 0 ≤ p.cellBuffer) (fuel : ℕ) (b : Body K)
    (pos : Vec3 K) (ori : Quat K) {s s' s1 s1' : SimOut K}
    (L : ∀ s2 s2', resetBody s.bodyArea.cells s = .ok s2 → resetBody s'.bodyArea.cells s' = .ok s2' → Like True c s2 s2')
    (h : calcBodyPos fuel s pos ori g b p tol = .ok s1)
    (h' : calcBodyPos fuel s' (vadd pos d) ori g' (b.moved d) p tol = .ok s1') {m : ℤ} (hm : 1 ≤ m)
    (R : c.Roomy g g' m s1.bodyArea) :
    LikeB True c s1 s1' ∧ KeptR s s' s1 s1' := by
  unfold calcBodyPos at h h'
  obtain ⟨s2, r, h⟩ := bind_eq_ok.mp h
  obtain ⟨s2', r', h'⟩ := bind_eq_ok.mp h'
  have L2 := L s2 s2' r r'
  have o2 : s2.relaxArea = s.relaxArea := by
    have := resetBody_bodyOnly _ _ _ r
    unfold OnlyBody at this
    rw [this]
  have o2' : s2'.relaxArea = s'.relaxArea := by
    have := resetBody_bodyOnly _ _ _ r'
    unfold OnlyBody at this
    rw [this]
  have key : ∀ (a a' : Area) (ws ws' : List (List Cell3)),
      (∀ _ : ∀ w ∈ ws, NN w, ∀ _ : ∀ w ∈ ws', NN w, ws' = ws.map (·.map (csh c))) →
      (c.Roomy g g' m a → a' = c.area a) →
      updateWalls g tol ws { s2 with bodyArea := a } = .ok s1 →
      updateWalls g' tol ws' { s2' with bodyArea := a' } = .ok s1' →
      LikeB True c s1 s1' ∧ KeptR s s' s1 s1' := by
    intro a a' ws ws' hw ha u u'
    have e := hw (walls_NN u) (walls_NN u')
    subst e
    have L3 := (updateWalls_like P tol ws _ _ (L2.setBodyArea a a')).both u u'
    have f := (updateWalls_only (P := fun _ _ => True) ws _ _ (fun _ _ _ _ => trivial) u).1
    have f' := (updateWalls_only (P := fun _ _ => True) _ _ _ (fun _ _ _ _ => trivial) u').1
    have f1 : s1.bodyArea = a := by rw [f]
    have f2 : s1.relaxArea = s2.relaxArea := by rw [f]
    have f1' : s1'.bodyArea = a' := by rw [f']
    have f2' : s1'.relaxArea = s2'.relaxArea := by rw [f']
    rw [f1] at R
    refine ⟨⟨L3, ?_⟩, f2.trans o2, f2'.trans o2'⟩
    rw [f1, f1', ha R]
  dsimp only at h h'
  rw [corners_moved] at h'
  have hk : (b.moved d).kind = b.kind := rfl
  cases hkind : b.kind with
  | bucket =>
    simp only [hk, hkind] at h h'
    rw [nudge_moved] at h'
    obtain ⟨a, ea, h⟩ := bind_eq_ok.mp h
    obtain ⟨ws, ew, h⟩ := bind_eq_ok.mp h
    obtain ⟨a', ea', h'⟩ := bind_eq_ok.mp h'
    obtain ⟨ws', ew', h'⟩ := bind_eq_ok.mp h'
    refine key a a' ws ws' (fun n n' => bucketWalls_shift P tol fuel _ _ _ ew ew' n n') (fun Ra => ?_) h h'
    have := bodyAreaOf_shift P p hb _ _ a ea hm Ra
    have := ea'.symm.trans this
    cases this
    rfl
  | blade =>
    simp only [hk, hkind] at h h'
    rw [bladeBack_moved P, nudge_moved, nudge_moved] at h'
    obtain ⟨a, ea, h⟩ := bind_eq_ok.mp h
    obtain ⟨ws, ew, h⟩ := bind_eq_ok.mp h
    obtain ⟨a', ea', h'⟩ := bind_eq_ok.mp h'
    obtain ⟨ws', ew', h'⟩ := bind_eq_ok.mp h'
    refine key a a' ws ws' (fun n n' => bladeWalls_shift P tol fuel _ _ _ _ ew ew' n n') (fun Ra => ?_) h h'
    have := bodyAreaOf_shift P p hb _ _ a ea hm Ra
    have := ea'.symm.trans this
    cases this
    rfl

theorem resetBody_likeB (P : Placed c d g g') {s s' s2 s2' : SimOut K} (L : LikeB True c s s')
    (r : resetBody s.bodyArea.cells s = .ok s2) (r' : resetBody s'.bodyArea.cells s' = .ok s2') : Like True c s2 s2' := by
  have cl := c.area_cells s.bodyArea
  unfold Chart.Lst at cl
  simp only [P.swap, Bool.false_eq_true, if_false] at cl
  rw [L.bodyArea, cl] at r'
  exact (resetBody_like s.bodyArea.cells s s' L.toLike).both r r'

theorem calcBodyPos_like (P : Placed c d g g') (p : SimParam K) (tol : K) (hb : 0 ≤ p.cellBuffer) (fuel : ℕ) (b : Body K)
    (pos : Vec3 K) (ori : Quat K) {s s' s1 s1' : SimOut K} (L : LikeA True c s s')
    (h : calcBodyPos fuel s pos ori g b p tol = .ok s1)
    (h' : calcBodyPos fuel s' (vadd pos d) ori g' (b.moved d) p tol = .ok s1') {m : ℤ} (hm : 1 ≤ m)
    (R : c.Roomy g g' m s1.bodyArea) :
    LikeA True c s1 s1' ∧ s1.relaxArea = s.relaxArea := by
  obtain ⟨x, k⟩ := calcBodyPos_likeB P p tol hb fuel b pos ori (fun _ _ => resetBody_likeB P L.toB) h h' hm R
  exact ⟨x.toA k L.relaxArea, k.1⟩

/-! ## Transport -/

section

variable {F : Type} [FOps F] {E : Prop} {c : Chart} {s s' : SimOut F}

/-- the location of the other simulation -/
def Chart.loc (c : Chart) (x : ℕ × ℤ × ℤ) : ℕ × ℤ × ℤ := (x.1, c.on x.2)

/-- the closest wall of the other simulation -/
def Chart.closest (c : Chart) (x : Closest F) : Closest F := ⟨x.dist, x.loc.map c.loc⟩

/-- the outcome of the search of the other simulation -/
def Chart.found (c : Chart) (x : (ℕ × ℤ × ℤ) ⊕ Closest F) : (ℕ × ℤ × ℤ) ⊕ Closest F := x.map c.loc c.closest

theorem resetBodySoil_like (l : List (BodySoil F)) (s s' : SimOut F) (h : Like E c s s') :
    Corr E (Like E c) (resetBodySoil l s) (resetBodySoil (l.map c.entry) s') := by
  induction l generalizing s s' with
  | nil => exact Corr.ok h
  | cons e l ih =>
    rw [List.map_cons]
    unfold resetBodySoil
    refine Corr.guard (fun hg => ?_) fun _ _ => ih _ _ ?_
    · rcases h.grid' (i' := (c.entry e).ii) (j' := (c.entry e).jj) rfl hg.1 with h1 | h1
      · exact .inl ⟨h1, hg.2⟩
      · exact .inr h1
    · exact (h.setBS rfl _ _).setBS rfl _ _

theorem placeOn_like (h : Like E c s s') {i j i' j' : ℤ} (hi : s.InGrid i j) (hi' : s'.InGrid i' j')
    (e : c.on (i, j) = (i', j')) (k : ℕ) (x : BodySoil F) (v : F) :
    Like E c (placeOn s k i j x v) (placeOn s' k i' j' (c.entry x) v) := by
  have A := h.col hi hi' e
  unfold placeOn
  simp only [A.body, A.bodySoil]
  refine ((h.setBS e _ _).setBS e _ _).pushPos ?_
  unfold Chart.entry
  simp only [e]

theorem tryLayer_like {i j i' j' : ℤ} (A : SameCol s s' i j i' j') (e : c.on (i, j) = (i', j')) (z md : F) (k : ℕ)
    (x : Closest F) : tryLayer s' z md k i' j' (c.closest x) = (tryLayer s z md k i j x).map c.closest := by
  unfold tryLayer
  simp only [A.bodyAbs, A.body]
  split
  · rfl
  · split
    · rfl
    · simp only [show (c.closest x).dist = x.dist from rfl]
      split
      · simp only [Option.map_some, Chart.closest, Chart.loc, e]
      · rfl

theorem searchWall_like (h : Like E c s s') (z md : F) (i j : ℤ) (ds : List (ℤ × ℤ)) (x : Closest F) (hs : c.swap = false) :
    Corr E (fun y y' => y' = c.found y) (searchWall s z md i j ds x)
      (searchWall s' z md (i + c.tx) (j + c.ty) ds (c.closest x)) := by
  induction ds generalizing x with
  | nil => exact Corr.ok rfl
  | cons q ds ih =>
    unfold searchWall
    have e : c.on (i + q.1, j + q.2) = (i + c.tx + q.1, j + c.ty + q.2) := by
      rw [on_noswap hs]
      simp only [Prod.mk.injEq]
      omega
    refine Corr.guard (h.grid' e) fun g1 g2 => ?_
    have A := h.col g1 g2 e
    simp only [tryLayer_like A e]
    cases tryLayer s z md 0 (i + q.1) (j + q.2) x with
    | none =>
      refine Corr.ok ?_
      unfold Chart.found Chart.loc
      simp only [Sum.map_inl, e]
    | some y =>
      simp only [Option.map_some, tryLayer_like A e]
      cases tryLayer s z md 2 (i + q.1) (j + q.2) y with
      | none =>
        refine Corr.ok ?_
        unfold Chart.found Chart.loc
        simp only [Sum.map_inl, e]
      | some u => exact ih u

theorem searchWall_in (s : SimOut F) (z md : F) (i j : ℤ) (ds : List (ℤ × ℤ)) (x : Closest F)
    (hx : ∀ y, x.loc = some y → s.InGrid y.2.1 y.2.2) :
    Post (searchWall s z md i j ds x) fun r => (∀ y, r = .inl y → s.InGrid y.2.1 y.2.2) ∧
      ∀ u y, r = .inr u → u.loc = some y → s.InGrid y.2.1 y.2.2 := by
  have step : ∀ k a b (x : Closest F), s.InGrid a b → (∀ y, x.loc = some y → s.InGrid y.2.1 y.2.2) →
      ∀ u, tryLayer s z md k a b x = some u → ∀ y, u.loc = some y → s.InGrid y.2.1 y.2.2 := by
    intro k a b x hg hx u hu y hy
    unfold tryLayer at hu
    dsimp only at hu
    split at hu
    · cases hu
      exact hx y hy
    · split at hu
      · cases hu
      · split at hu
        · cases hu
          cases hy
          exact hg
        · cases hu
          exact hx y hy
  induction ds generalizing x with
  | nil =>
    rintro r ⟨⟩
    refine ⟨fun y hy => ?_, fun u y hu hy => ?_⟩
    · cases hy
    · cases hu
      exact hx y hy
  | cons q ds ih =>
    unfold searchWall
    refine Post.guard fun hg => ?_
    cases h1 : tryLayer s z md 0 (i + q.1) (j + q.2) x with
    | none =>
      rintro r ⟨⟩
      refine ⟨fun y hy => ?_, fun u y hu => ?_⟩
      · cases hy
        exact hg
      · cases hu
    | some y1 =>
      have n1 := step _ _ _ _ hg hx _ h1
      dsimp only
      cases h2 : tryLayer s z md 2 (i + q.1) (j + q.2) y1 with
      | none =>
        rintro r ⟨⟩
        refine ⟨fun y hy => ?_, fun u y hu => ?_⟩
        · cases hy
          exact hg
        · cases hu
      | some y2 => exact ih _ (step _ _ _ _ hg n1 _ h2)

/-- the search starts in the middle -/
theorem searchWall_mid {s : SimOut F} {z md : F} {i j : ℤ} {dx dy : F} {x : Closest F} {r : (ℕ × ℤ × ℤ) ⊕ Closest F}
    (h : searchWall s z md i j (exploreOrder dx dy) x = .ok r) : s.InGrid i j := by
  have key : ∀ ds, searchWall s z md i j ((0, 0) :: ds) x = .ok r → s.InGrid i j := by
    intro ds h
    unfold searchWall at h
    obtain ⟨h, -⟩ := guardOob_bind.mp h
    simpa using h
  unfold exploreOrder at h
  dsimp only at h
  split at h <;> exact key _ h

end

section

variable {c : Chart} {d : Vec3 K} {g g' : Grid K}

/-- corresponding worlds, with the same further warnings -/
structure LikeW (c : Chart) (l l' : List (Warn K)) (w w' : World K) : Prop where
  out : Like True c w.out w'.out
  log : ∃ x, w.log = l ++ x ∧ w'.log = l' ++ x

theorem updateEntry_like (P : Placed c d g g') (pos : Vec3 K) (ori : Quat K) (b : Body K) (tol : K) (e : BodySoil K)
    {w w' w1 w1' : World K} {l l' : List (Warn K)} (L : LikeW c l l' w w')
    (h : updateEntry pos ori g b tol e w = .ok w1)
    (h' : updateEntry (vadd pos d) ori g' (b.moved d) tol (c.entry e) w' = .ok w1') : LikeW c l l' w1 w1' := by
  have hc := P.pos.ne'
  have v : (⟨(c.entry e).xb, (c.entry e).yb, (c.entry e).zb⟩ : Vec3 K) = ⟨e.xb, e.yb, e.zb⟩ := by
    unfold Chart.entry Chart.vec
    simp [P.swap]
  have eh : (c.entry e).h = e.h := rfl
  unfold updateEntry at h h'
  rw [eh, P.cellZ] at h'
  split at h
  · rename_i hlt
    rw [if_pos hlt] at h'
    cases h
    cases h'
    exact L
  rename_i hlt
  rw [if_neg hlt] at h'
  dsimp only at h h'
  rw [v, P.cellXY, P.halfZ] at h'
  set r1 := calcRotationQuaternion ori ⟨e.xb, e.yb, e.zb⟩ with hr1
  set r2 := calcRotationQuaternion b.ori ⟨e.xb, e.yb, e.zb⟩ with hr2
  have er2 : calcRotationQuaternion (b.moved d).ori ⟨e.xb, e.yb, e.zb⟩ = r2 := rfl
  have n1 : r1.addF (vadd pos d) = vadd (r1.addF pos) d := by
    unfold Vec3.addF vadd
    simp only [ex_add, add_assoc]
  have n2 : r2.addF (b.moved d).pos = vadd (r2.addF b.pos) d := by
    unfold Vec3.addF Body.moved vadd
    simp only [ex_add, add_assoc]
  rw [er2, n1, n2] at h'
  set new := r1.addF pos
  set old := r2.addF b.pos
  have dxy : (vadd new d).x -ᶠ (vadd old d).x = new.x -ᶠ old.x ∧ (vadd new d).y -ᶠ (vadd old d).y = new.y -ᶠ old.y := by
    unfold vadd
    simp only [ex_sub, add_sub_add_right_eq_sub, and_self]
  have dz : (vadd new d).z = new.z := by
    unfold vadd
    rw [P.dz, add_zero]
  have px : (vadd new d).x /ᶠ g.cellXY +ᶠ ofInt g'.halfX = (new.x /ᶠ g.cellXY +ᶠ ofInt g.halfX) + (c.tx : K) := by
    unfold vadd
    simp only [ex_div, ex_add, ex_ofInt, P.dx]
    field_simp
    ring
  have py : (vadd new d).y /ᶠ g.cellXY +ᶠ ofInt g'.halfY = (new.y /ᶠ g.cellXY +ᶠ ofInt g.halfY) + (c.ty : K) := by
    unfold vadd
    simp only [ex_div, ex_add, ex_ofInt, P.dy]
    field_simp
    ring
  rw [dxy.1, dxy.2, dz, px, py] at h'
  simp only [ex_round, castInt_exact, truncZ_intCast, ok_bind] at h h'
  obtain ⟨r, hr, h⟩ := bind_eq_ok.mp h
  obtain ⟨r', hr', h'⟩ := bind_eq_ok.mp h'
  have m1 := searchWall_mid hr
  have m1' := searchWall_mid hr'
  have ex := roundAway_shift c.tx m1.1 m1'.1
  have ey := roundAway_shift c.ty m1.2.2.1 m1'.2.2.1
  rw [ex, ey] at hr' h' m1'
  have eq := (searchWall_like L.out _ _ _ _ _ ⟨ofInt (2 * g.halfZ), none⟩ P.swap).both hr hr'
  have i1 := searchWall_in _ _ _ _ _ _ _ (fun y hy => by cases hy) _ hr
  have i1' := searchWall_in _ _ _ _ _ _ _ (fun y hy => by cases hy) _ hr'
  subst eq
  cases r with
  | inl y =>
    obtain ⟨k, a, q⟩ := y
    cases h
    cases h'
    exact ⟨placeOn_like L.out (i1.1 _ rfl) (i1'.1 _ rfl) rfl _ _ _, L.log⟩
  | inr u =>
    dsimp only [Chart.found, Sum.map_inr] at h h' i1'
    simp only [show (c.closest u).dist = u.dist from rfl] at h'
    split at h
    · rename_i hne
      rw [if_pos hne] at h'
      obtain ⟨di, lo⟩ := u
      cases lo with
      | none => cases h
      | some y =>
        obtain ⟨k, a, q⟩ := y
        dsimp only [Chart.closest, Option.map_some] at h h'
        cases h
        cases h'
        exact ⟨placeOn_like L.out (i1.2 _ _ rfl rfl) (i1'.2 _ _ rfl rfl) rfl _ _ _, L.log⟩
    · rename_i hne
      rw [if_neg hne] at h'
      cases h
      cases h'
      have A := L.out.col m1 m1' (on_noswap P.swap _ _)
      obtain ⟨x, e1, e2⟩ := L.log
      refine ⟨?_, x ++ [.soilToTerrain], ?_, ?_⟩
      · have := L.out.setT (on_noswap P.swap (roundAway (new.x /ᶠ g.cellXY +ᶠ ofInt g.halfX))
          (roundAway (new.y /ᶠ g.cellXY +ᶠ ofInt g.halfY)))
          (w.out.terrain (roundAway (new.x /ᶠ g.cellXY +ᶠ ofInt g.halfX)) (roundAway (new.y /ᶠ g.cellXY +ᶠ ofInt g.halfY)) +ᶠ
            (g.cellZ *ᶠ ((roundAway (e.h /ᶠ g.cellZ) : ℤ) : K)))
        unfold World.mapOut World.warn
        dsimp only
        rw [A.terrain]
        exact this
      · unfold World.mapOut World.warn
        dsimp only
        rw [e1, List.append_assoc]
      · unfold World.mapOut World.warn
        dsimp only
        rw [e2, List.append_assoc]

theorem updateEntries_like (P : Placed c d g g') (pos : Vec3 K) (ori : Quat K) (b : Body K) (tol : K) (es : List (BodySoil K))
    {w w' w1 w1' : World K} {l l' : List (Warn K)} (L : LikeW c l l' w w')
    (h : updateEntries pos ori g b tol es w = .ok w1)
    (h' : updateEntries (vadd pos d) ori g' (b.moved d) tol (es.map c.entry) w' = .ok w1') : LikeW c l l' w1 w1' := by
  induction es generalizing w w' with
  | nil =>
    cases h
    cases h'
    exact L
  | cons e es ih =>
    rw [List.map_cons] at h'
    unfold updateEntries at h h'
    obtain ⟨w2, h1, h⟩ := bind_eq_ok.mp h
    obtain ⟨w2', h1', h'⟩ := bind_eq_ok.mp h'
    exact ih (updateEntry_like P pos ori b tol e L h1 h1') h h'

theorem updateBodySoil_likeB (P : Placed c d g g') (pos : Vec3 K) (ori : Quat K) (b : Body K) (tol : K)
    {w w' w1 w1' : World K} {b1 b1' : Body K} (L : LikeB True c w.out w'.out)
    (h : updateBodySoil pos ori g b tol w = .ok (w1, b1))
    (h' : updateBodySoil (vadd pos d) ori g' (b.moved d) tol w' = .ok (w1', b1')) :
    LikeB True c w1.out w1'.out ∧ KeptR w.out w'.out w1.out w1'.out ∧ (∃ x, w1.log = w.log ++ x ∧ w1'.log = w'.log ++ x) ∧
      b1' = b1.moved d := by
  have f := updateBodySoil_loc _ _ _ _ _ _ _ h
  have f' := updateBodySoil_loc _ _ _ _ _ _ _ h'
  unfold updateBodySoil at h h'
  dsimp only at h h'
  rw [L.entries] at h'
  obtain ⟨s2, r, h⟩ := bind_eq_ok.mp h
  obtain ⟨s2', r', h'⟩ := bind_eq_ok.mp h'
  obtain ⟨w2, u, h⟩ := bind_eq_ok.mp h
  obtain ⟨w2', u', h'⟩ := bind_eq_ok.mp h'
  cases h
  cases h'
  have L2 := (resetBodySoil_like _ _ _ L.toLike).both r r'
  have L3 : LikeW c w.log w'.log { w with out := { s2 with bodySoilPos := [] } }
      { w' with out := { s2' with bodySoilPos := [] } } :=
    ⟨⟨L2.grid, L2.terrain, L2.body, L2.bodySoil, rfl, L2.equilibrium⟩, [], by simp, by simp⟩
  have L4 := updateEntries_like P pos ori b tol _ L3 u u'
  refine ⟨⟨L4.out, ?_⟩, ⟨f.1.relaxArea, f'.1.relaxArea⟩, L4.log, rfl⟩
  rw [f.1.body.2.1, f'.1.body.2.1, L.bodyArea]

theorem updateBodySoil_like (P : Placed c d g g') (pos : Vec3 K) (ori : Quat K) (b : Body K) (tol : K)
    {w w' w1 w1' : World K} {b1 b1' : Body K} (L : LikeA True c w.out w'.out)
    (h : updateBodySoil pos ori g b tol w = .ok (w1, b1))
    (h' : updateBodySoil (vadd pos d) ori g' (b.moved d) tol w' = .ok (w1', b1')) :
    LikeA True c w1.out w1'.out ∧ (∃ x, w1.log = w.log ++ x ∧ w1'.log = w'.log ++ x) ∧ b1' = b1.moved d := by
  obtain ⟨x, k, y⟩ := updateBodySoil_likeB P pos ori b tol L.toB h h'
  exact ⟨x.toA k L.relaxArea, y⟩

theorem CorrW.both (hs : c.swap = false) {E : Prop} {Q : SimOut K → SimOut K → Prop} {f f' : World K → M (World K)}
    {s s' : SimOut K} (h : CorrW E c Q f f' s s') {r : Rng} {l l' : List (Warn K)} {w1 w1' : World K}
    (h1 : f ⟨s, r, l⟩ = .ok w1) (h1' : f' ⟨s', r, l'⟩ = .ok w1') :
    Q w1.out w1'.out ∧ w1'.rng = w1.rng ∧ ∃ x, w1.log = l ++ x ∧ w1'.log = l' ++ x := by
  rcases h r l l' w1 h1 with ⟨s1', x, q, e, res⟩ | ⟨-, q, hq, res⟩
  · obtain ⟨q1, hq1, res⟩ := res w1.rng (Chart.Rn.refl _ _)
    rw [hq1 hs, h1'] at res
    cases res
    exact ⟨q, rfl, x, e, rfl⟩
  · rw [hq hs, h1'] at res
    cases res

theorem step_like (P : Placed c d g g') (p : SimParam K) (tol : K) (hb : 0 ≤ p.cellBuffer) (fuel : ℕ) (b : Body K)
    (pos : Vec3 K) (ori : Quat K) {w w' : World K} {r r' : StepResult K} (L : LikeA True c w.out w'.out)
    (hr : w'.rng = w.rng) (h : step fuel pos ori g b p tol w = .ok r)
    (h' : step fuel (vadd pos d) ori g' (b.moved d) p tol w' = .ok r')
    (R1 : Spacious c g g' p w.out.relaxArea) (R2 : Spacious c g g' p r.world.out.bodyArea) :
    LikeA True c r.world.out r'.world.out ∧ r'.world.rng = r.world.rng ∧
      (∃ x, r.world.log = w.log ++ x ∧ r'.world.log = w'.log ++ x) ∧ r'.body = r.body.moved d ∧ r'.updated = r.updated ∧
      r'.passes = r.passes := by
  unfold step at h h'
  rw [checkBodyMovement_moved P] at h'
  generalize checkBodyMovement pos ori g b = mw at h h'
  obtain ⟨mv, ws⟩ := mw
  dsimp only at h h'
  cases mv with
  | false =>
    cases h
    cases h'
    exact ⟨L, hr, ⟨ws, rfl, rfl⟩, rfl, rfl, rfl⟩
  | true =>
    simp only [Bool.not_true, Bool.false_eq_true, if_false] at h h'
    obtain ⟨s1, c1, h⟩ := bind_eq_ok.mp h
    obtain ⟨s1', c1', h'⟩ := bind_eq_ok.mp h'
    obtain ⟨⟨w2, b2⟩, c2, h⟩ := bind_eq_ok.mp h
    obtain ⟨⟨w2', b2'⟩, c2', h'⟩ := bind_eq_ok.mp h'
    obtain ⟨w3, c3, h⟩ := bind_eq_ok.mp h
    obtain ⟨w3', c3', h'⟩ := bind_eq_ok.mp h'
    dsimp only at h h'
    obtain ⟨⟨w4, it⟩, c4, h⟩ := bind_eq_ok.mp h
    obtain ⟨⟨w4', it'⟩, c4', h'⟩ := bind_eq_ok.mp h'
    cases h
    cases h'
    have a2 := (updateBodySoil_loc _ _ _ _ _ _ _ c2).1
    have a2' := (updateBodySoil_loc _ _ _ _ _ _ _ c2').2.1
    have a2r := (updateBodySoil_loc _ _ _ _ _ _ _ c2).2.1
    have a3 := moveIntersectingCells_loc _ _ _ _ _ _ c3
    have a4 := (relaxLoop_frame _ _ _ _ _ _ _ _ c4).1
    have eB : w4.out.bodyArea = s1.bodyArea := a4.2.1.trans (a3.body.2.1.trans a2.body.2.1)
    set N : ℤ := 1 + p.maxIterations.toNat * p.cellBuffer with hN
    have hN0 : (0 : ℤ) ≤ p.maxIterations.toNat * p.cellBuffer := by positivity
    have R2' : c.Roomy g g' N s1.bodyArea := by
      unfold Spacious at R2
      rw [eB] at R2
      unfold Chart.Roomy
      simp only [P.swap, Bool.false_eq_true, if_false]
      exact R2
    obtain ⟨L1, e1⟩ := calcBodyPos_like P p tol hb fuel b pos ori L c1 c1' (m := N) (by omega) R2'
    obtain ⟨L2, ⟨x2, l2, l2'⟩, eb⟩ := updateBodySoil_like P pos ori b tol (w := { w with log := w.log ++ ws, out := s1 })
      (w' := { w' with log := w'.log ++ ws, out := s1' }) L1 c2 c2'
    subst eb
    have S := sameScene_moved P b2
    have hr2 : w2'.rng = w2.rng := by rw [a2', a2r]; exact hr
    obtain ⟨o2, q2, g2⟩ := w2
    obtain ⟨o2', q2', g2'⟩ := w2'
    dsimp only at hr2
    subst hr2
    obtain ⟨⟨L3, ra3, ba3⟩, hr3, x3, l3, l3'⟩ := (moveIntersectingCells_like S tol fuel P.swap L2).both P.swap c3 c3'
    obtain ⟨o3, q3, g3⟩ := w3
    obtain ⟨o3', q3', g3'⟩ := w3'
    dsimp only at hr3
    subst hr3
    have L3' : LikeA True c { o3 with equilibrium := false } { o3' with equilibrium := false } :=
      ⟨L3.toLike.setEq false, L3.bodyArea, L3.relaxArea⟩
    have R3 : c.Roomy g g' (p.maxIterations.toNat * p.cellBuffer) (impactOf { o3 with equilibrium := false }) := by
      have W1 := R1
      have W2 := R2'.wide P.swap
      have ar : o3.relaxArea = w.out.relaxArea := ra3.trans (a2.relaxArea.trans e1)
      have ab : o3.bodyArea = s1.bodyArea := ba3.trans a2.body.2.1
      unfold Spacious at W1
      unfold Chart.Roomy impactOf
      simp only [P.swap, Bool.false_eq_true, if_false, ar, ab]
      rw [Chart.area_noswap P.swap] at W1 W2 ⊢
      unfold Wide at W1 W2 ⊢
      dsimp only at W1 W2 ⊢
      omega
    rcases relaxLoop_like S p tol hb p.maxIterations.toNat fuel 0 _ _ (by omega) L3' R3 q3' g3 g3' w4 it c4 with
      ⟨s4, x4, L4, l4, res⟩ | ⟨-, q, hq, res⟩
    · obtain ⟨q, hq, res⟩ := res w4.rng (Chart.Rn.refl _ _)
      rw [hq P.swap] at res
      have res := c4'.symm.trans res
      cases res
      refine ⟨L4, rfl, ⟨ws ++ x2 ++ x3 ++ x4, ?_, ?_⟩, rfl, rfl, rfl⟩
      · dsimp only at l2 l3 ⊢
        rw [l4, l3, l2]
        simp only [List.append_assoc]
      · dsimp only at l2' l3' ⊢
        rw [l3', l2']
        simp only [List.append_assoc]
    · rw [hq P.swap] at res
      have res := c4'.symm.trans res
      cases res

theorem run_like (P : Placed c d g g') (p : SimParam K) (tol : K) (hb : 0 ≤ p.cellBuffer) (fuel : ℕ)
    (l : List (Vec3 K × Quat K)) {b b1 b1' : Body K} {w w' w1 w1' : World K} (L : LikeA True c w.out w'.out)
    (hr : w'.rng = w.rng) (h : run fuel g p tol l b w = .ok (b1, w1))
    (h' : run fuel g' p tol (l.map fun q => (vadd q.1 d, q.2)) (b.moved d) w' = .ok (b1', w1'))
    (R : ∀ l1 l2 bx wx, l1 ++ l2 = l → run fuel g p tol l1 b w = .ok (bx, wx) →
      Spacious c g g' p wx.out.bodyArea ∧ Spacious c g g' p wx.out.relaxArea) :
    LikeA True c w1.out w1'.out ∧ w1'.rng = w1.rng ∧ (∃ x, w1.log = w.log ++ x ∧ w1'.log = w'.log ++ x) ∧
      b1' = b1.moved d := by
  induction l generalizing b w w' with
  | nil =>
    cases h
    cases h'
    exact ⟨L, hr, ⟨[], by simp, by simp⟩, rfl⟩
  | cons q l ih =>
    obtain ⟨pos, ori⟩ := q
    rw [List.map_cons] at h'
    unfold run at h h'
    obtain ⟨r, s1, h⟩ := bind_eq_ok.mp h
    obtain ⟨r', s1', h'⟩ := bind_eq_ok.mp h'
    have R0 := R [] _ _ _ rfl rfl
    have R1 := R [(pos, ori)] l r.body r.world rfl (by unfold run; rw [s1, ok_bind]; rfl)
    obtain ⟨L1, e1, ⟨x, x1, x2⟩, eb, -, -⟩ := step_like P p tol hb fuel b pos ori L hr s1 s1' R0.2 R1.1
    rw [eb] at h'
    obtain ⟨L2, e2, ⟨y, y1, y2⟩, eb2⟩ := ih L1 e1 h h' (fun l1 l2 bx wx e hx => R ((pos, ori) :: l1) l2 bx wx
      (by rw [List.cons_append, e]) (by unfold run; rw [s1, ok_bind]; exact hx))
    exact ⟨L2, e2, ⟨x ++ y, by rw [y1, x1, List.append_assoc], by rw [y2, x2, List.append_assoc]⟩, eb2⟩

end

end Soil
