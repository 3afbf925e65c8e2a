import Verif.Proof.ChartMove
import Verif.Proof.Outside
import Verif.Proof.Plane

/-! # Position of the body at another place -/

namespace Soil

open FOps

variable {K : Type} [Field K] [LinearOrder K] [IsStrictOrderedRing K] [FloorRing K]

theorem roundAway_nonneg_eq {x : K} (h : 0 ≤ roundAway x) : roundAway x = ⌊x + 1 / 2⌋ := by
  unfold roundAway at h ⊢
  split
  · rfl
  · rename_i hx
    rw [if_neg hx] at h
    push Not at hx
    have h1 : -1 < ⌈x - 1 / 2⌉ := by omega
    rw [Int.lt_ceil] at h1
    push_cast at h1
    have e1 : ⌈x - 1 / 2⌉ = 0 := by
      rw [Int.ceil_eq_iff]
      constructor
      · push_cast; linarith
      · push_cast; linarith
    have e2 : ⌊x + 1 / 2⌋ = 0 := by
      rw [Int.floor_eq_iff]
      constructor
      · push_cast; linarith
      · push_cast; linarith
    rw [e1, e2]

theorem roundAway_shift {x : K} (t : ℤ) (h : 0 ≤ roundAway x) (h' : 0 ≤ roundAway (x + t)) :
    roundAway (x + t) = roundAway x + t := by
  rw [roundAway_nonneg_eq h, roundAway_nonneg_eq h']
  rw [show x + (t : K) + 1 / 2 = x + 1 / 2 + t by ring, Int.floor_add_intCast]

variable [Transc K]

/-- the index position of the other simulation -/
def vsh (c : Chart) (p : Vec3 K) : Vec3 K := ⟨p.x + c.tx, p.y + c.ty, p.z⟩

/-- the cell of the other simulation -/
def csh (c : Chart) (x : Cell3) : Cell3 := (x.1 + c.tx, x.2.1 + c.ty, x.2.2)

/-- no negative index -/
def NN (l : List Cell3) : Prop := ∀ x ∈ l, 0 ≤ x.1 ∧ 0 ≤ x.2.1

variable {c : Chart} {d : Vec3 K} {g g' : Grid K}

theorem toIndex_shift (P : Placed c d g g') (v : Vec3 K) : toIndex g' (vadd v d) = vsh c (toIndex g v) := by
  have := P.pos.ne'
  unfold toIndex vsh vadd
  simp only [ex_add, ex_div, ex_ofInt, ex_sub, ex_ofRat, P.cellXY, P.cellZ, P.halfZ, P.dx, P.dy, P.dz, Vec3.mk.injEq]
  refine ⟨?_, ?_, ?_⟩
  · field_simp; ring
  · field_simp; ring
  · ring

theorem cellOf_eq' (p : Vec3 K) : cellOf p = .ok (roundAway p.x, roundAway p.y, ⌈p.z⌉) := by
  unfold cellOf
  simp only [ex_round, ex_ceil, castInt_exact, truncZ_intCast, ok_bind]
  rfl

/-- rounding commutes with the shift at this position -/
def RoundOK (c : Chart) (p : Vec3 K) : Prop :=
  roundAway (p.x + c.tx) = roundAway p.x + c.tx ∧ roundAway (p.y + c.ty) = roundAway p.y + c.ty

theorem roundOK {p : Vec3 K} (h : 0 ≤ roundAway p.x ∧ 0 ≤ roundAway p.y)
    (h' : 0 ≤ roundAway (vsh c p).x ∧ 0 ≤ roundAway (vsh c p).y) : RoundOK c p :=
  ⟨roundAway_shift _ h.1 h'.1, roundAway_shift _ h.2 h'.2⟩

/-- the state of the traversal in the other simulation -/
def lsh (c : Chart) (l : LineSt K) : LineSt K := { l with p := vsh c l.p }

theorem lineStep_shift (cf : LineCfg K) (l : LineSt K) : lineStep cf (lsh c l) = lsh c (lineStep cf l) := by
  unfold lineStep lsh vsh
  dsimp only
  simp only [ex_add, ex_ofInt]
  (repeat' split) <;> simp only [LineSt.mk.injEq, Vec3.mk.injEq, and_true, true_and] <;> ring

theorem lineLoop_shift (cf : LineCfg K) (fuel : ℕ) (l : LineSt K) (cs cs' : List Cell3) (h : lineLoop cf fuel l = .ok cs)
    (h' : lineLoop cf fuel (lsh c l) = .ok cs') (n : NN cs) (n' : NN cs') : cs' = cs.map (csh c) := by
  induction fuel generalizing l cs cs' with
  | zero =>
    unfold lineLoop at h h'
    rw [show lineCont cf (lsh c l) = lineCont cf l from rfl] at h'
    split at h
    · cases h
    · rename_i hc
      rw [if_neg hc] at h'
      cases h
      cases h'
      rfl
  | succ fuel ih =>
    unfold lineLoop at h h'
    rw [show lineCont cf (lsh c l) = lineCont cf l from rfl] at h'
    split at h
    · rename_i hc
      rw [if_pos hc] at h'
      simp only [lineStep_shift, cellOf_eq', ok_bind] at h h'
      obtain ⟨r, hr, h⟩ := bind_eq_ok.mp h
      obtain ⟨r', hr', h'⟩ := bind_eq_ok.mp h'
      cases h
      cases h'
      have e := ih _ _ _ hr hr' (fun x hx => n x (List.mem_cons_of_mem _ hx)) (fun x hx => n' x (List.mem_cons_of_mem _ hx))
      have R := roundOK (c := c) (p := (lineStep cf l).p) (n _ List.mem_cons_self) (n' _ List.mem_cons_self)
      rw [e, List.map_cons]
      congr 1
      unfold csh
      simp only [lsh, vsh, R.1, R.2]
    · rename_i hc
      rw [if_neg hc] at h'
      cases h
      cases h'
      rfl

theorem lineInit_shift (p q : Vec3 K) (R : RoundOK c p) :
    lineInit (vsh c p) (vsh c q) = ((lineInit p q).1, lsh c (lineInit p q).2) := by
  have e1 : ∀ s : ℤ, offsetXY s (p.x + c.tx) = offsetXY s p.x := by
    intro s
    unfold offsetXY
    simp only [ex_round, ex_add, ex_sub, ex_ofRat, R.1]
    split <;> push_cast <;> ring
  have e2 : ∀ s : ℤ, offsetXY s (p.y + c.ty) = offsetXY s p.y := by
    intro s
    unfold offsetXY
    simp only [ex_round, ex_add, ex_sub, ex_ofRat, R.2]
    split <;> push_cast <;> ring
  unfold lineInit lsh
  simp only [vsh, e1, e2, ex_lt, add_lt_add_iff_right, ex_sub, add_sub_add_right_eq_sub]
  rfl

theorem calcLinePos_shift (P : Placed c d g g') (fuel : ℕ) (a b : Vec3 K) (cs cs' : List Cell3)
    (h : calcLinePos fuel a b g = .ok cs) (h' : calcLinePos fuel (vadd a d) (vadd b d) g' = .ok cs') (n : NN cs) (n' : NN cs') :
    cs' = cs.map (csh c) := by
  unfold calcLinePos at h h'
  simp only [toIndex_shift P, cellOf_eq', ok_bind] at h h'
  obtain ⟨r, hr, h⟩ := bind_eq_ok.mp h
  obtain ⟨r', hr', h'⟩ := bind_eq_ok.mp h'
  cases h
  cases h'
  have R := roundOK (c := c) (p := toIndex g a) (n _ List.mem_cons_self) (n' _ List.mem_cons_self)
  rw [lineInit_shift _ _ R] at hr'
  have e := lineLoop_shift _ _ _ _ _ hr hr' (fun x hx => n x (List.mem_cons_of_mem _ hx))
    (fun x hx => n' x (List.mem_cons_of_mem _ hx))
  rw [e, List.map_cons]
  congr 1
  unfold csh
  simp only [vsh, R.1, R.2]

/-! ## Walls -/

theorem boundingInt_shift (x : K) (l : List K) (t : ℤ) :
    boundingInt (x + t) (l.map (· + (t : K))) =
      (boundingInt x l >>= fun r => .ok (r.1 + t, r.2 + t)) := by
  rw [boundingInt_eq, boundingInt_eq, ok_bind]
  have h1 : ∀ (l : List K) (x : K), (l.map (· + (t : K))).foldl Min.min (x + t) = l.foldl Min.min x + t := by
    intro l
    induction l with
    | nil => exact fun _ => rfl
    | cons y l ih =>
      intro x
      simp only [List.map_cons, List.foldl_cons]
      rw [min_add_add_right]
      exact ih _
  have h2 : ∀ (l : List K) (x : K), (l.map (· + (t : K))).foldl Max.max (x + t) = l.foldl Max.max x + t := by
    intro l
    induction l with
    | nil => exact fun _ => rfl
    | cons y l ih =>
      intro x
      simp only [List.map_cons, List.foldl_cons]
      rw [max_add_add_right]
      exact ih _
  rw [h1, h2, Int.floor_add_intCast, Int.ceil_add_intCast]

theorem edgeInd_shift (P : Placed c d g g') (a b : Vec3 K) : edgeInd g' (vadd a d) (vadd b d) = edgeInd g a b := by
  unfold edgeInd vadd
  simp only [ex_sub, ex_div, P.cellXY, P.cellZ, add_sub_add_right_eq_sub]

theorem decompose_shift (test : K → K → Bool) (ab ad a : Vec3 K) (minX minY lenX lenY : ℤ) :
    decompose test ab ad (vsh c a) (minX + c.tx) (minY + c.ty) lenX lenY = decompose test ab ad a minX minY lenX lenY := by
  have e1 : ∀ i j : ℤ, coefAB ab ad (vsh c a) (ofInt (minX + c.tx) +ᶠ ofRat (1 / 2) +ᶠ ofInt i)
      (ofInt (minY + c.ty) +ᶠ ofRat (1 / 2) +ᶠ ofInt j) = coefAB ab ad a (ofInt minX +ᶠ ofRat (1 / 2) +ᶠ ofInt i)
      (ofInt minY +ᶠ ofRat (1 / 2) +ᶠ ofInt j) := by
    intro i j
    unfold coefAB vsh
    simp only [ex_add, ex_sub, ex_mul, ex_div, ex_ofInt, ex_ofRat]
    push_cast
    ring
  have e2 : ∀ i j : ℤ, coefAD ab ad (vsh c a) (ofInt (minX + c.tx) +ᶠ ofRat (1 / 2) +ᶠ ofInt i)
      (ofInt (minY + c.ty) +ᶠ ofRat (1 / 2) +ᶠ ofInt j) = coefAD ab ad a (ofInt minX +ᶠ ofRat (1 / 2) +ᶠ ofInt i)
      (ofInt minY +ᶠ ofRat (1 / 2) +ᶠ ofInt j) := by
    intro i j
    unfold coefAD vsh
    simp only [ex_add, ex_sub, ex_mul, ex_div, ex_neg, ex_ofInt, ex_ofRat]
    push_cast
    ring
  unfold decompose
  simp only [e1, e2]

theorem innerCells_shift (D : Decomp K) (aZ abZ adZ : K) (minX minY : ℤ) (l : List (ℤ × ℤ)) :
    innerCells D aZ abZ adZ (minX + c.tx) (minY + c.ty) (l.map fun p => (p.1 + c.tx, p.2 + c.ty)) =
      (innerCells D aZ abZ adZ minX minY l >>= fun r => .ok (r.map (csh c))) := by
  induction l with
  | nil => rfl
  | cons p l ih =>
    obtain ⟨i, j⟩ := p
    rw [List.map_cons]
    unfold innerCells
    simp only [add_sub_add_right_eq_sub, castInt_exact, ok_bind, ih]
    split
    · cases innerCells D aZ abZ adZ minX minY l with
      | error e => rfl
      | ok r =>
        simp only [ok_bind, pure_eq_ok, List.map_append]
        congr 2
        unfold fourCells csh
        simp only [List.map_cons, List.map_nil, List.cons.injEq, Prod.mk.injEq, true_and, and_true]
        omega
    · rfl

theorem cells_shift (minX maxX minY maxY : ℤ) :
    (Area.mk (minX + c.tx) (maxX + c.tx) (minY + c.ty) (maxY + c.ty)).cells =
      (Area.mk minX maxX minY maxY).cells.map fun p => (p.1 + c.tx, p.2 + c.ty) := by
  have := (⟨false, c.tx, c.ty⟩ : Chart).area_cells ⟨minX, maxX, minY, maxY⟩
  exact this

theorem inner_shift (test : K → K → Bool) (ab ad a : Vec3 K) (minX maxX minY maxY : ℤ) :
    ∃ r, (innerCells (decompose test ab ad a minX minY (maxX - minX) (maxY - minY)) a.z ab.z ad.z minX minY
        (Area.mk minX maxX minY maxY).cells >>= fun inner =>
        fillBuffer (decompose test ab ad a minX minY (maxX - minX) (maxY - minY)).nCell inner) = .ok r ∧
      (innerCells (decompose test ab ad (vsh c a) (minX + c.tx) (minY + c.ty) (maxX + c.tx - (minX + c.tx))
          (maxY + c.ty - (minY + c.ty))) (vsh c a).z ab.z ad.z (minX + c.tx) (minY + c.ty)
        (Area.mk (minX + c.tx) (maxX + c.tx) (minY + c.ty) (maxY + c.ty)).cells >>= fun inner =>
        fillBuffer (decompose test ab ad (vsh c a) (minX + c.tx) (minY + c.ty) (maxX + c.tx - (minX + c.tx))
          (maxY + c.ty - (minY + c.ty))).nCell inner) = .ok (r.map (csh c)) := by
  obtain ⟨r, h1, h2, h3, -⟩ := inner_spec test ab ad a minX maxX minY maxY
  refine ⟨r, h1, ?_⟩
  rw [add_sub_add_right_eq_sub, add_sub_add_right_eq_sub, decompose_shift, cells_shift, innerCells_shift,
    show (vsh c a).z = a.z from rfl, h2, ok_bind, ok_bind, ← h3]
  have := fillBuffer_exact (r.map (csh c))
  rwa [List.length_map] at this

theorem NN.left {a b : List Cell3} (h : NN (a ++ b)) : NN a := fun x hx => h x (List.mem_append_left _ hx)

theorem NN.right {a b : List Cell3} (h : NN (a ++ b)) : NN b := fun x hx => h x (List.mem_append_right _ hx)

theorem calcRectanglePos_shift (P : Placed c d g g') (tol : K) (fuel : ℕ) (a1 a2 a3 a4 : Vec3 K) (cs cs' : List Cell3)
    (h : calcRectanglePos fuel a1 a2 a3 a4 g tol = .ok cs)
    (h' : calcRectanglePos fuel (vadd a1 d) (vadd a2 d) (vadd a3 d) (vadd a4 d) g' tol = .ok cs') (n : NN cs) (n' : NN cs') :
    cs' = cs.map (csh c) := by
  unfold calcRectanglePos decomposeVectorRectangle at h h'
  simp only [toIndex_shift P, edgeInd_shift P] at h h'
  have b1 := boundingInt_shift (toIndex g a1).x [(toIndex g a2).x, (toIndex g a3).x, (toIndex g a4).x] c.tx
  have b2 := boundingInt_shift (toIndex g a1).y [(toIndex g a2).y, (toIndex g a3).y, (toIndex g a4).y] c.ty
  obtain ⟨⟨minX, maxX⟩, hx, h⟩ := bind_eq_ok.mp h
  obtain ⟨⟨minY, maxY⟩, hy, h⟩ := bind_eq_ok.mp h
  rw [hx, ok_bind] at b1
  rw [hy, ok_bind] at b2
  obtain ⟨⟨minX', maxX'⟩, hx', h'⟩ := bind_eq_ok.mp h'
  obtain ⟨⟨minY', maxY'⟩, hy', h'⟩ := bind_eq_ok.mp h'
  have b1 := hx'.symm.trans b1
  have b2 := hy'.symm.trans b2
  cases b1
  cases b2
  dsimp only at h h'
  obtain ⟨r, s1, s2⟩ := inner_shift (c := c) (inRect tol) (edgeInd g a1 a2) (edgeInd g a1 a4) (toIndex g a1) minX maxX minY maxY
  obtain ⟨i1, e1, h⟩ := bind_eq_ok.mp h
  obtain ⟨f1, e2, h⟩ := bind_eq_ok.mp h
  rw [e1, ok_bind, e2] at s1
  cases s1
  obtain ⟨i1', e1', h'⟩ := bind_eq_ok.mp h'
  obtain ⟨f1', e2', h'⟩ := bind_eq_ok.mp h'
  rw [e1', ok_bind, e2'] at s2
  cases s2
  obtain ⟨l1, c1, h⟩ := bind_eq_ok.mp h
  obtain ⟨l2, c2, h⟩ := bind_eq_ok.mp h
  obtain ⟨l3, c3, h⟩ := bind_eq_ok.mp h
  obtain ⟨l4, c4, h⟩ := bind_eq_ok.mp h
  obtain ⟨l1', c1', h'⟩ := bind_eq_ok.mp h'
  obtain ⟨l2', c2', h'⟩ := bind_eq_ok.mp h'
  obtain ⟨l3', c3', h'⟩ := bind_eq_ok.mp h'
  obtain ⟨l4', c4', h'⟩ := bind_eq_ok.mp h'
  cases h
  cases h'
  rw [calcLinePos_shift P fuel _ _ _ _ c1 c1' n.left.left.left.right n'.left.left.left.right,
    calcLinePos_shift P fuel _ _ _ _ c2 c2' n.left.left.right n'.left.left.right,
    calcLinePos_shift P fuel _ _ _ _ c3 c3' n.left.right n'.left.right,
    calcLinePos_shift P fuel _ _ _ _ c4 c4' n.right n'.right]
  simp only [List.map_append]

theorem calcTrianglePos_shift (P : Placed c d g g') (tol : K) (fuel : ℕ) (a1 a2 a3 : Vec3 K) (cs cs' : List Cell3)
    (h : calcTrianglePos fuel a1 a2 a3 g tol = .ok cs)
    (h' : calcTrianglePos fuel (vadd a1 d) (vadd a2 d) (vadd a3 d) g' tol = .ok cs') (n : NN cs) (n' : NN cs') :
    cs' = cs.map (csh c) := by
  unfold calcTrianglePos decomposeVectorTriangle at h h'
  simp only [toIndex_shift P, edgeInd_shift P] at h h'
  have b1 := boundingInt_shift (toIndex g a1).x [(toIndex g a2).x, (toIndex g a3).x] c.tx
  have b2 := boundingInt_shift (toIndex g a1).y [(toIndex g a2).y, (toIndex g a3).y] c.ty
  obtain ⟨⟨minX, maxX⟩, hx, h⟩ := bind_eq_ok.mp h
  obtain ⟨⟨minY, maxY⟩, hy, h⟩ := bind_eq_ok.mp h
  rw [hx, ok_bind] at b1
  rw [hy, ok_bind] at b2
  obtain ⟨⟨minX', maxX'⟩, hx', h'⟩ := bind_eq_ok.mp h'
  obtain ⟨⟨minY', maxY'⟩, hy', h'⟩ := bind_eq_ok.mp h'
  have b1 := hx'.symm.trans b1
  have b2 := hy'.symm.trans b2
  cases b1
  cases b2
  dsimp only at h h'
  obtain ⟨r, s1, s2⟩ := inner_shift (c := c) (inTri tol) (edgeInd g a1 a2) (edgeInd g a1 a3) (toIndex g a1) minX maxX minY maxY
  obtain ⟨i1, e1, h⟩ := bind_eq_ok.mp h
  obtain ⟨f1, e2, h⟩ := bind_eq_ok.mp h
  rw [e1, ok_bind, e2] at s1
  cases s1
  obtain ⟨i1', e1', h'⟩ := bind_eq_ok.mp h'
  obtain ⟨f1', e2', h'⟩ := bind_eq_ok.mp h'
  rw [e1', ok_bind, e2'] at s2
  cases s2
  obtain ⟨l1, c1, h⟩ := bind_eq_ok.mp h
  obtain ⟨l2, c2, h⟩ := bind_eq_ok.mp h
  obtain ⟨l3, c3, h⟩ := bind_eq_ok.mp h
  obtain ⟨l1', c1', h'⟩ := bind_eq_ok.mp h'
  obtain ⟨l2', c2', h'⟩ := bind_eq_ok.mp h'
  obtain ⟨l3', c3', h'⟩ := bind_eq_ok.mp h'
  cases h
  cases h'
  rw [calcLinePos_shift P fuel _ _ _ _ c1 c1' n.left.left.right n'.left.left.right,
    calcLinePos_shift P fuel _ _ _ _ c2 c2' n.left.right n'.left.right,
    calcLinePos_shift P fuel _ _ _ _ c3 c3' n.right n'.right]
  simp only [List.map_append]

/-! ## Corners -/

/-- all corners moved -/
def Corners.moved (d : Vec3 K) (x : Corners K) : Corners K :=
  ⟨vadd x.jr d, vadd x.jl d, vadd x.br d, vadd x.bl d, vadd x.tr d, vadd x.tl d⟩

theorem nudge_moved (tol : K) (x : Corners K) : nudge tol (x.moved d) = (nudge tol x).moved d := by
  unfold nudge nudge1 Corners.moved vadd
  simp only [ex_add, ex_mul, ex_sub, Corners.mk.injEq, Vec3.mk.injEq]
  refine ⟨⟨?_, ?_, ?_⟩, ⟨?_, ?_, ?_⟩, ⟨?_, ?_, ?_⟩, ⟨?_, ?_, ?_⟩, ⟨?_, ?_, ?_⟩, ⟨?_, ?_, ?_⟩⟩ <;> ring

theorem calcNormal_moved (a b e : Vec3 K) : calcNormal (vadd a d) (vadd b d) (vadd e d) = calcNormal a b e := by
  unfold calcNormal vadd
  simp only [ex_sub, add_sub_add_right_eq_sub]

theorem bladeBack_moved (P : Placed c d g g') (x : Corners K) : bladeBack g' (x.moved d) = (bladeBack g x).moved d := by
  unfold bladeBack Corners.moved
  simp only [calcNormal_moved, P.cellXY]
  unfold Vec3.addF vadd
  simp only [ex_add, Corners.mk.injEq, Vec3.mk.injEq]
  refine ⟨⟨?_, ?_, ?_⟩, ⟨?_, ?_, ?_⟩, ⟨?_, ?_, ?_⟩, ⟨?_, ?_, ?_⟩, ⟨?_, ?_, ?_⟩, ⟨?_, ?_, ?_⟩⟩ <;> ring

theorem corners_moved (pos : Vec3 K) (ori : Quat K) (b : Body K) (e : Vec3 K) :
    calcBodyCornerPos (vadd pos d) ori (b.moved e) = (calcBodyCornerPos pos ori b).moved d := by
  unfold calcBodyCornerPos Corners.moved Body.moved Vec3.addF Vec3.subF vadd
  simp only [ex_add, ex_sub, Corners.mk.injEq, Vec3.mk.injEq]
  refine ⟨⟨?_, ?_, ?_⟩, ⟨?_, ?_, ?_⟩, ⟨?_, ?_, ?_⟩, ⟨?_, ?_, ?_⟩, ⟨?_, ?_, ?_⟩, ⟨?_, ?_, ?_⟩⟩ <;> ring

theorem checkBodyMovement_moved (P : Placed c d g g') (pos : Vec3 K) (ori : Quat K) (b : Body K) :
    checkBodyMovement (vadd pos d) ori g' (b.moved d) = checkBodyMovement pos ori g b := by
  have e : calcBodyCornerPos (b.moved d).pos (b.moved d).ori (b.moved d) = (calcBodyCornerPos b.pos b.ori b).moved d :=
    corners_moved b.pos b.ori b d
  have dd : ∀ x y : Vec3 K, cornerDist (vadd x d) (vadd y d) = cornerDist x y := by
    intro x y
    unfold cornerDist vadd
    simp only [ex_sub, add_sub_add_right_eq_sub]
  unfold checkBodyMovement
  rw [e, corners_moved]
  simp only [Corners.moved, dd, P.cellXY, P.cellZ]

theorem sameScene_moved (P : Placed c d g g') (b : Body K) : SameScene c g g' b (b.moved d) := by
  refine ⟨P.cellZ, P.cellXY, fun i j z hi hj hi' hj' => ?_⟩
  have s := P.swap
  unfold Chart.on Chart.lin at hi' hj' ⊢
  unfold Chart.vec calcBodyFramePos Body.moved vadd
  simp only [s, Bool.false_eq_true, if_false, ex_sub, P.dz] at hi' hj' ⊢
  rw [P.vectX i hi hi', P.vectY j hj hj', add_sub_add_right_eq_sub, add_sub_add_right_eq_sub, add_zero]

/-! ## Writing the walls -/

theorem on_noswap (hs : c.swap = false) (i j : ℤ) : c.on (i, j) = (i + c.tx, j + c.ty) := by
  unfold Chart.on Chart.lin
  simp [hs]

theorem sortCells_shift (l : List Cell3) : sortCells (l.map (csh c)) = (sortCells l).map (csh c) := by
  unfold sortCells
  refine (List.map_insertionSort (fun a b => cellLe a b = true) (fun a b => cellLe a b = true) (csh c) l ?_).symm
  intro a _ b _
  unfold cellLe csh
  simp only [decide_eq_true_eq, add_lt_add_iff_right, add_left_inj]

section

variable {F : Type} [FOps F] {E : Prop} {c : Chart} {s s' : SimOut F}

theorem layerStatus_like {i j i' j' : ℤ} (A : SameCol s s' i j i' j') (lo hi tol : F) (k : ℕ) :
    layerStatus s' i' j' lo hi tol k = layerStatus s i j lo hi tol k := by
  unfold layerStatus
  rw [A.bodyAbs, A.body, A.body]

theorem mergeClosest_like {i j i' j' : ℤ} (e : c.on (i, j) = (i', j')) (h : Like E c s s') (A : SameCol s s' i j i' j')
    (lo hi : F) : Like E c (mergeClosest s i j lo hi) (mergeClosest s' i' j' lo hi) := by
  unfold mergeClosest
  simp only [A.body]
  (repeat' split) <;> exact h.setB e _ _

theorem includeNewBodyPos_like {i j i' j' : ℤ} (e : c.on (i, j) = (i', j')) (h : Like E c s s') (lo hi tol : F) :
    Corr E (Like E c) (includeNewBodyPos s i j lo hi tol) (includeNewBodyPos s' i' j' lo hi tol) := by
  unfold includeNewBodyPos
  refine Corr.guard (h.grid' e) fun hi1 hi2 => ?_
  have A := h.col hi1 hi2 e
  have Mg := mergeClosest_like e h A lo hi
  simp only [layerStatus_like A, A.body]
  generalize layerStatus s i j lo hi tol 0 = st0
  generalize layerStatus s i j lo hi tol 2 = st1
  by_cases h1 : st0 = .within
  · simp only [if_pos h1]
    exact Corr.ok h
  · simp only [if_neg h1]
    by_cases h2 : st1 = .within
    · simp only [if_pos h2]
      exact Corr.ok h
    · simp only [if_neg h2]
      by_cases h3 : st0 = .overlap ∧ st1 = .overlap
      · simp only [if_pos h3]
        exact Corr.ok ((((h.setB e _ _).setB e _ _).setB e _ _).setB e _ _)
      · simp only [if_neg h3]
        by_cases h4 : st0 = .overlap
        · simp only [if_pos h4]
          exact Corr.ok ((h.setB e _ _).setB e _ _)
        · simp only [if_neg h4]
          by_cases h5 : st1 = .overlap
          · simp only [if_pos h5]
            exact Corr.ok ((h.setB e _ _).setB e _ _)
          · simp only [if_neg h5]
            by_cases h6 : st0 = .none
            · simp only [if_pos h6]
              exact Corr.ok ((h.setB e _ _).setB e _ _)
            · simp only [if_neg h6]
              by_cases h7 : st1 = .none
              · simp only [if_pos h7]
                exact Corr.ok ((h.setB e _ _).setB e _ _)
              · simp only [if_neg h7]
                exact Corr.ok Mg

end

section

variable {E : Prop} {s s' : SimOut K}

theorem zAt_like (P : Placed c d g g') (k : ℤ) : zAt g' k = zAt g k := by
  unfold zAt
  rw [P.halfZ, P.vectZ]

theorem updateBodyLoop_like (P : Placed c d g g') (tol : K) (l : List Cell3) (s s' : SimOut K) (i j : ℤ) (lo hi : K)
    (h : Like E c s s') :
    Corr E (Like E c) (updateBodyLoop g tol l s i j lo hi) (updateBodyLoop g' tol (l.map (csh c)) s' (i + c.tx) (j + c.ty) lo hi) := by
  induction l generalizing s s' i j lo hi with
  | nil =>
    unfold updateBodyLoop
    exact includeNewBodyPos_like (on_noswap P.swap i j) h lo hi tol
  | cons x l ih =>
    obtain ⟨a, b, k⟩ := x
    rw [List.map_cons]
    unfold updateBodyLoop
    simp only [csh, zAt_like P, P.cellZ, ne_eq, add_left_inj]
    split
    · refine (includeNewBodyPos_like (on_noswap P.swap i j) h lo hi tol).bind fun s1 s1' h1 => ?_
      cases zAt g k with
      | error e => exact Corr.err
      | ok z => exact ih _ _ _ _ _ _ h1
    · cases zAt g k with
      | error e => exact Corr.err
      | ok z => exact ih _ _ _ _ _ _ h

theorem updateWalls_like (P : Placed c d g g') (tol : K) (ws : List (List Cell3)) (s s' : SimOut K) (h : Like E c s s') :
    Corr E (Like E c) (updateWalls g tol ws s) (updateWalls g' tol (ws.map (·.map (csh c))) s') := by
  induction ws generalizing s s' with
  | nil => exact Corr.ok h
  | cons w ws ih =>
    rw [List.map_cons]
    unfold updateWalls
    refine Corr.bind (R := Like E c) ?_ fun s1 s1' h1 => ih _ _ h1
    rw [sortCells_shift]
    unfold updateBody
    generalize sortCells w = m
    cases m with
    | nil => exact Corr.err
    | cons x m =>
      obtain ⟨a, b, k⟩ := x
      simp only [List.map_cons, csh, zAt_like P, P.cellZ]
      cases zAt g k with
      | error e => exact Corr.err
      | ok z => exact updateBodyLoop_like P tol ((a, b, k) :: m) s s' a b _ _ h

theorem resetBody_like (l : List (ℤ × ℤ)) (s s' : SimOut K) (h : Like E c s s') :
    Corr E (Like E c) (resetBody l s) (resetBody (l.map c.on) s') := by
  induction l generalizing s s' with
  | nil => exact Corr.ok h
  | cons p l ih =>
    rw [List.map_cons]
    unfold resetBody
    refine Corr.guard (h.grid' rfl) fun _ _ => ih _ _ ?_
    exact (((h.setB rfl _ _).setB rfl _ _).setB rfl _ _).setB rfl _ _

end

end Soil
