import Verif.Proof.FaceFlt

/-! # Placing the body in rounded arithmetic -/

namespace Soil

open FOps

variable {R : Rounding} {prec : ℕ} {u : ℚ} (A : Accurate R prec u)

/-- Index computed for a horizontal position -/
def ixF (R : Rounding) (c : ℚ) (half : ℤ) (x : ℚ) : ℚ := R.rnd (R.rnd (x / c) + R.rnd half)

theorem max_flt (x y : Flt R) : (FOps.max x y).val = Max.max x.val y.val := by
  have h := le_max_flt x y
  apply le_antisymm _ (max_le h.1 h.2)
  unfold FOps.max
  split_ifs
  exacts [le_max_right _ _, le_max_left _ _]

theorem min_flt (x y : Flt R) : (FOps.min x y).val = Min.min x.val y.val := by
  have h := min_le_flt x y
  apply le_antisymm (le_min h.1 h.2)
  unfold FOps.min
  split_ifs
  exacts [min_le_right _ _, min_le_left _ _]

include A

theorem ixF_mono {c : ℚ} (hc : 0 < c) (half : ℤ) {x y : ℚ} (h : x ≤ y) : ixF R c half x ≤ ixF R c half y := by
  have := A.binary.mono (div_le_div_of_nonneg_right h hc.le)
  exact A.binary.mono (by linarith)

theorem Accurate.rle (n : ℤ) {x : ℚ} (hn : |n| ≤ 2 ^ prec) (h : x ≤ n) : R.rnd x ≤ n := by
  have := A.binary.le (x := x) n 0 hn (by simpa using h)
  simpa using this

theorem Accurate.rge (n : ℤ) {x : ℚ} (hn : |n| ≤ 2 ^ prec) (h : (n : ℚ) ≤ x) : (n : ℚ) ≤ R.rnd x := by
  have := A.binary.ge (x := x) n 0 hn (by simpa using h)
  simpa using this

/-- Indices of vertices that fit -/
theorem ixF_range {B : ℤ} (hB : Small prec u B) {c : ℚ} (hc : 0 < c) {half : ℤ} (h2 : 2 ≤ half) (hh : 2 * half ≤ B) {x : ℚ}
    (hx : |x| ≤ ((half : ℚ) - 2) * c) : 2 ≤ ixF R c half x ∧ ixF R c half x ≤ 2 * half - 2 := by
  have hdig := hB.digits
  have a0 : |x / c| ≤ (half : ℚ) - 2 := by rw [abs_div, abs_of_pos hc, div_le_iff₀ hc]; exact hx
  obtain ⟨l, r⟩ := abs_le.mp a0
  unfold ixF
  rw [A.binary.nat half (by rw [abs_le]; constructor <;> omega)]
  have r1 := A.rle (half - 2) (x := x / c) (by rw [abs_le]; constructor <;> omega) (by push_cast; exact r)
  have l1 := A.rge (2 - half) (x := x / c) (by rw [abs_le]; constructor <;> omega) (by push_cast; linarith)
  push_cast at r1 l1
  have r2 := A.rle (2 * half - 2) (x := R.rnd (x / c) + half) (by rw [abs_le]; constructor <;> omega) (by push_cast; linarith)
  have l2 := A.rge 2 (x := R.rnd (x / c) + half) (by rw [abs_le]; constructor <;> omega) (by push_cast; linarith)
  push_cast at r2 l2
  exact ⟨l2, r2⟩

/-- Lower limit of `body_area_` -/
theorem areaLo_flt {B : ℤ} (hB : Small prec u B) {g : Grid (Flt R)} {half buffer : ℤ} (hb : 3 ≤ buffer) {x : Flt R}
    (h0 : 2 ≤ ixF R g.cellXY.val half x.val) (h1 : ixF R g.cellXY.val half x.val ≤ B) :
    ∃ lo, areaLo g half buffer x = .ok lo ∧ 1 ≤ lo ∧ (lo ≤ 1 ∨ (lo : ℚ) ≤ ixF R g.cellXY.val half x.val - 2) := by
  have hdig := hB.digits
  have hone := hB.one
  have tiny := hB.tiny A.pos
  have hb' := A.rge 3 (x := buffer) (by rw [abs_le]; constructor <;> omega) (by exact_mod_cast hb)
  push_cast at hb'
  set m := ixF R g.cellXY.val half x.val with hm
  have e1 : R.rnd (m - R.rnd buffer) ≤ m - 3 + u * B := by
    have k1 : R.rnd (m - R.rnd buffer) ≤ R.rnd (m - 3) := A.binary.mono (by linarith)
    have k2 := (abs_le.mp (A.rel (m - 3))).2
    have k3 : |m - 3| ≤ B := by
      have : (1 : ℚ) ≤ B := by exact_mod_cast hone
      rw [abs_le]; constructor <;> linarith
    have := mul_le_mul_of_nonneg_left k3 A.pos
    linarith
  have e2 := (abs_le.mp (abs_roundAway_sub_le (R.rnd (m - R.rnd buffer)))).2
  have e3 : (roundAway (R.rnd (m - R.rnd buffer)) : ℚ) ≤ m - 2 := by linarith
  refine ⟨Max.max (roundAway (R.rnd (m - R.rnd buffer))) 1, ?_, le_max_right _ _, ?_⟩
  · unfold areaLo
    have e4 : FOps.max (FOps.round (FOps.sub (FOps.add (FOps.div x g.cellXY) (FOps.ofInt half)) (FOps.ofInt buffer)))
        (FOps.ofRat 1) = ((Max.max (roundAway (R.rnd (m - R.rnd buffer))) 1 : ℤ) : ℚ) := by
      refine (max_flt _ _).trans ?_
      show Max.max ((roundAway (R.rnd (m - R.rnd buffer)) : ℤ) : ℚ) (R.rnd 1) = _
      rw [A.one]
      push_cast
      rfl
    rw [e4]
    refine castInt_int _ ?_
    have : roundAway (R.rnd (m - R.rnd buffer)) ≤ B := by
      have : (roundAway (R.rnd (m - R.rnd buffer)) : ℚ) ≤ B := by linarith
      exact_mod_cast this
    have := hB.int
    rw [abs_of_nonneg ((by norm_num : (0 : ℤ) ≤ 1).trans (le_max_right _ _))]
    rcases max_choice (roundAway (R.rnd (m - R.rnd buffer))) 1 with e | e <;> rw [e] <;> omega
  · rcases max_choice (roundAway (R.rnd (m - R.rnd buffer))) 1 with e | e
    · right; rw [e]; exact e3
    · left; rw [e]

/-- Upper limit of `body_area_` -/
theorem areaHi_flt {B : ℤ} (hB : Small prec u B) {g : Grid (Flt R)} {half buffer : ℤ} (hb : 3 ≤ buffer) (h2 : 0 ≤ half) (hh : 2 * half ≤ B) {x : Flt R}
    (h0 : 2 ≤ ixF R g.cellXY.val half x.val) (h1 : ixF R g.cellXY.val half x.val ≤ B) :
    ∃ hi, areaHi g half buffer x = .ok hi ∧ hi ≤ 2 * half ∧
      (2 * half ≤ hi ∨ ixF R g.cellXY.val half x.val + 2 ≤ (hi : ℚ)) := by
  have hdig := hB.digits
  have hone := hB.one
  have tiny := hB.tiny A.pos
  have hb' := A.rge 3 (x := buffer) (by rw [abs_le]; constructor <;> omega) (by exact_mod_cast hb)
  push_cast at hb'
  set m := ixF R g.cellXY.val half x.val with hm
  have e1 : m + 3 - 4 * (u * B) ≤ R.rnd (m + R.rnd buffer) := by
    have k1 : R.rnd (m + 3) ≤ R.rnd (m + R.rnd buffer) := A.binary.mono (by linarith)
    have k2 := (abs_le.mp (A.rel (m + 3))).1
    have k3 : |m + 3| ≤ 4 * B := by
      have : (1 : ℚ) ≤ B := by exact_mod_cast hone
      rw [abs_le]; constructor <;> linarith
    have := mul_le_mul_of_nonneg_left k3 A.pos
    linarith
  have e2 := (abs_le.mp (abs_roundAway_sub_le (R.rnd (m + R.rnd buffer)))).1
  have e3 : m + 2 ≤ (roundAway (R.rnd (m + R.rnd buffer)) : ℚ) := by linarith
  refine ⟨Min.min (roundAway (R.rnd (m + R.rnd buffer))) (2 * half), ?_, min_le_right _ _, ?_⟩
  · unfold areaHi
    have e4 : FOps.min (FOps.round (FOps.add (FOps.add (FOps.div x g.cellXY) (FOps.ofInt half)) (FOps.ofInt buffer)))
        (FOps.mul (FOps.ofRat 2) (FOps.ofInt half)) = ((Min.min (roundAway (R.rnd (m + R.rnd buffer))) (2 * half) : ℤ) : ℚ) := by
      refine (min_flt _ _).trans ?_
      show Min.min ((roundAway (R.rnd (m + R.rnd buffer)) : ℤ) : ℚ) (R.rnd (R.rnd 2 * R.rnd half)) = _
      have t2 : R.rnd 2 = 2 := by
        have := A.binary.nat 2 (by rw [abs_le]; constructor <;> omega)
        exact_mod_cast this
      have t3 : R.rnd half = half := A.binary.nat half (by rw [abs_le]; constructor <;> omega)
      have t4 : R.rnd (2 * (half : ℚ)) = 2 * half := by
        have := A.binary.nat (2 * half) (by rw [abs_le]; constructor <;> omega)
        push_cast at this
        exact this
      rw [t2, t3, t4]
      push_cast
      rfl
    rw [e4]
    refine castInt_int _ ?_
    have hr0 : 0 ≤ roundAway (R.rnd (m + R.rnd buffer)) := by
      have : (0 : ℚ) ≤ (roundAway (R.rnd (m + R.rnd buffer)) : ℚ) := by linarith
      exact_mod_cast this
    have := hB.int
    rw [abs_of_nonneg (le_min hr0 (by omega))]
    exact (min_le_right _ _).trans_lt (by omega)
  · rcases min_choice (roundAway (R.rnd (m + R.rnd buffer))) (2 * half) with e | e
    · right; rw [e]; exact e3
    · left; rw [e]

omit A in
/-- A wall of the body inside `body_area_` and the height of the grid -/
def WallIn (g : Grid (Flt R)) (area : Area) (w : List Cell3) : Prop :=
  w ≠ [] ∧ ∀ t ∈ w, (area.minX ≤ t.1 ∧ t.1 < area.maxX) ∧ (area.minY ≤ t.2.1 ∧ t.2.1 < area.maxY) ∧ 0 ≤ t.2.2 ∧ t.2.2 ≤ 2 * g.halfZ

omit A in
/-- The box around the vertices -/
def vertexBox (g : Grid (Flt R)) (H : ℤ) (v : Vec3 (Flt R)) (l : List (Vec3 (Flt R))) : IdxBox where
  lx := ixF R g.cellXY.val g.halfX (FOps.minL v.x (l.map (·.x))).val
  hx := ixF R g.cellXY.val g.halfX (FOps.maxL v.x (l.map (·.x))).val
  ly := ixF R g.cellXY.val g.halfY (FOps.minL v.y (l.map (·.y))).val
  hy := ixF R g.cellXY.val g.halfY (FOps.maxL v.y (l.map (·.y))).val
  k0 := g.halfZ - 2 - 3 * H
  k1 := g.halfZ + 1 + 3 * H

section Box

variable {B H : ℤ} {g : Grid (Flt R)} {p : SimParam (Flt R)} (P : PoseSetup prec u B H g p) {v : Vec3 (Flt R)}
  {l : List (Vec3 (Flt R))} (hv : ∀ x ∈ v :: l, VertexFits g H x)

include P hv

/-- The limits of the box are off the border. -/
theorem vertexBox_range : (2 ≤ (vertexBox g H v l).lx ∧ (vertexBox g H v l).hx ≤ 2 * g.halfX - 2) ∧
    (2 ≤ (vertexBox g H v l).hx ∧ (vertexBox g H v l).lx ≤ 2 * g.halfX - 2) ∧
    (2 ≤ (vertexBox g H v l).ly ∧ (vertexBox g H v l).hy ≤ 2 * g.halfY - 2) ∧
    2 ≤ (vertexBox g H v l).hy ∧ (vertexBox g H v l).ly ≤ 2 * g.halfY - 2 := by
  have fx : ∀ y ∈ v.x :: l.map (·.x), |y.val| ≤ ((g.halfX : ℚ) - 2) * g.cellXY.val := by
    intro y hy
    rw [← List.map_cons (f := fun v : Vec3 (Flt R) => v.x)] at hy
    obtain ⟨w, hw, rfl⟩ := List.mem_map.mp hy
    exact (hv w hw).x
  have fy : ∀ y ∈ v.y :: l.map (·.y), |y.val| ≤ ((g.halfY : ℚ) - 2) * g.cellXY.val := by
    intro y hy
    rw [← List.map_cons (f := fun v : Vec3 (Flt R) => v.y)] at hy
    obtain ⟨w, hw, rfl⟩ := List.mem_map.mp hy
    exact (hv w hw).y
  have r1 := ixF_range A P.small P.cellXY P.halfX P.halfX' (fx _ (minL_any _ _))
  have r2 := ixF_range A P.small P.cellXY P.halfX P.halfX' (fx _ (maxL_any _ _))
  have r3 := ixF_range A P.small P.cellXY P.halfY P.halfY' (fy _ (minL_any _ _))
  have r4 := ixF_range A P.small P.cellXY P.halfY P.halfY' (fy _ (maxL_any _ _))
  exact ⟨⟨r1.1, r2.2⟩, ⟨r2.1, r1.2⟩, ⟨r3.1, r4.2⟩, r4.1, r3.2⟩

theorem vertexBox_fits : (vertexBox g H v l).Fits B := by
  obtain ⟨⟨a1, a2⟩, -, ⟨a3, a4⟩, -⟩ := vertexBox_range A P hv
  have x : 2 * (g.halfX : ℚ) ≤ B := by exact_mod_cast P.halfX'
  have y : 2 * (g.halfY : ℚ) ≤ B := by exact_mod_cast P.halfY'
  have h1 := P.height'
  have h2 := P.halfZ'
  have h3 := P.height
  refine ⟨⟨by linarith, by linarith, by linarith, by linarith⟩, ?_, ?_⟩
  · show -1 ≤ g.halfZ - 2 - 3 * H
    omega
  · show g.halfZ + 1 + 3 * H ≤ B + 2
    omega

theorem vertexBox_has {x : Vec3 (Flt R)} (hx : x ∈ v :: l) : (vertexBox g H v l).Has (toIndex g x) := by
  have mx : x.x ∈ v.x :: l.map (·.x) := by
    rw [← List.map_cons (f := fun v : Vec3 (Flt R) => v.x)]
    exact List.mem_map.mpr ⟨x, hx, rfl⟩
  have my : x.y ∈ v.y :: l.map (·.y) := by
    rw [← List.map_cons (f := fun v : Vec3 (Flt R) => v.y)]
    exact List.mem_map.mpr ⟨x, hx, rfl⟩
  have h1 := P.height'
  have h2 := P.halfZ'
  have h3 := P.height
  obtain ⟨-, i2, i3⟩ := indexZ_flt A P.small (half := g.halfZ) (H := H) (by omega) h3 (by omega) P.cellZ (hv x hx).z
  refine ⟨⟨ixF_mono A P.cellXY g.halfX (minL_le_flt _ _ _ mx), ixF_mono A P.cellXY g.halfX (le_maxL_flt _ _ _ mx)⟩,
    ⟨ixF_mono A P.cellXY g.halfY (minL_le_flt _ _ _ my), ixF_mono A P.cellXY g.halfY (le_maxL_flt _ _ _ my)⟩, ?_, ?_⟩
  · refine le_trans ?_ i2
    have : (g.halfZ - 2 - 3 * H) + 1 ≤ g.halfZ - 1 - H := by omega
    exact_mod_cast this
  · refine i3.trans ?_
    have : g.halfZ - 1 + H ≤ (g.halfZ + 1 + 3 * H) - 2 := by omega
    exact_mod_cast this

omit A hv in
/-- Cells by the box are in `body_area_`. -/
theorem vertexBox_area (A : Accurate R prec u) (hv : ∀ x ∈ v :: l, VertexFits g H x) :
    ∃ area, bodyAreaOf g p v l = .ok area ∧
      (1 ≤ area.minX ∧ area.maxX ≤ 2 * g.halfX ∧ 1 ≤ area.minY ∧ area.maxY ≤ 2 * g.halfY) ∧
      ∀ w : List Cell3, (w ≠ [] ∧ ∀ t ∈ w, (vertexBox g H v l).By t) → WallIn g area w := by
  obtain ⟨⟨a1, a2⟩, ⟨a3, a4⟩, ⟨b1, b2⟩, b3, b4⟩ := vertexBox_range A P hv
  have x : 2 * (g.halfX : ℚ) ≤ B := by exact_mod_cast P.halfX'
  have y : 2 * (g.halfY : ℚ) ≤ B := by exact_mod_cast P.halfY'
  have q1 := P.halfX
  have q2 := P.halfY
  obtain ⟨x0, e1, x1, x2⟩ := areaLo_flt A P.small P.buffer a1 (show ixF R _ _ _ ≤ _ from by
    have : (vertexBox g H v l).lx ≤ B := by linarith
    exact this)
  obtain ⟨x0', e2, x1', x2'⟩ := areaHi_flt A P.small P.buffer (by omega) P.halfX' a3 (by
    have : (vertexBox g H v l).hx ≤ B := by linarith
    exact this)
  obtain ⟨y0, e3, y1, y2⟩ := areaLo_flt A P.small P.buffer b1 (by
    have : (vertexBox g H v l).ly ≤ B := by linarith
    exact this)
  obtain ⟨y0', e4, y1', y2'⟩ := areaHi_flt A P.small P.buffer (by omega) P.halfY' b3 (by
    have : (vertexBox g H v l).hy ≤ B := by linarith
    exact this)
  refine ⟨⟨x0, x0', y0, y0'⟩, ?_, ⟨x1, x1', y1, y1'⟩, ?_⟩
  · unfold bodyAreaOf
    rw [e1, ok_bind, e2, ok_bind, e3, ok_bind, e4, ok_bind]
    rfl
  · rintro w ⟨w0, hw⟩
    refine ⟨w0, fun t ht => ?_⟩
    obtain ⟨⟨c1, c2⟩, ⟨c3, c4⟩, c5, c6⟩ := hw t ht
    have lo : ∀ {m : ℚ} {i z : ℤ}, 2 ≤ m → m - 2 < (i : ℚ) → (z ≤ 1 ∨ (z : ℚ) ≤ m - 2) → z ≤ i := by
      intro m i z h2 hi hz
      have : (0 : ℚ) < i := by linarith
      have : 0 < i := by exact_mod_cast this
      rcases hz with h | h
      · omega
      · have : (z : ℚ) ≤ i := by linarith
        exact_mod_cast this
    have hi : ∀ {m : ℚ} {i z half : ℤ}, m ≤ 2 * half - 2 → (i : ℚ) < m + 2 → (2 * half ≤ z ∨ m + 2 ≤ (z : ℚ)) → i < z := by
      intro m i z half h2 hi hz
      have : (i : ℚ) < ((2 * half : ℤ) : ℚ) := by push_cast; linarith
      have : i < 2 * half := by exact_mod_cast this
      rcases hz with h | h
      · omega
      · have : (i : ℚ) < z := by linarith
        exact_mod_cast this
    have h1 := P.height'
    have h3 := P.height
    have k0 : (vertexBox g H v l).k0 = g.halfZ - 2 - 3 * H := rfl
    have k1 : (vertexBox g H v l).k1 = g.halfZ + 1 + 3 * H := rfl
    exact ⟨⟨lo a1 c1 x2, hi a2 c2 x2'⟩, ⟨lo b1 c3 y2, hi b2 c4 y2'⟩, by omega, by omega⟩

theorem rect_flt {tol : Flt R} (htol : 0 ≤ tol.val) {a b c d : Vec3 (Flt R)} (ha : a ∈ v :: l) (hb : b ∈ v :: l)
    (hc : c ∈ v :: l) (hd : d ∈ v :: l) (fuel : ℕ) :
    Fine fuel B (calcRectanglePos fuel a b c d g tol) fun r => r ≠ [] ∧ ∀ t ∈ r, (vertexBox g H v l).By t := by
  have h1 := P.height'
  have h2 := P.halfZ'
  have h3 := P.height
  exact calcRectanglePos_flt A P.small (vertexBox_fits A P hv) htol (vertexBox_has A P hv ha) (vertexBox_has A P hv hb)
    (vertexBox_has A P hv hc) (vertexBox_has A P hv hd)
    (fun c' d' k1 k2 k3 k4 => innerHeight_flt A P.small P.cellZ (by omega) h3 (by omega) (by omega) (hv _ ha).z (hv _ hb).z (hv _ hd).z k1 k2 k3 k4) fuel

theorem tri_flt {tol : Flt R} (htol : 0 ≤ tol.val) {a b c : Vec3 (Flt R)} (ha : a ∈ v :: l) (hb : b ∈ v :: l)
    (hc : c ∈ v :: l) (fuel : ℕ) :
    Fine fuel B (calcTrianglePos fuel a b c g tol) fun r => r ≠ [] ∧ ∀ t ∈ r, (vertexBox g H v l).By t := by
  have h1 := P.height'
  have h2 := P.halfZ'
  have h3 := P.height
  exact calcTrianglePos_flt A P.small (vertexBox_fits A P hv) htol (vertexBox_has A P hv ha) (vertexBox_has A P hv hb)
    (vertexBox_has A P hv hc)
    (fun c' d' k1 k2 k3 k4 => innerHeight_flt A P.small P.cellZ (by omega) h3 (by omega) (by omega) (hv _ ha).z (hv _ hb).z (hv _ hc).z k1 k2 k3 k4) fuel

end Box

/-- The columns of the body are found, inside `body_area_`. -/
theorem footprint_flt {B H : ℤ} {g : Grid (Flt R)} {p : SimParam (Flt R)} (P : PoseSetup prec u B H g p) {tol : Flt R} (htol : 0 ≤ tol.val)
    {body : Body (Flt R)} {q : Vec3 (Flt R) × Quat (Flt R)} (hq : ∀ v ∈ usedVertices g tol body q, VertexFits g H v) (fuel : ℕ) :
    Fine fuel B (bodyFootprint fuel g p tol body q) fun r =>
      (1 ≤ r.1.minX ∧ r.1.maxX ≤ 2 * g.halfX ∧ 1 ≤ r.1.minY ∧ r.1.maxY ≤ 2 * g.halfY) ∧ ∀ w ∈ r.2, WallIn g r.1 w := by
  unfold usedVertices at hq
  unfold bodyFootprint
  cases hk : body.kind with
  | bucket =>
    simp only [hk] at hq ⊢
    set c := nudge tol (calcBodyCornerPos q.1 q.2 body) with hc
    have hv : ∀ x ∈ c.jr :: [c.jl, c.br, c.bl, c.tr, c.tl], VertexFits g H x := hq
    obtain ⟨area, e1, e2, e3⟩ := vertexBox_area P A hv
    rw [e1, ok_bind]
    unfold bucketWalls
    refine Fine.bind (P := fun ws : List (List Cell3) => ∀ w ∈ ws, WallIn g area w) ?_ fun ws hws => Fine.pure ⟨e2, hws⟩
    refine (rect_flt A P hv htol (by simp) (by simp) (by simp) (by simp) fuel).bind fun w1 h1 => ?_
    refine (rect_flt A P hv htol (by simp) (by simp) (by simp) (by simp) fuel).bind fun w2 h2 => ?_
    refine (tri_flt A P hv htol (by simp) (by simp) (by simp) fuel).bind fun w3 h3 => ?_
    refine (tri_flt A P hv htol (by simp) (by simp) (by simp) fuel).bind fun w4 h4 => Fine.pure ?_
    intro w hw
    simp only [List.mem_cons, List.not_mem_nil, or_false] at hw
    rcases hw with rfl | rfl | rfl | rfl
    exacts [e3 _ h1, e3 _ h2, e3 _ h3, e3 _ h4]
  | blade =>
    simp only [hk] at hq ⊢
    set b := nudge tol (bladeBack g (calcBodyCornerPos q.1 q.2 body)) with hb
    set c := nudge tol (calcBodyCornerPos q.1 q.2 body) with hc
    have hv : ∀ x ∈ c.jr :: ([c.jl, c.br, c.bl, c.tr, c.tl] ++ b.toList), VertexFits g H x := hq
    obtain ⟨area, e1, e2, e3⟩ := vertexBox_area P A hv
    rw [e1, ok_bind]
    unfold bladeWalls
    refine Fine.bind (P := fun ws : List (List Cell3) => ∀ w ∈ ws, WallIn g area w) ?_ fun ws hws => Fine.pure ⟨e2, hws⟩
    refine (rect_flt A P hv htol (by simp) (by simp) (by simp) (by simp) fuel).bind fun w1 h1 => ?_
    refine (rect_flt A P hv htol (by simp [Corners.toList]) (by simp [Corners.toList]) (by simp [Corners.toList])
      (by simp [Corners.toList]) fuel).bind fun w2 h2 => ?_
    refine (rect_flt A P hv htol (by simp) (by simp) (by simp) (by simp) fuel).bind fun w3 h3 => ?_
    refine (rect_flt A P hv htol (by simp [Corners.toList]) (by simp [Corners.toList]) (by simp [Corners.toList])
      (by simp [Corners.toList]) fuel).bind fun w4 h4 => Fine.pure ?_
    intro w hw
    simp only [List.mem_cons, List.not_mem_nil, or_false] at hw
    rcases hw with rfl | rfl | rfl | rfl
    exacts [e3 _ h1, e3 _ h2, e3 _ h3, e3 _ h4]

end Soil
