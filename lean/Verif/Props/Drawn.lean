import Verif.Props.CellsInit
import Verif.Proof.Drawn
import Verif.Proof.DrawnFlt
import Verif.Proof.ExampleStart

/-! # Property C66: the body is drawn at its pose, under rounding -/

set_option linter.unusedSectionVars false

namespace Soil

open FOps

/-- **C66** (any arithmetic). In an arithmetic that is exact on whole numbers of cells and otherwise arbitrary: if the
cells of the body at each pose, when found, are off the border, then after a run that returns either no step did
anything or the pose of the body is one of the given poses and the body layers are those of the cells at this pose. -/
theorem C66_any {F : Type} [FOps F] {cell tol : F} {N C : ℤ} (A : CellArith F cell tol N C)
    {lo hi vol H : ℤ} {g : Grid F} {p : SimParam F} (h : CellSetup A lo hi vol H g p) {T : ℤ → ℤ → ℤ} {w : World F}
    (hs : CellStart A lo vol g T w.out) (hlog : w.log = [])
    (fuel : ℕ) (qs : List (Vec3 F × Quat F)) (body : Body F) (hfit : ∀ q ∈ qs, PoseFits fuel g p tol body q)
    (body' : Body F) (w' : World F) (hr : run fuel g p tol qs body w = .ok (body', w')) :
    (body' = body ∧ w' = w) ∨ ∃ q ∈ qs, body' = { body with pos := q.1, ori := q.2 } ∧
      ∃ area walls, bodyFootprint fuel g p tol body q = .ok (area, walls) ∧ w'.out.bodyArea = area ∧
        Drawn g walls w'.out := by
  obtain ⟨g', p', S⟩ := h.shadow
  exact run_drawn S fuel qs body hfit (hs.shadow h S hlog) _ hr

section Rounded

variable {R : Rounding} {prec : ℕ} {u : ℚ} {a : ℤ} {j : ℕ} {tol : ℚ} {N C : ℤ}

/-- **C66**. In the setting of C65, with the heights of the grid as made by its constructor: after a run that returns
either no step did anything or the pose of the body is one of the given poses and the body layers show the body there,
that is, there is a body layer at each vertex of the body as computed from the pose, and no body layer far from the
rectangle around the vertices. -/
theorem C66_run (hR : R.rnd = roundBinary prec) (hu : 2 ^ (-(prec : ℤ)) ≤ u) (hs : SqrtAccurate R u)
    (D : CellDigits prec a j tol N C) {lo hi vol H B Z : ℤ} {g : Grid (Flt R)} {p : SimParam (Flt R)}
    (P : PoseSetup prec u B Z g p) (cellZ : g.cellZ = (2 : ℚ) ^ a)
    (heights : ∀ k, 0 ≤ k → k ≤ 2 * g.halfZ →
      g.vectZ k = ((1 - g.halfZ + k : ℤ) : ℚ) * 2 ^ a ∧ lo ≤ 1 - g.halfZ + k - 1 ∧ 1 - g.halfZ + k ≤ hi)
    (slope : ∃ n : ℤ, dhMax g p = (n : ℚ) * 2 ^ a ∧ 0 ≤ n ∧ n ≤ H)
    (hlo : lo ≤ 0) (hhi : 0 ≤ hi) (hvol : 0 ≤ vol) (hH : 2 * vol + hi - lo ≤ H) (hN : 16 * H ≤ N)
    {w : World (Flt R)} {T : ℤ → ℤ → ℤ}
    (terrain : ∀ i j, w.out.InGrid i j → w.out.terrain i j = (T i j : ℚ) * 2 ^ a ∧ lo ≤ T i j)
    (hbody : ∀ k i j, w.out.InGrid i j → k < 4 → w.out.body k i j = (0 : ℚ))
    (hsoil : ∀ k i j, w.out.InGrid i j → k < 4 → w.out.bodySoil k i j = (0 : ℚ))
    (hpos : w.out.bodySoilPos = []) (harea : AreaInside w.out.bodyArea w.out)
    (hrelax : AreaInside w.out.relaxArea w.out) (hX : w.out.lenX = 2 * g.halfX + 1)
    (hY : w.out.lenY = 2 * g.halfY + 1) (hV : ∑ q ∈ gridCols w.out, (T q.1 q.2 - lo) ≤ vol)
    (hlog : w.log = []) (fuel : ℕ) (qs : List (Vec3 (Flt R) × Quat (Flt R))) (body : Body (Flt R))
    (hq : ∀ q ∈ qs, ∀ v ∈ usedVertices g (tol : Flt R) body q, VertexFits g Z v)
    (body' : Body (Flt R)) (w' : World (Flt R)) (hr : run fuel g p (tol : Flt R) qs body w = .ok (body', w')) :
    (body' = body ∧ w' = w) ∨ ∃ q ∈ qs, body' = { body with pos := q.1, ori := q.2 } ∧
      ShownAt g (usedVertices g (tol : Flt R) body q) w'.out := by
  have htol : 0 ≤ (show Flt R from tol).val := by
    show (0 : ℚ) ≤ tol
    have := D.tol_ge
    exact le_trans (by positivity) this
  have A := P.accurate hR hu hs
  have hB : Binary R.rnd prec := A.binary
  have z : (FOps.zero : Flt R) = (0 : ℚ) := (binaryCells hB D).zero.trans
    (show ((0 : ℤ) : ℚ) * 2 ^ a = 0 by simp)
  have fits : ∀ q ∈ qs, PoseFits fuel g p (tol : Flt R) body q :=
    fun q hq' => poseFits_flt A P htol (hq q hq') fuel
  rcases C66_any (binaryCells hB D) (lo := lo) (hi := hi) (vol := vol) (H := H) (g := g) (p := p)
    ⟨cellZ, ⟨_, heights⟩, slope, by have := P.buffer; omega, hlo, hhi, hvol, hH, hN⟩ (T := T) (w := w)
    ⟨terrain, fun k i j h hk => (hbody k i j h hk).trans z.symm,
      fun k i j h hk => (hsoil k i j h hk).trans z.symm, hpos, harea, hrelax, hX, hY, hV⟩ hlog fuel qs body fits
    body' w' hr with h | ⟨q, hq', e1, area, walls, e2, -, e3⟩
  · exact .inl h
  refine .inr ⟨q, hq', e1, e3.shown A P htol ?_ (hq q hq') e2⟩
  intro k k0 k1
  obtain ⟨f1, f2, f3⟩ := heights k k0 k1
  refine ⟨by rw [f1, cellZ]; rfl, ?_⟩
  have hN' : N < 2 ^ prec := by
    have h1 := D.heights
    have h2 : (1 : ℤ) ≤ 2 ^ j := by exact_mod_cast Nat.one_le_two_pow
    have h3 : 0 ≤ N := by linarith
    nlinarith
  rw [f1, cellZ]
  show R.rnd (((1 - g.halfZ + k : ℤ) : ℚ) * 2 ^ a - 2 ^ a) = _
  rw [show ((1 - g.halfZ + k : ℤ) : ℚ) * 2 ^ a - 2 ^ a = ((k - g.halfZ : ℤ) : ℚ) * 2 ^ a by push_cast; ring]
  exact hB.fix _ _ (by rw [abs_le]; constructor <;> linarith)

/-- **C66** (from the constructors). Build a grid with cells of height `2 ^ a`, parameters and the initial state, and call
`Init` with any seed, all in rounded arithmetic, as in C65.  Then for every history of poses with room for the body that
is completed, either no step did anything or the pose of the body is one of the given poses and the body layers show
the body there. -/
theorem C66_constructed (hR : R.rnd = roundBinary prec) (hu : 2 ^ (-(prec : ℤ)) ≤ u) (hs : SqrtAccurate R u)
    (D : CellDigits prec a j tol N C) {K A L S B Z : ℤ}
    {gx gy cxy : ℚ} (dx : Digits prec gx) (dy : Digits prec gy) {g : Grid (Flt R)}
    (hg : mkGrid (F := Flt R) gx gy ((K : ℚ) * 2 ^ a : ℚ) cxy ((2 : ℚ) ^ a : ℚ) = .ok g)
    {angle : Flt R} {it buf : ℤ} {p : SimParam (Flt R)} (hp : mkSimParam angle it buf = .ok p)
    {amp : Flt R} (hamp : |amp.val| ≤ A * 2 ^ a) (rng : Rng)
    (hK : 0 ≤ K) (hKL : K ≤ L) (hAL : A ≤ L)
    (slope0 : 0 ≤ (dhMax g p).val) (slope1 : (dhMax g p).val ≤ (S : ℚ) * 2 ^ a)
    (room : 16 * (4 * ((2 * g.halfX + 1).toNat * (2 * g.halfY + 1).toNat) * L + 2 * L + 1 + S) ≤ N)
    (count : 3 * ((2 * g.halfX + 1).toNat * (2 * g.halfY + 1).toNat) * L ≤ C) (P : PoseSetup prec u B Z g p) :
    ∃ w : World (Flt R), init g amp ⟨mkSimOut g, rng, []⟩ = .ok w ∧
      ∀ (fuel : ℕ) (qs : List (Vec3 (Flt R) × Quat (Flt R))) (body : Body (Flt R)),
        (∀ q ∈ qs, ∀ v ∈ usedVertices g (tol : Flt R) body q, VertexFits g Z v) →
        ∀ body' w', run fuel g p (tol : Flt R) qs body w = .ok (body', w') →
          (body' = body ∧ w' = w) ∨ ∃ q ∈ qs, body' = { body with pos := q.1, ori := q.2 } ∧
            ShownAt g (usedVertices g (tol : Flt R) body q) w'.out := by
  obtain ⟨hr0, hr1⟩ := P.sqrt_three hu hs
  obtain ⟨w, T, vol, H, hi, h1, h2, h3, h4, h5, h6, h7, h8, h9, h10, h11, h12, h13, h14, h15, h16, h17, h18⟩ :=
    constructed_start hR D hr0 hr1 dx dy hg hp hamp rng hK hKL hAL slope0 slope1 room count
  exact ⟨w, hi, fun fuel qs body hq body' w' hr => C66_run hR hu hs D P h1 h2 h3 (by linarith) (by linarith) h5 h6 h7 h8
    h9 h10 h11 h12 h13 h14 h15 h16 h17 fuel qs body hq body' w' hr⟩

end Rounded

/-! ## A concrete case -/

/-- With 24 binary digits, on uneven ground of up to four cells made by `Init` from any seed, a bucket placed at a
slightly rotated pose is written at this pose: in particular there is a body layer near its left tip. -/
example (rng : Rng) (fuel : ℕ) :
    ∃ w : World (Flt plcR), init cstGrid ((1 / 2 : ℚ) : Flt plcR) ⟨mkSimOut cstGrid, rng, []⟩ = .ok w ∧
      ∀ b' w', run fuel cstGrid plcParam (1 / 64 : ℚ) [plcPose] (plcBody .bucket) w = .ok (b', w') →
        b' = { plcBody .bucket with pos := plcPose.1, ori := plcPose.2 } ∧
        ShownAt cstGrid (usedVertices cstGrid (1 / 64 : ℚ) (plcBody .bucket) plcPose) w'.out ∧
        ∃ i j l, w'.out.InGrid i j ∧ w'.out.bodyAbs l i j = false := by
  obtain ⟨w, hi, main⟩ := C66_constructed (R := plcR) (prec := 24) (u := 2 ^ (-23 : ℤ)) rfl (by norm_num) plcR_sqrt
    (a := -3) (j := 4) (tol := 1 / 64) (N := 262144) (C := 2 ^ 24) (by constructor <;> norm_num) (K := 14) (A := 4) (L := 14)
    (S := 2) conDigits conDigits cstGrid_ok cstParam_ok (amp := ((1 / 2 : ℚ) : Flt plcR))
    (by show |(1 / 2 : ℚ)| ≤ _; norm_num) rng (by norm_num) le_rfl (by norm_num)
    (by rw [cstSlope]; norm_num) (by rw [cstSlope]; norm_num)
    (by show 16 * (4 * (((13 : ℤ).toNat : ℤ) * ((13 : ℤ).toNat : ℤ)) * 14 + 2 * 14 + 1 + 2) ≤ (262144 : ℤ); norm_num)
    (by show 3 * (((13 : ℤ).toNat : ℤ) * ((13 : ℤ).toNat : ℤ)) * 14 ≤ (2 ^ 24 : ℤ); norm_num) cstSetup
  refine ⟨w, hi, fun b' w' hr => ?_⟩
  have fits := cstFits plcPose (.inl rfl)
  rcases main fuel [plcPose] (plcBody .bucket) (by simpa using fits) b' w' hr with ⟨e, -⟩ | ⟨q, hq, e, h⟩
  · -- the step does move the bucket
    unfold run at hr
    obtain ⟨r, h1, h2⟩ := bind_eq_ok.mp hr
    have hm : (checkBodyMovement plcPose.1 plcPose.2 cstGrid (plcBody .bucket)).1 = true := by decide +kernel
    have hb := (C12_step _ _ _ _ _ _ _ _ _ h1).2 ((C12_updated_iff _ _ _ _ _ _ _ _ _ h1).trans hm)
    have h2 : (Except.ok (r.body, r.world) : M _) = .ok (b', w') := h2
    simp only [Except.ok.injEq, Prod.mk.injEq] at h2
    rw [← h2.1, hb] at e
    have e' := congrArg (fun b : Body (Flt plcR) => b.pos.x.val) e
    have e' : (-1 / 10 : ℚ) = 0 := e'
    norm_num at e'
  · obtain rfl : q = plcPose := by simpa using hq
    refine ⟨e, h, ?_⟩
    obtain ⟨i, j, h1, -, -, l, -, h2, -⟩ := h.vertex _ (List.mem_cons_self)
    exact ⟨i, j, l, h1, h2⟩

end Soil
