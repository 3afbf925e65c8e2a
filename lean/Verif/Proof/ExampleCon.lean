import Verif.Proof.ExampleFlt
import Verif.Proof.InitFlt

/-!
# A history computed with 24 binary digits, from the constructors

The cells are 1/8 high, the tolerance is 1/64; `Init` makes flat ground and a bucket digs in it.
-/

namespace Soil

open FOps

/-- the grid with thirteen by thirteen columns and nine heights -/
def conGrid : Grid (Flt fltR) :=
  { halfX := 6, halfY := 6, halfZ := 4, cellXY := (1 / 4 : ℚ), cellZ := ((2 : ℚ) ^ (-3 : ℤ) : ℚ)
    cellArea := FOps.mul (F := Flt fltR) (1 / 4 : ℚ) (1 / 4 : ℚ)
    cellVolume := FOps.mul (F := Flt fltR) (FOps.mul (F := Flt fltR) (1 / 4 : ℚ) (1 / 4 : ℚ)) ((2 : ℚ) ^ (-3 : ℤ) : ℚ)
    vectX := fun i => accVect (F := Flt fltR) (FOps.neg (F := Flt fltR) (3 / 2 : ℚ)) (1 / 4 : ℚ) i.toNat
    vectY := fun i => accVect (F := Flt fltR) (FOps.neg (F := Flt fltR) (3 / 2 : ℚ)) (1 / 4 : ℚ) i.toNat
    vectZ := fun i => accVect (F := Flt fltR) (FOps.add (F := Flt fltR)
      (FOps.neg (F := Flt fltR) (((4 : ℤ) : ℚ) * 2 ^ (-3 : ℤ) : ℚ)) ((2 : ℚ) ^ (-3 : ℤ) : ℚ))
      ((2 : ℚ) ^ (-3 : ℤ) : ℚ) i.toNat }

/-- the flat ground made by `Init` -/
def conWorld : World (Flt fltR) := ⟨mkSimOut conGrid, fun _ => 0, []⟩

/-- the result satisfies the condition -/
def conCheck (f : World (Flt fltR) → Bool) : Bool :=
  match run 100 conGrid fltParam (1 / 64 : ℚ) fltPoses fltBody conWorld with
  | .ok r => f r.2
  | .error _ => false

/-- The columns found are inside the grid. -/
theorem conFits : ∀ q ∈ fltPoses, PoseFits 100 conGrid fltParam (1 / 64 : ℚ) fltBody q := by
  intro q hq
  simp only [fltPoses, List.mem_singleton] at hq
  have key : (match bodyFootprint 100 conGrid fltParam (1 / 64 : ℚ) fltBody
      (⟨(-1 / 10 : ℚ), (1 / 30 : ℚ), (1 / 4 : ℚ)⟩, ⟨(1 : ℚ), (0 : ℚ), (1 / 30 : ℚ), (0 : ℚ)⟩) with
    | .ok (area, walls) =>
      decide ((1 ≤ area.minX ∧ area.maxX ≤ 2 * conGrid.halfX ∧ 1 ≤ area.minY ∧ area.maxY ≤ 2 * conGrid.halfY) ∧
        ∀ w ∈ walls, ∀ x ∈ w,
          (area.minX ≤ x.1 ∧ x.1 < area.maxX) ∧ area.minY ≤ x.2.1 ∧ x.2.1 < area.maxY)
    | .error _ => false) = true := by decide +kernel
  intro area walls e
  subst hq
  rw [e] at key
  exact of_decide_eq_true key

/-- The history is completed; the tip of the bucket has dug a hole. -/
theorem conRuns : conCheck (fun w => FOps.lt (w.out.terrain 8 6) FOps.zero) = true := by
  decide +kernel

/-- The largest height difference at rest is two cells. -/
theorem conSlope : (dhMax conGrid fltParam).val = 2 * 2 ^ (-3 : ℤ) := by
  have : FOps.eq (dhMax conGrid fltParam) (2 * 2 ^ (-3 : ℤ) : ℚ) = true := by decide +kernel
  exact @of_decide_eq_true _ (instDecidableEqRat _ _) this

theorem conRoot : (1 : ℚ) ≤ fltR.sqrt 3 ∧ fltR.sqrt 3 ≤ 2 := by decide +kernel

section Any

variable {F : Type} [FOps F]

/-- The constructor of the grid returns when no exception applies. -/
theorem mkGrid_returns {gx gy gz cxy cz : F} {hx hy hz : ℤ} (h1 : (cz ≤ᶠ zero) = false) (h2 : (cxy ≤ᶠ zero) = false)
    (h3 : (gx ≤ᶠ zero) = false) (h4 : (gy ≤ᶠ zero) = false) (h5 : (gz ≤ᶠ zero) = false) (h6 : (cxy <ᶠ cz) = false)
    (h7 : (gx <ᶠ cxy) = false) (h8 : (gy <ᶠ cxy) = false) (h9 : (gz <ᶠ cz) = false)
    (ex : castInt (FOps.round (gx /ᶠ cxy)) = .ok hx) (ey : castInt (FOps.round (gy /ᶠ cxy)) = .ok hy)
    (ez : castInt (FOps.round (gz /ᶠ cz)) = .ok hz) :
    mkGrid gx gy gz cxy cz = .ok
      { halfX := hx, halfY := hy, halfZ := hz, cellXY := cxy, cellZ := cz, cellArea := cxy *ᶠ cxy
        cellVolume := (cxy *ᶠ cxy) *ᶠ cz
        vectX := fun i => accVect (FOps.neg gx) cxy i.toNat, vectY := fun i => accVect (FOps.neg gy) cxy i.toNat
        vectZ := fun i => accVect (FOps.neg gz +ᶠ cz) cz i.toNat } := by
  unfold mkGrid
  simp [h1, h2, h3, h4, h5, h6, h7, h8, h9, ex, ey, ez]

/-- `Init` leaves flat ground flat when every height is zero. -/
theorem initCells_flat (g : Grid F) (amp : F) (perm : List ℤ) (l : List (ℤ × ℤ)) (s : SimOut F)
    (hs : s.terrain = fun _ _ => zero) (hl : ∀ p ∈ l, s.InGrid p.1 p.2 ∧ p.1 < 2 * g.halfX + 1 ∧ p.2 < 2 * g.halfY + 1)
    (hh : ∀ p ∈ l, initHeight g amp perm p.1 p.2 = .ok zero) : initCells g amp perm l s = .ok s := by
  induction l with
  | nil => rfl
  | cons p l ih =>
    unfold initCells
    rw [guardOob_of (hl p List.mem_cons_self), ok_bind, hh p List.mem_cons_self, ok_bind]
    have e : s.setT p.1 p.2 zero = s := by
      unfold SimOut.setT
      have : upd2 s.terrain p.1 p.2 zero = s.terrain := by
        funext i j
        unfold upd2
        rw [hs]
        split_ifs <;> rfl
      rw [this]
    rw [e]
    exact ih (fun q hq => hl q (List.mem_cons_of_mem _ hq)) fun q hq => hh q (List.mem_cons_of_mem _ hq)

end Any

/-- the draws left after a shuffle -/
theorem shuffleFrom_rng {α : Type} (n : ℕ) (l : List α) (r : Rng) : (shuffleFrom n l r).2 = fun k => r (k + n) := by
  induction n generalizing l r with
  | zero => rfl
  | succ n ih =>
    unfold shuffleFrom
    simp only [Rng.draw]
    rw [ih]
    funext k
    congr 1

theorem conGrid_ok : mkGrid (F := Flt fltR) (3 / 2 : ℚ) (3 / 2 : ℚ) (((4 : ℤ) : ℚ) * 2 ^ (-3 : ℤ) : ℚ) (1 / 4 : ℚ)
    ((2 : ℚ) ^ (-3 : ℤ) : ℚ) = .ok conGrid := by
  have key : ∀ {x : M ℤ} {n : ℤ}, (match x with | .ok m => decide (m = n) | .error _ => false) = true →
      x = .ok n := by
    intro x n h
    cases x with
    | ok m => rw [of_decide_eq_true h]
    | error e => simp at h
  exact mkGrid_returns (F := Flt fltR) (by decide +kernel) (by decide +kernel) (by decide +kernel) (by decide +kernel)
    (by decide +kernel) (by decide +kernel) (by decide +kernel) (by decide +kernel) (by decide +kernel)
    (key (by decide +kernel)) (key (by decide +kernel)) (key (by decide +kernel))

theorem conParam_ok : mkSimParam (F := Flt fltR) (1 : ℚ) 1 2 = .ok fltParam := by
  have h : (FOps.lt (F := Flt fltR) (FOps.div (F := Flt fltR) FOps.pi (FOps.ofRat 2)) (1 : ℚ) ||
      FOps.lt (F := Flt fltR) (1 : ℚ) FOps.zero) = false := by decide +kernel
  unfold mkSimParam
  rw [if_neg (by rw [h]; simp)]
  rfl

end Soil
