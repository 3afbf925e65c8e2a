import Verif.Proof.SimRelax
import Verif.Proof.CellsExact
import Verif.Proof.Floor
import Verif.Proof.RelaxB

/-!
# Simulation by exact arithmetic with cells of height one: the relaxation
-/

set_option linter.unusedSectionVars false
set_option linter.unusedVariables false

namespace Soil

open FOps

theorem tolQ : TolOK (1 : ℚ) (1 / 4) := ⟨by norm_num, by norm_num⟩

/-- Everything stored in the state is at most `H`. -/
structure Bnd (H : ℤ) (z : SimOut ℚ) : Prop where
  T : ∀ i j, z.InGrid i j → |z.terrain i j| ≤ H
  B : ∀ k i j, z.InGrid i j → k < 4 → |z.body k i j| ≤ H
  S : ∀ k i j, z.InGrid i j → k < 4 → |z.bodySoil k i j| ≤ H
  E : ∀ e ∈ z.bodySoilPos, |e.h| ≤ H

/-- Terrain is not below `lo`, the body is between `lo` and `hi`, and there are at most `vol` cells of
soil above `lo`. -/
structure Room (lo hi vol : ℤ) (z : SimOut ℚ) : Prop where
  T : TerrainAbove (lo : ℚ) z
  B : ∀ k i j, z.InGrid i j → k < 4 → (lo : ℚ) ≤ z.body k i j ∧ z.body k i j ≤ hi
  total : totalSoil z ≤ vol + lo * (gridCols z).card

/-- The bound on heights that results -/
structure Budget (lo hi vol H : ℤ) : Prop where
  lo_le : lo ≤ 0
  hi_ge : 0 ≤ hi
  vol_ge : 0 ≤ vol
  le : vol + hi - lo ≤ H

theorem SoilOK.layer_nonneg' {z : SimOut ℚ} (h : SoilOK 1 z) {i j : ℤ} (hij : z.InGrid i j) {k : ℕ}
    (hk : k = 0 ∨ k = 2) : 0 ≤ layerSoil z k i j := by
  unfold layerSoil
  by_cases hs : HasSoil z k i j
  · have := (h.rest k i j hij hk hs).2.2
    linarith
  · obtain ⟨a, b⟩ := layerSoil_of_not_hasSoil hs
    rw [a, b]; simp

theorem column_le {lo vol : ℤ} {z : SimOut ℚ} (h : SoilOK 1 z) (hT : TerrainAbove (lo : ℚ) z) {δ : ℚ}
    (ht : totalSoil z + δ ≤ vol + lo * (gridCols z).card) {i j : ℤ} (hij : z.InGrid i j) :
    columnSoil z i j - lo + δ ≤ vol := by
  have h1 : ∑ p ∈ gridCols z, (columnSoil z p.1 p.2 - lo) = totalSoil z - lo * (gridCols z).card := by
    rw [Finset.sum_sub_distrib, Finset.sum_const, nsmul_eq_mul]
    unfold totalSoil
    ring
  have h2 : columnSoil z i j - lo ≤ ∑ p ∈ gridCols z, (columnSoil z p.1 p.2 - lo) := by
    refine Finset.single_le_sum (f := fun p : ℤ × ℤ => columnSoil z p.1 p.2 - lo) (a := (i, j)) ?_
      (mem_gridCols.mpr hij)
    intro p hp
    have hp := mem_gridCols.mp hp
    have a := hT _ _ hp
    have b := h.layer_nonneg' hp (k := 0) (.inl rfl)
    have c := h.layer_nonneg' hp (k := 2) (.inr rfl)
    unfold columnSoil
    linarith
  linarith

theorem bnd_of {lo hi vol H : ℤ} (hb : Budget lo hi vol H) {z : SimOut ℚ} (h : SoilOK 1 z)
    (hr : Room lo hi vol z) : Bnd H z := by
  have b1 : (lo : ℚ) ≤ 0 := by exact_mod_cast hb.lo_le
  have b2 : (0 : ℚ) ≤ hi := by exact_mod_cast hb.hi_ge
  have b3 : (0 : ℚ) ≤ vol := by exact_mod_cast hb.vol_ge
  have b4 : (vol : ℚ) + hi - lo ≤ H := by exact_mod_cast hb.le
  have col : ∀ {i j}, z.InGrid i j → columnSoil z i j - lo ≤ vol := fun hij => by
    have := column_le h hr.T (δ := 0) (by rw [add_zero]; exact hr.total) hij
    linarith
  have lay : ∀ {i j}, z.InGrid i j → ∀ k, k = 0 ∨ k = 2 → 0 ≤ layerSoil z k i j ∧ layerSoil z k i j ≤ vol := by
    intro i j hij k hk
    have a := hr.T _ _ hij
    have b := h.layer_nonneg' hij (k := 0) (.inl rfl)
    have c := h.layer_nonneg' hij (k := 2) (.inr rfl)
    have d := col hij
    unfold columnSoil at d
    rcases hk with rfl | rfl
    · exact ⟨b, by linarith⟩
    · exact ⟨c, by linarith⟩
  have soil : ∀ {i j}, z.InGrid i j → ∀ k, k = 0 ∨ k = 2 → |z.bodySoil k i j| ≤ H ∧
      |z.bodySoil (k + 1) i j| ≤ H := by
    intro i j hij k hk
    obtain ⟨l0, l1⟩ := lay hij k hk
    by_cases hs : HasSoil z k i j
    · obtain ⟨r1, r2, r3⟩ := h.rest k i j hij hk hs
      obtain ⟨c1, c2⟩ := hr.B (k + 1) i j hij (by omega)
      unfold layerSoil at l0 l1
      rw [abs_le, abs_le]
      refine ⟨⟨?_, ?_⟩, ?_, ?_⟩ <;> linarith
    · obtain ⟨a, b⟩ := layerSoil_of_not_hasSoil hs
      rw [a, b, abs_zero]
      constructor <;> linarith
  refine ⟨?_, ?_, ?_, ?_⟩
  · intro i j hij
    have a := hr.T _ _ hij
    have b := h.layer_nonneg' hij (k := 0) (.inl rfl)
    have c := h.layer_nonneg' hij (k := 2) (.inr rfl)
    have d := col hij
    unfold columnSoil at d
    rw [abs_le]
    constructor <;> linarith
  · intro k i j hij hk
    obtain ⟨c1, c2⟩ := hr.B k i j hij hk
    rw [abs_le]
    constructor <;> linarith
  · intro k i j hij hk
    have hk : k = 0 ∨ k = 1 ∨ k = 2 ∨ k = 3 := by omega
    rcases hk with rfl | rfl | rfl | rfl
    · exact (soil hij 0 (.inl rfl)).1
    · exact (soil hij 0 (.inl rfl)).2
    · exact (soil hij 2 (.inr rfl)).1
    · exact (soil hij 2 (.inr rfl)).2
  · intro e he
    obtain ⟨hij, hk⟩ := h.entries e he
    have h1 := h.entry_le he
    have h2 := lay hij _ hk
    rw [abs_of_nonneg (h.entry_nonneg e he)]
    linarith

variable {F : Type} [FOps F] {cell tol : F} {N C : ℤ}
  {P : Pair F ℚ cell tol (1 : ℚ) (1 / 4) N C} (hP : ∀ n, P.B.emb n = (n : ℚ))

include hP

theorem V.tighten {d : ℕ} {x : F} {y : ℚ} (h : V P d x y) (hy : |y| ≤ P.H) : V P 1 x y := by
  obtain ⟨n, h1, h2, h3⟩ := h
  refine ⟨n, h1, h2, ?_⟩
  rw [h2, hP] at hy
  have : |n| ≤ P.H := by exact_mod_cast hy
  simpa using this

theorem ERep.tighten {d : ℕ} {e : BodySoil F} {f : BodySoil ℚ} (h : ERep P d e f) (hy : |f.h| ≤ P.H) :
    ERep P 1 e f := ⟨h.1, h.2.1, h.2.2.1, V.tighten hP h.2.2.2 hy⟩

theorem tightenL {d : ℕ} {l : List (BodySoil F)} {m : List (BodySoil ℚ)}
    (h : List.Forall₂ (ERep P d) l m) (hm : ∀ e ∈ m, |e.h| ≤ P.H) : List.Forall₂ (ERep P 1) l m := by
  induction h with
  | nil => exact .nil
  | cons hab hl ih =>
    exact .cons (hab.tighten hP (hm _ List.mem_cons_self))
      (ih fun e he => hm e (List.mem_cons_of_mem _ he))

theorem Rep.tighten {d : ℕ} {s : SimOut F} {z : SimOut ℚ} (h : Rep P d s z) (hb : Bnd P.H z) :
    Rep P 1 s z :=
  ⟨h.lenX, h.lenY, h.equilibrium, h.bodyArea, h.relaxArea, h.impactArea,
    fun i j hij => V.tighten hP (h.T i j hij) (hb.T i j hij),
    fun k i j hij hk => V.tighten hP (h.B k i j hij hk) (hb.B k i j hij hk),
    fun k i j hij hk => V.tighten hP (h.S k i j hij hk) (hb.S k i j hij hk),
    tightenL hP h.E hb.E⟩

/-! ## Terrain -/

omit hP in
theorem Room.step {lo hi vol : ℤ} {z z' : SimOut ℚ} (h : Room lo hi vol z) (hT : TerrainAbove (lo : ℚ) z')
    (hb : SameBody z z') (ht : totalSoil z' ≤ totalSoil z) : Room lo hi vol z' := by
  obtain ⟨b1, b2, b3, b4⟩ := hb
  refine ⟨hT, ?_, ?_⟩
  · intro k i j hij hk
    rw [b1]
    exact h.B k i j (by unfold SimOut.InGrid at hij ⊢; rwa [b3, b4] at hij) hk
  · have : gridCols z' = gridCols z := by unfold gridCols; rw [b3, b4]
    rw [this]
    exact ht.trans h.total

omit hP in
theorem bind_assocM {α β γ : Type} (x : M α) (f : α → M β) (g : β → M γ) :
    (x >>= f) >>= g = x >>= fun a => f a >>= g := by
  cases x <;> rfl

omit hP in
theorem relaxTerrainDirs_cons {E : Type} [FOps E] (g : Grid E) (body : Body E) (dh tol : E) (ii jj : ℤ)
    (d : ℤ × ℤ) (ds : List (ℤ × ℤ)) (s : SimOut E) :
    relaxTerrainDirs g body dh tol ii jj (d :: ds) s =
      relaxTerrainDirs g body dh tol ii jj [d] s >>= relaxTerrainDirs g body dh tol ii jj ds := by
  unfold relaxTerrainDirs
  dsimp only
  rw [bind_assocM]
  congr 1
  funext _
  split_ifs
  · simp only [relaxTerrainDirs]; rfl
  · rw [bind_assocM]
    rfl

omit hP in
theorem relaxTerrainDirs_one_sim {g : Grid F} {g' : Grid ℚ} (hg : GRep P g g') {body : Body F}
    {body' : Body ℚ} {dh : F} {dh' : ℚ} (hdh : V P 1 dh dh') {ii jj : ℤ} {d : ℤ × ℤ}
    {s : SimOut F} {z : SimOut ℚ} (h : Rep P 1 s z) :
    Sim (relaxTerrainDirs g body dh tol ii jj [d] s) (relaxTerrainDirs g' body' dh' (1 / 4) ii jj [d] z)
      (Rep P 12) := by
  unfold relaxTerrainDirs
  dsimp only
  refine Sim.guard (by rw [h.inGrid, h.inGrid]) fun ⟨hi, hc⟩ => ?_
  rw [checkUnstableTerrainCell_sim h hc ((h.T ii jj hi).sub hdh)]
  split_ifs
  · exact Sim.ok (h.up (by decide))
  · refine (relaxUnstableTerrainCell_sim (h.setEq false) hg hdh hi hc _).bind fun a b _ _ hab => ?_
    exact Sim.ok hab

theorem al_of_V {d : ℕ} {x : F} {y : ℚ} (h : V P d x y) : Al (1 : ℚ) y := by
  obtain ⟨n, -, h2, -⟩ := h
  exact ⟨n, by rw [h2, hP, mul_one]⟩

section terrain

variable {lo hi vol : ℤ} (hb : Budget lo hi vol P.H) {g : Grid F} {g' : Grid ℚ} (hg : GRep P g g')
  {body : Body F} {body' : Body ℚ} {dh : F} {dh' : ℚ} (hdh : V P 1 dh dh') (h0 : 0 ≤ dh')

include hb hg hdh h0

/-- The invariant of the relaxation -/
structure RInv (P : Pair F ℚ cell tol (1 : ℚ) (1 / 4) N C) (lo hi vol : ℤ) (s : SimOut F) (z : SimOut ℚ) :
    Prop where
  rep : Rep P 1 s z
  wf : WellFormed 1 z
  room : Room lo hi vol z

theorem relaxTerrainDirs_sim (ii jj : ℤ) (ds : List (ℤ × ℤ)) (hds : ∀ d ∈ ds, d ∈ directions4)
    (s : SimOut F) (z : SimOut ℚ) (h : RInv P lo hi vol s z) :
    Sim (relaxTerrainDirs g body dh tol ii jj ds s)
      (relaxTerrainDirs g' body' dh' (1 / 4) ii jj ds z) (RInv P lo hi vol) := by
  have t : TolOK g'.cellZ (1 / 4) := by rw [hg.cellZ']; exact tolQ
  have hal : Al g'.cellZ dh' := by rw [hg.cellZ']; exact al_of_V hP hdh
  induction ds generalizing s z with
  | nil => exact Sim.ok h
  | cons d ds ih =>
    rw [relaxTerrainDirs_cons, relaxTerrainDirs_cons g']
    have hd1 : ∀ x ∈ [d], x ∈ directions4 := fun x hx => hds x (by simp_all)
    refine (relaxTerrainDirs_one_sim hg hdh h.rep).bind fun a b ha hb' hab =>
      ih (fun x hx => hds x (List.mem_cons_of_mem _ hx)) a b ?_
    have w := h.wf
    rw [← hg.cellZ'] at w
    have w1 := relaxTerrainDirs_wf g' body' dh' (1 / 4) t hal ii jj _ hd1 z w b hb'
    rw [hg.cellZ'] at w1
    have r1 := h.room.step (relaxTerrainDirs_floor t hal h0 body' _ hd1 z w h.room.T b hb')
      (relaxTerrainDirs_local g' body' dh' (1 / 4) ii jj _ hd1 z b hb').body
      (relaxTerrainDirs_conserves g' body' dh' (1 / 4) ii jj _ hd1 z b hb').total.le
    exact ⟨hab.tighten hP (bnd_of hb w1.soilOK r1), w1, r1⟩

theorem relaxTerrainCells_sim (cs ds : List (ℤ × ℤ)) (hds : ∀ d ∈ ds, d ∈ directions4)
    (s : SimOut F) (z : SimOut ℚ) (r : Rng) (h : RInv P lo hi vol s z) :
    Sim (relaxTerrainCells g body dh tol cs ds s r)
      (relaxTerrainCells g' body' dh' (1 / 4) cs ds z r)
      (fun x y => RInv P lo hi vol x.1 y.1 ∧ x.2 = y.2) := by
  induction cs generalizing ds s z r with
  | nil => exact Sim.ok ⟨h, rfl⟩
  | cons c cs ih =>
    unfold relaxTerrainCells
    dsimp only
    have hds' : ∀ d ∈ (shuffle ds r).1, d ∈ directions4 := fun d hd => hds d (mem_shuffle.mp hd)
    exact (relaxTerrainDirs_sim hP hb hg hdh h0 c.1 c.2 _ hds' s z h).bind fun a b _ _ hab =>
      ih _ hds' a b _ hab

end terrain

omit hP in
theorem locateUnstableCells_sim {s : SimOut F} {z : SimOut ℚ} (h : Rep P 1 s z) {dh : F} {dh' : ℚ}
    (hdh : V P 1 dh dh') (l : List (ℤ × ℤ)) :
    Sim (locateUnstableCells s dh tol l) (locateUnstableCells z dh' (1 / 4) l) Eq := by
  induction l with
  | nil => exact Sim.ok rfl
  | cons p l ih =>
    unfold locateUnstableCells
    refine Sim.guard (by simp only [h.inGrid]) fun ⟨h0, h1, h2, h3, h4⟩ => ?_
    refine ih.bind fun a b _ _ hab => ?_
    subst hab
    rw [unstableAt_sim h hdh h0 h1 h2 h3 h4]
    exact Sim.ok rfl

/-- Two worlds: related states, same generator, related warnings -/
structure WRep (P : Pair F ℚ cell tol (1 : ℚ) (1 / 4) N C) (I : SimOut F → SimOut ℚ → Prop)
    (w : World F) (v : World ℚ) : Prop where
  out : I w.out v.out
  rng : w.rng = v.rng
  log : List.Forall₂ (fun a b => match a, b with
    | .soilRemoved x, .soilRemoved y => V P 1 x y
    | .soilToTerrain, .soilToTerrain => True
    | .largeMovement, .largeMovement => True
    | _, _ => False) w.log v.log

omit hP in
theorem RInv.congr {lo hi vol : ℤ} {s : SimOut F} {z z' : SimOut ℚ} {s' : SimOut F}
    (h : RInv P lo hi vol s z) (hr : Rep P 1 s' z') (h1 : z'.lenX = z.lenX)
    (h2 : z'.lenY = z.lenY) (h3 : z'.terrain = z.terrain) (h4 : z'.body = z.body)
    (h5 : z'.bodySoil = z.bodySoil) (h6 : z'.bodySoilPos = z.bodySoilPos) : RInv P lo hi vol s' z' := by
  refine ⟨hr, h.wf.congr h1 h2 h3 h4 h5 h6, ?_⟩
  obtain ⟨a, b, c⟩ := h.room
  have hI : ∀ i j, z'.InGrid i j → z.InGrid i j := fun i j hij => by
    unfold SimOut.InGrid at hij ⊢; rwa [h1, h2] at hij
  refine ⟨fun i j hij => by rw [h3]; exact a i j (hI i j hij),
    fun k i j hij hk => by rw [h4]; exact b k i j (hI i j hij) hk, ?_⟩
  have e1 : gridCols z' = gridCols z := by unfold gridCols; rw [h1, h2]
  have e2 : totalSoil z' = totalSoil z := by
    unfold totalSoil columnSoil layerSoil; rw [e1, h3, h5]
  rw [e1, e2]; exact c

omit hP in
theorem Rep.setEq' {s : SimOut F} {z : SimOut ℚ} {d : ℕ} (h : Rep P d s z) (v : Bool) :
    Rep P d { s with equilibrium := v } { z with equilibrium := v } := h.setEq v

theorem relaxTerrain_sim {lo hi vol : ℤ} (hb : Budget lo hi vol P.H) {g : Grid F} {g' : Grid ℚ}
    (hg : GRep P g g') {body : Body F} {body' : Body ℚ} {p : SimParam F} {p' : SimParam ℚ}
    (hbuf : p.cellBuffer = p'.cellBuffer) (hdh : V P 1 (dhMax g p) (dhMax g' p'))
    (h0 : 0 ≤ dhMax g' p') {w : World F} {v : World ℚ} (h : WRep P (RInv P lo hi vol) w v) :
    Sim (relaxTerrain g body p tol w) (relaxTerrain g' body' p' (1 / 4) v)
      (WRep P (RInv P lo hi vol)) := by
  have h1 : RInv P lo hi vol { w.out with equilibrium := true } { v.out with equilibrium := true } :=
    h.out.congr (h.out.rep.setEq true) rfl rfl rfl rfl rfl rfl
  unfold relaxTerrain locateUnstableTerrainCell
  dsimp only
  have hl := locateUnstableCells_sim h1.rep hdh w.out.impactArea.cells
  have e : w.out.impactArea.cells = v.out.impactArea.cells := congrArg _ h.out.rep.impactArea
  rw [e] at hl ⊢
  refine hl.bind fun a b _ _ hab => ?_
  subst hab
  split_ifs
  · exact Sim.ok ⟨h1, h.rng, h.log⟩
  · rw [h.rng]
    refine (relaxTerrainCells_sim hP hb hg hdh h0 _ _ (fun d hd => hd) _ _ _ h1).bind
      fun x y _ _ hxy => ?_
    have ea : relaxAreaOf g p.cellBuffer (shuffle a v.rng).1 = relaxAreaOf g' p'.cellBuffer (shuffle a v.rng).1 := by
      unfold relaxAreaOf; rw [hg.halfX, hg.halfY, hbuf]
    refine Sim.ok ⟨hxy.1.congr ?_ rfl rfl rfl rfl rfl rfl, hxy.2, h.log⟩
    obtain ⟨q1, q2, q3, q4, q5, q6, q7, q8, q9, q10⟩ := hxy.1.rep
    exact ⟨q1, q2, q3, q4, ea, q6, q7, q8, q9, q10⟩

end Soil
