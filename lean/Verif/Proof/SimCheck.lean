import Verif.Proof.SimStep
import Verif.Proof.Sums

/-!
# Simulation by exact arithmetic with cells of height one: the two checks
-/

set_option linter.unusedSectionVars false
set_option linter.unusedVariables false

namespace Soil

open FOps

section pair

variable {F G : Type} [FOps F] [FOps G] {cell tol : F} {cell' tol' : G} {N C : ℤ}
  {P : Pair F G cell tol cell' tol' N C}

theorem checkSoilCell_sim {s : SimOut F} {z : SimOut G} (h : Rep P 1 s z) {i j : ℤ} (hij : z.InGrid i j) :
    checkSoilCell s tol i j = checkSoilCell z tol' i j := by
  have t := h.T i j hij
  have b0 := h.B 0 i j hij (by omega)
  have b1 := h.B 1 i j hij (by omega)
  have b2 := h.B 2 i j hij (by omega)
  have b3 := h.B 3 i j hij (by omega)
  have s0 := h.S 0 i j hij (by omega)
  have s1 := h.S 1 i j hij (by omega)
  have s2 := h.S 2 i j hij (by omega)
  have s3 := h.S 3 i j hij (by omega)
  have o : V P 1 (FOps.zero : F) (FOps.zero : G) := V.zero
  unfold checkSoilCell
  dsimp only
  rw [b0.ne o, b1.ne o, b2.ne o, b3.ne o, s0.ne o, s1.ne o, s2.ne o, s3.ne o, b0.addTol_lt t,
    b2.addTol_lt t, b1.subTol_lt b0, b3.subTol_lt b2, b2.lt_addTol b1, b0.lt_addTol b3,
    s2.lt_subTol b1, b0.lt_subTol s3, b2.lt_subTol s1, s0.lt_subTol b3, s1.addTol_lt s0,
    s3.addTol_lt s2, s0.addTol_lt b1, s2.addTol_lt b3, s0.ne b1, s2.ne b3]

theorem checkSoilCells_sim {s : SimOut F} {z : SimOut G} (h : Rep P 1 s z) (l : List (ℤ × ℤ)) :
    Sim (checkSoilCells s tol l) (checkSoilCells z tol' l) (· = ·) := by
  induction l with
  | nil => exact Sim.ok rfl
  | cons p l ih =>
    unfold checkSoilCells
    refine Sim.guard (h.inGrid _ _) fun hij => ?_
    rw [checkSoilCell_sim h hij]
    split_ifs
    · exact ih
    · exact Sim.ok rfl

theorem checkSoil_sim {s : SimOut F} {z : SimOut G} (h : Rep P 1 s z) :
    Sim (checkSoil s tol) (checkSoil z tol') (· = ·) := by
  unfold checkSoil
  rw [h.bodyArea]
  exact checkSoilCells_sim h _

end pair

/-- A loop that adds numbers to a counter -/
theorem foldlM_count {α : Type} (C : ℤ) (f : α → ℤ) (st : ℤ → α → M ℤ) (l : List α) :
    ∀ acc, (∀ a p, p ∈ l → |a| ≤ C → |a + f p| ≤ C → st a p = .ok (a + f p)) →
      (∀ pre suf, l = pre ++ suf → |acc + (pre.map f).sum| ≤ C) →
      l.foldlM st acc = .ok (acc + (l.map f).sum) := by
  induction l with
  | nil => intro acc _ _; simp [List.foldlM]
  | cons x l ih =>
    intro acc hst hpre
    have h0 := hpre [] (x :: l) rfl
    have h1 := hpre [x] l rfl
    simp only [List.map_nil, List.sum_nil, add_zero, List.map_cons, List.sum_cons] at h0 h1
    rw [List.foldlM_cons, hst acc x List.mem_cons_self h0 h1]
    show List.foldlM st (acc + f x) l = _
    rw [ih (acc + f x) (fun a p hp => hst a p (List.mem_cons_of_mem _ hp))]
    · simp [add_assoc]
    · intro pre suf e
      have := hpre (x :: pre) suf (by rw [e]; rfl)
      simpa [add_assoc] using this

/-- Prefixes of a sum of nonnegative numbers -/
theorem prefix_sum {α : Type} (f : α → ℤ) {l pre suf : List α} (hf : ∀ x ∈ l, 0 ≤ f x)
    (e : l = pre ++ suf) : 0 ≤ (pre.map f).sum ∧ (pre.map f).sum ≤ (l.map f).sum := by
  subst e
  rw [List.map_append, List.sum_append]
  have h1 : 0 ≤ (pre.map f).sum := by
    apply List.sum_nonneg
    intro x hx
    obtain ⟨y, hy, rfl⟩ := List.mem_map.mp hx
    exact hf y (List.mem_append_left _ hy)
  have h2 : 0 ≤ (suf.map f).sum := by
    apply List.sum_nonneg
    intro x hx
    obtain ⟨y, hy, rfl⟩ := List.mem_map.mp hx
    exact hf y (List.mem_append_right _ hy)
  omega

variable {F : Type} [FOps F] {cell tol : F} {N C : ℤ}
  {P : Pair F ℚ cell tol (1 : ℚ) (1 / 4) N C} (hP : ∀ n, P.B.emb n = (n : ℚ))

include hP

theorem V.floor {d : ℕ} {x : F} {y : ℚ} (h : V P d x y) :
    x = P.A.emb ⌊y⌋ ∧ y = (⌊y⌋ : ℚ) ∧ |⌊y⌋| ≤ d * P.H := by
  obtain ⟨n, rfl, rfl, h3⟩ := h
  rw [hP, Int.floor_intCast]
  exact ⟨rfl, rfl, h3⟩

/-- Subtracting the entries: the copy of `body_soil_` in both arithmetics -/
theorem subtractEntries_sim {s : SimOut F} {z : SimOut ℚ} (h : Rep P 1 s z) (hH : (0 : ℤ) ≤ P.H)
    {l : List (BodySoil F)} {l' : List (BodySoil ℚ)} (hl : List.Forall₂ (ERep P 1) l l')
    (h0 : ∀ e ∈ l', 0 ≤ e.h) {m : ℕ → ℤ → ℤ → F} {m' : ℕ → ℤ → ℤ → ℚ}
    (hm : ∀ k i j, z.InGrid i j → k < 4 → V P 1 (m k i j) (m' k i j))
    (hlow : ∀ k i j, z.InGrid i j → k = 0 ∨ k = 2 → m' (k + 1) i j = z.bodySoil k i j + entrySum l' k i j)
    (hle : ∀ e ∈ l', e.ind = 0 ∨ e.ind = 2) :
    Sim (subtractEntries s l m) (subtractEntries z l' m') fun a b =>
      ∀ k i j, z.InGrid i j → k < 4 → V P 1 (a k i j) (b k i j) := by
  induction hl generalizing m m' with
  | nil => exact Sim.ok hm
  | @cons e f l l' hef hl ih =>
    unfold subtractEntries
    obtain ⟨e1, e2, e3, e4⟩ := hef
    refine Sim.guard (by rw [h.inGrid, e1, e2, e3]) fun ⟨hij, hk⟩ => ?_
    rw [e1, e2, e3]
    have hk2 := hle f List.mem_cons_self
    have hf0 := h0 f List.mem_cons_self
    have hsum : 0 ≤ entrySum l' f.ind f.ii f.jj := by
      unfold entrySum
      apply List.sum_nonneg
      intro x hx
      obtain ⟨y, hy, rfl⟩ := List.mem_map.mp hx
      exact h0 y (List.mem_cons_of_mem _ (List.mem_of_mem_filter hy))
    have hc : entrySum (f :: l') f.ind f.ii f.jj = f.h + entrySum l' f.ind f.ii f.jj := by
      rw [entrySum_cons]; simp
    have hv : V P 1 (m (f.ind + 1) f.ii f.jj -ᶠ e.h) (m' (f.ind + 1) f.ii f.jj -ᶠ f.h) := by
      refine ((hm _ _ _ hij hk).sub e4).tighten hP ?_
      have a1 := hlow _ _ _ hij hk2
      obtain ⟨-, q2, q3⟩ := V.floor hP (hm _ _ _ hij hk)
      obtain ⟨-, r2, r3⟩ := V.floor hP (h.S f.ind _ _ hij (by omega))
      have q4 : |m' (f.ind + 1) f.ii f.jj| ≤ P.H := by rw [q2]; exact_mod_cast (by simpa using q3)
      have r4 : |z.bodySoil f.ind f.ii f.jj| ≤ P.H := by rw [r2]; exact_mod_cast (by simpa using r3)
      simp only [ex_sub]
      rw [abs_le] at q4 r4 ⊢
      rw [hc] at a1
      constructor <;> linarith
    refine ih (fun e he => h0 e (List.mem_cons_of_mem _ he)) ?_ ?_ (fun e he => hle e (List.mem_cons_of_mem _ he))
    · intro k i j hij' hk'
      unfold upd3
      split_ifs
      · exact hv
      · exact hm k i j hij' hk'
    · intro k i j hij' hk'
      have a1 := hlow k i j hij' hk'
      rw [entrySum_cons] at a1
      unfold upd3
      split_ifs with q
      · obtain ⟨q1, rfl, rfl⟩ := q
        have : k = f.ind := by omega
        subst this
        rw [a1]
        simp
        ring
      · rw [a1]
        rw [if_neg]
        · ring
        · rintro ⟨rfl, rfl, rfl⟩; exact q ⟨rfl, rfl, rfl⟩

theorem checkVolume_shadow {lo hi vol : ℤ} (hb : Budget lo hi vol P.H) {g : Grid F} {g' : Grid ℚ}
    (hg : g.cellZ = cell) (hg' : g'.cellZ = 1) {s : SimOut F} {z : SimOut ℚ} (h : RInv P lo hi vol s z)
    (hs : Sound g' z) (hC : vol - lo * (gridCols z).card ≤ C) {v : ℤ} (hv : totalSoil z = v) :
    checkVolume s v g tol = .ok true := by
  have b1 := hb.lo_le
  have b3 := hb.vol_ge
  have hS := h.wf.soilOK
  have hcells : s.allCells = z.allCells := by
    unfold SimOut.allCells; rw [h.rep.lenX, h.rep.lenY]
  -- the comparison of the entries with the soil
  have hex := hs.checkVolume (by rw [hg']; exact tolQ) v (by rw [hv, hg', mul_one])
  unfold checkVolume at hex ⊢
  obtain ⟨m', e', hex⟩ := bind_eq_ok.mp hex
  obtain ⟨m, e, hm⟩ := (subtractEntries_sim hP h.rep P.pos h.rep.E hS.entry_nonneg
    (fun k i j hij hk => h.rep.S k i j hij hk) (by
      intro k i j hij hk
      have := hS.booked i j hij k hk
      unfold layerSoil at this
      linarith) (fun e he => (hS.entries e he).2)).of_ok' e'
  rw [e, ok_bind]
  have hany : (s.allCells.any fun p =>
      tol <ᶠ FOps.abs (m 0 p.1 p.2 -ᶠ m 1 p.1 p.2) || tol <ᶠ FOps.abs (m 2 p.1 p.2 -ᶠ m 3 p.1 p.2)) =
      (z.allCells.any fun p => (1 / 4 : ℚ) <ᶠ FOps.abs (m' 0 p.1 p.2 -ᶠ m' 1 p.1 p.2) ||
        (1 / 4 : ℚ) <ᶠ FOps.abs (m' 2 p.1 p.2 -ᶠ m' 3 p.1 p.2)) := by
    rw [hcells]
    have key : ∀ (l : List (ℤ × ℤ)) (f f' : ℤ × ℤ → Bool), (∀ p ∈ l, f p = f' p) → l.any f = l.any f' := by
      intro l f f' hl
      induction l with
      | nil => rfl
      | cons x l ih =>
        rw [List.any_cons, List.any_cons, hl x List.mem_cons_self,
          ih fun p hp => hl p (List.mem_cons_of_mem _ hp)]
    apply key
    intro p hp
    have hp := SimOut.mem_allCells.mp hp
    rw [(((hm 0 _ _ hp (by omega)).sub (hm 1 _ _ hp (by omega))).abs).tol_lt,
      (((hm 2 _ _ hp (by omega)).sub (hm 3 _ _ hp (by omega))).abs).tol_lt]
  rw [hany]
  split_ifs at hex ⊢ with hif
  · cases hex
  -- the two volumes
  set fT : ℤ × ℤ → ℤ := fun p => ⌊z.terrain p.1 p.2⌋ with hfT
  set f0 : ℤ × ℤ → ℤ := fun p => ⌊layerSoil z 0 p.1 p.2⌋ with hf0
  set f2 : ℤ × ℤ → ℤ := fun p => ⌊layerSoil z 2 p.1 p.2⌋ with hf2
  have lay : ∀ k i j, k = 0 ∨ k = 2 → z.InGrid i j →
      V P 2 (s.bodySoil (k + 1) i j -ᶠ s.bodySoil k i j) (layerSoil z k i j) := by
    intro k i j hk hij
    exact (h.rep.S (k + 1) i j hij (by omega)).sub (h.rep.S k i j hij (by omega))
  have cT : ∀ p : ℤ × ℤ, z.InGrid p.1 p.2 → z.terrain p.1 p.2 = (fT p : ℚ) := fun p hp =>
    (V.floor hP (h.rep.T _ _ hp)).2.1
  have cL : ∀ (p : ℤ × ℤ) (k : ℕ), k = 0 ∨ k = 2 → z.InGrid p.1 p.2 →
      layerSoil z k p.1 p.2 = (⌊layerSoil z k p.1 p.2⌋ : ℚ) := fun p k hk hp =>
    (V.floor hP (lay k _ _ hk hp)).2.1
  have nT : ∀ p : ℤ × ℤ, z.InGrid p.1 p.2 → lo ≤ fT p := by
    intro p hp
    have := h.room.T _ _ hp
    rw [cT p hp] at this
    exact_mod_cast this
  have nL : ∀ (p : ℤ × ℤ) (k : ℕ), k = 0 ∨ k = 2 → z.InGrid p.1 p.2 → 0 ≤ ⌊layerSoil z k p.1 p.2⌋ := by
    intro p k hk hp
    exact Int.floor_nonneg.mpr (hS.layer_nonneg' hp hk)
  have tot : (z.allCells.map fT).sum + (z.allCells.map fun p => f0 p + f2 p).sum = v := by
    rw [sum_allCells, sum_allCells, ← Finset.sum_add_distrib]
    have : ((∑ p ∈ gridCols z, (fT p + (f0 p + f2 p)) : ℤ) : ℚ) = v := by
      rw [← hv]
      unfold totalSoil columnSoil
      push_cast
      refine Finset.sum_congr rfl fun p hp => ?_
      have hp := mem_gridCols.mp hp
      rw [cT p hp]
      rw [cL p 0 (.inl rfl) hp, cL p 2 (.inr rfl) hp]
      simp only [hf0, hf2, Int.floor_intCast]
      ring
    exact_mod_cast this
  have hvol : (v : ℤ) ≤ vol + lo * (gridCols z).card := by
    have := h.room.total
    rw [hv] at this
    exact_mod_cast this
  have hnn : ∀ p ∈ z.allCells, 0 ≤ fT p - lo := fun p hp => by
    have := nT p (SimOut.mem_allCells.mp hp); omega
  have hnl : ∀ p ∈ z.allCells, 0 ≤ f0 p + f2 p := fun p hp => by
    have a := nL p 0 (.inl rfl) (SimOut.mem_allCells.mp hp)
    have b := nL p 2 (.inr rfl) (SimOut.mem_allCells.mp hp)
    exact add_nonneg a b
  have shift : ∀ l : List (ℤ × ℤ), (l.map fun p => fT p - lo).sum = (l.map fT).sum - lo * l.length := by
    intro l
    induction l with
    | nil => simp
    | cons x l ih => simp only [List.map_cons, List.sum_cons, ih, List.length_cons]; push_cast; ring
  have hlen : (z.allCells.length : ℤ) = (gridCols z).card := by
    have := sum_allCells z fun _ => (1 : ℤ)
    simpa using this
  have sL := prefix_sum _ hnl (pre := z.allCells) (suf := []) (by simp)
  have sT := prefix_sum _ hnn (pre := z.allCells) (suf := []) (by simp)
  rw [shift, hlen] at sT
  have hT : terrainVolume s g = .ok ((z.allCells.map fT).sum) := by
    unfold terrainVolume
    rw [hcells]
    have := foldlM_count C fT (fun acc p => addRounded acc (s.terrain p.1 p.2 /ᶠ g.cellZ)) z.allCells 0 ?_ ?_
    · rw [this, zero_add]
    · intro a p hp ha hap
      have hp := SimOut.mem_allCells.mp hp
      obtain ⟨q1, q2, q3⟩ := V.floor hP (h.rep.T _ _ hp)
      unfold addRounded
      rw [q1, hg]
      exact P.A.count _ _ ha (P.bound (by decide) q3) hap
    · intro pre suf e
      have q := prefix_sum _ hnn e
      rw [shift, shift, hlen] at q
      have hl : (pre.length : ℤ) ≤ (gridCols z).card := by
        rw [← hlen, e]; simp
      have hl0 : (0 : ℤ) ≤ pre.length := by positivity
      rw [zero_add, abs_le]
      constructor <;> nlinarith [sL.1, sL.2]
  have hB : bodySoilVolume s g = .ok ((z.allCells.map fun p => f0 p + f2 p).sum) := by
    unfold bodySoilVolume
    rw [hcells]
    have hadd : ∀ (k : ℕ) (p : ℤ × ℤ) (a : ℤ), k = 0 ∨ k = 2 → z.InGrid p.1 p.2 → |a| ≤ C →
        |a + ⌊layerSoil z k p.1 p.2⌋| ≤ C →
        addLayerVolume s g k p a = .ok (a + ⌊layerSoil z k p.1 p.2⌋) := by
      intro k p a hk hp ha hap
      unfold addLayerVolume
      rw [h.rep.soilPres hp (by omega)]
      split_ifs with hsp
      · obtain ⟨q1, q2, q3⟩ := V.floor hP (lay k _ _ hk hp)
        unfold addRounded
        rw [q1, hg]
        exact P.A.count _ _ ha (P.bound (by decide) q3) hap
      · have hz : layerSoil z k p.1 p.2 = 0 := by
          have hn : ¬ HasSoil z k p.1 p.2 := by
            unfold SimOut.soilPres FOps.ne at hsp
            unfold HasSoil
            simpa using hsp
          obtain ⟨x, y⟩ := layerSoil_of_not_hasSoil hn
          unfold layerSoil
          rw [x, y, sub_zero]
        rw [hz]; simp
    have := foldlM_count C (fun p => f0 p + f2 p)
      (fun acc p => do addLayerVolume s g 2 p (← addLayerVolume s g 0 p acc)) z.allCells 0 ?_ ?_
    · rw [this, zero_add]
    · intro a p hp ha hap
      have hp := SimOut.mem_allCells.mp hp
      have n0 := nL p 0 (.inl rfl) hp
      have n2 := nL p 2 (.inr rfl) hp
      have hmid : |a + f0 p| ≤ C := by
        rw [abs_le] at ha hap ⊢
        simp only [hf0, hf2] at hap ⊢
        constructor <;> omega
      rw [hadd 0 p a (.inl rfl) hp ha hmid, ok_bind]
      rw [hadd 2 p _ (.inr rfl) hp hmid (by rw [add_assoc]; exact hap), add_assoc]
    · intro pre suf e
      have q := prefix_sum _ hnl e
      rw [zero_add, abs_le]
      constructor <;> nlinarith [sT.1, Int.natCast_nonneg (gridCols z).card]
  rw [hT, ok_bind, hB, ok_bind, tot]
  simp

end Soil
