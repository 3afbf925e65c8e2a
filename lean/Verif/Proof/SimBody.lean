import Verif.Proof.SimInter
import Verif.Proof.Transport

/-!
# Simulation by exact arithmetic with cells of height one: transport of the soil on the body

The column that receives the soil of an entry is chosen from positions, which are not whole numbers
of cells.  The exact state follows the choice made in the other arithmetic.
-/

set_option linter.unusedSectionVars false
set_option linter.unusedVariables false

namespace Soil

open FOps

section free

variable {F : Type} [FOps F]

theorem exploreOrder_head' (dx dy : F) : ∃ l, exploreOrder dx dy = (0, 0) :: l := by
  unfold exploreOrder
  dsimp only
  split_ifs <;> exact ⟨_, rfl⟩

/-- a layer of the body in the grid -/
def OnBody (s : SimOut F) (x : ℕ × ℤ × ℤ) : Prop :=
  (x.1 = 0 ∨ x.1 = 2) ∧ s.InGrid x.2.1 x.2.2 ∧ s.bodyAbs x.1 x.2.1 x.2.2 = false

theorem tryLayer_loc (s : SimOut F) (z md : F) {k : ℕ} (hk : k = 0 ∨ k = 2) {i j : ℤ}
    (hij : s.InGrid i j) (c : Closest F) (hc : ∀ x, c.loc = some x → OnBody s x) :
    match tryLayer s z md k i j c with
    | none => OnBody s (k, i, j)
    | some c' => ∀ x, c'.loc = some x → OnBody s x := by
  unfold tryLayer
  cases hb : s.bodyAbs k i j with
  | true => exact hc
  | false =>
    simp only [Bool.false_eq_true, if_false]
    split_ifs
    · exact ⟨hk, hij, hb⟩
    · intro x hx
      cases hx
      exact ⟨hk, hij, hb⟩
    · exact hc

theorem searchWall_onBody (s : SimOut F) (z md : F) (iN jN : ℤ) (ds : List (ℤ × ℤ)) (c : Closest F)
    (hc : ∀ x, c.loc = some x → OnBody s x) :
    Post (searchWall s z md iN jN ds c) fun r =>
      (∀ d, ds.head? = some d → s.InGrid (iN + d.1) (jN + d.2)) ∧
      match r with
      | .inl x => OnBody s x
      | .inr c' => ∀ x, c'.loc = some x → OnBody s x := by
  induction ds generalizing c with
  | nil => exact Post.ok ⟨by simp, hc⟩
  | cons d ds ih =>
    unfold searchWall
    dsimp only
    refine Post.guard fun hg => ?_
    have hhead : ∀ d', (d :: ds).head? = some d' → s.InGrid (iN + d'.1) (jN + d'.2) := by
      intro d' h; simp at h; subst h; exact hg
    have h0 := tryLayer_loc s z md (k := 0) (.inl rfl) hg c hc
    split
    · rename_i e
      rw [e] at h0
      exact Post.ok ⟨hhead, h0⟩
    rename_i c1 e
    rw [e] at h0
    have h2 := tryLayer_loc s z md (k := 2) (.inr rfl) hg c1 h0
    split
    · rename_i e
      rw [e] at h2
      exact Post.ok ⟨hhead, h2⟩
    rename_i c2 e
    rw [e] at h2
    exact (ih c2 h2).mono fun r hr => ⟨hhead, hr.2⟩

end free

/-- The state once the soil on the body is taken away -/
structure Emptied (c : ℚ) (z z0 : SimOut ℚ) : Prop where
  soil : SoilOK c z0
  total : totalSoil z0 + (z.bodySoilPos.map fun e => e.h).sum = totalSoil z
  same : SameBody z z0
  terrain : z0.terrain = z.terrain

theorem reset_emptied {c : ℚ} {z : SimOut ℚ} (hS : Stored c z) :
    Ok (resetBodySoil z.bodySoilPos z) fun s => Emptied c z { s with bodySoilPos := [] } := by
  refine (resetBodySoil_spec _ _ hS.entries).mono ?_
  rintro s ⟨h1, hor, h2⟩
  have hno : ∀ k i j, z.InGrid i j → k = 0 ∨ k = 2 → s.bodySoil k i j = 0 ∧
      s.bodySoil (k + 1) i j = 0 := by
    intro k i j hij hk
    apply layerSoil_of_not_hasSoil
    apply h2 k i j hk
    by_cases hs : HasSoil z k i j
    · exact .inl (hS.listed k i j hij hk hs)
    · exact .inr hs
  have hlen : s.lenX = z.lenX ∧ s.lenY = z.lenY := by rw [h1]; exact ⟨rfl, rfl⟩
  have hbody : s.body = z.body := by rw [h1]
  have hter : s.terrain = z.terrain := by rw [h1]
  have harea : s.bodyArea = z.bodyArea := by rw [h1]
  have hin : ∀ i j, s.InGrid i j ↔ z.InGrid i j := by
    intro i j; unfold SimOut.InGrid; rw [hlen.1, hlen.2]
  set s0 : SimOut ℚ := { s with bodySoilPos := [] } with hs0
  have hno' : ∀ k i j, s0.InGrid i j → k = 0 ∨ k = 2 → ¬ HasSoil s0 k i j := by
    intro k i j hij hk
    obtain ⟨a, b⟩ := hno k i j ((hin i j).mp hij) hk
    unfold HasSoil
    change ¬ (s.bodySoil k i j ≠ 0 ∨ s.bodySoil (k + 1) i j ≠ 0)
    rw [a, b]; simp
  refine ⟨?_, ?_, ⟨hbody, harea, hlen.1, hlen.2⟩, hter⟩
  · constructor
    · intro i j hij
      show Al _ (s.terrain i j)
      rw [hter]; exact hS.terrain_al i j ((hin i j).mp hij)
    · intro k i j hij
      show Al _ (s.bodySoil k i j)
      rcases hor k i j with h | h <;> rw [h]
      · exact hS.soil_al k i j ((hin i j).mp hij)
      · exact Al.zero
    · intro k i j hij hk hs; exact absurd hs (hno' k i j hij hk)
    · intro e he; simp [hs0] at he
    · intro e he; simp [hs0] at he
    · intro e he; simp [hs0] at he
    · intro i j hij k hk
      obtain ⟨a, b⟩ := hno k i j ((hin i j).mp hij) hk
      show s.bodySoil (k + 1) i j - s.bodySoil k i j = entrySum [] k i j
      rw [a, b]; simp
    · intro k i j hij hk hs; exact absurd hs (hno' k i j hij hk)
  · rw [← entrySum_grid z _ hS.entries]
    unfold totalSoil
    have hg : gridCols s0 = gridCols z := by
      unfold gridCols; show Finset.Ico 0 s.lenX ×ˢ Finset.Ico 0 s.lenY = _; rw [hlen.1, hlen.2]
    rw [hg, ← Finset.sum_add_distrib]
    refine Finset.sum_congr rfl ?_
    rintro ⟨i, j⟩ hp
    have hij := mem_gridCols.mp hp
    dsimp only at hij ⊢
    rw [← hS.booked i j hij 0 (.inl rfl), ← hS.booked i j hij 2 (.inr rfl)]
    obtain ⟨a, b⟩ := hno 0 i j hij (.inl rfl)
    obtain ⟨a', b'⟩ := hno 2 i j hij (.inr rfl)
    unfold columnSoil
    show s.terrain i j + (s.bodySoil (0 + 1) i j - s.bodySoil 0 i j) +
      (s.bodySoil (2 + 1) i j - s.bodySoil 2 i j) + _ = _
    rw [a, b, a', b', hter]
    ring

variable {F : Type} [FOps F] {cell tol : F} {N C : ℤ}
  {P : Pair F ℚ cell tol (1 : ℚ) (1 / 4) N C}

theorem resetBodySoil_sim {l : List (BodySoil F)} {m : List (BodySoil ℚ)}
    (hl : List.Forall₂ (ERep P 1) l m) {s : SimOut F} {z : SimOut ℚ} (h : Rep P 1 s z) :
    Sim (resetBodySoil l s) (resetBodySoil m z) (Rep P 1) := by
  induction hl generalizing s z with
  | nil => exact Sim.ok h
  | cons hab hl ih =>
    unfold resetBodySoil
    obtain ⟨e1, e2, e3, -⟩ := hab
    refine Sim.guard (by rw [h.inGrid, e1, e2, e3]) fun _ => ?_
    rw [e1, e2, e3]
    exact ih ((h.setBS _ _ _ V.zero).setBS _ _ _ V.zero)

section transport

variable (hP : ∀ n, P.B.emb n = (n : ℚ)) {lo hi vol : ℤ} (hb : Budget lo hi vol P.H)

omit hP hb in
theorem placeOn_rep {s : SimOut F} {z : SimOut ℚ} (h : Rep P 1 s z) {k : ℕ} (hk : k = 0 ∨ k = 2)
    {i j : ℤ} (hij : z.InGrid i j) {e : BodySoil F} {f : BodySoil ℚ} {x : F} {y : ℚ} (hv : V P 1 x y) :
    Rep P 4 (placeOn s k i j e x) (placeOn z k i j f y) := by
  unfold placeOn
  dsimp only
  have hk1 : k + 1 < 4 := by omega
  refine Rep.pushPos (Rep.setBS (Rep.setBS (h.up (by decide)) _ _ _ ?_) _ _ _ ?_) ?_
  · exact (h.S _ _ _ hij hk1).add (((h.B _ _ _ hij hk1).sub (h.S _ _ _ hij (by omega))).add hv)
  · exact (h.B _ _ _ hij hk1).up (by decide)
  · exact ⟨rfl, rfl, rfl, hv.up (by decide)⟩

include hP hb

theorem updateEntry_shadow {pos : Vec3 F} {ori : Quat F} {g : Grid F} (hg : g.cellZ = cell) {body : Body F}
    {e : BodySoil F} {f : BodySoil ℚ} (he : V P 1 e.h f.h) (h0 : 0 ≤ f.h) {δ : ℚ} (hδ : 0 ≤ δ)
    {w : World F} {v : World ℚ} (h : WRep P (CInv P lo hi vol (δ + f.h)) w v) :
    Post (updateEntry pos ori g body tol e w) fun w' => ∃ v', WRep P (CInv P lo hi vol δ) w' v' ∧
      totalSoil v'.out + δ = totalSoil v.out + (δ + f.h) ∧ SameBody v.out v'.out ∧
      ∃ n, v'.log = v.log ++ List.replicate n .soilToTerrain := by
  have hal : Al 1 f.h := al_of_V hP he
  unfold updateEntry
  rw [hg]
  by_cases hs : (e.h <ᶠ ofRat (9 / 10) *ᶠ cell) = true
  · rw [if_pos hs]
    rw [he.small] at hs
    have hz : f.h = 0 := small_al one_pos hal h0 (by simpa using hs)
    rw [hz, add_zero] at h
    exact Post.ok ⟨v, h, by rw [hz]; ring, .refl _, 0, by simp⟩
  rw [if_neg hs]
  dsimp only
  have hv : V P 1 (cell *ᶠ FOps.round (e.h /ᶠ cell)) f.h := by
    have := he.round
    have e1 : (1 : ℚ) *ᶠ FOps.round (f.h /ᶠ (1 : ℚ)) = f.h := by
      simp only [ex_mul, ex_round, ex_div]; exact round_al one_pos hal
    rwa [e1] at this
  generalize cell *ᶠ FOps.round (e.h /ᶠ cell) = x at hv
  generalize (calcRotationQuaternion ori ⟨e.xb, e.yb, e.zb⟩).addF pos = new
  generalize (calcRotationQuaternion body.ori ⟨e.xb, e.yb, e.zb⟩).addF body.pos = old
  obtain ⟨l, hl⟩ := exploreOrder_head' (new.x -ᶠ old.x) (new.y -ᶠ old.y)
  rw [hl]
  refine Post.bind (P := fun _ => True) (fun _ _ => trivial) ?_
  intro iN _
  refine Post.bind (P := fun _ => True) (fun _ _ => trivial) ?_
  intro jN _
  refine Post.bind (searchWall_onBody _ _ _ _ _ _ _ (by intro x hx; cases hx)) ?_
  rintro r ⟨hin, hr⟩
  have hin := hin (0, 0) rfl
  rw [add_zero, add_zero] at hin
  have place : ∀ k i j, OnBody w.out (k, i, j) → ∃ v', WRep P (CInv P lo hi vol δ)
      (w.mapOut fun s => placeOn s k i j e x) v' ∧
      totalSoil v'.out + δ = totalSoil v.out + (δ + f.h) ∧ SameBody v.out v'.out ∧
        ∃ n, v'.log = v.log ++ List.replicate n .soilToTerrain := by
    rintro k i j ⟨hk, hij, hab⟩
    dsimp only at hk hij hab
    have hij' := (h.out.rep.inGrid i j).mp hij
    have hbd : HasBody v.out k i j := by
      rw [h.out.rep.bodyAbs hij' (by omega)] at hab
      by_contra hn
      rw [(bodyAbs_iff _ _ _ _).mpr hn] at hab
      cases hab
    have hr := placeOn_rep (e := e) (f := f) h.out.rep hk hij' hv
    have ht : totalSoil (placeOn v.out k i j f f.h) = totalSoil v.out + f.h := by
      rw [placeOn_eq]; exact totalSoil_dep (e := ⟨k, i, j, f.xb, f.yb, f.zb, f.h⟩) hij' hk
    refine ⟨v.mapOut fun s => placeOn s k i j f f.h, ⟨?_, h.rng, h.log⟩, ?_, ?_, 0, by simp [World.mapOut]⟩
    · refine h.out.step hP hb hr ?_ ?_ ⟨rfl, rfl, rfl, rfl⟩ hδ ?_
      · show SoilOK 1 (placeOn v.out k i j f f.h)
        rw [placeOn_eq]
        exact SoilOK.dep h.out.body h.out.soil (e := ⟨k, i, j, f.xb, f.yb, f.zb, f.h⟩) hij' hk hbd h0 hal
      · exact h.out.T
      · show totalSoil (placeOn v.out k i j f f.h) + δ ≤ _
        rw [ht]; linarith
    · show totalSoil (placeOn v.out k i j f f.h) + δ = _
      rw [ht]; ring
    · exact ⟨rfl, rfl, rfl, rfl⟩
  rcases r with ⟨k, i, j⟩ | c
  · exact Post.ok (place k i j hr)
  dsimp only at hr ⊢
  split_ifs
  · split
    · rename_i k i j hc
      exact Post.ok (place k i j (hr _ hc))
    · exact Post.error
  · have hij' := (h.out.rep.inGrid iN jN).mp hin
    have ht := totalSoil_setT v.out (i := iN) (j := jN) (v.out.terrain iN jN + f.h) hij'
    refine Post.ok ⟨(v.mapOut fun s => s.setT iN jN (s.terrain iN jN +ᶠ f.h)).warn .soilToTerrain,
      ⟨?_, h.rng, ?_⟩, ?_, ⟨rfl, rfl, rfl, rfl⟩, 1, rfl⟩
    · refine h.out.step hP hb (Rep.setT (h.out.rep.up (by decide : 1 ≤ 2)) iN jN
        ((h.out.rep.T _ _ hij').add hv)) ?_ ?_ ⟨rfl, rfl, rfl, rfl⟩ hδ ?_
      · exact h.out.soil.addT hal
      · intro a b hab
        have := h.out.T a b hab
        show (lo : ℚ) ≤ upd2 v.out.terrain iN jN _ a b
        unfold upd2
        split_ifs with hc
        · obtain ⟨rfl, rfl⟩ := hc
          simp only [ex_add]; linarith
        · exact this
      · show totalSoil (v.out.setT iN jN (v.out.terrain iN jN + f.h)) + δ ≤ _
        rw [ht]; linarith
    · exact List.rel_append h.log (.cons trivial .nil)
    · show totalSoil (v.out.setT iN jN (v.out.terrain iN jN + f.h)) + δ = _
      rw [ht]; ring

theorem updateEntries_shadow {pos : Vec3 F} {ori : Quat F} {g : Grid F} (hg : g.cellZ = cell)
    {body : Body F} {l : List (BodySoil F)} {m : List (BodySoil ℚ)} (hl : List.Forall₂ (ERep P 1) l m)
    (h0 : ∀ f ∈ m, 0 ≤ f.h) {w : World F} {v : World ℚ}
    (h : WRep P (CInv P lo hi vol (m.map fun f => f.h).sum) w v) :
    Post (updateEntries pos ori g body tol l w) fun w' => ∃ v', WRep P (CInv P lo hi vol 0) w' v' ∧
      totalSoil v'.out = totalSoil v.out + (m.map fun f => f.h).sum ∧ SameBody v.out v'.out ∧
      ∃ n, v'.log = v.log ++ List.replicate n .soilToTerrain := by
  induction hl generalizing w v with
  | nil => exact Post.ok ⟨v, by simpa using h, by simp, .refl _, 0, by simp⟩
  | @cons a b l m hab hl ih =>
    have hs : ((b :: m).map fun f => f.h).sum = (m.map fun f => f.h).sum + b.h := by
      simp [add_comm]
    rw [hs] at h ⊢
    have hn : 0 ≤ (m.map fun f => f.h).sum := by
      apply List.sum_nonneg
      intro x hx
      obtain ⟨f, hf, rfl⟩ := List.mem_map.mp hx
      exact h0 f (List.mem_cons_of_mem _ hf)
    unfold updateEntries
    refine Post.bind (updateEntry_shadow hP hb hg hab.2.2.2 (h0 b List.mem_cons_self) hn h) ?_
    rintro w1 ⟨v1, h1, t1, s1, n1, l1⟩
    refine (ih (fun f hf => h0 f (List.mem_cons_of_mem _ hf)) h1).mono ?_
    rintro w2 ⟨v2, h2, t2, s2, n2, l2⟩
    exact ⟨v2, h2, by linarith, s1.trans s2, n1 + n2, by
      rw [l2, l1, List.append_assoc, List.replicate_append_replicate]⟩

/-- state of the exact simulator between the placement of the body and the transport of the soil -/
structure DInv (P : Pair F ℚ cell tol (1 : ℚ) (1 / 4) N C) (lo hi vol : ℤ) (s : SimOut F)
    (z : SimOut ℚ) : Prop where
  rep : Rep P 1 s z
  body : BodyOK 1 z
  soil : Stored 1 z
  T : TerrainAbove (lo : ℚ) z
  B : ∀ k i j, z.InGrid i j → k < 4 → (lo : ℚ) ≤ z.body k i j ∧ z.body k i j ≤ hi
  total : totalSoil z ≤ vol + lo * (gridCols z).card

theorem updateBodySoil_shadow {pos : Vec3 F} {ori : Quat F} {g : Grid F} (hg : g.cellZ = cell)
    {body : Body F} {w : World F} {v : World ℚ} (h : WRep P (DInv P lo hi vol) w v) :
    Post (updateBodySoil pos ori g body tol w) fun x => ∃ v', WRep P (CInv P lo hi vol 0) x.1 v' ∧
      totalSoil v'.out = totalSoil v.out ∧ SameBody v.out v'.out ∧
      ∃ n, v'.log = v.log ++ List.replicate n .soilToTerrain := by
  unfold updateBodySoil
  dsimp only
  intro x hx
  obtain ⟨s1, e1, hx⟩ := bind_eq_ok.mp hx
  obtain ⟨z1, e2, r1⟩ := (resetBodySoil_sim h.out.rep.E h.out.rep).of_ok e1
  obtain ⟨z1', e2', em⟩ := reset_emptied h.out.soil
  rw [e2] at e2'
  cases e2'
  have hlen : gridCols { z1 with bodySoilPos := [] } = gridCols v.out := by
    unfold gridCols; rw [em.same.2.2.1, em.same.2.2.2]
  have hig : ∀ i j, ({ z1 with bodySoilPos := [] } : SimOut ℚ).InGrid i j ↔ v.out.InGrid i j := by
    intro i j; unfold SimOut.InGrid; rw [em.same.2.2.1, em.same.2.2.2]
  have hn : 0 ≤ (v.out.bodySoilPos.map fun f => f.h).sum := by
    apply List.sum_nonneg
    intro x hx
    obtain ⟨f, hf, rfl⟩ := List.mem_map.mp hx
    exact h.out.soil.entry_nonneg f hf
  have h1 : WRep P (CInv P lo hi vol (v.out.bodySoilPos.map fun f => f.h).sum)
      { w with out := { s1 with bodySoilPos := [] } } { v with out := { z1 with bodySoilPos := [] } } := by
    refine ⟨⟨r1.setPos .nil, h.out.body.congr em.same.1 em.same.2.2.1 em.same.2.2.2, em.soil, ?_, ?_, hn,
      ?_⟩, h.rng, h.log⟩
    · intro i j hij
      rw [em.terrain]; exact h.out.T i j ((hig i j).mp hij)
    · intro k i j hij hk
      rw [em.same.1]; exact h.out.B k i j ((hig i j).mp hij) hk
    · rw [hlen, em.total]; exact h.out.total
  obtain ⟨w2, e3, hx⟩ := bind_eq_ok.mp hx
  cases hx
  obtain ⟨v2, h2, t2, s2, n2, l2⟩ := updateEntries_shadow hP hb hg h.out.rep.E h.out.soil.entry_nonneg h1 _ e3
  exact ⟨v2, h2, t2.trans em.total, em.same.trans s2, n2, l2⟩

end transport

end Soil
