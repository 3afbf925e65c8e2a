import Verif.Proof.Ops
import Verif.Spec.Transport

/-! # Transport of the soil resting on the body -/

set_option linter.unusedSectionVars false
set_option linter.unusedSimpArgs false

namespace Soil

variable {K : Type} [Field K] [LinearOrder K] [FloorRing K] [Transc K] [IsStrictOrderedRing K]

theorem entrySum_grid (s : SimOut K) (l : List (BodySoil K))
    (h : ∀ e ∈ l, s.InGrid e.ii e.jj ∧ (e.ind = 0 ∨ e.ind = 2)) :
    ∑ p ∈ gridCols s, (entrySum l 0 p.1 p.2 + entrySum l 2 p.1 p.2) = (l.map fun e => e.h).sum := by
  induction l with
  | nil => simp
  | cons e l ih =>
    have ih' := ih fun x hx => h x (List.mem_cons_of_mem _ hx)
    obtain ⟨hg, hk⟩ := h e List.mem_cons_self
    rw [List.map_cons, List.sum_cons, ← ih']
    have : ∀ p ∈ gridCols s, (entrySum (e :: l) 0 p.1 p.2 + entrySum (e :: l) 2 p.1 p.2) =
        (if p = (e.ii, e.jj) then e.h else 0) + (entrySum l 0 p.1 p.2 + entrySum l 2 p.1 p.2) := by
      rintro ⟨i, j⟩ -
      rw [entrySum_cons, entrySum_cons]
      dsimp only
      by_cases hc : e.ii = i ∧ e.jj = j
      · obtain ⟨rfl, rfl⟩ := hc
        rcases hk with hk | hk <;> simp [hk] <;> ring
      · have hc' : ¬ ((i, j) = (e.ii, e.jj)) := by
          rintro h'; cases h'; exact hc ⟨rfl, rfl⟩
        rw [if_neg fun h => hc h.2, if_neg fun h => hc h.2, if_neg hc']; ring
    rw [Finset.sum_congr rfl this, Finset.sum_add_distrib, Finset.sum_ite_eq' (gridCols s),
      if_pos (mem_gridCols.mpr hg)]

theorem SoilOK.stored {c : K} {s : SimOut K} (h : SoilOK c s) : Stored c s :=
  ⟨h.terrain_al, h.soil_al, h.entries, h.entry_al, h.entry_nonneg, h.booked, h.listed⟩

theorem resetBodySoil_spec (l : List (BodySoil K)) (s : SimOut K)
    (hl : ∀ e ∈ l, s.InGrid e.ii e.jj ∧ (e.ind = 0 ∨ e.ind = 2)) :
    Ok (resetBodySoil l s) fun s' => s' = { s with bodySoil := s'.bodySoil } ∧
      (∀ k i j, s'.bodySoil k i j = s.bodySoil k i j ∨ s'.bodySoil k i j = 0) ∧
      ∀ k i j, k = 0 ∨ k = 2 →
        ((∃ e ∈ l, e.ind = k ∧ e.ii = i ∧ e.jj = j) ∨ ¬ HasSoil s k i j) → ¬ HasSoil s' k i j := by
  induction l generalizing s with
  | nil => exact Ok.ok ⟨rfl, fun _ _ _ => .inl rfl, by rintro k i j - (⟨e, he, -⟩ | h); simp at he; exact h⟩
  | cons e l ih =>
    obtain ⟨hg, hk⟩ := hl e List.mem_cons_self
    unfold resetBodySoil
    refine Ok.guard ⟨hg, by omega⟩ ?_
    refine (ih _ fun x hx => by exact hl x (List.mem_cons_of_mem _ hx)).mono ?_
    rintro s' ⟨h1, hor, h2⟩
    refine ⟨by rw [h1]; rfl, ?_, ?_⟩
    · intro k i j
      rcases hor k i j with h | h
      · rw [h]
        simp only [SimOut.setBS, upd3, ex_zero]
        split_ifs <;> simp
      · exact .inr h
    intro k i j hk' hor
    apply h2 k i j hk'
    by_cases hm : ∃ x ∈ l, x.ind = k ∧ x.ii = i ∧ x.jj = j
    · exact .inl hm
    right
    by_cases hc : e.ind = k ∧ e.ii = i ∧ e.jj = j
    · obtain ⟨rfl, rfl, rfl⟩ := hc
      simp [HasSoil, SimOut.setBS, upd3]
    · have hn : ¬ HasSoil s k i j := by
        rcases hor with ⟨x, hx, h3⟩ | h
        · rcases List.mem_cons.mp hx with rfl | hx
          · exact absurd h3 hc
          · exact absurd ⟨x, hx, h3⟩ hm
        · exact h
      obtain ⟨e1, e2⟩ := layerSoil_of_not_hasSoil hn
      simp only [HasSoil, SimOut.setBS, upd3]
      have hz : (FOps.zero : K) = 0 := ex_zero
      rw [hz, e1, e2]
      simp

/-- The nine columns examined -/
theorem exploreOrder_near (dx dy : K) : ∀ d ∈ exploreOrder dx dy, -1 ≤ d.1 ∧ d.1 ≤ 1 ∧ -1 ≤ d.2 ∧ d.2 ≤ 1 := by
  intro d hd
  unfold exploreOrder at hd
  dsimp only at hd
  have h1 : ∀ b : Bool, (if b = true then (-1 : ℤ) else 1) = -1 ∨ (if b = true then (-1 : ℤ) else 1) = 1 := by
    intro b; cases b <;> simp
  rcases h1 (FOps.signBit dx) with e1 | e1 <;> rcases h1 (FOps.signBit dy) with e2 | e2 <;>
    rw [e1, e2] at hd <;> split_ifs at hd <;> simp at hd <;>
    rcases hd with rfl | rfl | rfl | rfl | rfl | rfl | rfl | rfl | rfl <;> simp

theorem exploreOrder_all (dx dy : K) (a b : ℤ) (ha : -1 ≤ a) (ha' : a ≤ 1) (hb : -1 ≤ b)
    (hb' : b ≤ 1) : (a, b) ∈ exploreOrder dx dy := by
  unfold exploreOrder
  dsimp only
  have h1 : ∀ b : Bool, (if b = true then (-1 : ℤ) else 1) = -1 ∨ (if b = true then (-1 : ℤ) else 1) = 1 := by
    intro b; cases b <;> simp
  have h2 : a = -1 ∨ a = 0 ∨ a = 1 := by omega
  have h3 : b = -1 ∨ b = 0 ∨ b = 1 := by omega
  rcases h1 (FOps.signBit dx) with e1 | e1 <;> rcases h1 (FOps.signBit dy) with e2 | e2 <;>
    rw [e1, e2] <;> split_ifs <;> rcases h2 with rfl | rfl | rfl <;> rcases h3 with rfl | rfl | rfl <;>
    simp

theorem exploreOrder_head (dx dy : K) : ∃ l, exploreOrder dx dy = (0, 0) :: l := by
  unfold exploreOrder
  dsimp only
  split_ifs <;> exact ⟨_, rfl⟩

/-- What a search that has examined the columns in `P` knows -/
structure SeenOK (s : SimOut K) (z md d0 : K) (P : ℤ → ℤ → Prop) (c : Closest K) : Prop where
  far : ∀ i j k, P i j → k = 0 ∨ k = 2 → HasBody s k i j →
    md ≤ |z - s.body (k + 1) i j| ∧ c.dist ≤ |z - s.body (k + 1) i j|
  le : c.dist ≤ d0
  loc : (c.dist = d0 ∧ c.loc = none) ∨ ∃ k i j, c.loc = some (k, i, j) ∧ c.dist < d0 ∧
    (k = 0 ∨ k = 2) ∧ P i j ∧ s.InGrid i j ∧ HasBody s k i j ∧ c.dist = |z - s.body (k + 1) i j|

theorem bodyAbs_iff (s : SimOut K) (k : ℕ) (i j : ℤ) : s.bodyAbs k i j = true ↔ ¬ HasBody s k i j := by
  unfold SimOut.bodyAbs HasBody
  simp

/-- layers examined so far: those of the columns in `P`, and the layers in `L` of column `(i, j)` -/
theorem tryLayer_spec (s : SimOut K) (z md d0 : K) (k : ℕ) (i j : ℤ) (c : Closest K)
    (hk : k = 0 ∨ k = 2) (hij : s.InGrid i j) (hle : c.dist ≤ d0) :
    (tryLayer s z md k i j c = none ∧ HasBody s k i j ∧ |z - s.body (k + 1) i j| < md) ∨
    ∃ c', tryLayer s z md k i j c = some c' ∧ c'.dist ≤ c.dist ∧
      (HasBody s k i j → md ≤ |z - s.body (k + 1) i j| ∧ c'.dist ≤ |z - s.body (k + 1) i j|) ∧
      (c' = c ∨ (HasBody s k i j ∧ c'.loc = some (k, i, j) ∧ c'.dist = |z - s.body (k + 1) i j| ∧
        c'.dist < c.dist)) := by
  unfold tryLayer
  by_cases hb : HasBody s k i j
  · have h1 : s.bodyAbs k i j = false := by
      rw [← Bool.not_eq_true, bodyAbs_iff, not_not]; exact hb
    rw [h1]
    simp only [Bool.false_eq_true, if_false, ex_abs, ex_sub, ex_lt, decide_eq_true_eq]
    by_cases h2 : |z - s.body (k + 1) i j| < md
    · left; rw [if_pos h2]; exact ⟨rfl, hb, h2⟩
    · right
      rw [if_neg h2]
      by_cases h3 : |z - s.body (k + 1) i j| < c.dist
      · rw [if_pos h3]
        exact ⟨_, rfl, h3.le, fun _ => ⟨not_lt.mp h2, le_rfl⟩, .inr ⟨hb, rfl, rfl, h3⟩⟩
      · rw [if_neg h3]
        exact ⟨_, rfl, le_rfl, fun _ => ⟨not_lt.mp h2, not_lt.mp h3⟩, .inl rfl⟩
  · right
    rw [if_pos ((bodyAbs_iff s k i j).mpr hb)]
    exact ⟨c, rfl, le_rfl, fun h => absurd h hb, .inl rfl⟩

theorem searchWall_spec (s : SimOut K) (z md d0 : K) (iN jN : ℤ) (ds : List (ℤ × ℤ)) :
    ∀ (P : ℤ → ℤ → Prop) (c : Closest K), SeenOK s z md d0 P c →
      Post (searchWall s z md iN jN ds c) fun r =>
        (∀ d, ds.head? = some d → s.InGrid (iN + d.1) (jN + d.2)) ∧
        match r with
        | .inl (k, i, j) => (k = 0 ∨ k = 2) ∧ s.InGrid i j ∧ HasBody s k i j ∧
            |z - s.body (k + 1) i j| < md ∧ ∃ d ∈ ds, i = iN + d.1 ∧ j = jN + d.2
        | .inr c' => SeenOK s z md d0 (fun i j => P i j ∨ ∃ d ∈ ds, i = iN + d.1 ∧ j = jN + d.2) c' := by
  induction ds with
  | nil =>
    intro P c hc
    refine Post.ok ⟨by simp, ?_⟩
    simpa using hc
  | cons d ds ih =>
    intro P c hc
    unfold searchWall
    dsimp only
    refine Post.guard fun hg => ?_
    have hhead : ∀ d', (d :: ds).head? = some d' → s.InGrid (iN + d'.1) (jN + d'.2) := by
      intro d' h; simp at h; subst h; exact hg
    have hstep : ∀ c c' : Closest K, ∀ k, k = 0 ∨ k = 2 → ∀ Q : ℤ → ℤ → Prop, True → True := by
      intros; trivial
    rcases tryLayer_spec s z md d0 0 (iN + d.1) (jN + d.2) c (.inl rfl) hg hc.le with
      ⟨e, hb, hd⟩ | ⟨c1, e, l1, f1, g1⟩
    · rw [e]
      exact Post.ok ⟨hhead, .inl rfl, hg, hb, hd, d, List.mem_cons_self, rfl, rfl⟩
    rw [e]
    dsimp only
    have hc1 : c1.dist ≤ d0 := l1.trans hc.le
    rcases tryLayer_spec s z md d0 2 (iN + d.1) (jN + d.2) c1 (.inr rfl) hg hc1 with
      ⟨e, hb, hd⟩ | ⟨c2, e, l2, f2, g2⟩
    · rw [e]
      exact Post.ok ⟨hhead, .inr rfl, hg, hb, hd, d, List.mem_cons_self, rfl, rfl⟩
    rw [e]
    dsimp only
    have hS : SeenOK s z md d0 (fun i j => P i j ∨ (i = iN + d.1 ∧ j = jN + d.2)) c2 := by
      refine ⟨?_, l2.trans hc1, ?_⟩
      · rintro i j k (hp | ⟨rfl, rfl⟩) hk hb
        · obtain ⟨h1, h2⟩ := hc.far i j k hp hk hb
          exact ⟨h1, (l2.trans l1).trans h2⟩
        · rcases hk with rfl | rfl
          · exact ⟨(f1 hb).1, l2.trans (f1 hb).2⟩
          · exact f2 hb
      · rcases g2 with rfl | ⟨hb, q1, q2, q3⟩
        · rcases g1 with rfl | ⟨hb, q1, q2, q3⟩
          · rcases hc.loc with h | ⟨k, i, j, h1, h2, h3, h4, h5, h6, h7⟩
            · exact .inl h
            · exact .inr ⟨k, i, j, h1, h2, h3, .inl h4, h5, h6, h7⟩
          · exact .inr ⟨_, _, _, q1, lt_of_lt_of_le q3 hc.le, .inl rfl, .inr ⟨rfl, rfl⟩, hg, hb, q2⟩
        · exact .inr ⟨_, _, _, q1, lt_of_lt_of_le q3 hc1, .inr rfl, .inr ⟨rfl, rfl⟩, hg, hb, q2⟩
    refine (ih _ c2 hS).mono ?_
    rintro r ⟨-, h2⟩
    refine ⟨hhead, ?_⟩
    rcases r with ⟨k, i, j⟩ | c'
    · obtain ⟨r1, r2, r3, r4, d', r5, r6⟩ := h2
      exact ⟨r1, r2, r3, r4, d', List.mem_cons_of_mem _ r5, r6⟩
    · have hP : (fun i j => (P i j ∨ (i = iN + d.1 ∧ j = jN + d.2)) ∨
          ∃ d ∈ ds, i = iN + d.1 ∧ j = jN + d.2) =
          fun i j => P i j ∨ ∃ d' ∈ d :: ds, i = iN + d'.1 ∧ j = jN + d'.2 := by
        funext i j
        apply propext
        simp only [List.mem_cons, exists_eq_or_imp, or_assoc]
      dsimp only at h2 ⊢
      rw [← hP]
      exact h2

/-- a layer near enough in the column searched first -/
theorem searchWall_first (s : SimOut K) (z md : K) (iN jN : ℤ) (d : ℤ × ℤ) (ds : List (ℤ × ℤ)) (c : Closest K)
    (h : ∃ k, (k = 0 ∨ k = 2) ∧ HasBody s k (iN + d.1) (jN + d.2) ∧
      |z - s.body (k + 1) (iN + d.1) (jN + d.2)| < md) :
    Post (searchWall s z md iN jN (d :: ds) c) fun r => ∃ k, r = .inl (k, iN + d.1, jN + d.2) := by
  obtain ⟨k, hk, hb, hz⟩ := h
  have hn : ∀ c, tryLayer s z md k (iN + d.1) (jN + d.2) c = none := by
    intro c
    unfold tryLayer
    have h1 : s.bodyAbs k (iN + d.1) (jN + d.2) = false := by
      rw [← Bool.not_eq_true, bodyAbs_iff, not_not]; exact hb
    rw [h1]
    simp only [Bool.false_eq_true, if_false, ex_abs, ex_sub, ex_lt, decide_eq_true_eq]
    rw [if_pos hz]
  unfold searchWall
  refine Post.guard fun _ => ?_
  rcases hk with rfl | rfl
  · rw [hn]
    exact Post.ok ⟨0, rfl⟩
  · cases tryLayer s z md 0 (iN + d.1) (jN + d.2) c with
    | none => exact Post.ok ⟨0, rfl⟩
    | some c' =>
      dsimp only
      rw [hn]
      exact Post.ok ⟨2, rfl⟩

theorem searchWall_ok (s : SimOut K) (z md : K) (iN jN : ℤ) (ds : List (ℤ × ℤ))
    (hg : ∀ d ∈ ds, s.InGrid (iN + d.1) (jN + d.2)) (c : Closest K) :
    ∃ r, searchWall s z md iN jN ds c = .ok r := by
  induction ds generalizing c with
  | nil => exact ⟨_, rfl⟩
  | cons d ds ih =>
    unfold searchWall
    dsimp only
    rw [guardOob_of (hg d List.mem_cons_self), ok_bind]
    split
    · exact ⟨_, rfl⟩
    · split
      · exact ⟨_, rfl⟩
      · exact ih (fun x hx => hg x (List.mem_cons_of_mem _ hx)) _

theorem placeOn_eq (s : SimOut K) (k : ℕ) (i j : ℤ) (e : BodySoil K) (h : K) :
    placeOn s k i j e h = dep s ⟨k, i, j, e.xb, e.yb, e.zb, h⟩ := by
  unfold placeOn dep SimOut.pushPos SimOut.setBS
  dsimp only
  congr 1
  funext k' a b
  simp only [upd3, ex_add, ex_sub, layerSoil]
  by_cases h1 : a = i ∧ b = j
  · obtain ⟨rfl, rfl⟩ := h1
    by_cases h2 : k' = k
    · subst h2; simp
    · by_cases h3 : k' = k + 1
      · subst h3; simp; ring
      · simp [h2, h3]
  · rw [if_neg fun h => h1 h.2, if_neg fun h => h1 h.2, if_neg fun h => h1 h.2,
      if_neg fun h => h1 h.2]

theorem round_al {c x : K} (hc : 0 < c) (hx : Al c x) : c * ((roundAway (x / c) : ℤ) : K) = x := by
  obtain ⟨n, rfl⟩ := hx
  rw [mul_div_assoc, div_self hc.ne', mul_one, roundAway_intCast, mul_comm]

theorem small_al {c x : K} (hc : 0 < c) (hx : Al c x) (h0 : 0 ≤ x) (h : x < ((9 / 10 : ℚ) : K) * c) :
    x = 0 := by
  by_contra hn
  have : (0 : K) + c ≤ x := Al.add_le hc Al.zero hx (lt_of_le_of_ne h0 (Ne.symm hn))
  have h9 : ((9 / 10 : ℚ) : K) = 9 / 10 := by push_cast; ring
  rw [h9] at h
  linarith

/-- What happens to one entry -/
inductive Transported (g : Grid K) (tol : K) (q : Vec3 K) (e : BodySoil K) (w : World K) :
    World K → Prop
  | zero : e.h = 0 → Transported g tol q e w w
  | placed (k : ℕ) (i j : ℤ) : 0 < e.h → Chosen g tol w.out q k i j →
      Transported g tol q e w (w.mapOut fun s => dep s ⟨k, i, j, e.xb, e.yb, e.zb, e.h⟩)
  | dropped : 0 < e.h → NoWall g w.out q → w.out.InGrid (colX g q) (colY g q) →
      Transported g tol q e w
        ((w.mapOut fun s => addT s (colX g q) (colY g q) e.h).warn .soilToTerrain)

theorem updateEntry_spec (pos : Vec3 K) (ori : Quat K) (g : Grid K) (body : Body K) (tol : K)
    (e : BodySoil K) (w : World K) (hc : 0 < g.cellZ) (ha : Al g.cellZ e.h) (h0 : 0 ≤ e.h) :
    Post (updateEntry pos ori g body tol e w)
      (Transported g tol (movedTo pos ori e) e w) := by
  unfold updateEntry
  by_cases hs : e.h < ((9 / 10 : ℚ) : K) * g.cellZ
  · rw [if_pos (by simpa using hs)]
    exact Post.ok (.zero (small_al hc ha h0 hs))
  have hp : 0 < e.h := by
    have h9 : ((9 / 10 : ℚ) : K) = 9 / 10 := by push_cast; ring
    rw [h9] at hs
    linarith [not_lt.mp hs]
  rw [if_neg (by simpa using hs)]
  dsimp only
  have hr : FOps.mul g.cellZ (FOps.round (FOps.div e.h g.cellZ)) = e.h := by
    simp only [ex_mul, ex_round, ex_div]; exact round_al hc ha
  rw [hr]
  have hq : (calcRotationQuaternion ori ⟨e.xb, e.yb, e.zb⟩).addF pos = movedTo pos ori e := rfl
  rw [hq]
  generalize movedTo pos ori e = q
  simp only [ex_round, ex_add, ex_div, ex_ofInt, castInt_exact, truncZ_intCast, ok_bind]
  change Post (searchWall w.out q.z _ (colX g q) (colY g q) _ _ >>= _) _
  set ds := exploreOrder (F := K) _ _ with hds
  have hnear : ∀ i j, (∃ d ∈ ds, i = colX g q + d.1 ∧ j = colY g q + d.2) ↔
      (colX g q - 1 ≤ i ∧ i ≤ colX g q + 1 ∧ colY g q - 1 ≤ j ∧ j ≤ colY g q + 1) := by
    intro i j
    constructor
    · rintro ⟨d, hd, rfl, rfl⟩
      have := exploreOrder_near _ _ d hd
      omega
    · rintro ⟨h1, h2, h3, h4⟩
      exact ⟨(i - colX g q, j - colY g q), exploreOrder_all _ _ _ _ (by omega) (by omega) (by omega)
        (by omega), by simp, by simp⟩
  refine Post.bind (P := fun r => _ ∧ ((∃ k', (k' = 0 ∨ k' = 2) ∧ HasBody w.out k' (colX g q) (colY g q) ∧
      |q.z - w.out.body (k' + 1) (colX g q) (colY g q)| < g.cellZ + tol) →
        ∃ k, r = .inl (k, colX g q, colY g q))) (fun r h =>
    ⟨searchWall_spec w.out q.z (g.cellZ + tol) ((2 * g.halfZ : ℤ) : K) _ _ ds
    (fun _ _ => False) ⟨((2 * g.halfZ : ℤ) : K), none⟩
    ⟨fun _ _ _ h => h.elim, le_rfl, .inl ⟨rfl, rfl⟩⟩ r h, fun hw => ?_⟩) ?_
  · obtain ⟨l, hl⟩ := exploreOrder_head (K := K) _ _
    rw [hds, hl] at h
    have := searchWall_first w.out q.z (g.cellZ + tol) (colX g q) (colY g q) (0, 0) l _ (by simpa using hw) r h
    simpa using this
  rintro r ⟨⟨hhead, hr⟩, hown⟩
  have hin : w.out.InGrid (colX g q) (colY g q) := by
    obtain ⟨l, hl⟩ := exploreOrder_head (K := K) _ _
    have := hhead (0, 0) (by rw [hds, hl]; rfl)
    simpa using this
  rcases r with ⟨k, i, j⟩ | c'
  · obtain ⟨r1, r2, r3, r4, r5⟩ := hr
    obtain ⟨n1, n2, n3, n4⟩ := (hnear i j).mp r5
    refine Post.ok ?_
    simp only [placeOn_eq]
    exact .placed k i j hp ⟨r1, r2, r3, ⟨n1, n2⟩, ⟨n3, n4⟩, .inl r4, fun hw => by
      obtain ⟨k', hk'⟩ := hown hw
      simp only [Sum.inl.injEq, Prod.mk.injEq] at hk'
      exact hk'.2⟩
  · dsimp only at hr ⊢
    have hfar : ∀ k' i' j', k' = 0 ∨ k' = 2 → colX g q - 1 ≤ i' → i' ≤ colX g q + 1 →
        colY g q - 1 ≤ j' → j' ≤ colY g q + 1 → HasBody w.out k' i' j' →
        c'.dist ≤ |q.z - w.out.body (k' + 1) i' j'| := by
      intro k' i' j' hk' h1 h2 h3 h4 hb
      exact (hr.far i' j' k' (.inr ((hnear i' j').mpr ⟨h1, h2, h3, h4⟩)) hk' hb).2
    rcases hr.loc with ⟨l1, l2⟩ | ⟨k, i, j, l1, l2, l3, l4, l5, l6, l7⟩
    · rw [if_neg (by simp [l1])]
      refine Post.ok ?_
      refine .dropped hp ?_ hin
      intro k' i' j' hk' h1 h2 h3 h4 hb
      have := hfar k' i' j' hk' h1 h2 h3 h4 hb
      rw [l1] at this
      push_cast at this
      exact this
    · rw [if_pos (by rw [ex_ne]; exact decide_eq_true l2.ne), l1]
      refine Post.ok ?_
      simp only [placeOn_eq]
      rcases l4 with h | h
      · exact h.elim
      obtain ⟨n1, n2, n3, n4⟩ := (hnear i j).mp h
      refine .placed k i j hp ⟨l3, l5, l6, ⟨n1, n2⟩, ⟨n3, n4⟩, .inr ?_, fun hw => by
        obtain ⟨k', hk'⟩ := hown hw
        simp at hk'⟩
      rw [← l7]
      exact hfar

theorem updateEntry_ok (pos : Vec3 K) (ori : Quat K) (g : Grid K) (body : Body K) (tol : K)
    (e : BodySoil K) (w : World K)
    (hg : 9 / 10 * g.cellZ ≤ e.h → ∀ i j, colX g (movedTo pos ori e) - 1 ≤ i →
      i ≤ colX g (movedTo pos ori e) + 1 →
      colY g (movedTo pos ori e) - 1 ≤ j → j ≤ colY g (movedTo pos ori e) + 1 → w.out.InGrid i j) :
    ∃ w', updateEntry pos ori g body tol e w = .ok w' := by
  unfold updateEntry
  by_cases hs : FOps.lt e.h (FOps.mul (FOps.ofRat (9 / 10)) g.cellZ) = true
  · rw [if_pos hs]; exact ⟨_, rfl⟩
  rw [if_neg hs]
  replace hg := hg (by simpa using hs)
  dsimp only
  have hq : (calcRotationQuaternion ori ⟨e.xb, e.yb, e.zb⟩).addF pos = movedTo pos ori e := rfl
  rw [hq]
  generalize movedTo pos ori e = q at *
  simp only [ex_round, ex_add, ex_div, ex_ofInt, castInt_exact, truncZ_intCast, ok_bind]
  change ∃ w', (searchWall w.out q.z _ (colX g q) (colY g q) _ _ >>= _) = .ok w'
  set ds := exploreOrder (F := K) _ _ with hds
  obtain ⟨r, hr⟩ := searchWall_ok w.out q.z (g.cellZ + tol) (colX g q) (colY g q) ds (by
    intro d hd
    have := exploreOrder_near _ _ d hd
    exact hg _ _ (by omega) (by omega) (by omega) (by omega)) ⟨((2 * g.halfZ : ℤ) : K), none⟩
  have hsp := (searchWall_spec w.out q.z (g.cellZ + tol) ((2 * g.halfZ : ℤ) : K) _ _ ds
    (fun _ _ => False) ⟨((2 * g.halfZ : ℤ) : K), none⟩
    ⟨fun _ _ _ h => h.elim, le_rfl, .inl ⟨rfl, rfl⟩⟩ r hr).2
  rw [hr, ok_bind]
  rcases r with ⟨k, i, j⟩ | c'
  · exact ⟨_, rfl⟩
  · dsimp only at hsp ⊢
    rcases hsp.loc with ⟨l1, l2⟩ | ⟨k, i, j, l1, l2, l3, l4, l5, l6, l7⟩
    · rw [if_neg (by simp [l1])]; exact ⟨_, rfl⟩
    · rw [if_pos (by rw [ex_ne]; exact decide_eq_true l2.ne), l1]; exact ⟨_, rfl⟩

/-! ## All entries -/

theorem Chosen.congr {g : Grid K} {tol : K} {s s' : SimOut K} {q : Vec3 K} {k : ℕ} {i j : ℤ}
    (h : Chosen g tol s q k i j) (hb : SameBody s' s) : Chosen g tol s' q k i j := by
  obtain ⟨b1, -, b3, b4⟩ := hb
  obtain ⟨h1, h2, h3, h4, h5, h6, h7⟩ := h
  refine ⟨h1, ?_, ?_, h4, h5, ?_, ?_⟩
  · unfold SimOut.InGrid at h2 ⊢; rw [b3, b4] at h2; exact h2
  · unfold HasBody at h3 ⊢; rw [b1] at h3; exact h3
  · unfold HasBody at h6; rw [b1] at h6; exact h6
  · unfold HasBody at h7; rw [b1] at h7; exact h7

theorem NoWall.congr {g : Grid K} {s s' : SimOut K} {q : Vec3 K} (h : NoWall g s q)
    (hb : SameBody s' s) : NoWall g s' q := by
  unfold NoWall HasBody at h ⊢; rw [hb.1] at h; exact h

/-- what the transport of the entries `l` has achieved -/
structure TransportAll (g : Grid K) (tol : K) (pos : Vec3 K) (ori : Quat K) (l : List (BodySoil K))
    (w w' : World K) : Prop where
  same : SameBody w.out w'.out
  soil : SoilOK g.cellZ w'.out
  total : totalSoil w'.out = totalSoil w.out + (l.map fun e => e.h).sum
  /-- every new entry is an old one on its new column -/
  sound : ∀ e' ∈ w'.out.bodySoilPos, e' ∈ w.out.bodySoilPos ∨ ∃ e ∈ l, 0 < e.h ∧
    e' = ⟨e'.ind, e'.ii, e'.jj, e.xb, e.yb, e.zb, e.h⟩ ∧
    Chosen g tol w.out (movedTo pos ori e) e'.ind e'.ii e'.jj
  /-- every old entry with soil has a new place -/
  complete : ∀ e ∈ l, 0 < e.h → (∃ k i j, ⟨k, i, j, e.xb, e.yb, e.zb, e.h⟩ ∈ w'.out.bodySoilPos ∧
    Chosen g tol w.out (movedTo pos ori e) k i j) ∨
    (NoWall g w.out (movedTo pos ori e) ∧ Warn.soilToTerrain ∈ w'.log)
  log : ∃ n, w'.log = w.log ++ List.replicate n .soilToTerrain ∧
    w'.out.bodySoilPos.length + n = w.out.bodySoilPos.length + (l.filter fun e => 0 < e.h).length ∧
    (n = 0 → w'.out.terrain = w.out.terrain)
  keep : ∀ e ∈ w.out.bodySoilPos, e ∈ w'.out.bodySoilPos

theorem updateEntries_spec (pos : Vec3 K) (ori : Quat K) (g : Grid K) (body : Body K) (tol : K)
    (hc : 0 < g.cellZ) (l : List (BodySoil K)) (hl : ∀ e ∈ l, Al g.cellZ e.h ∧ 0 ≤ e.h)
    (w : World K) (hB : BodyOK g.cellZ w.out) (hS : SoilOK g.cellZ w.out) :
    Post (updateEntries pos ori g body tol l w) (TransportAll g tol pos ori l w) := by
  induction l generalizing w with
  | nil =>
    exact Post.ok ⟨.refl _, hS, by simp, fun e he => .inl he, by simp,
      ⟨0, by simp, by simp, fun _ => rfl⟩, fun _ h => h⟩
  | cons e l ih =>
    obtain ⟨ha, h0⟩ := hl e List.mem_cons_self
    unfold updateEntries
    refine Post.bind (updateEntry_spec pos ori g body tol e w hc ha h0) ?_
    intro w1 h1
    -- one entry
    have hone : SameBody w.out w1.out ∧ SoilOK g.cellZ w1.out ∧
        totalSoil w1.out = totalSoil w.out + e.h := by
      cases h1 with
      | zero h => exact ⟨.refl _, hS, by rw [h, add_zero]⟩
      | placed k i j hp hch =>
        exact ⟨⟨rfl, rfl, rfl, rfl⟩, hS.dep hB hch.inGrid hch.layer hch.present hp.le ha,
          totalSoil_dep hch.inGrid hch.layer⟩
      | dropped hp hn hg =>
        exact ⟨⟨rfl, rfl, rfl, rfl⟩, hS.addT ha, totalSoil_addT hg⟩
    obtain ⟨b1, s1, t1⟩ := hone
    refine (ih (fun x hx => hl x (List.mem_cons_of_mem _ hx)) w1
      (hB.congr b1.1 b1.2.2.1 b1.2.2.2) s1).mono ?_
    intro w2 h2
    have hkeep : ∀ x ∈ w.out.bodySoilPos, x ∈ w1.out.bodySoilPos := by
      cases h1 with
      | zero h => exact fun _ h => h
      | placed k i j hp hch => exact fun x hx => List.mem_append_left _ hx
      | dropped hp hn hg => exact fun _ h => h
    refine ⟨b1.trans h2.same, h2.soil, ?_, ?_, ?_, ?_, fun x hx => h2.keep x (hkeep x hx)⟩
    · rw [h2.total, t1, List.map_cons, List.sum_cons]; ring
    · intro e' he'
      rcases h2.sound e' he' with h | ⟨x, hx, h3, h4, h5⟩
      · cases h1 with
        | zero _ => exact .inl h
        | placed k i j hp hch =>
          rcases List.mem_append.mp h with h | h
          · exact .inl h
          · obtain rfl := List.mem_singleton.mp h
            exact .inr ⟨e, List.mem_cons_self, hp, rfl, hch⟩
        | dropped _ _ _ => exact .inl h
      · exact .inr ⟨x, List.mem_cons_of_mem _ hx, h3, h4, h5.congr b1⟩
    · intro x hx hp
      rcases List.mem_cons.mp hx with rfl | hx
      · cases h1 with
        | zero h => exact absurd h hp.ne'
        | placed k i j hp hch =>
          exact .inl ⟨k, i, j, h2.keep _ (List.mem_append_right _ (List.mem_singleton.mpr rfl)), hch⟩
        | dropped hp hn hg =>
          right
          refine ⟨hn, ?_⟩
          obtain ⟨n, hn, -⟩ := h2.log
          rw [hn]
          simp [World.warn]
      · rcases h2.complete x hx hp with ⟨k, i, j, h3, h4⟩ | ⟨h3, h4⟩
        · exact .inl ⟨k, i, j, h3, h4.congr b1⟩
        · exact .inr ⟨h3.congr b1, h4⟩
    · obtain ⟨n, n1, n2, n3⟩ := h2.log
      cases h1 with
      | zero h =>
        exact ⟨n, n1, by rw [n2, List.filter_cons_of_neg (by simp [h])], n3⟩
      | placed k i j hp hch =>
        refine ⟨n, n1, ?_, n3⟩
        rw [n2, List.filter_cons_of_pos (by simpa using hp), List.length_cons]
        simp only [World.mapOut, dep, SimOut.pushPos, SimOut.setBS, List.length_append,
          List.length_singleton]
        omega
      | dropped hp hn hg =>
        refine ⟨n + 1, ?_, ?_, by omega⟩
        · rw [n1]
          simp only [World.warn, World.mapOut, List.append_assoc]
          rw [Nat.add_comm, List.replicate_add]
          rfl
        · rw [List.filter_cons_of_pos (by simpa using hp), List.length_cons]
          have : w2.out.bodySoilPos.length + n = w.out.bodySoilPos.length +
            (l.filter fun e => 0 < e.h).length := n2
          omega

theorem updateEntries_ok (pos : Vec3 K) (ori : Quat K) (g : Grid K) (body : Body K) (tol : K)
    (l : List (BodySoil K)) (w : World K)
    (hg : ∀ e ∈ l, 9 / 10 * g.cellZ ≤ e.h → ∀ i j, colX g (movedTo pos ori e) - 1 ≤ i → i ≤ colX g (movedTo pos ori e) + 1 →
      colY g (movedTo pos ori e) - 1 ≤ j → j ≤ colY g (movedTo pos ori e) + 1 → w.out.InGrid i j) :
    ∃ w', updateEntries pos ori g body tol l w = .ok w' := by
  induction l generalizing w with
  | nil => exact ⟨_, rfl⟩
  | cons e l ih =>
    obtain ⟨w1, h1⟩ := updateEntry_ok pos ori g body tol e w (hg e List.mem_cons_self)
    unfold updateEntries
    rw [h1, ok_bind]
    refine ih w1 fun x hx hh i j a1 a2 a3 a4 => ?_
    rw [(updateEntry_loc pos ori g body tol e w _ h1).1.inGrid]
    exact hg x (List.mem_cons_of_mem _ hx) hh i j a1 a2 a3 a4

theorem updateBodySoil_spec (pos : Vec3 K) (ori : Quat K) (g : Grid K) (body : Body K) (tol : K)
    (hc : 0 < g.cellZ) (w : World K) (hB : BodyOK g.cellZ w.out) (hS : Stored g.cellZ w.out) :
    Post (updateBodySoil pos ori g body tol w) fun x =>
      x.2 = { body with pos := pos, ori := ori } ∧
      SameBody w.out x.1.out ∧ SoilOK g.cellZ x.1.out ∧ totalSoil x.1.out = totalSoil w.out ∧
      (∀ e' ∈ x.1.out.bodySoilPos, ∃ e ∈ w.out.bodySoilPos, 0 < e.h ∧
        e' = ⟨e'.ind, e'.ii, e'.jj, e.xb, e.yb, e.zb, e.h⟩ ∧
        Chosen g tol w.out (movedTo pos ori e) e'.ind e'.ii e'.jj) ∧
      (∀ e ∈ w.out.bodySoilPos, 0 < e.h →
        (∃ k i j, ⟨k, i, j, e.xb, e.yb, e.zb, e.h⟩ ∈ x.1.out.bodySoilPos ∧
          Chosen g tol w.out (movedTo pos ori e) k i j) ∨
        (NoWall g w.out (movedTo pos ori e) ∧ Warn.soilToTerrain ∈ x.1.log)) ∧
      ∃ n, x.1.log = w.log ++ List.replicate n .soilToTerrain ∧
        x.1.out.bodySoilPos.length + n = (w.out.bodySoilPos.filter fun e => 0 < e.h).length ∧
        (n = 0 → x.1.out.terrain = w.out.terrain) := by
  unfold updateBodySoil
  dsimp only
  refine Post.bind (resetBodySoil_spec _ _ hS.entries).post ?_
  rintro s ⟨h1, hor, h2⟩
  have hno : ∀ k i j, w.out.InGrid i j → k = 0 ∨ k = 2 → s.bodySoil k i j = 0 ∧
      s.bodySoil (k + 1) i j = 0 := by
    intro k i j hij hk
    apply layerSoil_of_not_hasSoil
    apply h2 k i j hk
    by_cases hs : HasSoil w.out k i j
    · exact .inl (hS.listed k i j hij hk hs)
    · exact .inr hs
  have hlen : s.lenX = w.out.lenX ∧ s.lenY = w.out.lenY := by rw [h1]; exact ⟨rfl, rfl⟩
  have hbody : s.body = w.out.body := by rw [h1]
  have hter : s.terrain = w.out.terrain := by rw [h1]
  have harea : s.bodyArea = w.out.bodyArea := by rw [h1]
  have hin : ∀ i j, s.InGrid i j ↔ w.out.InGrid i j := by
    intro i j; unfold SimOut.InGrid; rw [hlen.1, hlen.2]
  set s0 : SimOut K := { s with bodySoilPos := [] } with hs0
  have hno' : ∀ k i j, s0.InGrid i j → k = 0 ∨ k = 2 → ¬ HasSoil s0 k i j := by
    intro k i j hij hk
    obtain ⟨a, b⟩ := hno k i j ((hin i j).mp hij) hk
    unfold HasSoil
    change ¬ (s.bodySoil k i j ≠ 0 ∨ s.bodySoil (k + 1) i j ≠ 0)
    rw [a, b]; simp
  have hB0 : BodyOK g.cellZ s0 := hB.congr hbody hlen.1 hlen.2
  have hS0 : SoilOK g.cellZ s0 := by
    constructor
    · intro i j hij
      show Al _ (s.terrain i j)
      rw [hter]; exact hS.terrain_al i j ((hin i j).mp hij)
    · intro k i j hij
      show Al _ (s.bodySoil k i j)
      rcases hor k i j with h | h <;> rw [h]
      · exact hS.soil_al k i j ((hin i j).mp hij)
      · exact Al.zero
    · intro k i j hij hk hs; exact absurd hs (hno' k i j hij hk)
    · intro e he; simp [hs0] at he
    · intro e he; simp [hs0] at he
    · intro e he; simp [hs0] at he
    · intro i j hij k hk
      obtain ⟨a, b⟩ := hno k i j ((hin i j).mp hij) hk
      show s.bodySoil (k + 1) i j - s.bodySoil k i j = entrySum [] k i j
      rw [a, b]; simp
    · intro k i j hij hk hs; exact absurd hs (hno' k i j hij hk)
  have hT0 : totalSoil s0 + (w.out.bodySoilPos.map fun e => e.h).sum = totalSoil w.out := by
    rw [← entrySum_grid w.out _ hS.entries]
    unfold totalSoil
    have hg : gridCols s0 = gridCols w.out := by
      unfold gridCols; show Finset.Ico 0 s.lenX ×ˢ Finset.Ico 0 s.lenY = _; rw [hlen.1, hlen.2]
    rw [hg, ← Finset.sum_add_distrib]
    refine Finset.sum_congr rfl ?_
    rintro ⟨i, j⟩ hp
    have hij := mem_gridCols.mp hp
    dsimp only at hij ⊢
    rw [← hS.booked i j hij 0 (.inl rfl), ← hS.booked i j hij 2 (.inr rfl)]
    obtain ⟨a, b⟩ := hno 0 i j hij (.inl rfl)
    obtain ⟨a', b'⟩ := hno 2 i j hij (.inr rfl)
    unfold columnSoil
    show s.terrain i j + (s.bodySoil (0 + 1) i j - s.bodySoil 0 i j) +
      (s.bodySoil (2 + 1) i j - s.bodySoil 2 i j) + _ = _
    rw [a, b, a', b', hter]
    ring
  have hsb : SameBody w.out s0 := ⟨hbody, harea, hlen.1, hlen.2⟩
  refine Post.bind (updateEntries_spec pos ori g body tol hc w.out.bodySoilPos
    (fun e he => ⟨hS.entry_al e he, hS.entry_nonneg e he⟩) { w with out := s0 } hB0 hS0) ?_
  intro w1 h1
  refine Post.ok ⟨rfl, hsb.trans h1.same, h1.soil, h1.total.trans hT0, ?_, ?_, ?_⟩
  · intro e' he'
    rcases h1.sound e' he' with h | ⟨e, he, h3, h4, h5⟩
    · simp [hs0] at h
    · exact ⟨e, he, h3, h4, h5.congr hsb⟩
  · intro e he hp
    rcases h1.complete e he hp with ⟨k, i, j, h3, h4⟩ | ⟨h3, h4⟩
    · exact .inl ⟨k, i, j, h3, h4.congr hsb⟩
    · exact .inr ⟨h3.congr hsb, h4⟩
  · obtain ⟨n, n1, n2, n3⟩ := h1.log
    refine ⟨n, n1, ?_, fun hn => (n3 hn).trans hter⟩
    simpa [hs0] using n2

theorem updateBodySoil_ok (pos : Vec3 K) (ori : Quat K) (g : Grid K) (body : Body K) (tol : K)
    (w : World K) (he : EntriesInGrid w.out)
    (hg : ∀ e ∈ w.out.bodySoilPos, 9 / 10 * g.cellZ ≤ e.h → ∀ i j, colX g (movedTo pos ori e) - 1 ≤ i →
      i ≤ colX g (movedTo pos ori e) + 1 → colY g (movedTo pos ori e) - 1 ≤ j →
      j ≤ colY g (movedTo pos ori e) + 1 → w.out.InGrid i j) :
    ∃ x, updateBodySoil pos ori g body tol w = .ok x := by
  obtain ⟨s, h1, h2, -, -⟩ := resetBodySoil_spec _ _ he
  unfold updateBodySoil
  dsimp only
  rw [h1, ok_bind]
  obtain ⟨w', h⟩ := updateEntries_ok pos ori g body tol w.out.bodySoilPos
    { w with out := { s with bodySoilPos := [] } } (by
      intro e he hh i j a1 a2 a3 a4
      have := hg e he hh i j a1 a2 a3 a4
      rw [h2]; exact this)
  rw [h, ok_bind]
  exact ⟨_, rfl⟩

/-! ## Transport without a warning -/

theorem updateEntries_quiet (pos : Vec3 K) (ori : Quat K) (g : Grid K) (body : Body K) (tol : K)
    (hc : 0 < g.cellZ) (l : List (BodySoil K)) (hl : ∀ e ∈ l, Al g.cellZ e.h ∧ 0 ≤ e.h)
    (w : World K) (hn : ∀ e ∈ l, 0 < e.h → ¬ NoWall g w.out (movedTo pos ori e)) :
    Post (updateEntries pos ori g body tol l w) fun w' =>
      w'.log = w.log ∧ w'.out.terrain = w.out.terrain := by
  induction l generalizing w with
  | nil => exact Post.ok ⟨rfl, rfl⟩
  | cons e l ih =>
    obtain ⟨ha, h0⟩ := hl e List.mem_cons_self
    unfold updateEntries
    refine Post.bind (updateEntry_spec pos ori g body tol e w hc ha h0) ?_
    intro w1 h1
    have hq : w1.log = w.log ∧ w1.out.terrain = w.out.terrain ∧ SameBody w.out w1.out := by
      cases h1 with
      | zero h => exact ⟨rfl, rfl, .refl _⟩
      | placed k i j hp hch => exact ⟨rfl, rfl, ⟨rfl, rfl, rfl, rfl⟩⟩
      | dropped hp hno hg => exact (hn e List.mem_cons_self hp hno).elim
    refine (ih (fun x hx => hl x (List.mem_cons_of_mem _ hx)) w1 fun x hx hp hno =>
      hn x (List.mem_cons_of_mem _ hx) hp (hno.congr hq.2.2)).mono ?_
    rintro w' ⟨h2, h3⟩
    exact ⟨h2.trans hq.1, h3.trans hq.2.1⟩

theorem updateBodySoil_quiet (pos : Vec3 K) (ori : Quat K) (g : Grid K) (body : Body K) (tol : K)
    (hc : 0 < g.cellZ) (w : World K) (hS : Stored g.cellZ w.out)
    (hn : ∀ e ∈ w.out.bodySoilPos, 0 < e.h → ¬ NoWall g w.out (movedTo pos ori e)) :
    Post (updateBodySoil pos ori g body tol w) fun x =>
      x.1.log = w.log ∧ x.1.out.terrain = w.out.terrain := by
  unfold updateBodySoil
  dsimp only
  refine Post.bind (resetBodySoil_spec _ _ hS.entries).post ?_
  rintro s ⟨h1, -, -⟩
  have hb : s.body = w.out.body := by rw [h1]
  have ht : s.terrain = w.out.terrain := by rw [h1]
  refine Post.bind (updateEntries_quiet pos ori g body tol hc w.out.bodySoilPos
    (fun e he => ⟨hS.entry_al e he, hS.entry_nonneg e he⟩) { w with out := { s with bodySoilPos := [] } } ?_) ?_
  · intro e he hp hno
    refine hn e he hp ?_
    unfold NoWall HasBody at hno ⊢
    change ∀ k i j, k = 0 ∨ k = 2 → _ → _ → _ → _ → (s.body k i j ≠ 0 ∨ s.body (k + 1) i j ≠ 0) →
      2 * (g.halfZ : K) ≤ |_ - s.body (k + 1) i j| at hno
    rwa [hb] at hno
  · rintro w1 ⟨h2, h3⟩
    exact Post.ok ⟨h2, h3.trans ht⟩

end Soil
