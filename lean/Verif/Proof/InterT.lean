import Verif.Proof.Ops
import Verif.Proof.Stability

/-! # Pushing terrain out of the body (`LocateIntersectingCells`, `MoveIntersectingBody`) -/

set_option linter.unusedSectionVars false
set_option linter.unusedSimpArgs false

namespace Soil

section Any
variable {F : Type} [FOps F]

theorem locateIntersectingIn_spec (s : SimOut F) (tol : F) (l : List (ℤ × ℤ))
    (hin : ∀ p ∈ l, s.InGrid p.1 p.2) (hl : l.Nodup) :
    Ok (locateIntersectingIn s tol l) fun cs => cs.Nodup ∧ ∀ k i j,
      (k, i, j) ∈ cs ↔ (k = 0 ∨ k = 2) ∧ (i, j) ∈ l ∧ intersectingAt s tol k i j = true := by
  induction l with
  | nil => exact Ok.ok ⟨List.nodup_nil, by simp⟩
  | cons p l ih =>
    unfold locateIntersectingIn
    refine Ok.guard (hin p List.mem_cons_self) ?_
    refine (ih (fun x hx => hin x (List.mem_cons_of_mem _ hx)) (List.nodup_cons.mp hl).2).bind ?_
    rintro cs ⟨hcs, hm⟩
    refine Ok.ok ⟨?_, ?_⟩
    · have h0 : ∀ k, (k, p.1, p.2) ∉ cs := fun k h =>
        (List.nodup_cons.mp hl).1 ((hm k p.1 p.2).mp h).2.1
      rw [List.nodup_append]
      refine ⟨?_, hcs, ?_⟩
      · split_ifs <;> simp
      · intro a ha b hb hab
        subst hab
        rcases List.mem_append.mp ha with h | h <;> split_ifs at h <;> simp at h <;>
          exact h0 _ (h ▸ hb)
    · intro k i j
      rw [List.mem_append, List.mem_append, hm, List.mem_cons]
      obtain ⟨a, b⟩ := p
      simp only [Prod.mk.injEq]
      constructor
      · rintro ((h | h) | h)
        · split_ifs at h with hc
          · simp at h; obtain ⟨rfl, rfl, rfl⟩ := h; exact ⟨.inl rfl, .inl ⟨rfl, rfl⟩, hc⟩
          · simp at h
        · split_ifs at h with hc
          · simp at h; obtain ⟨rfl, rfl, rfl⟩ := h; exact ⟨.inr rfl, .inl ⟨rfl, rfl⟩, hc⟩
          · simp at h
        · exact ⟨h.1, .inr h.2.1, h.2.2⟩
      · rintro ⟨hk, ⟨rfl, rfl⟩ | h, hc⟩
        · left
          rcases hk with rfl | rfl
          · left; simp [hc]
          · right; simp [hc]
        · exact .inr ⟨hk, h, hc⟩

theorem locateIntersectingIn_guard (s : SimOut F) (tol : F) (l : List (ℤ × ℤ)) :
    Post (locateIntersectingIn s tol l) fun _ => ∀ p ∈ l, s.InGrid p.1 p.2 := by
  induction l with
  | nil => exact Post.ok (by simp)
  | cons p l ih =>
    unfold locateIntersectingIn
    refine Post.guard fun hp => ?_
    refine ih.bind fun cs h => Post.ok ?_
    intro q hq
    rcases List.mem_cons.mp hq with rfl | hq
    · exact hp
    · exact h q hq

/-! ## No access outside the grid, and termination -/

/-- no body on the outermost ring -/
def BorderFree (s : SimOut F) : Prop :=
  ∀ i j, s.InGrid i j → OnBorder s i j → s.bodyAbs 0 i j = true ∧ s.bodyAbs 2 i j = true

theorem Local.bodyAbs {P : ℤ → ℤ → Prop} {s s' : SimOut F} (h : Local P s s') (k : ℕ) (i j : ℤ) :
    s'.bodyAbs k i j = s.bodyAbs k i j := by
  unfold SimOut.bodyAbs; rw [h.body.1]

theorem Local.onBorder {P : ℤ → ℤ → Prop} {s s' : SimOut F} (h : Local P s s') (i j : ℤ) :
    OnBorder s' i j ↔ OnBorder s i j := by
  unfold OnBorder; rw [h.body.2.2.1, h.body.2.2.2]

theorem Local.borderFree {P : ℤ → ℤ → Prop} {s s' : SimOut F} (h : Local P s s')
    (hb : BorderFree s) : BorderFree s' := by
  intro i j hij ho
  rw [h.bodyAbs, h.bodyAbs]
  exact hb i j ((h.inGrid i j).mp hij) ((h.onBorder i j).mp ho)

theorem mem_directions8 {d : ℤ × ℤ} : d ∈ directions8 ↔
    d = (1, 0) ∨ d = (-1, 0) ∨ d = (0, 1) ∨ d = (0, -1) ∨ d = (1, 1) ∨ d = (1, -1) ∨ d = (-1, 1) ∨
      d = (-1, -1) := by
  simp [directions8]

theorem spreadRing_ok (tol : F) (ii jj pp : ℤ) (ds : List (ℤ × ℤ)) (s : SimOut F) (h : F)
    (hin : ∀ d ∈ ds, s.InGrid (ii + d.1 * pp) (jj + d.2 * pp)) :
    Ok (spreadRing tol ii jj pp ds s h) fun x => Loc s x.1 ∧
      ((∃ d ∈ ds, s.bodyAbs 0 (ii + d.1 * pp) (jj + d.2 * pp) = true ∧
        s.bodyAbs 2 (ii + d.1 * pp) (jj + d.2 * pp) = true) → x.2 = FOps.zero) := by
  induction ds generalizing s h with
  | nil => exact Ok.ok ⟨.refl s, by simp⟩
  | cons d ds ih =>
    unfold spreadRing
    dsimp only
    refine Ok.guard (hin d List.mem_cons_self) ?_
    have hin' : ∀ x ∈ ds, s.InGrid (ii + x.1 * pp) (jj + x.2 * pp) :=
      fun x hx => hin x (List.mem_cons_of_mem _ hx)
    split_ifs with h1 h2 h3
    · exact Ok.ok ⟨(Local.refl s).setT trivial _, fun _ => rfl⟩
    · refine (ih (s.setT _ _ _) _ hin').mono fun x hx =>
        ⟨((Local.refl s).setT trivial _).trans hx.1, ?_⟩
      rintro ⟨y, hy, hb⟩
      rcases List.mem_cons.mp hy with rfl | hy
      · exact absurd (by simp [hb.1, hb.2]) h1
      · exact hx.2 ⟨y, hy, hb⟩
    · exact Ok.ok ⟨(Local.refl s).setT trivial _, fun _ => rfl⟩
    · refine (ih s _ hin').mono fun x hx => ⟨hx.1, ?_⟩
      rintro ⟨y, hy, hb⟩
      rcases List.mem_cons.mp hy with rfl | hy
      · exact absurd (by simp [hb.1, hb.2]) h1
      · exact hx.2 ⟨y, hy, hb⟩

/-- from a column inside the grid and off the border, one step further stays inside -/
theorem next_inGrid {s : SimOut F} {ii jj pp : ℤ} {d : ℤ × ℤ} (hd : d ∈ directions8)
    (h1 : s.InGrid (ii + d.1 * pp) (jj + d.2 * pp))
    (h2 : ¬ OnBorder s (ii + d.1 * pp) (jj + d.2 * pp)) :
    s.InGrid (ii + d.1 * (pp + 1)) (jj + d.2 * (pp + 1)) := by
  rw [mem_directions8] at hd
  unfold SimOut.InGrid OnBorder at *
  rcases hd with rfl | rfl | rfl | rfl | rfl | rfl | rfl | rfl <;> simp at h1 h2 ⊢ <;> omega

theorem spreadOut_ok (tol : F) (htol : FOps.lt tol FOps.zero = false) (ii jj : ℤ)
    (ds : List (ℤ × ℤ)) (hds : ∀ d, d ∈ ds ↔ d ∈ directions8) (fuel : ℕ) (pp : ℤ) (hpp : 0 ≤ pp)
    (s : SimOut F) (h : F) (hb : BorderFree s) (hij : s.InGrid ii jj)
    (hinv : FOps.lt tol h = true → ∀ d ∈ ds, s.InGrid (ii + d.1 * pp) (jj + d.2 * pp) ∧
      ¬ OnBorder s (ii + d.1 * pp) (jj + d.2 * pp))
    (hf : s.lenX + s.lenY ≤ pp + fuel) :
    Ok (spreadOut tol ii jj ds fuel pp s h) (Loc s) := by
  induction fuel generalizing pp s h with
  | zero =>
    unfold spreadOut
    split_ifs with hc
    · exfalso
      have h1 := (hinv hc (1, 0) ((hds _).mpr (by simp [directions8]))).1
      unfold SimOut.InGrid at h1 hij
      simp at h1 hf
      omega
    · exact Ok.ok (.refl s)
  | succ n ih =>
    unfold spreadOut
    split_ifs with hc
    · refine (spreadRing_ok tol ii jj (pp + 1) ds s h fun d hd =>
        next_inGrid ((hds d).mp hd) (hinv hc d hd).1 (hinv hc d hd).2).bind ?_
      rintro ⟨s1, h1⟩ ⟨hl, hz⟩
      refine (ih (pp + 1) (by omega) s1 h1 (hl.borderFree hb) ((hl.inGrid _ _).mpr hij) ?_ ?_).mono
        fun x hx => hl.trans hx
      · intro hc' d hd
        have hg : s.InGrid (ii + d.1 * (pp + 1)) (jj + d.2 * (pp + 1)) :=
          next_inGrid ((hds d).mp hd) (hinv hc d hd).1 (hinv hc d hd).2
        refine ⟨(hl.inGrid _ _).mpr hg, fun ho => ?_⟩
        have := hz ⟨d, hd, hb _ _ hg ((hl.onBorder _ _).mp ho)⟩
        dsimp only at this
        rw [this, htol] at hc'
        cases hc'
      · have e1 := hl.body.2.2.1
        have e2 := hl.body.2.2.2
        dsimp only at e1 e2
        rw [e1, e2]; push_cast at hf; omega
    · exact Ok.ok (.refl s)

theorem moveIntersectingBodyCells_ok (fuel : ℕ) (tol : F) (htol : FOps.lt tol FOps.zero = false)
    (cs : List (ℕ × ℤ × ℤ)) (ds : List (ℤ × ℤ)) (hds : ∀ d, d ∈ ds ↔ d ∈ directions8)
    (s : SimOut F) (r : Rng) (hb : BorderFree s)
    (hcs : ∀ c ∈ cs, s.InGrid c.2.1 c.2.2 ∧ (c.1 = 0 ∨ c.1 = 2) ∧ s.bodyAbs c.1 c.2.1 c.2.2 = false)
    (hf : s.lenX + s.lenY ≤ fuel) :
    Ok (moveIntersectingBodyCells fuel tol cs ds s r) (fun x => Loc s x.1) := by
  induction cs generalizing ds s r with
  | nil => exact Ok.ok (.refl s)
  | cons c cs ih =>
    obtain ⟨k, ii, jj⟩ := c
    obtain ⟨hij, hk, hp⟩ := hcs _ List.mem_cons_self
    dsimp only at hij hk hp
    have hcs' : ∀ c ∈ cs, s.InGrid c.2.1 c.2.2 ∧ (c.1 = 0 ∨ c.1 = 2) ∧
        s.bodyAbs c.1 c.2.1 c.2.2 = false := fun c hc => hcs c (List.mem_cons_of_mem _ hc)
    have hno : ¬ OnBorder s ii jj := by
      intro ho
      have := hb ii jj hij ho
      rcases hk with rfl | rfl
      · rw [this.1] at hp; cases hp
      · rw [this.2] at hp; cases hp
    unfold moveIntersectingBodyCells
    dsimp only
    refine Ok.guard hij ?_
    split_ifs
    · exact ih ds hds s r hb hcs' hf
    · have hds' : ∀ d, d ∈ (shuffle ds r).1 ↔ d ∈ directions8 := fun d => mem_shuffle.trans (hds d)
      refine (spreadOut_ok tol htol ii jj _ hds' fuel 0 le_rfl s _ hb hij (fun _ d _ => ?_)
        (by omega)).bind ?_
      · simp only [mul_zero, add_zero]; exact ⟨hij, hno⟩
      · intro s1 h1
        have h2 : Loc s (s1.setT ii jj (s1.body k ii jj)) := h1.setT trivial _
        refine (ih _ hds' _ _ (h2.borderFree hb) ?_ ?_).mono fun x hx => h2.trans hx
        · intro c hc
          rw [h2.bodyAbs]
          exact ⟨(h2.inGrid _ _).mpr (hcs' c hc).1, (hcs' c hc).2⟩
        · rw [h2.body.2.2.1, h2.body.2.2.2]; exact hf

theorem moveIntersectingBody_ok (fuel : ℕ) (tol : F) (htol : FOps.lt tol FOps.zero = false)
    (w : World F) (hb : BorderFree w.out) (ha : ∀ p ∈ w.out.bodyArea.cells, w.out.InGrid p.1 p.2)
    (hf : w.out.lenX + w.out.lenY ≤ fuel) :
    Ok (moveIntersectingBody fuel tol w) (fun w' => Loc w.out w'.out) := by
  unfold moveIntersectingBody locateIntersectingCells
  refine (locateIntersectingIn_spec w.out tol _ ha (Area.nodup_cells _)).bind ?_
  rintro cs ⟨-, hm⟩
  split_ifs
  · exact Ok.ok (.refl _)
  · refine (moveIntersectingBodyCells_ok fuel tol htol cs directions8 (fun _ => Iff.rfl) w.out w.rng
      hb ?_ hf).bind ?_
    · rintro ⟨k, i, j⟩ hc
      obtain ⟨h1, h2, h3⟩ := (hm k i j).mp hc
      refine ⟨ha (i, j) h2, h1, ?_⟩
      unfold intersectingAt at h3
      simp only [Bool.and_eq_true, Bool.not_eq_true'] at h3
      exact h3.1
    · rintro ⟨s1, r1⟩ h1
      exact Ok.ok h1

end Any

/-! ## What happens to the terrain (exact arithmetic) -/

section Exact
variable {K : Type} [Field K] [LinearOrder K] [FloorRing K] [Transc K] [IsStrictOrderedRing K]

theorem borderFree_of {c : K} {s : SimOut K} (h : BodyOK c s) : BorderFree s := by
  intro i j hij ho
  rw [bodyAbs_iff, bodyAbs_iff]
  exact ⟨h.border 0 i j hij ho (.inl rfl), h.border 2 i j hij ho (.inr rfl)⟩

/-- `s'` is `s` with `δ` more terrain, none of it put above the bottom of a body layer -/
structure Raised (c : K) (s s' : SimOut K) (δ : K) : Prop where
  eq : s' = { s with terrain := s'.terrain }
  le : ∀ a b, s.terrain a b ≤ s'.terrain a b
  free : ∀ k a b, s.InGrid a b → k = 0 ∨ k = 2 → HasBody s k a b →
    s.terrain a b < s'.terrain a b → s'.terrain a b ≤ s.body k a b
  al : (∀ a b, s.InGrid a b → Al c (s.terrain a b)) → ∀ a b, s.InGrid a b → Al c (s'.terrain a b)
  total : totalSoil s' = totalSoil s + δ

theorem Raised.refl (c : K) (s : SimOut K) : Raised c s s 0 :=
  ⟨rfl, fun _ _ => le_rfl, fun _ _ _ _ _ _ h => absurd h (lt_irrefl _), fun h => h, by simp⟩

theorem Raised.trans {c : K} {s s1 s2 : SimOut K} {δ δ' : K} (h : Raised c s s1 δ)
    (h' : Raised c s1 s2 δ') : Raised c s s2 (δ + δ') := by
  have hb : s1.body = s.body := by rw [h.eq]
  have hg : ∀ a b, s1.InGrid a b ↔ s.InGrid a b := by intro a b; rw [h.eq]; rfl
  have hB : ∀ k a b, HasBody s1 k a b ↔ HasBody s k a b := by
    intro k a b; unfold HasBody; rw [hb]
  refine ⟨?_, fun a b => (h.le a b).trans (h'.le a b), ?_, ?_, ?_⟩
  · conv_lhs => rw [h'.eq, h.eq]
  · intro k a b hab hk hbd hlt
    rcases (h'.le a b).eq_or_lt with he | hlt'
    · rw [← he] at hlt ⊢
      exact h.free k a b hab hk hbd hlt
    · have := h'.free k a b ((hg a b).mpr hab) hk ((hB k a b).mpr hbd) hlt'
      rwa [hb] at this
  · intro ha a b hab
    exact h'.al (fun a b hab => h.al ha a b ((hg a b).mp hab)) a b ((hg a b).mpr hab)
  · rw [h'.total, h.total]; ring

theorem Raised.of_setT {c : K} {s : SimOut K} {i j : ℤ} {δ : K} (hij : s.InGrid i j) (h0 : 0 ≤ δ)
    (ha : Al c δ) (hf : ∀ k, k = 0 ∨ k = 2 → HasBody s k i j → s.terrain i j + δ ≤ s.body k i j) :
    Raised c s (s.setT i j (s.terrain i j + δ)) δ := by
  refine ⟨rfl, ?_, ?_, ?_, ?_⟩
  · intro a b
    show _ ≤ upd2 s.terrain i j _ a b
    unfold upd2; split_ifs with hc
    · obtain ⟨rfl, rfl⟩ := hc; linarith
    · exact le_rfl
  · intro k a b hab hk hbd
    show _ < upd2 s.terrain i j _ a b → upd2 s.terrain i j _ a b ≤ _
    unfold upd2; split_ifs with hc
    · obtain ⟨rfl, rfl⟩ := hc; intro _; exact hf k hk hbd
    · intro h; exact absurd h (lt_irrefl _)
  · intro h a b hab
    show Al c (upd2 s.terrain i j _ a b)
    unfold upd2; split_ifs with hc
    · obtain ⟨rfl, rfl⟩ := hc; exact (h _ _ hab).add ha
    · exact h _ _ hab
  · rw [totalSoil_setT _ _ hij]; ring

theorem bodyBottom_spec (s : SimOut K) (i j : ℤ) (h : HasBody s 0 i j ∨ HasBody s 2 i j) :
    (∀ k, k = 0 ∨ k = 2 → HasBody s k i j → bodyBottom s i j ≤ s.body k i j) ∧
    (bodyBottom s i j = s.body 0 i j ∨ bodyBottom s i j = s.body 2 i j) := by
  classical
  unfold bodyBottom
  simp only [bodyAbs_iff, ex_min]
  by_cases h0 : HasBody s 0 i j
  · by_cases h2 : HasBody s 2 i j
    · simp only [h0, h2, not_true_eq_false, if_false]
      refine ⟨?_, min_choice _ _⟩
      rintro k (rfl | rfl) _
      · exact min_le_left _ _
      · exact min_le_right _ _
    · simp only [h0, h2, not_true_eq_false, not_false_eq_true, if_false, if_true]
      refine ⟨?_, .inl trivial⟩
      rintro k (rfl | rfl) hk
      · exact le_rfl
      · exact absurd hk h2
  · have h2 : HasBody s 2 i j := h.resolve_left h0
    simp only [h0, not_false_eq_true, if_true]
    refine ⟨?_, .inr trivial⟩
    rintro k (rfl | rfl) hk
    · exact absurd hk h0
    · exact le_rfl

theorem spreadRing_raised {c tol : K} (t : TolOK c tol) (ii jj pp : ℤ) (ds : List (ℤ × ℤ))
    (s : SimOut K) (h : K) (hB : ∀ k i j, s.InGrid i j → Al c (s.body k i j))
    (hT : ∀ i j, s.InGrid i j → Al c (s.terrain i j)) (h0 : 0 ≤ h) (ha : Al c h)
    (hne : ∀ d ∈ ds, ¬ (ii + d.1 * pp = ii ∧ jj + d.2 * pp = jj)) :
    Post (spreadRing tol ii jj pp ds s h) fun x => Raised c s x.1 (h - x.2) ∧ 0 ≤ x.2 ∧ Al c x.2 ∧
      x.1.terrain ii jj = s.terrain ii jj := by
  induction ds generalizing s h with
  | nil =>
    refine Post.ok ⟨?_, h0, ha, rfl⟩
    rw [sub_self]; exact .refl c s
  | cons d ds ih =>
    have hne' : ∀ x ∈ ds, ¬ (ii + x.1 * pp = ii ∧ jj + x.2 * pp = jj) :=
      fun x hx => hne x (List.mem_cons_of_mem _ hx)
    have hd := hne d List.mem_cons_self
    unfold spreadRing
    dsimp only
    refine Post.guard fun hg => ?_
    generalize hip : ii + d.1 * pp = ip at *
    generalize hjp : jj + d.2 * pp = jp at *
    have hsame : ∀ v, (s.setT ip jp v).terrain ii jj = s.terrain ii jj := fun v =>
      upd2_ne _ _ (by rintro ⟨rfl, rfl⟩; exact hd ⟨rfl, rfl⟩)
    by_cases hc : (s.bodyAbs 0 ip jp && s.bodyAbs 2 ip jp) = true
    · rw [if_pos hc]
      simp only [Bool.and_eq_true, bodyAbs_iff] at hc
      refine Post.ok ⟨?_, ?_, ?_, hsame _⟩
      · simp only [ex_zero, sub_zero, ex_add]
        refine .of_setT hg h0 ha ?_
        rintro k (rfl | rfl) hk
        · exact absurd hk hc.1
        · exact absurd hk hc.2
      · simp
      · simp only [ex_zero]; exact .zero
    · rw [if_neg hc]
      have hbody : HasBody s 0 ip jp ∨ HasBody s 2 ip jp := by
        simp only [Bool.and_eq_true, bodyAbs_iff] at hc
        by_contra hn
        exact hc ⟨fun a => hn (.inl a), fun a => hn (.inr a)⟩
      obtain ⟨hbot, hbot2⟩ := bodyBottom_spec s ip jp hbody
      have hbal : Al c (bodyBottom s ip jp) := by
        rcases hbot2 with h | h <;> rw [h] <;> exact hB _ _ _ hg
      have htal := hT ip jp hg
      simp only [ex_add, ex_sub, ex_lt, decide_eq_true_eq]
      generalize bodyBottom s ip jp = bot at *
      by_cases h1 : s.terrain ip jp + tol < bot
      · rw [if_pos h1]
        have h1' := (t.add_lt htal hbal).mp h1
        by_cases h2 : bot - s.terrain ip jp < h
        · rw [if_pos h2]
          have hr : Raised c s (s.setT ip jp (s.terrain ip jp + (bot - s.terrain ip jp)))
              (bot - s.terrain ip jp) :=
            .of_setT hg (by linarith) (hbal.sub htal) fun k hk hkb => by
              have := hbot k hk hkb; linarith
          have e : s.terrain ip jp + (bot - s.terrain ip jp) = bot := by ring
          rw [e] at hr
          refine (ih (s.setT ip jp bot) (h - (bot - s.terrain ip jp)) hB (hr.al hT) (by linarith)
            (ha.sub (hbal.sub htal)) hne').mono ?_
          rintro x ⟨r1, r2, r3, r4⟩
          refine ⟨?_, r2, r3, r4.trans (hsame _)⟩
          have := hr.trans r1
          have e2 : bot - s.terrain ip jp + (h - (bot - s.terrain ip jp) - x.2) = h - x.2 := by ring
          rwa [e2] at this
        · rw [if_neg h2]
          refine Post.ok ⟨?_, ?_, ?_, hsame _⟩
          · simp only [ex_zero, sub_zero]
            refine .of_setT hg h0 ha fun k hk hkb => ?_
            have := hbot k hk hkb
            have := not_lt.mp h2
            linarith
          · simp
          · simp only [ex_zero]; exact .zero
      · rw [if_neg h1]
        exact ih s h hB hT h0 ha hne'

theorem Raised.body {c : K} {s s' : SimOut K} {δ : K} (h : Raised c s s' δ) : s'.body = s.body := by
  rw [h.eq]

theorem Raised.inGrid {c : K} {s s' : SimOut K} {δ : K} (h : Raised c s s' δ) (a b : ℤ) :
    s'.InGrid a b ↔ s.InGrid a b := by rw [h.eq]; rfl

theorem dir8_ne {d : ℤ × ℤ} (hd : d ∈ directions8) {pp : ℤ} (hp : 0 < pp) (ii jj : ℤ) :
    ¬ (ii + d.1 * pp = ii ∧ jj + d.2 * pp = jj) := by
  rw [mem_directions8] at hd
  rcases hd with rfl | rfl | rfl | rfl | rfl | rfl | rfl | rfl <;> simp <;> omega

theorem spreadOut_raised {c tol : K} (t : TolOK c tol) (ii jj : ℤ) (ds : List (ℤ × ℤ))
    (hds : ∀ d ∈ ds, d ∈ directions8) (fuel : ℕ) (pp : ℤ) (hpp : 0 ≤ pp)
    (s : SimOut K) (h : K) (hB : ∀ k i j, s.InGrid i j → Al c (s.body k i j))
    (hT : ∀ i j, s.InGrid i j → Al c (s.terrain i j)) (h0 : 0 ≤ h) (ha : Al c h) :
    Post (spreadOut tol ii jj ds fuel pp s h) fun s' => Raised c s s' h ∧
      s'.terrain ii jj = s.terrain ii jj := by
  induction fuel generalizing pp s h with
  | zero =>
    unfold spreadOut
    simp only [ex_lt, decide_eq_true_eq]
    split_ifs with hc
    · exact Post.error
    · have : h = 0 := le_antisymm (by rw [t.tol_lt ha] at hc; exact not_lt.mp hc) h0
      subst this
      exact Post.ok ⟨.refl c s, rfl⟩
  | succ n ih =>
    unfold spreadOut
    simp only [ex_lt, decide_eq_true_eq]
    split_ifs with hc
    · refine (spreadRing_raised t ii jj (pp + 1) ds s h hB hT h0 ha fun d hd =>
        dir8_ne (hds d hd) (by omega) ii jj).bind ?_
      rintro ⟨s1, h1⟩ ⟨r1, r2, r3, r4⟩
      dsimp only at r1 r2 r3 r4
      refine (ih (pp + 1) (by omega) s1 h1 ?_ ?_ r2 r3).mono ?_
      · intro k i j hij; rw [r1.body]; exact hB k i j ((r1.inGrid i j).mp hij)
      · intro i j hij; exact r1.al hT i j ((r1.inGrid i j).mp hij)
      · rintro s2 ⟨q1, q2⟩
        refine ⟨?_, q2.trans r4⟩
        have := r1.trans q1
        rwa [sub_add_cancel] at this
    · have : h = 0 := le_antisymm (by rw [t.tol_lt ha] at hc; exact not_lt.mp hc) h0
      subst this
      exact Post.ok ⟨.refl c s, rfl⟩

/-- What pushing terrain out does, from `s` to `s'`, when the pairs in `cs` are still to be
treated. -/
structure Pushed (c : K) (s s' : SimOut K) : Prop where
  eq : s' = { s with terrain := s'.terrain }
  al : (∀ a b, s.InGrid a b → Al c (s.terrain a b)) → ∀ a b, s.InGrid a b → Al c (s'.terrain a b)
  total : totalSoil s' = totalSoil s
  /-- terrain is lowered only where it intersects, and not below the bottom of every layer -/
  lower : ∀ a b, s.InGrid a b → s'.terrain a b < s.terrain a b →
    ∃ k, (k = 0 ∨ k = 2) ∧ HasBody s k a b ∧ s.body k a b < s.terrain a b ∧
      s'.terrain a b = s.body k a b
  /-- terrain is never raised above the bottom of a layer -/
  raise : ∀ k a b, s.InGrid a b → k = 0 ∨ k = 2 → HasBody s k a b →
    s.terrain a b < s'.terrain a b → s'.terrain a b ≤ s.body k a b

theorem Pushed.refl (c : K) (s : SimOut K) : Pushed c s s :=
  ⟨rfl, fun h => h, rfl, fun _ _ _ h => absurd h (lt_irrefl _),
    fun _ _ _ _ _ _ h => absurd h (lt_irrefl _)⟩

theorem Pushed.body {c : K} {s s' : SimOut K} (h : Pushed c s s') : s'.body = s.body := by
  rw [h.eq]

theorem Pushed.inGrid {c : K} {s s' : SimOut K} (h : Pushed c s s') (a b : ℤ) :
    s'.InGrid a b ↔ s.InGrid a b := by rw [h.eq]; rfl

theorem Pushed.hasBody {c : K} {s s' : SimOut K} (h : Pushed c s s') (k : ℕ) (a b : ℤ) :
    HasBody s' k a b ↔ HasBody s k a b := by unfold HasBody; rw [h.body]

theorem Pushed.trans {c : K} {s s1 s2 : SimOut K} (h : Pushed c s s1) (h' : Pushed c s1 s2) :
    Pushed c s s2 := by
  refine ⟨?_, ?_, h'.total.trans h.total, ?_, ?_⟩
  · conv_lhs => rw [h'.eq, h.eq]
  · intro ha a b hab
    exact h'.al (fun a b hab => h.al ha a b ((h.inGrid a b).mp hab)) a b ((h.inGrid a b).mpr hab)
  · intro a b hab hlt
    by_cases h2 : s2.terrain a b < s1.terrain a b
    · obtain ⟨k, hk, hkb, hkl, he⟩ := h'.lower a b ((h.inGrid a b).mpr hab) h2
      rw [h.hasBody] at hkb
      rw [h.body] at hkl he
      refine ⟨k, hk, hkb, ?_, he⟩
      rw [← he]; exact hlt
    · have h1 : s1.terrain a b < s.terrain a b := lt_of_le_of_lt (not_lt.mp h2) hlt
      obtain ⟨k, hk, hkb, hkl, he⟩ := h.lower a b hab h1
      refine ⟨k, hk, hkb, hkl, ?_⟩
      by_contra hne
      have h3 : s1.terrain a b < s2.terrain a b :=
        lt_of_le_of_ne (not_lt.mp h2) (fun e => hne (e ▸ he))
      have := h'.raise k a b ((h.inGrid a b).mpr hab) hk ((h.hasBody k a b).mpr hkb) h3
      rw [h.body, ← he] at this
      exact absurd h3 (not_lt.mpr this)
  · intro k a b hab hk hkb hlt
    by_cases h2 : s1.terrain a b < s2.terrain a b
    · have := h'.raise k a b ((h.inGrid a b).mpr hab) hk ((h.hasBody k a b).mpr hkb) h2
      rwa [h.body] at this
    · have h3 := not_lt.mp h2
      exact h3.trans (h.raise k a b hab hk hkb (lt_of_lt_of_le hlt h3))

/-- no intersection is created -/
theorem Pushed.keeps {c : K} {s s' : SimOut K} (h : Pushed c s s') {k : ℕ} {a b : ℤ}
    (hab : s.InGrid a b) (hk : k = 0 ∨ k = 2) (hb : HasBody s k a b)
    (hf : s.terrain a b ≤ s.body k a b) : s'.terrain a b ≤ s'.body k a b := by
  rw [h.body]
  by_cases hlt : s.terrain a b < s'.terrain a b
  · exact h.raise k a b hab hk hb hlt
  · exact (not_lt.mp hlt).trans hf

theorem moveIntersectingBodyCells_pushed {c tol : K} (t : TolOK c tol) (fuel : ℕ)
    (cs : List (ℕ × ℤ × ℤ)) (ds : List (ℤ × ℤ)) (hds : ∀ d ∈ ds, d ∈ directions8)
    (s : SimOut K) (r : Rng) (hB : ∀ k i j, s.InGrid i j → Al c (s.body k i j))
    (hT : ∀ i j, s.InGrid i j → Al c (s.terrain i j))
    (hcs : ∀ c ∈ cs, (c.1 = 0 ∨ c.1 = 2) ∧ HasBody s c.1 c.2.1 c.2.2) :
    Post (moveIntersectingBodyCells fuel tol cs ds s r) fun x => Pushed c s x.1 ∧
      ∀ k i j, (k, i, j) ∈ cs → x.1.terrain i j ≤ s.body k i j := by
  induction cs generalizing ds s r with
  | nil => exact Post.ok ⟨.refl c s, by simp⟩
  | cons p cs ih =>
    obtain ⟨k, ii, jj⟩ := p
    obtain ⟨hk, hp⟩ := hcs _ List.mem_cons_self
    dsimp only at hk hp
    have hcs' : ∀ c ∈ cs, (c.1 = 0 ∨ c.1 = 2) ∧ HasBody s c.1 c.2.1 c.2.2 :=
      fun c hc => hcs c (List.mem_cons_of_mem _ hc)
    unfold moveIntersectingBodyCells
    dsimp only
    refine Post.guard fun hij => ?_
    simp only [ex_sub, ex_lt, decide_eq_true_eq]
    by_cases hc : s.terrain ii jj - tol < s.body k ii jj
    · rw [if_pos hc]
      have hle := (t.sub_lt (hT ii jj hij) (hB k ii jj hij)).mp hc
      refine (ih ds hds s r hB hT hcs').mono ?_
      rintro x ⟨h1, h2⟩
      refine ⟨h1, fun k' i j hm => ?_⟩
      rcases List.mem_cons.mp hm with hm | hm
      · cases hm
        have := h1.keeps hij hk hp hle
        rwa [h1.body] at this
      · exact h2 k' i j hm
    · rw [if_neg hc]
      have hlt : s.body k ii jj < s.terrain ii jj := by
        rw [t.sub_lt (hT ii jj hij) (hB k ii jj hij)] at hc; exact not_le.mp hc
      have hds' : ∀ d ∈ (shuffle ds r).1, d ∈ directions8 := fun d hd => hds d (mem_shuffle.mp hd)
      refine (spreadOut_raised t ii jj _ hds' fuel 0 le_rfl s _ hB hT
        (show 0 ≤ s.terrain ii jj - s.body k ii jj by linarith)
        ((hT ii jj hij).sub (hB k ii jj hij))).bind ?_
      rintro s1 ⟨r1, r2⟩
      have hst : ∀ a b, (s1.setT ii jj (s1.body k ii jj)).terrain a b =
          if a = ii ∧ b = jj then s.body k ii jj else s1.terrain a b := by
        intro a b
        show upd2 _ _ _ _ _ _ = _
        unfold upd2; rw [r1.body]
      have hpu : Pushed c s (s1.setT ii jj (s1.body k ii jj)) := by
        refine ⟨?_, ?_, ?_, ?_, ?_⟩
        · conv_lhs => rw [r1.eq]
          unfold SimOut.setT
          simp only [r1.body]
        · intro ha a b hab
          rw [hst]
          split_ifs with hc
          · exact hB k ii jj hij
          · exact r1.al ha a b hab
        · rw [totalSoil_setT _ _ ((r1.inGrid _ _).mpr hij), r1.total, r2, r1.body]; ring
        · intro a b hab
          rw [hst]
          split_ifs with hc
          · obtain ⟨rfl, rfl⟩ := hc
            intro _
            exact ⟨k, hk, hp, hlt, rfl⟩
          · intro h; exact absurd h (not_lt.mpr (r1.le a b))
        · intro k' a b hab hk' hb'
          rw [hst]
          split_ifs with hc
          · obtain ⟨rfl, rfl⟩ := hc
            intro h; exact absurd h (not_lt.mpr hlt.le)
          · exact r1.free k' a b hab hk' hb'
      refine (ih _ hds' _ _ ?_ ?_ ?_).mono ?_
      · intro k' i j hij'
        rw [hpu.body]; exact hB k' i j ((hpu.inGrid i j).mp hij')
      · intro i j hij'
        exact hpu.al hT i j ((hpu.inGrid i j).mp hij')
      · intro c' hc'
        rw [hpu.hasBody]; exact hcs' c' hc'
      · rintro x ⟨h1, h2⟩
        refine ⟨hpu.trans h1, fun k' i j hm => ?_⟩
        rcases List.mem_cons.mp hm with hm | hm
        · cases hm
          have := h1.keeps (k := k) (a := ii) (b := jj) ((hpu.inGrid _ _).mpr hij) hk
            ((hpu.hasBody _ _ _).mpr hp) (by rw [hst, hpu.body]; simp)
          rwa [h1.body, hpu.body] at this
        · have := h2 k' i j hm
          rwa [hpu.body] at this

theorem moveIntersectingBody_pushed {c tol : K} (t : TolOK c tol) (fuel : ℕ) (w : World K)
    (hB : ∀ k i j, w.out.InGrid i j → Al c (w.out.body k i j))
    (hT : ∀ i j, w.out.InGrid i j → Al c (w.out.terrain i j)) :
    Post (moveIntersectingBody fuel tol w) fun w' => Pushed c w.out w'.out ∧ w'.log = w.log ∧
      ∀ p ∈ w.out.bodyArea.cells, ∀ k, k = 0 ∨ k = 2 → HasBody w.out k p.1 p.2 →
        w'.out.terrain p.1 p.2 ≤ w'.out.body k p.1 p.2 := by
  unfold moveIntersectingBody
  intro w' h
  obtain ⟨cs, hcs, h⟩ := bind_eq_ok.mp h
  have hg := locateIntersectingIn_guard _ _ _ _ hcs
  obtain ⟨cs', hcs', hnd, hm⟩ := locateIntersectingIn_spec w.out tol _ hg (Area.nodup_cells _)
  rw [locateIntersectingCells, hcs'] at hcs
  cases hcs
  have hcase : ∀ p ∈ w.out.bodyArea.cells, ∀ k, k = 0 ∨ k = 2 → HasBody w.out k p.1 p.2 →
      (k, p.1, p.2) ∈ cs ∨ w.out.terrain p.1 p.2 ≤ w.out.body k p.1 p.2 := by
    intro p hp k hk hb
    by_cases hi : intersectingAt w.out tol k p.1 p.2 = true
    · exact .inl ((hm k p.1 p.2).mpr ⟨hk, hp, hi⟩)
    · right
      unfold intersectingAt at hi
      simp only [(bodyAbs_false_iff _ _ _ _).mpr hb, Bool.not_false, Bool.true_and, ex_sub, ex_lt,
        decide_eq_true_eq] at hi
      rw [t.lt_sub (hB _ _ _ (hg p hp)) (hT _ _ (hg p hp))] at hi
      exact not_lt.mp hi
  split_ifs at h with hemp
  · cases h
    refine ⟨.refl _ _, rfl, fun p hp k hk hb => ?_⟩
    rcases hcase p hp k hk hb with h | h
    · rw [List.isEmpty_iff.mp hemp] at h; simp at h
    · exact h
  · obtain ⟨⟨s1, r1⟩, h1, h⟩ := bind_eq_ok.mp h
    cases h
    obtain ⟨p1, p2⟩ := moveIntersectingBodyCells_pushed t fuel cs directions8 (fun _ h => h) w.out
      w.rng hB hT (by
        rintro ⟨k, i, j⟩ hc
        obtain ⟨a1, a2, a3⟩ := (hm k i j).mp hc
        refine ⟨a1, ?_⟩
        unfold intersectingAt at a3
        simp only [Bool.and_eq_true, Bool.not_eq_true', bodyAbs_false_iff] at a3
        exact a3.1) _ h1
    dsimp only at p1 p2 ⊢
    refine ⟨p1, rfl, fun p hp k hk hb => ?_⟩
    rcases hcase p hp k hk hb with h | h
    · rw [p1.body]; exact p2 k p.1 p.2 h
    · exact p1.keeps (hg p hp) hk hb h

end Exact

end Soil
