import Verif.Proof.InterT
import Verif.Proof.RelaxB

/-! # Pushing body soil out of the body (`MoveIntersectingBodySoil`) -/

set_option linter.unusedSectionVars false
set_option linter.unusedSimpArgs false

namespace Soil

variable {K : Type} [Field K] [LinearOrder K] [FloorRing K] [Transc K] [IsStrictOrderedRing K]

/-- layer `k` is below the other layer of the column -/
def Lower (s : SimOut K) (k : ℕ) (i j : ℤ) : Prop :=
  HasBody s k i j ∧ HasBody s (otherLayer k) i j ∧ s.body k i j < s.body (otherLayer k) i j

/-- by how much the soil on layer `k` reaches into the other layer (negative if there is room) -/
def over (s : SimOut K) (k : ℕ) (i j : ℤ) : K :=
  s.body (k + 1) i j + layerSoil s k i j - s.body (otherLayer k) i j

theorem SoilFree.of_over {c : K} {s : SimOut K} (h : SoilOK c s)
    (ho : ∀ k i j, s.InGrid i j → k = 0 ∨ k = 2 → Lower s k i j → over s k i j ≤ 0) : SoilFree s := by
  intro k i j hij hk hs hb hlt
  have hr := h.rest k i j hij hk hs
  have := ho k i j hij hk ⟨hr.1, hb, hlt⟩
  unfold over at this
  rw [h.top_eq hij hk hs] at this
  linarith

theorem Local.hasBody {P : ℤ → ℤ → Prop} {s s' : SimOut K} (h : Local P s s') (k : ℕ) (i j : ℤ) :
    HasBody s' k i j ↔ HasBody s k i j := by
  unfold HasBody; rw [h.body.1]

theorem Local.lower {P : ℤ → ℤ → Prop} {s s' : SimOut K} (h : Local P s s') (k : ℕ) (i j : ℤ) :
    Lower s' k i j ↔ Lower s k i j := by
  unfold Lower; rw [h.hasBody, h.hasBody, h.body.1]

theorem BodyOK.loc {c : K} {s s' : SimOut K} (h : BodyOK c s) (hl : Loc s s') : BodyOK c s' :=
  h.congr hl.body.1 hl.body.2.2.1 hl.body.2.2.2

/-- `s'` is `s` with `δ` more soil, put on the terrain or on body layers with room for it, using at
most `n` new entries. -/
structure Carry (c : K) (s s' : SimOut K) (δ : K) (n : ℕ) : Prop where
  loc : Loc s s'
  soil : SoilOK c s'
  total : totalSoil s' = totalSoil s + δ
  over : ∀ k i j, s.InGrid i j → k = 0 ∨ k = 2 → Lower s k i j →
    over s' k i j ≤ over s k i j ∨ over s' k i j ≤ 0
  pos : ∃ l, s'.bodySoilPos = s.bodySoilPos ++ l ∧ l.length ≤ n ∧
    ∀ e ∈ l, Lower s e.ind e.ii e.jj → Soil.over s' e.ind e.ii e.jj ≤ 0

theorem Carry.refl {c : K} {s : SimOut K} (h : SoilOK c s) (n : ℕ) : Carry c s s 0 n :=
  ⟨.refl s, h, by simp, fun _ _ _ _ _ _ => .inl le_rfl, [], by simp, by simp, by simp⟩

theorem Carry.mono {c : K} {s s1 : SimOut K} {δ : K} {n m : ℕ} (h : Carry c s s1 δ n)
    (hnm : n ≤ m) : Carry c s s1 δ m := by
  obtain ⟨l, e1, e2, e3⟩ := h.pos
  exact ⟨h.loc, h.soil, h.total, h.over, l, e1, e2.trans hnm, e3⟩

theorem Carry.trans {c : K} {s s1 s2 : SimOut K} {δ δ' : K} {n n' : ℕ} (h : Carry c s s1 δ n)
    (h' : Carry c s1 s2 δ' n') : Carry c s s2 (δ + δ') (n + n') := by
  refine ⟨h.loc.trans h'.loc, h'.soil, ?_, ?_, ?_⟩
  · rw [h'.total, h.total]; ring
  · intro k i j hij hk hl
    rcases h'.over k i j ((h.loc.inGrid i j).mpr hij) hk ((h.loc.lower k i j).mpr hl) with a | a
    · rcases h.over k i j hij hk hl with b | b
      · exact .inl (a.trans b)
      · exact .inr (a.trans b)
    · exact .inr a
  · obtain ⟨l, e, hn, hl⟩ := h.pos
    obtain ⟨l', e', hn', hl'⟩ := h'.pos
    refine ⟨l ++ l', by rw [e', e, List.append_assoc], by rw [List.length_append]; omega, ?_⟩
    intro x hx hlow
    have hx' : x ∈ s2.bodySoilPos := by rw [e', e]; simp at hx ⊢; tauto
    have hin := h'.soil.entries x hx'
    have hin1 := (h'.loc.inGrid _ _).mp hin.1
    rcases List.mem_append.mp hx with hx | hx
    · rcases h'.over x.ind x.ii x.jj hin1 hin.2 ((h.loc.lower _ _ _).mpr hlow) with a | a
      · exact a.trans (hl x hx hlow)
      · exact a
    · exact hl' x hx ((h.loc.lower _ _ _).mpr hlow)

theorem Carry.addT {c : K} {s : SimOut K} (h : SoilOK c s) {i j : ℤ} {δ : K} (hij : s.InGrid i j)
    (ha : Al c δ) (n : ℕ) : Carry c s (addT s i j δ) δ n :=
  ⟨(Local.refl s).setT trivial _, h.addT ha, totalSoil_addT hij, fun _ _ _ _ _ _ => .inl le_rfl,
    [], by simp [Soil.addT, SimOut.setT], by simp, by simp⟩

theorem Carry.dep {c : K} {s : SimOut K} (hB : BodyOK c s) (h : SoilOK c s) {e : BodySoil K}
    (hij : s.InGrid e.ii e.jj) (hk : e.ind = 0 ∨ e.ind = 2) (hb : HasBody s e.ind e.ii e.jj)
    (hh : 0 ≤ e.h) (ha : Al c e.h)
    (hr : HasBody s (otherLayer e.ind) e.ii e.jj →
      s.body e.ind e.ii e.jj < s.body (otherLayer e.ind) e.ii e.jj →
      s.body (e.ind + 1) e.ii e.jj + layerSoil s e.ind e.ii e.jj + e.h ≤
        s.body (otherLayer e.ind) e.ii e.jj) : Carry c s (dep s e) e.h 1 := by
  have hloc : Loc s (Soil.dep s e) :=
    (((Local.refl s).setBS trivial _).setBS trivial _).pushPos _
  have hhere : Lower s e.ind e.ii e.jj → Soil.over (Soil.dep s e) e.ind e.ii e.jj ≤ 0 := by
    intro hl
    have := hr hl.2.1 hl.2.2
    unfold Soil.over
    have e1 : layerSoil (Soil.dep s e) e.ind e.ii e.jj = layerSoil s e.ind e.ii e.jj + e.h := by
      unfold layerSoil
      rw [(dep_soil_here s e).1, (dep_soil_here s e).2]
      unfold layerSoil
      ring
    rw [e1, hloc.body.1]
    linarith
  refine ⟨hloc, h.dep hB hij hk hb hh ha, totalSoil_dep hij hk, ?_, [e], rfl, le_rfl, ?_⟩
  · intro k i j _ hk' hl
    by_cases hc : k = e.ind ∧ i = e.ii ∧ j = e.jj
    · obtain ⟨rfl, rfl, rfl⟩ := hc
      exact .inr (hhere hl)
    · left
      obtain ⟨h1, h2⟩ := dep_soil_other s e hk hk' hc
      unfold Soil.over layerSoil
      rw [h1, h2, hloc.body.1]
  · intro x hx hl
    rw [List.mem_singleton] at hx
    subst hx
    exact hhere hl

/-! ## One probe -/

/-- what one call of `MoveBodySoil` does to the soil carried by the probe -/
def ProbeOK (c : K) (s : SimOut K) (q : Probe K) (x : SimOut K × Probe K) : Prop :=
  Carry c s x.1 (q.h - x.2.h) 1 ∧ 0 ≤ x.2.h ∧ Al c x.2.h

variable {c tol : K} {s : SimOut K} {g : Grid K} {body : Body K}

theorem probe_dep (hB : BodyOK c s) (h : SoilOK c s) {q : Probe K} {i j : ℤ} {k : ℕ}
    {δ : K} {x : SimOut K} {q' : Probe K} (hij : s.InGrid i j) (hk : k = 0 ∨ k = 2)
    (hb : HasBody s k i j) (h0 : 0 ≤ δ) (ha : Al c δ) (hq' : q'.h = q.h - δ) (hle : δ ≤ q.h)
    (hqa : Al c q.h)
    (hx : x = dep s (mkEntry s g body k i j δ))
    (hr : HasBody s (otherLayer k) i j → s.body k i j < s.body (otherLayer k) i j →
      s.body (k + 1) i j + layerSoil s k i j + δ ≤ s.body (otherLayer k) i j) :
    ProbeOK c s q (x, q') := by
  subst hx
  refine ⟨?_, ?_, ?_⟩
  · have e : q.h - q'.h = δ := by rw [hq']; ring
    dsimp only
    rw [e]
    exact Carry.dep (e := mkEntry s g body k i j δ) hB h hij hk hb h0 ha hr
  · dsimp only; rw [hq']; linarith
  · dsimp only; rw [hq']; exact hqa.sub ha

theorem moveBodySoil1_ok (t : TolOK c tol) (hB : BodyOK c s) (h : SoilOK c s) (q : Probe K)
    (maxH : K) {i j : ℤ} {k : ℕ} (hij : s.InGrid i j) (hk : k = 0 ∨ k = 2) (hb : HasBody s k i j)
    (hno : ¬ HasBody s (otherLayer k) i j) (h0 : 0 ≤ q.h) (hqa : Al c q.h) :
    ProbeOK c s q (moveBodySoil1 s q maxH i j g body tol k) := by
  unfold moveBodySoil1
  simp only [ex_lt, ex_add, ex_sub, decide_eq_true_eq, ex_zero]
  split_ifs with c1 c2 c3
  · refine ⟨?_, le_rfl, .zero⟩
    dsimp only
    rw [sub_zero]
    exact Carry.addT h hij hqa 1
  · refine ⟨?_, h0, hqa⟩
    dsimp only
    rw [sub_self]
    exact .refl h 1
  · rw [soilPres_iff] at c3
    have hr := h.rest k i j hij hk c3
    refine probe_dep (g := g) (body := body) (δ := q.h) hB h hij hk hb h0 hqa (by simp) le_rfl hqa
      ?_ fun a => absurd a hno
    rw [dep_on_soil _ _ (by exact hr.2.1)]
    rfl
  · rw [soilPres_iff] at c3
    refine probe_dep (g := g) (body := body) (δ := q.h) hB h hij hk hb h0 hqa (by simp) le_rfl hqa
      ?_ fun a => absurd a hno
    rw [dep_on_bare _ _ (by exact c3)]
    rfl

theorem moveBodySoil2_ok (t : TolOK c tol) (hB : BodyOK c s) (h : SoilOK c s) (q : Probe K)
    {i j : ℤ} {k k' : ℕ} (hk' : k' = otherLayer k) (hij : s.InGrid i j) (hk : k = 0 ∨ k = 2)
    (hb : HasBody s k i j)
    (hb2 : HasBody s k' i j) (hle : s.body k i j ≤ s.body k' i j)
    (h0 : 0 ≤ q.h) (hqa : Al c q.h) :
    ProbeOK c s q (moveBodySoil2 s q i j g body tol k k') := by
  subst hk'
  have hab := hB.above hij hk hb hb2 hle
  have hal := fun k => hB.al k i j hij
  have hsl := fun k => h.soil_al k i j hij
  unfold moveBodySoil2
  simp only [ex_lt, ex_add, ex_sub, decide_eq_true_eq, ex_zero]
  by_cases c1 : s.soilPres k i j = true
  · rw [if_pos c1]
    rw [soilPres_iff] at c1
    have hr := h.rest k i j hij hk c1
    have htop := h.top_eq hij hk c1
    by_cases c2 : s.body (otherLayer k) i j < s.bodySoil (k + 1) i j + tol
    · rw [if_pos c2]
      refine ⟨?_, h0, hqa⟩
      dsimp only
      rw [sub_self]
      exact .refl h 1
    · rw [if_neg c2]
      rw [t.lt_add (hal _) (hsl _), not_le] at c2
      by_cases c3 : s.body (otherLayer k) i j - s.bodySoil (k + 1) i j < q.h
      · rw [if_pos c3]
        refine probe_dep (g := g) (body := body)
          (δ := s.body (otherLayer k) i j - s.bodySoil (k + 1) i j) hB h hij hk hb (by linarith)
          ((hal _).sub (hsl _)) rfl c3.le hqa ?_ fun _ _ => by linarith
        rw [dep_on_soil _ _ (by exact hr.2.1)]
        rfl
      · rw [if_neg c3]
        refine probe_dep (g := g) (body := body) (δ := q.h) hB h hij hk hb h0 hqa (by simp) le_rfl
          hqa ?_ fun _ _ => by have := not_lt.mp c3; linarith
        rw [dep_on_soil _ _ (by exact hr.2.1)]
        rfl
  · rw [if_neg c1]
    rw [soilPres_iff] at c1
    obtain ⟨z0, z1⟩ := layerSoil_of_not_hasSoil c1
    have hz : layerSoil s k i j = 0 := by unfold layerSoil; rw [z0, z1, sub_self]
    by_cases c3 : s.body (otherLayer k) i j - s.body (k + 1) i j < q.h
    · rw [if_pos c3]
      refine probe_dep (g := g) (body := body)
        (δ := s.body (otherLayer k) i j - s.body (k + 1) i j) hB h hij hk hb (by linarith)
        ((hal _).sub (hal _)) rfl c3.le hqa ?_ fun _ _ => by rw [hz]; linarith
      rw [dep_on_bare _ _ (by exact c1)]
      rfl
    · rw [if_neg c3]
      refine probe_dep (g := g) (body := body) (δ := q.h) hB h hij hk hb h0 hqa (by simp) le_rfl
        hqa ?_ fun _ _ => by have := not_lt.mp c3; rw [hz]; linarith
      rw [dep_on_bare _ _ (by exact c1)]
      rfl

theorem moveBodySoil_ok (t : TolOK c tol) (hB : BodyOK c s) (h : SoilOK c s) (q : Probe K)
    (maxH : K) {i j : ℤ} (hij : s.InGrid i j) (h0 : 0 ≤ q.h) (hqa : Al c q.h) :
    ProbeOK c s q (moveBodySoil s q maxH i j g body tol) ∧
      (OnBorder s i j → (moveBodySoil s q maxH i j g body tol).2.h = 0) := by
  classical
  unfold moveBodySoil
  simp only [Bool.and_eq_true, bodyAbs_iff, ex_lt, decide_eq_true_eq]
  by_cases b0 : HasBody s 0 i j
  · have hnb : ¬ OnBorder s i j := fun ho => hB.border 0 i j hij ho (.inl rfl) b0
    refine ⟨?_, fun ho => absurd ho hnb⟩
    by_cases b2 : HasBody s 2 i j
    · simp only [b0, b2, not_true_eq_false, and_self, if_false]
      split_ifs with c1
      · exact moveBodySoil2_ok t hB h q rfl hij (.inl rfl) b0 b2 c1.le h0 hqa
      · exact moveBodySoil2_ok t hB h q rfl hij (.inr rfl) b2 b0 (not_lt.mp c1) h0 hqa
    · simp only [b0, b2, not_true_eq_false, not_false_eq_true, false_and, if_false, if_true]
      exact moveBodySoil1_ok t hB h q maxH hij (.inl rfl) b0 b2 h0 hqa
  · by_cases b2 : HasBody s 2 i j
    · have hnb : ¬ OnBorder s i j := fun ho => hB.border 2 i j hij ho (.inr rfl) b2
      refine ⟨?_, fun ho => absurd ho hnb⟩
      simp only [b0, b2, not_true_eq_false, not_false_eq_true, and_false, if_false, if_true]
      exact moveBodySoil1_ok t hB h q maxH hij (.inr rfl) b2 b0 h0 hqa
    · simp only [b0, b2, not_false_eq_true, and_self, if_true, ex_zero, ex_add]
      refine ⟨⟨?_, le_rfl, .zero⟩, fun _ => trivial⟩
      dsimp only
      rw [sub_zero]
      exact Carry.addT h hij hqa 1

/-- from an interior column the border is less than `lenX + lenY` away -/
theorem dist_lt {s : SimOut K} {ii jj pp : ℤ} {d : ℤ × ℤ} (hd : d ∈ directions8)
    (hij : s.InGrid ii jj) (h1 : s.InGrid (ii + d.1 * pp) (jj + d.2 * pp)) :
    pp < s.lenX + s.lenY := by
  rw [mem_directions8] at hd
  unfold SimOut.InGrid at h1 hij
  rcases hd with rfl | rfl | rfl | rfl | rfl | rfl | rfl | rfl <;> simp at h1 <;> omega

/-- exploring one direction -/
theorem exploreDir_ok (t : TolOK c tol) (ii jj : ℤ) (d : ℤ × ℤ) (hd : d ∈ directions8) (fuel : ℕ)
    (pp : ℤ) (hpp : 0 ≤ pp) (s : SimOut K) (q : Probe K) (maxH : K) (hB : BodyOK c s)
    (h : SoilOK c s) (h0 : 0 ≤ q.h) (hqa : Al c q.h) (hij : s.InGrid ii jj)
    (hinv : 0 < q.h → s.InGrid (ii + d.1 * pp) (jj + d.2 * pp) ∧
      ¬ OnBorder s (ii + d.1 * pp) (jj + d.2 * pp)) (hf : s.lenX + s.lenY ≤ pp + fuel) :
    Ok (exploreDir g body tol ii jj d fuel pp s q maxH) fun x =>
      Carry c s x.1 (q.h - x.2) (s.lenX + s.lenY - pp).toNat ∧ 0 ≤ x.2 ∧ Al c x.2 := by
  induction fuel generalizing pp s q maxH with
  | zero =>
    unfold exploreDir
    simp only [ex_lt]
    split_ifs with hc
    · exfalso
      simp only [Bool.and_eq_true, decide_eq_true_eq] at hc
      have := dist_lt hd hij (hinv ((t.tol_lt hqa).mp hc.2)).1
      simp at hf
      omega
    · refine Ok.ok ⟨?_, h0, hqa⟩
      dsimp only
      rw [sub_self]; exact .refl h _
  | succ n ih =>
    unfold exploreDir
    simp only [ex_lt]
    split_ifs with hc
    · simp only [Bool.and_eq_true, decide_eq_true_eq] at hc
      obtain ⟨g1, g2⟩ := hinv ((t.tol_lt hqa).mp hc.2)
      have hdist := dist_lt hd hij g1
      have hg := next_inGrid hd g1 g2
      rw [mul_comm d.1, mul_comm d.2] at hg
      refine Ok.guard hg ?_
      obtain ⟨⟨r1, r2, r3⟩, r4⟩ := moveBodySoil_ok (g := g) (body := body) t hB h q maxH hg h0 hqa
      generalize moveBodySoil s q maxH (ii + (pp + 1) * d.1) (jj + (pp + 1) * d.2) g body tol = x at *
      obtain ⟨s1, q1⟩ := x
      dsimp only at r1 r2 r3 r4 ⊢
      refine (ih (pp + 1) (by omega) s1 q1 _ (hB.loc r1.loc) r1.soil r2 r3
        ((r1.loc.inGrid _ _).mpr hij) ?_ ?_).mono ?_
      · intro hpos
        rw [mul_comm d.1, mul_comm d.2]
        refine ⟨(r1.loc.inGrid _ _).mpr hg, fun ho => ?_⟩
        have := r4 ((r1.loc.onBorder _ _).mp ho)
        rw [this] at hpos
        exact absurd hpos (lt_irrefl _)
      · rw [r1.loc.body.2.2.1, r1.loc.body.2.2.2]; push_cast at hf; omega
      · rintro ⟨s2, h2⟩ ⟨p1, p2, p3⟩
        refine ⟨?_, p2, p3⟩
        have := r1.trans p1
        have e : q.h - q1.h + (q1.h - h2) = q.h - h2 := by ring
        dsimp only at this ⊢
        rw [e, r1.loc.body.2.2.1, r1.loc.body.2.2.2] at this
        exact this.mono (by omega)
    · refine Ok.ok ⟨?_, h0, hqa⟩
      dsimp only
      rw [sub_self]; exact .refl h _

theorem exploreDirs_ok (t : TolOK c tol) (fuel : ℕ) (ind indT : ℕ) (ii jj : ℤ)
    (ds : List (ℤ × ℤ)) (hds : ∀ d ∈ ds, d ∈ directions8) (s : SimOut K) (h : K) (hB : BodyOK c s)
    (hs : SoilOK c s) (h0 : 0 ≤ h) (ha : Al c h) (hij : s.InGrid ii jj)
    (hno : ¬ OnBorder s ii jj) (hf : s.lenX + s.lenY ≤ fuel) :
    Ok (exploreDirs fuel g body tol ind indT ii jj ds s h) fun x =>
      Carry c s x.1 (h - x.2) (ds.length * (s.lenX + s.lenY).toNat) ∧ 0 ≤ x.2 ∧ Al c x.2 := by
  induction ds generalizing s h with
  | nil =>
    refine Ok.ok ⟨?_, h0, ha⟩
    dsimp only
    rw [sub_self]; exact .refl hs _
  | cons d ds ih =>
    unfold exploreDirs
    refine (exploreDir_ok t ii jj d (hds d List.mem_cons_self) fuel 0 le_rfl s ⟨ind, ii, jj, h, false⟩
      (s.body indT ii jj) hB hs h0 ha hij (fun _ => by simpa using ⟨hij, hno⟩) (by omega)).bind ?_
    rintro ⟨s1, h1⟩ ⟨r1, r2, r3⟩
    dsimp only at r1 r2 r3 ⊢
    rw [sub_zero] at r1
    split_ifs with hc
    · refine Ok.ok ⟨?_, r2, r3⟩
      dsimp only
      exact r1.mono (by rw [List.length_cons, Nat.succ_mul]; omega)
    · refine (ih (fun x hx => hds x (List.mem_cons_of_mem _ hx)) s1 h1 (hB.loc r1.loc) r1.soil r2 r3
        ((r1.loc.inGrid _ _).mpr hij) (fun ho => hno ((r1.loc.onBorder _ _).mp ho))
        (by rw [r1.loc.body.2.2.1, r1.loc.body.2.2.2]; exact hf)).mono ?_
      rintro ⟨s2, h2⟩ ⟨p1, p2, p3⟩
      refine ⟨?_, p2, p3⟩
      have := r1.trans p1
      have e : h - h1 + (h1 - h2) = h - h2 := by ring
      dsimp only at this ⊢
      rw [e, r1.loc.body.2.2.1, r1.loc.body.2.2.2] at this
      exact this.mono (by rw [List.length_cons, Nat.succ_mul]; omega)

theorem exploreDirs_zero (t : TolOK c tol) (fuel : ℕ) (ind indT : ℕ) (ii jj : ℤ)
    (ds : List (ℤ × ℤ)) (s : SimOut K) :
    exploreDirs fuel g body tol ind indT ii jj ds s 0 = .ok (s, 0) := by
  cases ds with
  | nil => rfl
  | cons d ds =>
    unfold exploreDirs
    have : exploreDir g body tol ii jj d fuel 0 s ⟨ind, ii, jj, 0, false⟩ (s.body indT ii jj) =
        .ok (s, 0) := by
      unfold exploreDir
      simp only [ex_lt, t.pos.le.not_gt, decide_false, Bool.and_false, Bool.false_eq_true, if_false]
    rw [this]
    simp only [ok_bind, ex_lt, t.pos, decide_true, if_true]
    rfl

/-! ## The loop over the entries -/

theorem entrySum_drop {l : List (BodySoil K)} {n : ℕ} {e : BodySoil K} (he : l[n]? = some e)
    (k : ℕ) (i j : ℤ) : entrySum (l.drop n) k i j =
      (if e.ind = k ∧ e.ii = i ∧ e.jj = j then e.h else 0) + entrySum (l.drop (n + 1)) k i j := by
  obtain ⟨hn, rfl⟩ := List.getElem?_eq_some_iff.mp he
  rw [List.drop_eq_getElem_cons hn, entrySum_cons]

/-- The state while the loop over the entries is at number `nn`; entries from number `n0` on were
added by the loop. -/
structure PushInv (c : K) (n0 nn : ℕ) (s : SimOut K) : Prop where
  body : BodyOK c s
  soil : SoilOK c s
  over : ∀ k i j, s.InGrid i j → k = 0 ∨ k = 2 → Lower s k i j →
    over s k i j ≤ entrySum (s.bodySoilPos.drop nn) k i j
  added : ∀ n e, n0 ≤ n → s.bodySoilPos[n]? = some e → Lower s e.ind e.ii e.jj →
    Soil.over s e.ind e.ii e.jj ≤ 0

theorem Carry.pushInv {c : K} {s s' : SimOut K} {δ : K} {n n0 nn : ℕ} (h : Carry c s s' δ n)
    (hi : PushInv c n0 nn s) : PushInv c n0 nn s' := by
  obtain ⟨l, e1, e2, e3⟩ := h.pos
  have hpos : ∀ e ∈ l, 0 ≤ e.h := fun e he =>
    h.soil.entry_nonneg e (by rw [e1]; exact List.mem_append_right _ he)
  refine ⟨hi.body.loc h.loc, h.soil, ?_, ?_⟩
  · intro k i j hij hk hl
    have hij' := (h.loc.inGrid i j).mp hij
    have hl' := (h.loc.lower k i j).mp hl
    have h0 : 0 ≤ entrySum (s'.bodySoilPos.drop nn) k i j :=
      entrySum_nonneg (fun e he => h.soil.entry_nonneg e (List.mem_of_mem_drop he)) k i j
    rcases h.over k i j hij' hk hl' with a | a
    · refine a.trans ((hi.over k i j hij' hk hl').trans ?_)
      rw [e1, List.drop_append, entrySum_append]
      have := entrySum_nonneg (l := l.drop (nn - s.bodySoilPos.length))
        (fun e he => hpos e (List.mem_of_mem_drop he)) k i j
      linarith
    · exact a.trans h0
  · intro m e hm he hl
    have hl' := (h.loc.lower _ _ _).mp hl
    have hmem : e ∈ s'.bodySoilPos := List.mem_iff_getElem?.mpr ⟨m, he⟩
    have hin := h.soil.entries e hmem
    rw [e1] at he
    by_cases hc : m < s.bodySoilPos.length
    · rw [List.getElem?_append_left hc] at he
      rcases h.over e.ind e.ii e.jj ((h.loc.inGrid _ _).mp hin.1) hin.2 hl' with a | a
      · exact a.trans (hi.added m e hm he hl')
      · exact a
    · rw [List.getElem?_append_right (not_lt.mp hc)] at he
      exact e3 e (List.mem_iff_getElem?.mpr ⟨_, he⟩) hl'

theorem PushInv.skip {c : K} {s : SimOut K} {n0 nn : ℕ} (hi : PushInv c n0 nn s) {e : BodySoil K}
    (he : s.bodySoilPos[nn]? = some e)
    (hno : Lower s e.ind e.ii e.jj → Soil.over s e.ind e.ii e.jj ≤ 0) : PushInv c n0 (nn + 1) s := by
  refine ⟨hi.body, hi.soil, ?_, hi.added⟩
  intro k i j hij hk hl
  have h1 := hi.over k i j hij hk hl
  rw [entrySum_drop he] at h1
  split_ifs at h1 with hc
  · obtain ⟨rfl, rfl, rfl⟩ := hc
    exact (hno hl).trans
      (entrySum_nonneg (fun e he => hi.soil.entry_nonneg e (List.mem_of_mem_drop he)) _ _ _)
  · rw [zero_add] at h1; exact h1

theorem drop_modify_succ (l : List (BodySoil K)) (n : ℕ) (f : BodySoil K → BodySoil K) :
    (l.modify n f).drop (n + 1) = l.drop (n + 1) := by
  apply List.ext_getElem?
  intro m
  rw [List.getElem?_drop, List.getElem?_drop, List.getElem?_modify]
  have : ¬ n = n + 1 + m := by omega
  simp [this]

theorem PushInv.wdPart {c : K} {s : SimOut K} {n0 nn : ℕ} (hi : PushInv c n0 nn s)
    {e : BodySoil K} {δ : K} (he : s.bodySoilPos[nn]? = some e) (h0 : 0 ≤ δ) (h1 : δ ≤ e.h)
    (ha : Al c δ)
    (hx : Lower s e.ind e.ii e.jj → δ = e.h ∨ Soil.over s e.ind e.ii e.jj ≤ δ) :
    PushInv c n0 (nn + 1) (wdPart s nn e δ) := by
  have hmem : e ∈ s.bodySoilPos := List.mem_iff_getElem?.mpr ⟨nn, he⟩
  have hin := hi.soil.entries e hmem
  have hloc : Loc s (Soil.wdPart s nn e δ) := ((Local.refl s).setBS trivial _).setH _ _
  have hhere : Soil.over (Soil.wdPart s nn e δ) e.ind e.ii e.jj =
      Soil.over s e.ind e.ii e.jj - δ := by
    unfold Soil.over layerSoil
    rw [(wdPart_soil_here s nn e δ).1, (wdPart_soil_here s nn e δ).2, hloc.body.1]
    ring
  have hother : ∀ k i j, k = 0 ∨ k = 2 → ¬ (k = e.ind ∧ i = e.ii ∧ j = e.jj) →
      Soil.over (Soil.wdPart s nn e δ) k i j = Soil.over s k i j := by
    intro k i j hk hc
    unfold Soil.over layerSoil
    rw [(wdPart_soil_other s nn e δ hin.2 hk hc).1, (wdPart_soil_other s nn e δ hin.2 hk hc).2,
      hloc.body.1]
  have hle : ∀ k i j, k = 0 ∨ k = 2 →
      Soil.over (Soil.wdPart s nn e δ) k i j ≤ Soil.over s k i j := by
    intro k i j hk
    by_cases hc : k = e.ind ∧ i = e.ii ∧ j = e.jj
    · obtain ⟨rfl, rfl, rfl⟩ := hc
      rw [hhere]; linarith
    · rw [hother k i j hk hc]
  have hdrop : (Soil.wdPart s nn e δ).bodySoilPos.drop (nn + 1) = s.bodySoilPos.drop (nn + 1) :=
    drop_modify_succ _ _ _
  refine ⟨hi.body.loc hloc, hi.soil.wdPart he h0 h1 ha, ?_, ?_⟩
  · intro k i j hij hk hl
    have hl' := (hloc.lower k i j).mp hl
    have h2 := hi.over k i j ((hloc.inGrid i j).mp hij) hk hl'
    rw [entrySum_drop he] at h2
    rw [hdrop]
    have hnn : 0 ≤ entrySum (s.bodySoilPos.drop (nn + 1)) k i j :=
      entrySum_nonneg (fun e he => hi.soil.entry_nonneg e (List.mem_of_mem_drop he)) _ _ _
    by_cases hc : k = e.ind ∧ i = e.ii ∧ j = e.jj
    · obtain ⟨rfl, rfl, rfl⟩ := hc
      rw [if_pos ⟨rfl, rfl, rfl⟩] at h2
      rw [hhere]
      rcases hx hl' with hx | hx <;> linarith
    · rw [if_neg (by rintro ⟨rfl, rfl, rfl⟩; exact hc ⟨rfl, rfl, rfl⟩), zero_add] at h2
      exact (hle k i j hk).trans h2
  · intro m x hm hxm hl
    have hl' := (hloc.lower _ _ _).mp hl
    change (s.bodySoilPos.modify nn _)[m]? = some x at hxm
    rw [List.getElem?_modify] at hxm
    cases hy : s.bodySoilPos[m]? with
    | none => rw [hy] at hxm; simp at hxm
    | some y =>
      rw [hy] at hxm
      have hxy : x.ind = y.ind ∧ x.ii = y.ii ∧ x.jj = y.jj := by
        simp only [Option.map_eq_map, Option.map_some, Option.some.injEq] at hxm
        subst hxm
        split_ifs <;> exact ⟨rfl, rfl, rfl⟩
      rw [hxy.1, hxy.2.1, hxy.2.2] at hl' ⊢
      have hk := (hi.soil.entries y (List.mem_iff_getElem?.mpr ⟨m, hy⟩)).2
      exact (hle _ _ _ hk).trans (hi.added m y hm hy hl')

theorem removedSoil_append (l m : List (Warn K)) :
    removedSoil (l ++ m) = removedSoil l + removedSoil m := by
  simp [removedSoil]

theorem moveIntersectingEntries_ok (t : TolOK c tol) (fuel n0 fuelN nn : ℕ) (ds : List (ℤ × ℤ))
    (hds : ds.Perm directions8) (w : World K) (hi : PushInv c n0 nn w.out)
    (hf : w.out.lenX + w.out.lenY ≤ fuel)
    (hN : w.out.bodySoilPos.length + (n0 - nn) * (8 * (w.out.lenX + w.out.lenY).toNat) ≤ nn + fuelN)
    (hn0 : n0 ≤ w.out.bodySoilPos.length) :
    Ok (moveIntersectingEntries fuel g body tol fuelN nn ds w) fun w' =>
      Loc w.out w'.out ∧ SoilOK c w'.out ∧ SoilFree w'.out ∧
      ∃ m, w'.log = w.log ++ m ∧ (∀ x ∈ m, ∃ h, 0 < h ∧ x = .soilRemoved h) ∧
        totalSoil w'.out + removedSoil m = totalSoil w.out := by
  induction fuelN generalizing nn ds w with
  | zero =>
    have hlen : w.out.bodySoilPos.length ≤ nn := by omega
    unfold moveIntersectingEntries
    rw [List.getElem?_eq_none hlen]
    refine Ok.ok ⟨.refl _, hi.soil, .of_over hi.soil ?_, [], by simp, by simp, by simp [removedSoil]⟩
    intro k i j hij hk hl
    have := hi.over k i j hij hk hl
    rwa [List.drop_eq_nil_of_le hlen, entrySum_nil] at this
  | succ fuelN ih =>
    unfold moveIntersectingEntries
    cases he : w.out.bodySoilPos[nn]? with
    | none =>
      have hlen : w.out.bodySoilPos.length ≤ nn := List.getElem?_eq_none_iff.mp he
      refine Ok.ok ⟨.refl _, hi.soil, .of_over hi.soil ?_, [], by simp, by simp,
        by simp [removedSoil]⟩
      intro k i j hij hk hl
      have := hi.over k i j hij hk hl
      rwa [List.drop_eq_nil_of_le hlen, entrySum_nil] at this
    | some e =>
      have hmem : e ∈ w.out.bodySoilPos := List.mem_iff_getElem?.mpr ⟨nn, he⟩
      have hlt : nn < w.out.bodySoilPos.length := (List.getElem?_eq_some_iff.mp he).1
      obtain ⟨hij, hk⟩ := hi.soil.entries e hmem
      have hN' : w.out.bodySoilPos.length +
          (n0 - (nn + 1)) * (8 * (w.out.lenX + w.out.lenY).toNat) ≤ nn + 1 + fuelN := by
        have : (n0 - (nn + 1)) * (8 * (w.out.lenX + w.out.lenY).toNat) ≤
          (n0 - nn) * (8 * (w.out.lenX + w.out.lenY).toNat) := Nat.mul_le_mul_right _ (by omega)
        omega
      have hot : (if e.ind = 0 then 2 else 0) = otherLayer e.ind := rfl
      dsimp only
      rw [hot]
      refine Ok.guard ⟨hij, by omega⟩ ?_
      have hal := fun k => hi.body.al k e.ii e.jj hij
      have hsl := fun k => hi.soil.soil_al k e.ii e.jj hij
      simp only [ex_lt, ex_sub, ex_zero]
      by_cases c1 : w.out.bodyAbs (otherLayer e.ind) e.ii e.jj = true
      · rw [if_pos c1]
        rw [bodyAbs_iff] at c1
        exact ih (nn + 1) ds hds w (hi.skip he fun hl => absurd hl.2.1 c1) hf hN' hn0
      · rw [if_neg c1]
        rw [bodyAbs_iff, not_not] at c1
        have hno : ¬ OnBorder w.out e.ii e.jj := fun ho =>
          hi.body.border _ _ _ hij ho (by unfold otherLayer; split_ifs <;> simp) c1
        have hover : HasSoil w.out e.ind e.ii e.jj → Soil.over w.out e.ind e.ii e.jj =
            w.out.bodySoil (e.ind + 1) e.ii e.jj - w.out.body (otherLayer e.ind) e.ii e.jj := by
          intro hs
          unfold Soil.over
          rw [hi.soil.top_eq hij hk hs]
        by_cases c2 : (decide (w.out.body e.ind e.ii e.jj < w.out.body (otherLayer e.ind) e.ii e.jj) &&
            decide (w.out.body (otherLayer e.ind) e.ii e.jj <
              w.out.bodySoil (e.ind + 1) e.ii e.jj - tol)) = true
        · rw [if_pos c2]
          simp only [Bool.and_eq_true, decide_eq_true_eq] at c2
          obtain ⟨hlow, hex⟩ := c2
          rw [t.lt_sub (hal _) (hsl _)] at hex
          have hea := hi.soil.entry_al e hmem
          have he0 := hi.soil.entry_nonneg e hmem
          -- the amount taken
          obtain ⟨δ, hδ⟩ : ∃ δ, δ = if e.h < w.out.bodySoil (e.ind + 1) e.ii e.jj -
              w.out.body (otherLayer e.ind) e.ii e.jj then e.h else
              w.out.bodySoil (e.ind + 1) e.ii e.jj - w.out.body (otherLayer e.ind) e.ii e.jj :=
            ⟨_, rfl⟩
          have hsplit : (if decide (e.h < w.out.bodySoil (e.ind + 1) e.ii e.jj -
              w.out.body (otherLayer e.ind) e.ii e.jj) = true then (w.out.setH nn 0, e.h) else
              (w.out.setH nn (e.h - (w.out.bodySoil (e.ind + 1) e.ii e.jj -
                w.out.body (otherLayer e.ind) e.ii e.jj)), w.out.bodySoil (e.ind + 1) e.ii e.jj -
                w.out.body (otherLayer e.ind) e.ii e.jj)) = (w.out.setH nn (e.h - δ), δ) := by
            simp only [decide_eq_true_eq]
            split_ifs at hδ ⊢ with hc
            · rw [hδ, sub_self]
            · rw [hδ]
          rw [hsplit]
          have h0 : 0 ≤ δ := by rw [hδ]; split_ifs <;> linarith
          have h1 : δ ≤ e.h := by
            rw [hδ]; split_ifs with hc
            · exact le_rfl
            · exact not_lt.mp hc
          have ha : Al c δ := by
            rw [hδ]; split_ifs
            · exact hea
            · exact (hsl _).sub (hal _)
          have hx : Lower w.out e.ind e.ii e.jj → δ = e.h ∨ Soil.over w.out e.ind e.ii e.jj ≤ δ := by
            intro _
            split_ifs at hδ with hc
            · exact .inl hδ
            · right
              have : 0 < e.h := by have := not_lt.mp hc; linarith
              rw [hover (hi.soil.entry_hasSoil hmem this), hδ]
          have hinv := hi.wdPart he h0 h1 ha hx
          have hst : (w.out.setH nn (e.h - δ)).setBS (e.ind + 1) e.ii e.jj
              ((w.out.setH nn (e.h - δ)).bodySoil (e.ind + 1) e.ii e.jj - δ) =
              wdPart w.out nn e δ := by rfl
          dsimp only
          rw [hst]
          have hloc1 : Loc w.out (wdPart w.out nn e δ) := ((Local.refl _).setBS trivial _).setH _ _
          have hdp : (shuffle ds w.rng).1.Perm directions8 := (shuffle_perm _ _).trans hds
          have hlen8 : (shuffle ds w.rng).1.length = 8 := by rw [hdp.length_eq]; rfl
          have hlen1 : (wdPart w.out nn e δ).bodySoilPos.length = w.out.bodySoilPos.length :=
            List.length_modify _ _ _
          by_cases hz : δ = 0
          · subst hz
            rw [exploreDirs_zero t]
            simp only [ok_bind, t.pos.le.not_gt, decide_false, Bool.false_eq_true, if_false]
            refine (ih (nn + 1) _ hdp (World.mk (wdPart w.out nn e 0) (shuffle ds w.rng).2 w.log)
              hinv hf ?_ ?_).mono ?_
            · rw [hlen1]; exact hN'
            · rw [hlen1]; exact hn0
            · rintro w' ⟨a1, a2, a3, m, a4, a5, a6⟩
              refine ⟨hloc1.trans a1, a2, a3, m, a4, a5, ?_⟩
              rw [a6]; dsimp only; rw [totalSoil_wdPart hij hk, sub_zero]
          -- entries added by the loop never get here
          have hnn : nn < n0 := by
            by_contra hcon
            have hp : 0 < e.h := lt_of_lt_of_le (lt_of_le_of_ne h0 (Ne.symm hz)) h1
            have hs := hi.soil.entry_hasSoil hmem hp
            have := hi.added nn e (not_lt.mp hcon) he ⟨(hi.soil.rest _ _ _ hij hk hs).1, c1, hlow⟩
            rw [hover hs] at this
            linarith
          refine (exploreDirs_ok t fuel e.ind (otherLayer e.ind) e.ii e.jj _
            (fun d hd => hdp.mem_iff.mp hd) (wdPart w.out nn e δ) δ hinv.body hinv.soil h0 ha
            ((hloc1.inGrid _ _).mpr hij) (fun ho => hno ((hloc1.onBorder _ _).mp ho)) hf).bind ?_
          rintro ⟨s1, h'⟩ ⟨r1, r2, r3⟩
          dsimp only at r1 r2 r3 ⊢
          obtain ⟨l, e1, e2, -⟩ := r1.pos
          have hl1 : Loc w.out s1 := hloc1.trans r1.loc
          have hlen : s1.bodySoilPos.length ≤ w.out.bodySoilPos.length +
              8 * (w.out.lenX + w.out.lenY).toNat := by
            rw [e1, List.length_append]
            rw [hlen8] at e2
            change l.length ≤ 8 * (w.out.lenX + w.out.lenY).toNat at e2
            omega
          have hlen' : w.out.bodySoilPos.length ≤ s1.bodySoilPos.length := by
            rw [e1, List.length_append]
            omega
          have htot : totalSoil s1 + h' = totalSoil w.out := by
            rw [r1.total, totalSoil_wdPart hij hk]; ring
          have hi1 : PushInv c n0 (nn + 1) s1 := r1.pushInv hinv
          have hN1 : s1.bodySoilPos.length +
              (n0 - (nn + 1)) * (8 * (s1.lenX + s1.lenY).toNat) ≤ nn + 1 + fuelN := by
            rw [hl1.body.2.2.1, hl1.body.2.2.2]
            have e : n0 - nn = n0 - (nn + 1) + 1 := by omega
            rw [e, Nat.add_mul, Nat.one_mul] at hN
            omega
          have hf1 : s1.lenX + s1.lenY ≤ fuel := by
            rw [hl1.body.2.2.1, hl1.body.2.2.2]; exact hf
          by_cases hw : tol < h'
          · simp only [hw, decide_true, if_true]
            refine (ih (nn + 1) _ hdp ((World.mk s1 (shuffle ds w.rng).2 w.log).warn (.soilRemoved h'))
              hi1 hf1 hN1 (hn0.trans hlen')).mono ?_
            rintro w' ⟨a1, a2, a3, m, a4, a5, a6⟩
            refine ⟨hl1.trans a1, a2, a3, .soilRemoved h' :: m, ?_, ?_, ?_⟩
            · rw [a4]; simp [World.warn]
            · intro x hx
              rcases List.mem_cons.mp hx with rfl | hx
              · exact ⟨h', (t.tol_lt r3).mp hw, rfl⟩
              · exact a5 x hx
            · have : removedSoil (.soilRemoved h' :: m) = h' + removedSoil m := by
                simp [removedSoil]
              rw [this, ← htot]
              have a6' : totalSoil w'.out + removedSoil m = totalSoil s1 := a6
              rw [← a6']; ring
          · simp only [hw, decide_false, Bool.false_eq_true, if_false]
            have hz' : h' = 0 := le_antisymm (by rw [t.tol_lt r3] at hw; exact not_lt.mp hw) r2
            refine (ih (nn + 1) _ hdp (World.mk s1 (shuffle ds w.rng).2 w.log)
              hi1 hf1 hN1 (hn0.trans hlen')).mono ?_
            rintro w' ⟨a1, a2, a3, m, a4, a5, a6⟩
            refine ⟨hl1.trans a1, a2, a3, m, a4, a5, ?_⟩
            rw [a6, ← htot, hz', add_zero]
        · rw [if_neg c2]
          refine ih (nn + 1) ds hds w (hi.skip he fun hl => ?_) hf hN' hn0
          simp only [Bool.and_eq_true, decide_eq_true_eq, not_and] at c2
          have h3 := c2 hl.2.2
          rw [t.lt_sub (hal _) (hsl _), not_lt] at h3
          by_cases hs : HasSoil w.out e.ind e.ii e.jj
          · rw [hover hs]; linarith
          · obtain ⟨z0, z1⟩ := layerSoil_of_not_hasSoil hs
            have := hi.body.above hij hk hl.1 hl.2.1 hl.2.2.le
            unfold Soil.over layerSoil
            rw [z0, z1]; linarith

theorem PushInv.init {c : K} {s : SimOut K} (hB : BodyOK c s) (hS : SoilOK c s) :
    PushInv c s.bodySoilPos.length 0 s := by
  refine ⟨hB, hS, ?_, ?_⟩
  · intro k i j hij hk hl
    have := hB.above hij hk hl.1 hl.2.1 hl.2.2.le
    rw [List.drop_zero, ← hS.booked i j hij k hk]
    unfold Soil.over
    linarith
  · intro n e hn he
    rw [List.getElem?_eq_none hn] at he
    cases he

/-- enough fuel for `MoveIntersectingBodySoil` -/
def pushFuel (s : SimOut K) : ℕ :=
  (s.bodySoilPos.length + 1) * (1 + 8 * (s.lenX + s.lenY).toNat)

theorem moveIntersectingBodySoil_ok (t : TolOK c tol) (fuel : ℕ) (w : World K)
    (hB : BodyOK c w.out) (hS : SoilOK c w.out) (hf : pushFuel w.out ≤ fuel) :
    Ok (moveIntersectingBodySoil fuel g body tol w) fun w' =>
      Loc w.out w'.out ∧ SoilOK c w'.out ∧ SoilFree w'.out ∧
      ∃ m, w'.log = w.log ++ m ∧ (∀ x ∈ m, ∃ h, 0 < h ∧ x = .soilRemoved h) ∧
        totalSoil w'.out + removedSoil m = totalSoil w.out := by
  unfold pushFuel at hf
  generalize hL : (w.out.lenX + w.out.lenY).toNat = L at hf
  have h1 : L ≤ fuel := by nlinarith
  have h2 : w.out.bodySoilPos.length + w.out.bodySoilPos.length * (8 * L) ≤ fuel := by nlinarith
  refine moveIntersectingEntries_ok t fuel w.out.bodySoilPos.length fuel 0 directions8 (.refl _) w
    (.init hB hS) (by omega) ?_ le_rfl
  rw [hL]; simpa using h2

end Soil
