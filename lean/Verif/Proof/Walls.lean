import Verif.Proof.Include
import Mathlib.Data.List.Sort
import Verif.Spec.State

/-! # Writing the walls of the body -/

set_option linter.unusedSectionVars false
set_option linter.unusedSimpArgs false

namespace Soil

variable {K : Type} [Field K] [LinearOrder K] [FloorRing K] [Transc K] [IsStrictOrderedRing K]

theorem cellLe_trans (a b c : Cell3) (h1 : cellLe a b = true) (h2 : cellLe b c = true) :
    cellLe a c = true := by
  unfold cellLe at *
  simp only [decide_eq_true_eq] at *
  omega

theorem cellLe_total (a b : Cell3) : (cellLe a b || cellLe b a) = true := by
  unfold cellLe
  simp only [Bool.or_eq_true, decide_eq_true_eq]
  omega

instance : Std.Total fun a b : Cell3 => cellLe a b = true :=
  ⟨fun a b => by simpa using cellLe_total a b⟩

instance : IsTrans Cell3 fun a b => cellLe a b = true := ⟨fun a b c => cellLe_trans a b c⟩

theorem sortCells_sorted (l : List Cell3) : (sortCells l).Pairwise fun a b => cellLe a b = true :=
  List.pairwise_insertionSort _ l

theorem mem_sortCells {l : List Cell3} {a : Cell3} : a ∈ sortCells l ↔ a ∈ l :=
  List.mem_insertionSort _

theorem ZGrid.lt {g : Grid K} (hz : ZGrid g) {a b : ℤ} (h0 : 0 ≤ a) (h : a < b)
    (hb : b ≤ 2 * g.halfZ) : g.vectZ a + g.cellZ ≤ g.vectZ b := by
  rw [hz.step a h0 (by omega), hz.step b (by omega) hb]
  have : (a : K) + 1 ≤ b := by exact_mod_cast h
  nlinarith [mul_le_mul_of_nonneg_right this hz.pos.le]

theorem ZGrid.le {g : Grid K} (hz : ZGrid g) {a b : ℤ} (h0 : 0 ≤ a) (h : a ≤ b)
    (hb : b ≤ 2 * g.halfZ) : g.vectZ a ≤ g.vectZ b := by
  rcases eq_or_lt_of_le h with rfl | h
  · exact le_rfl
  · have := hz.lt h0 h hb
    linarith [hz.pos]

/-- a cell that can be written -/
def CellOK (g : Grid K) (s : SimOut K) (x : Cell3) : Prop :=
  s.InGrid x.1 x.2.1 ∧ 0 ≤ x.2.2 ∧ x.2.2 ≤ 2 * g.halfZ

/-- Cells `l` were written on body `s`, giving `s'` -/
structure Written (g : Grid K) (tol : K) (C : Cell3 → Prop) (s s' : SimOut K) : Prop where
  eq : s' = { s with body := s'.body }
  ok : ∀ a b, s.InGrid a b → ColOK tol s a b → ColOK tol s' a b
  keep : ∀ a b h, Occ s a b h → Occ s' a b h
  other : ∀ k a b, (∀ k', ¬ C (a, b, k')) → s'.body k a b = s.body k a b
  hull : ∀ a b h, Occ s' a b h → ∃ x y, x ≤ h ∧ h ≤ y ∧
    (Occ s a b x ∨ ∃ k, C (a, b, k) ∧ InCell g k x) ∧ (Occ s a b y ∨ ∃ k, C (a, b, k) ∧ InCell g k y)
  val : ∀ (Q : K → Prop) a b, Q 0 → (∀ k, Q (s.body k a b)) →
    (∀ k, C (a, b, k) → Q (g.vectZ k) ∧ Q (g.vectZ k - g.cellZ)) → ∀ k, Q (s'.body k a b)

theorem Written.inGrid {g : Grid K} {tol : K} {C : Cell3 → Prop} {s s' : SimOut K}
    (h : Written g tol C s s') (a b : ℤ) : s'.InGrid a b ↔ s.InGrid a b := by
  rw [h.eq]; rfl

theorem Written.refl (g : Grid K) (tol : K) (C : Cell3 → Prop) (s : SimOut K) : Written g tol C s s :=
  ⟨rfl, fun _ _ _ h => h, fun _ _ _ h => h, fun _ _ _ _ => rfl,
    fun _ _ h hh => ⟨h, h, le_rfl, le_rfl, .inl hh, .inl hh⟩, fun _ _ _ _ h _ => h⟩

theorem Written.mono {g : Grid K} {tol : K} {C D : Cell3 → Prop} {s s' : SimOut K}
    (h : Written g tol C s s') (hCD : ∀ x, C x → D x) : Written g tol D s s' := by
  refine ⟨h.eq, h.ok, h.keep, fun k a b hn => h.other k a b fun k' hc => hn k' (hCD _ hc), ?_, ?_⟩
  · intro a b z hz
    obtain ⟨x, y, h1, h2, h3, h4⟩ := h.hull a b z hz
    refine ⟨x, y, h1, h2, ?_, ?_⟩
    · rcases h3 with h3 | ⟨k, h3, h3'⟩
      · exact .inl h3
      · exact .inr ⟨k, hCD _ h3, h3'⟩
    · rcases h4 with h3 | ⟨k, h3, h3'⟩
      · exact .inl h3
      · exact .inr ⟨k, hCD _ h3, h3'⟩
  · intro Q a b h0 h1 h2 k
    exact h.val Q a b h0 h1 (fun k hc => h2 k (hCD _ hc)) k

theorem Written.trans {g : Grid K} {tol : K} {C : Cell3 → Prop} {s s' s'' : SimOut K}
    (h : Written g tol C s s') (h' : Written g tol C s' s'') : Written g tol C s s'' := by
  refine ⟨?_, ?_, fun a b z hz => h'.keep a b z (h.keep a b z hz), ?_, ?_, ?_⟩
  · rw [h'.eq, h.eq]
  · intro a b hab hc
    exact h'.ok a b ((h.inGrid a b).mpr hab) (h.ok a b hab hc)
  · intro k a b hn
    rw [h'.other k a b hn, h.other k a b hn]
  · intro a b z hz
    obtain ⟨x, y, h1, h2, h3, h4⟩ := h'.hull a b z hz
    have hx : ∃ x', x' ≤ x ∧ (Occ s a b x' ∨ ∃ k, C (a, b, k) ∧ InCell g k x') := by
      rcases h3 with h3 | h3
      · obtain ⟨x', -, g1, -, g3, -⟩ := h.hull a b x h3
        exact ⟨x', g1, g3⟩
      · exact ⟨x, le_rfl, .inr h3⟩
    have hy : ∃ y', y ≤ y' ∧ (Occ s a b y' ∨ ∃ k, C (a, b, k) ∧ InCell g k y') := by
      rcases h4 with h3 | h3
      · obtain ⟨-, y', -, g2, -, g4⟩ := h.hull a b y h3
        exact ⟨y', g2, g4⟩
      · exact ⟨y, le_rfl, .inr h3⟩
    obtain ⟨x', e1, e2⟩ := hx
    obtain ⟨y', e3, e4⟩ := hy
    exact ⟨x', y', e1.trans h1, h2.trans e3, e2, e4⟩
  · intro Q a b h0 h1 h2
    exact h'.val Q a b h0 (h.val Q a b h0 h1 h2) h2

/-- one call of `IncludeNewBodyPos` -/
theorem include_written {g : Grid K} {tol : K} (hz : ZGrid g) (ht : 0 < tol) (C : Cell3 → Prop)
    (s : SimOut K) (i j kf kl : ℤ) (h0 : 0 ≤ kf) (hk : kf ≤ kl) (hl : kl ≤ 2 * g.halfZ)
    (hf : C (i, j, kf)) (hl' : C (i, j, kl)) (hij : s.InGrid i j) (hc : ColOK tol s i j) :
    Ok (includeNewBodyPos s i j (g.vectZ kf - g.cellZ) (g.vectZ kl) tol) fun s' =>
      Written g tol C s s' ∧ ∀ h, g.vectZ kf - g.cellZ ≤ h → h ≤ g.vectZ kl → Occ s' i j h := by
  have hlt : g.vectZ kf - g.cellZ < g.vectZ kl := by
    have := hz.le h0 hk hl
    linarith [hz.pos]
  refine (includeNewBodyPos_spec s i j _ _ tol hlt ht hij hc).mono ?_
  rintro s' ⟨hfr, hin⟩
  unfold InclAt at hin
  have hcolocc : ∀ a b, ¬ (a = i ∧ b = j) → ∀ h, Occ s' a b h ↔ Occ s a b h := by
    intro a b hab h
    rw [occ_iff, occ_iff, hfr.other 0 a b hab, hfr.other 1 a b hab, hfr.other 2 a b hab,
      hfr.other 3 a b hab]
  refine ⟨⟨hfr.eq, ?_, ?_, ?_, ?_, ?_⟩, ?_⟩
  · intro a b hab hca
    by_cases hx : a = i ∧ b = j
    · obtain ⟨rfl, rfl⟩ := hx
      exact (colOK_iff tol s' a b).mpr hin.ok
    · rw [colOK_iff] at hca ⊢
      rw [hfr.other 0 a b hx, hfr.other 1 a b hx, hfr.other 2 a b hx, hfr.other 3 a b hx]
      exact hca
  · intro a b h hh
    by_cases hx : a = i ∧ b = j
    · obtain ⟨rfl, rfl⟩ := hx
      exact (occ_iff _ _ _ _).mpr (hin.keep h ((occ_iff _ _ _ _).mp hh))
    · exact (hcolocc a b hx h).mpr hh
  · intro k a b hn
    apply hfr.other
    rintro ⟨rfl, rfl⟩
    exact hn kf hf
  · intro a b h hh
    by_cases hx : a = i ∧ b = j
    · obtain ⟨rfl, rfl⟩ := hx
      have hlo : ∃ k, C (a, b, k) ∧ InCell g k (g.vectZ kf - g.cellZ) :=
        ⟨kf, hf, le_rfl, by linarith [hz.pos]⟩
      have hhi : ∃ k, C (a, b, k) ∧ InCell g k (g.vectZ kl) :=
        ⟨kl, hl', by linarith [hz.pos], le_rfl⟩
      have olay : ∀ k, k = 0 ∨ k = 2 → HasBody s k a b → Occ s a b (s.body k a b) ∧
          Occ s a b (s.body (k + 1) a b) := by
        intro k hk hb
        have := hc.order k hk hb
        exact ⟨⟨k, hk, hb, le_rfl, this.le⟩, ⟨k, hk, hb, this.le, le_rfl⟩⟩
      rcases hin.only h ((occ_iff _ _ _ _).mp hh) with h1 | h1 | ⟨hp, h1, -⟩ | ⟨hp, h1, -⟩
      · have := (occ_iff s a b h).mpr h1
        exact ⟨h, h, le_rfl, le_rfl, .inl this, .inl this⟩
      · exact ⟨_, _, h1.1, h1.2, .inr hlo, .inr hhi⟩
      · obtain ⟨o1, o2⟩ := olay 0 (.inl rfl) hp
        rcases h1 with ⟨h1, h2⟩ | ⟨h1, h2⟩
        · exact ⟨_, _, h1.le, h2.le, .inl o2, .inr hlo⟩
        · exact ⟨_, _, h1.le, h2.le, .inr hhi, .inl o1⟩
      · obtain ⟨o1, o2⟩ := olay 2 (.inr rfl) hp
        rcases h1 with ⟨h1, h2⟩ | ⟨h1, h2⟩
        · exact ⟨_, _, h1.le, h2.le, .inl o2, .inr hlo⟩
        · exact ⟨_, _, h1.le, h2.le, .inr hhi, .inl o1⟩
    · have := (hcolocc a b hx h).mp hh
      exact ⟨h, h, le_rfl, le_rfl, .inl this, .inl this⟩
  · intro Q a b q0 q1 q2 k
    by_cases hx : a = i ∧ b = j
    · obtain ⟨rfl, rfl⟩ := hx
      rcases hfr.val k with e | e | e | ⟨k', e⟩ <;> rw [e]
      · exact (q2 kf hf).2
      · exact (q2 kl hl').1
      · exact q0
      · exact q1 k'
    · rw [hfr.other k a b hx]; exact q1 k
  · intro h h1 h2
    exact (occ_iff _ _ _ _).mpr (hin.new h h1 h2)

theorem updateBodyLoop_written {g : Grid K} {tol : K} (hz : ZGrid g) (ht : 0 < tol)
    (C : Cell3 → Prop) (l : List Cell3) (s : SimOut K) (ii jj kf kl : ℤ)
    (hs : ((ii, jj, kl) :: l).Pairwise fun a b => cellLe a b = true) (h0 : 0 ≤ kf) (hk : kf ≤ kl)
    (hf : C (ii, jj, kf)) (hC : ∀ x ∈ (ii, jj, kl) :: l, C x ∧ CellOK g s x)
    (hcol : ∀ a b, s.InGrid a b → ColOK tol s a b) :
    Ok (updateBodyLoop g tol l s ii jj (g.vectZ kf - g.cellZ) (g.vectZ kl)) fun s' =>
      Written g tol C s s' ∧
      (∀ h, g.vectZ kf - g.cellZ ≤ h → h ≤ g.vectZ kl → Occ s' ii jj h) ∧
      ∀ x ∈ l, ∀ h, InCell g x.2.2 h → Occ s' x.1 x.2.1 h := by
  induction l generalizing s ii jj kf kl with
  | nil =>
    unfold updateBodyLoop
    obtain ⟨hc, hin, -, hl⟩ := hC _ List.mem_cons_self
    refine (include_written hz ht C s ii jj kf kl h0 hk hl hf hc hin (hcol _ _ hin)).mono ?_
    rintro s' ⟨h1, h2⟩
    exact ⟨h1, h2, by simp⟩
  | cons x l ih =>
    obtain ⟨i, j, k⟩ := x
    obtain ⟨hc, hin, -, hl⟩ := hC _ List.mem_cons_self
    obtain ⟨hcx, hxin, hx0, hxl⟩ := hC (i, j, k) (List.mem_cons_of_mem _ List.mem_cons_self)
    dsimp only at hc hin hl hcx hxin hx0 hxl
    rw [List.pairwise_cons] at hs
    have hzk : zAt g k = .ok (g.vectZ k) := by
      unfold zAt
      rw [guardOob_of ⟨hx0, by omega⟩]; rfl
    unfold updateBodyLoop
    by_cases hne : ii ≠ i ∨ jj ≠ j
    · rw [if_pos hne]
      refine Ok.bind (include_written hz ht C s ii jj kf kl h0 hk hl hf hc hin (hcol _ _ hin)) ?_
      rintro s1 ⟨w1, o1⟩
      rw [hzk, ok_bind]
      refine (ih s1 i j k k hs.2 hx0 le_rfl hcx ?_ ?_).mono ?_
      · intro y hy
        obtain ⟨y1, y2, y3⟩ := hC y (List.mem_cons_of_mem _ hy)
        exact ⟨y1, (w1.inGrid _ _).mpr y2, y3⟩
      · intro a b hab
        exact w1.ok a b ((w1.inGrid a b).mp hab) (hcol a b ((w1.inGrid a b).mp hab))
      · rintro s2 ⟨w2, o2, p2⟩
        refine ⟨w1.trans w2, fun h h1 h2 => w2.keep _ _ _ (o1 h h1 h2), ?_⟩
        intro y hy h hh
        rcases List.mem_cons.mp hy with rfl | hy
        · exact o2 h hh.1 hh.2
        · exact p2 y hy h hh
    · rw [if_neg hne]
      push Not at hne
      obtain ⟨rfl, rfl⟩ := hne
      rw [hzk, ok_bind]
      have hkl : kl ≤ k := by
        have := hs.1 (ii, jj, k) List.mem_cons_self
        unfold cellLe at this
        simp only [decide_eq_true_eq] at this
        omega
      refine (ih s ii jj kf k hs.2 h0 (hk.trans hkl) hf (fun y hy => hC y (List.mem_cons_of_mem _ hy))
        hcol).mono ?_
      rintro s2 ⟨w2, o2, p2⟩
      refine ⟨w2, fun h h1 h2 => o2 h h1 (h2.trans (hz.le (h0.trans hk) hkl hxl)), ?_⟩
      intro y hy h hh
      rcases List.mem_cons.mp hy with rfl | hy
      · refine o2 h ?_ hh.2
        have h3 := hh.1
        dsimp only at h3
        have : g.vectZ kf ≤ g.vectZ k := hz.le h0 (hk.trans hkl) hxl
        linarith
      · exact p2 y hy h hh

theorem updateBody_written {g : Grid K} {tol : K} (hz : ZGrid g) (ht : 0 < tol)
    (l : List Cell3) (hne : l ≠ []) (s : SimOut K)
    (hs : l.Pairwise fun a b => cellLe a b = true) (hC : ∀ x ∈ l, CellOK g s x)
    (hcol : ∀ a b, s.InGrid a b → ColOK tol s a b) :
    Ok (updateBody l s g tol) fun s' => Written g tol (· ∈ l) s s' ∧
      ∀ x ∈ l, ∀ h, InCell g x.2.2 h → Occ s' x.1 x.2.1 h := by
  cases l with
  | nil => exact absurd rfl hne
  | cons x l =>
    obtain ⟨i, j, k⟩ := x
    obtain ⟨hxin, hx0, hxl⟩ := hC (i, j, k) List.mem_cons_self
    dsimp only at hxin hx0 hxl
    have hzk : zAt g k = .ok (g.vectZ k) := by
      unfold zAt
      rw [guardOob_of ⟨hx0, by omega⟩]; rfl
    unfold updateBody
    dsimp only
    rw [hzk, ok_bind]
    have hs' : ((i, j, k) :: (i, j, k) :: l).Pairwise fun a b => cellLe a b = true := by
      rw [List.pairwise_cons]
      refine ⟨?_, hs⟩
      intro y hy
      rcases List.mem_cons.mp hy with rfl | hy
      · unfold cellLe; simp
      · exact (List.pairwise_cons.mp hs).1 y hy
    refine (updateBodyLoop_written hz ht (· ∈ (i, j, k) :: l) ((i, j, k) :: l) s i j k k hs' hx0 le_rfl
      List.mem_cons_self ?_ hcol).mono ?_
    · intro y hy
      have : y ∈ (i, j, k) :: l := by
        rcases List.mem_cons.mp hy with rfl | hy
        · exact List.mem_cons_self
        · exact hy
      exact ⟨this, hC y this⟩
    · rintro s' ⟨h1, -, h3⟩
      exact ⟨h1, h3⟩

/-! Cells that were written successfully were in the grid -/

theorem includeNewBodyPos_guard {s s' : SimOut K} {i j : ℤ} {lo hi tol : K}
    (h : includeNewBodyPos s i j lo hi tol = .ok s') :
    s.InGrid i j ∧ s'.lenX = s.lenX ∧ s'.lenY = s.lenY := by
  unfold includeNewBodyPos at h
  obtain ⟨h1, h⟩ := guardOob_bind.mp h
  refine ⟨h1, ?_⟩
  dsimp only at h
  unfold mergeClosest at h
  dsimp only at h
  split_ifs at h <;> cases h <;> exact ⟨rfl, rfl⟩

theorem updateBodyLoop_guard {g : Grid K} {tol : K} (l : List Cell3) (s s' : SimOut K) (ii jj : ℤ)
    (lo hi : K) (h : updateBodyLoop g tol l s ii jj lo hi = .ok s') :
    (∀ x ∈ l, CellOK g s x) ∧ s'.lenX = s.lenX ∧ s'.lenY = s.lenY ∧ s.InGrid ii jj := by
  induction l generalizing s ii jj lo hi with
  | nil =>
    unfold updateBodyLoop at h
    have := includeNewBodyPos_guard h
    exact ⟨by simp, this.2.1, this.2.2, this.1⟩
  | cons x l ih =>
    obtain ⟨i, j, k⟩ := x
    unfold updateBodyLoop at h
    by_cases hne : ii ≠ i ∨ jj ≠ j
    · rw [if_pos hne] at h
      obtain ⟨s1, h1, h⟩ := bind_eq_ok.mp h
      obtain ⟨z, hz, h⟩ := bind_eq_ok.mp h
      obtain ⟨a1, a2, a3⟩ := includeNewBodyPos_guard h1
      obtain ⟨b1, b2, b3, b4⟩ := ih s1 i j _ _ h
      have hg : ∀ a b, s1.InGrid a b ↔ s.InGrid a b := by
        intro a b; unfold SimOut.InGrid; rw [a2, a3]
      unfold zAt at hz
      obtain ⟨hk, -⟩ := guardOob_bind.mp hz
      refine ⟨?_, b2.trans a2, b3.trans a3, a1⟩
      intro y hy
      rcases List.mem_cons.mp hy with rfl | hy
      · exact ⟨(hg _ _).mp b4, hk.1, by dsimp only; omega⟩
      · obtain ⟨c1, c2⟩ := b1 y hy
        exact ⟨(hg _ _).mp c1, c2⟩
    · rw [if_neg hne] at h
      push Not at hne
      obtain ⟨rfl, rfl⟩ := hne
      obtain ⟨z, hz, h⟩ := bind_eq_ok.mp h
      obtain ⟨b1, b2, b3, b4⟩ := ih s ii jj _ _ h
      unfold zAt at hz
      obtain ⟨hk, -⟩ := guardOob_bind.mp hz
      refine ⟨?_, b2, b3, b4⟩
      intro y hy
      rcases List.mem_cons.mp hy with rfl | hy
      · exact ⟨b4, hk.1, by dsimp only; omega⟩
      · exact b1 y hy

theorem updateBody_guard {g : Grid K} {tol : K} (l : List Cell3) (s s' : SimOut K)
    (h : updateBody l s g tol = .ok s') : l ≠ [] ∧ ∀ x ∈ l, CellOK g s x := by
  unfold updateBody at h
  cases l with
  | nil => cases h
  | cons x l =>
    obtain ⟨z, -, h⟩ := bind_eq_ok.mp h
    exact ⟨by simp, (updateBodyLoop_guard _ _ _ _ _ _ _ h).1⟩

theorem updateWalls_written {g : Grid K} {tol : K} (hz : ZGrid g) (ht : 0 < tol)
    (ws : List (List Cell3)) (s : SimOut K) (hne : ∀ w ∈ ws, w ≠ [])
    (hC : ∀ w ∈ ws, ∀ x ∈ w, CellOK g s x) (hcol : ∀ a b, s.InGrid a b → ColOK tol s a b) :
    Ok (updateWalls g tol ws s) fun s' => Written g tol (fun x => ∃ w ∈ ws, x ∈ w) s s' ∧
      ∀ w ∈ ws, ∀ x ∈ w, ∀ h, InCell g x.2.2 h → Occ s' x.1 x.2.1 h := by
  induction ws generalizing s with
  | nil => exact Ok.ok ⟨.refl _ _ _ _, by simp⟩
  | cons w ws ih =>
    unfold updateWalls
    have hw := hne w List.mem_cons_self
    refine Ok.bind (updateBody_written hz ht (sortCells w) ?_ s (sortCells_sorted w) ?_ hcol) ?_
    · intro h
      apply hw
      cases w with
      | nil => rfl
      | cons x w =>
        have : x ∈ sortCells (x :: w) := mem_sortCells.mpr List.mem_cons_self
        rw [h] at this; simp at this
    · intro x hx; exact hC w List.mem_cons_self x (mem_sortCells.mp hx)
    rintro s1 ⟨w1, o1⟩
    refine (ih s1 (fun x hx => hne x (List.mem_cons_of_mem _ hx)) ?_ ?_).mono ?_
    · intro v hv x hx
      obtain ⟨c1, c2⟩ := hC v (List.mem_cons_of_mem _ hv) x hx
      exact ⟨(w1.inGrid _ _).mpr c1, c2⟩
    · intro a b hab
      exact w1.ok a b ((w1.inGrid a b).mp hab) (hcol a b ((w1.inGrid a b).mp hab))
    · rintro s2 ⟨w2, o2⟩
      refine ⟨(w1.mono fun x hx => ⟨w, List.mem_cons_self, mem_sortCells.mp hx⟩).trans
        (w2.mono fun x ⟨v, hv, hx⟩ => ⟨v, List.mem_cons_of_mem _ hv, hx⟩), ?_⟩
      intro v hv x hx h hh
      rcases List.mem_cons.mp hv with rfl | hv
      · exact w2.keep _ _ _ (o1 x (mem_sortCells.mpr hx) h hh)
      · exact o2 v hv x hx h hh

theorem updateWalls_guard {g : Grid K} {tol : K} (hz : ZGrid g) (ht : 0 < tol)
    (ws : List (List Cell3)) (s s' : SimOut K) (hcol : ∀ a b, s.InGrid a b → ColOK tol s a b)
    (h : updateWalls g tol ws s = .ok s') : (∀ w ∈ ws, w ≠ []) ∧ ∀ w ∈ ws, ∀ x ∈ w, CellOK g s x := by
  induction ws generalizing s with
  | nil => simp
  | cons w ws ih =>
    unfold updateWalls at h
    obtain ⟨s1, h1, h⟩ := bind_eq_ok.mp h
    obtain ⟨g1, g2⟩ := updateBody_guard _ _ _ h1
    obtain ⟨w1, -⟩ := (updateBody_written hz ht (sortCells w) g1 s (sortCells_sorted w) g2 hcol).post _ h1
    obtain ⟨i1, i2⟩ := ih s1 (by
      intro a b hab
      exact w1.ok a b ((w1.inGrid a b).mp hab) (hcol a b ((w1.inGrid a b).mp hab))) h
    constructor
    · intro v hv
      rcases List.mem_cons.mp hv with rfl | hv
      · rintro rfl; exact g1 rfl
      · exact i1 v hv
    · intro v hv x hx
      rcases List.mem_cons.mp hv with rfl | hv
      · exact g2 x (mem_sortCells.mpr hx)
      · obtain ⟨c1, c2⟩ := i2 v hv x hx
        exact ⟨(w1.inGrid _ _).mp c1, c2⟩

end Soil
