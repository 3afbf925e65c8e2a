import Verif.Spec.Column
import Verif.Proof.Lattice
import Verif.Model.BodyPos

/-! # Adding an interval to a column -/

set_option linter.unusedSectionVars false
set_option linter.unusedSimpArgs false

namespace Soil

variable {K : Type} [Field K] [LinearOrder K] [FloorRing K] [Transc K] [IsStrictOrderedRing K]

/-- What the status of a layer says -/
theorem layerStatus_spec (s : SimOut K) (i j : ℤ) (lo hi tol : K) (k : ℕ) (h : lo < hi)
    (ht : 0 < tol) (ho : HasBody s k i j → s.body k i j < s.body (k + 1) i j) :
    match layerStatus s i j lo hi tol k with
    | .none => ¬ HasBody s k i j
    | .overlap => HasBody s k i j ∧ s.body k i j < hi + tol ∧ lo - tol < s.body (k + 1) i j
    | .within => HasBody s k i j ∧ s.body k i j + tol ≤ lo ∧ hi + tol ≤ s.body (k + 1) i j
    | .disjoint => HasBody s k i j ∧ (s.body (k + 1) i j + tol ≤ lo ∨ hi + tol ≤ s.body k i j) := by
  unfold layerStatus
  by_cases hb : HasBody s k i j
  · have h1 : s.bodyAbs k i j = false := by
      unfold SimOut.bodyAbs HasBody at *
      simp only [ex_eq, ex_zero, Bool.and_eq_false_iff, decide_eq_false_iff_not]
      exact hb
    have ho' := ho hb
    rw [h1]
    simp only [Bool.false_eq_true, if_false, ex_sub, ex_add, ex_lt, Bool.and_eq_true,
      decide_eq_true_eq]
    by_cases c1 : lo - tol < s.body k i j ∧ s.body k i j < hi + tol
    · rw [if_pos c1]; exact ⟨hb, c1.2, by linarith⟩
    rw [if_neg c1]
    by_cases c2 : lo - tol < s.body (k + 1) i j ∧ s.body (k + 1) i j < hi + tol
    · rw [if_pos c2]; exact ⟨hb, by linarith, c2.1⟩
    rw [if_neg c2]
    have d1 : s.body k i j ≤ lo - tol ∨ hi + tol ≤ s.body k i j := by
      by_contra hn
      push Not at hn
      exact c1 hn
    have d2 : s.body (k + 1) i j ≤ lo - tol ∨ hi + tol ≤ s.body (k + 1) i j := by
      by_contra hn
      push Not at hn
      exact c2 hn
    by_cases c3 : s.body k i j < lo + tol ∧ hi - tol < s.body (k + 1) i j
    · rw [if_pos c3]
      refine ⟨hb, ?_, ?_⟩
      · rcases d1 with d | d
        · linarith
        · linarith
      · rcases d2 with d | d <;> linarith
    · rw [if_neg c3]
      refine ⟨hb, ?_⟩
      rcases d1 with d | d
      · rcases d2 with d' | d'
        · left; linarith
        · exact absurd ⟨by linarith, by linarith⟩ c3
      · right; linarith
  · have h1 : s.bodyAbs k i j = true := by
      unfold SimOut.bodyAbs HasBody at *
      simpa using hb
    rw [h1]
    simpa using hb

/-- a layer with these heights exists -/
def P (a b : K) : Prop := a ≠ 0 ∨ b ≠ 0

/-- heights occupied by two layers -/
def O (a0 a1 b0 b1 h : K) : Prop := (P a0 a1 ∧ a0 ≤ h ∧ h ≤ a1) ∨ (P b0 b1 ∧ b0 ≤ h ∧ h ≤ b1)

/-- two layers in order and apart -/
structure C4 (tol a0 a1 b0 b1 : K) : Prop where
  o0 : P a0 a1 → a0 < a1
  o2 : P b0 b1 → b0 < b1
  ap : P a0 a1 → P b0 b1 → a1 + tol ≤ b0 ∨ b1 + tol ≤ a0

/-- Layers `a`, `b` have become `c`, `d` by adding `[lo, hi]` -/
structure Incl (tol lo hi a0 a1 b0 b1 c0 c1 d0 d1 : K) : Prop where
  ok : C4 tol c0 c1 d0 d1
  keep : ∀ h, O a0 a1 b0 b1 h → O c0 c1 d0 d1 h
  new : ∀ h, lo ≤ h → h ≤ hi → O c0 c1 d0 d1 h
  only : ∀ h, O c0 c1 d0 d1 h → O a0 a1 b0 b1 h ∨ (lo ≤ h ∧ h ≤ hi) ∨
    (P a0 a1 ∧ ((a1 < h ∧ h < lo) ∨ (hi < h ∧ h < a0)) ∧ (max (lo - a1) (a0 - hi) < tol ∨
      (P b0 b1 ∧ tol ≤ max (lo - a1) (a0 - hi) ∧ max (lo - a1) (a0 - hi) ≤ max (lo - b1) (b0 - hi)))) ∨
    (P b0 b1 ∧ ((b1 < h ∧ h < lo) ∨ (hi < h ∧ h < b0)) ∧ (max (lo - b1) (b0 - hi) < tol ∨
      (P a0 a1 ∧ tol ≤ max (lo - b1) (b0 - hi) ∧ max (lo - b1) (b0 - hi) ≤ max (lo - a1) (a0 - hi))))

theorem P.of_lt {a b : K} (h : a < b) : P a b := by
  by_contra hn
  unfold P at hn
  push Not at hn
  rw [hn.1, hn.2] at h
  exact lt_irrefl _ h

theorem O.swap {a0 a1 b0 b1 h : K} (x : O a0 a1 b0 b1 h) : O b0 b1 a0 a1 h := Or.symm x

theorem C4.swap {tol a0 a1 b0 b1 : K} (x : C4 tol a0 a1 b0 b1) : C4 tol b0 b1 a0 a1 :=
  ⟨x.o2, x.o0, fun h h' => (x.ap h' h).symm⟩

theorem Incl.swap {tol lo hi a0 a1 b0 b1 c0 c1 d0 d1 : K}
    (x : Incl tol lo hi a0 a1 b0 b1 c0 c1 d0 d1) : Incl tol lo hi b0 b1 a0 a1 d0 d1 c0 c1 := by
  refine ⟨x.ok.swap, fun h hh => (x.keep h hh.swap).swap, fun h h1 h2 => (x.new h h1 h2).swap, ?_⟩
  intro h hh
  rcases x.only h hh.swap with h1 | h1 | h1 | h1
  · exact .inl h1.swap
  · exact .inr (.inl h1)
  · exact .inr (.inr (.inr h1))
  · exact .inr (.inr (.inl h1))

section
variable {tol lo hi a0 a1 b0 b1 : K}

theorem incl_within (hc : C4 tol a0 a1 b0 b1) (ht : 0 < tol) (hp : P a0 a1) (h1 : a0 + tol ≤ lo)
    (h2 : hi + tol ≤ a1) : Incl tol lo hi a0 a1 b0 b1 a0 a1 b0 b1 :=
  ⟨hc, fun _ h => h, fun h h3 h4 => .inl ⟨hp, by linarith, by linarith⟩, fun _ h => .inl h⟩

theorem incl_both (hc : C4 tol a0 a1 b0 b1) (h : lo < hi) (ht : 0 < tol) (hp : P a0 a1)
    (hq : P b0 b1) (x1 : a0 < hi + tol) (x2 : lo - tol < a1) (y1 : b0 < hi + tol)
    (y2 : lo - tol < b1) :
    Incl tol lo hi a0 a1 b0 b1 (min a0 (min b0 lo)) (max a1 (max b1 hi)) 0 0 := by
  have hlt : min a0 (min b0 lo) < max a1 (max b1 hi) :=
    lt_of_le_of_lt ((min_le_right _ _).trans (min_le_right _ _))
      (lt_of_lt_of_le h ((le_max_right _ _).trans (le_max_right _ _)))
  have hn : ¬ P (0 : K) 0 := by unfold P; simp
  have oa := hc.o0 hp
  have ob := hc.o2 hq
  refine ⟨⟨fun _ => hlt, fun h => absurd h hn, fun _ h => absurd h hn⟩, ?_, ?_, ?_⟩
  · rintro z (⟨-, h1, h2⟩ | ⟨-, h1, h2⟩)
    · exact .inl ⟨.of_lt hlt, (min_le_left _ _).trans h1, h2.trans (le_max_left _ _)⟩
    · exact .inl ⟨.of_lt hlt, ((min_le_right _ _).trans (min_le_left _ _)).trans h1,
        h2.trans ((le_max_left _ _).trans (le_max_right _ _))⟩
  · intro z h1 h2
    exact .inl ⟨.of_lt hlt, ((min_le_right _ _).trans (min_le_right _ _)).trans h1,
        h2.trans ((le_max_right _ _).trans (le_max_right _ _))⟩
  · rintro z (⟨-, h1, h2⟩ | ⟨h, -⟩)
    · by_cases za : a0 ≤ z ∧ z ≤ a1
      · exact .inl (.inl ⟨hp, za⟩)
      by_cases zb : b0 ≤ z ∧ z ≤ b1
      · exact .inl (.inr ⟨hq, zb⟩)
      by_cases zl : lo ≤ z ∧ z ≤ hi
      · exact .inr (.inl zl)
      right; right
      rw [min_le_iff, min_le_iff] at h1
      rw [le_max_iff, le_max_iff] at h2
      have ga : max (lo - a1) (a0 - hi) < tol := max_lt (by linarith) (by linarith)
      have gb : max (lo - b1) (b0 - hi) < tol := max_lt (by linarith) (by linarith)
      rcases lt_or_ge z lo with hz | hz
      · -- below the new interval
        have : a1 < z ∨ b1 < z := by
          by_contra hcon
          push Not at hcon
          rcases h1 with h1 | h1 | h1
          · exact za ⟨h1, hcon.1⟩
          · exact zb ⟨h1, hcon.2⟩
          · linarith
        rcases this with h3 | h3
        · exact .inl ⟨hp, .inl ⟨h3, hz⟩, .inl ga⟩
        · exact .inr ⟨hq, .inl ⟨h3, hz⟩, .inl gb⟩
      · have hz' : hi < z := not_le.mp fun h => zl ⟨hz, h⟩
        have : z < a0 ∨ z < b0 := by
          by_contra hcon
          push Not at hcon
          rcases h2 with h1 | h1 | h1
          · exact za ⟨hcon.1, h1⟩
          · exact zb ⟨hcon.2, h1⟩
          · linarith
        rcases this with h3 | h3
        · exact .inl ⟨hp, .inr ⟨hz', h3⟩, .inl ga⟩
        · exact .inr ⟨hq, .inr ⟨hz', h3⟩, .inl gb⟩
    · exact absurd h hn

/-- the new interval is merged with layer `a`; layer `b` is absent or at least `tol` away -/
theorem incl_one (hc : C4 tol a0 a1 b0 b1) (h : lo < hi) (ht : 0 < tol) (hp : P a0 a1)
    (x1 : a0 < hi + tol) (x2 : lo - tol < a1) (hb : P b0 b1 → b1 + tol ≤ lo ∨ hi + tol ≤ b0) :
    Incl tol lo hi a0 a1 b0 b1 (min a0 lo) (max a1 hi) b0 b1 := by
  have hlt : min a0 lo < max a1 hi :=
    lt_of_le_of_lt (min_le_right _ _) (lt_of_lt_of_le h (le_max_right _ _))
  have oa := hc.o0 hp
  refine ⟨⟨fun _ => hlt, hc.o2, ?_⟩, ?_, ?_, ?_⟩
  · intro _ hq
    have ob := hc.o2 hq
    rcases hc.ap hp hq with g | g <;> rcases hb hq with g' | g'
    · exfalso; linarith
    · left
      rcases max_choice a1 hi with e | e <;> rw [e] <;> linarith
    · right
      rcases min_choice a0 lo with e | e <;> rw [e] <;> linarith
    · exfalso; linarith
  · rintro z (⟨-, h1, h2⟩ | h')
    · exact .inl ⟨.of_lt hlt, (min_le_left _ _).trans h1, h2.trans (le_max_left _ _)⟩
    · exact .inr h'
  · intro z h1 h2
    exact .inl ⟨.of_lt hlt, (min_le_right _ _).trans h1, h2.trans (le_max_right _ _)⟩
  · rintro z (⟨-, h1, h2⟩ | h')
    · by_cases za : a0 ≤ z ∧ z ≤ a1
      · exact .inl (.inl ⟨hp, za⟩)
      by_cases zl : lo ≤ z ∧ z ≤ hi
      · exact .inr (.inl zl)
      right; right; left
      rw [min_le_iff] at h1
      rw [le_max_iff] at h2
      have ga : max (lo - a1) (a0 - hi) < tol := max_lt (by linarith) (by linarith)
      refine ⟨hp, ?_, .inl ga⟩
      rcases lt_or_ge z lo with hz | hz
      · left
        refine ⟨?_, hz⟩
        by_contra hcon
        rcases h1 with h1 | h1
        · exact za ⟨h1, not_lt.mp hcon⟩
        · linarith
      · have hz' : hi < z := not_le.mp fun h => zl ⟨hz, h⟩
        right
        refine ⟨hz', ?_⟩
        by_contra hcon
        rcases h2 with h1 | h1
        · exact za ⟨not_lt.mp hcon, h1⟩
        · linarith
    · exact .inl (.inr h')

theorem incl_empty (hc : C4 tol a0 a1 b0 b1) (h : lo < hi) (hp : ¬ P a0 a1)
    (hb : P b0 b1 → b1 + tol ≤ lo ∨ hi + tol ≤ b0) : Incl tol lo hi a0 a1 b0 b1 lo hi b0 b1 := by
  refine ⟨⟨fun _ => h, hc.o2, fun _ hq => (hb hq).symm⟩, ?_, ?_, ?_⟩
  · rintro z (⟨h', -⟩ | h')
    · exact absurd h' hp
    · exact .inr h'
  · intro z h1 h2; exact .inl ⟨.of_lt h, h1, h2⟩
  · rintro z (⟨-, h'⟩ | h')
    · exact .inr (.inl h')
    · exact .inl (.inr h')

/-- both layers are away from the new interval, `a` is not further than `b` -/
theorem incl_far (hc : C4 tol a0 a1 b0 b1) (h : lo < hi) (ht : 0 < tol) (hp : P a0 a1)
    (hq : P b0 b1) (ha : a1 + tol ≤ lo ∨ hi + tol ≤ a0) (hb : b1 + tol ≤ lo ∨ hi + tol ≤ b0)
    (hle : max (lo - a1) (a0 - hi) ≤ max (lo - b1) (b0 - hi)) :
    Incl tol lo hi a0 a1 b0 b1 (min a0 lo) (max a1 hi) b0 b1 := by
  have hlt : min a0 lo < max a1 hi :=
    lt_of_le_of_lt (min_le_right _ _) (lt_of_lt_of_le h (le_max_right _ _))
  have oa := hc.o0 hp
  have ob := hc.o2 hq
  have hg : tol ≤ max (lo - a1) (a0 - hi) := by
    rw [le_max_iff]
    rcases ha with g | g
    · left; linarith
    · right; linarith
  refine ⟨⟨fun _ => hlt, hc.o2, ?_⟩, ?_, ?_, ?_⟩
  · intro _ _
    rw [max_le_iff, le_max_iff, le_max_iff] at hle
    obtain ⟨q1, q2⟩ := hle
    rcases hc.ap hp hq with g | g <;> rcases hb with g' | g'
    · exfalso
      rcases q1 with q1 | q1 <;> rcases q2 with q2 | q2 <;> linarith
    · left
      rcases max_choice a1 hi with e | e <;> rw [e] <;> linarith
    · right
      rcases min_choice a0 lo with e | e <;> rw [e] <;> linarith
    · exfalso
      rcases q1 with q1 | q1 <;> rcases q2 with q2 | q2 <;> linarith
  · rintro z (⟨-, h1, h2⟩ | h')
    · exact .inl ⟨.of_lt hlt, (min_le_left _ _).trans h1, h2.trans (le_max_left _ _)⟩
    · exact .inr h'
  · intro z h1 h2
    exact .inl ⟨.of_lt hlt, (min_le_right _ _).trans h1, h2.trans (le_max_right _ _)⟩
  · rintro z (⟨-, h1, h2⟩ | h')
    · by_cases za : a0 ≤ z ∧ z ≤ a1
      · exact .inl (.inl ⟨hp, za⟩)
      by_cases zl : lo ≤ z ∧ z ≤ hi
      · exact .inr (.inl zl)
      right; right; left
      rw [min_le_iff] at h1
      rw [le_max_iff] at h2
      refine ⟨hp, ?_, .inr ⟨hq, hg, hle⟩⟩
      rcases lt_or_ge z lo with hz | hz
      · left
        refine ⟨?_, hz⟩
        by_contra hcon
        rcases h1 with h1 | h1
        · exact za ⟨h1, not_lt.mp hcon⟩
        · linarith
      · have hz' : hi < z := not_le.mp fun h => zl ⟨hz, h⟩
        right
        refine ⟨hz', ?_⟩
        by_contra hcon
        rcases h2 with h1 | h1
        · exact za ⟨not_lt.mp hcon, h1⟩
        · linarith
    · exact .inl (.inr h')

/-- the distances used by the code give the height of the gap -/
theorem dist_gap (h : lo < hi) (oa : a0 < a1) (ht : 0 < tol) (ha : a1 + tol ≤ lo ∨ hi + tol ≤ a0) :
    min |a0 - hi| |lo - a1| = max (lo - a1) (a0 - hi) ∧
      (|a0 - hi| < |lo - a1| ↔ hi + tol ≤ a0) := by
  rcases ha with g | g
  · have e1 : |a0 - hi| = hi - a0 := by rw [abs_of_neg (by linarith)]; ring
    have e2 : |lo - a1| = lo - a1 := abs_of_pos (by linarith)
    rw [e1, e2, min_eq_right (by linarith), max_eq_left (by linarith)]
    refine ⟨rfl, ?_⟩
    constructor <;> intro h' <;> exfalso <;> linarith
  · have e1 : |a0 - hi| = a0 - hi := abs_of_pos (by linarith)
    have e2 : |lo - a1| = a1 - lo := by rw [abs_of_neg (by linarith)]; ring
    rw [e1, e2, min_eq_left (by linarith), max_eq_right (by linarith)]
    refine ⟨rfl, ?_⟩
    constructor <;> intro h' <;> linarith

end

/-! ## The function -/

theorem setB_body (s : SimOut K) (k : ℕ) (i j : ℤ) (v : K) (k' : ℕ) (a b : ℤ) :
    (s.setB k i j v).body k' a b = if k' = k ∧ a = i ∧ b = j then v else s.body k' a b := rfl

/-- The frame: only column `(i, j)` of the body changes, to old heights, `lo`, `hi` or zero -/
structure BFrame (s s' : SimOut K) (i j : ℤ) (lo hi : K) : Prop where
  eq : s' = { s with body := s'.body }
  other : ∀ k a b, ¬ (a = i ∧ b = j) → s'.body k a b = s.body k a b
  val : ∀ k, s'.body k i j = lo ∨ s'.body k i j = hi ∨ s'.body k i j = 0 ∨
    ∃ k', s'.body k i j = s.body k' i j

theorem BFrame.refl (s : SimOut K) (i j : ℤ) (lo hi : K) : BFrame s s i j lo hi :=
  ⟨rfl, fun _ _ _ _ => rfl, fun k => .inr (.inr (.inr ⟨k, rfl⟩))⟩

theorem BFrame.setB {s s' : SimOut K} {i j : ℤ} {lo hi : K} (h : BFrame s s' i j lo hi) (k : ℕ) (v : K)
    (hv : v = lo ∨ v = hi ∨ v = 0 ∨ ∃ k', v = s.body k' i j) :
    BFrame s (s'.setB k i j v) i j lo hi := by
  refine ⟨?_, ?_, ?_⟩
  · conv_lhs => rw [h.eq]
    rfl
  · intro k' a b hab
    rw [setB_body, if_neg fun x => hab x.2]
    exact h.other k' a b hab
  · intro k'
    rw [setB_body]
    split_ifs
    · exact hv
    · exact h.val k'

theorem min_val {s : SimOut K} {i j : ℤ} {lo hi : K} {k : ℕ} {v : K}
    (hv : v = lo ∨ v = hi ∨ v = 0 ∨ ∃ k', v = s.body k' i j) :
    min (s.body k i j) v = lo ∨ min (s.body k i j) v = hi ∨ min (s.body k i j) v = 0 ∨
      ∃ k', min (s.body k i j) v = s.body k' i j := by
  rcases min_choice (s.body k i j) v with e | e <;> rw [e]
  · exact .inr (.inr (.inr ⟨k, rfl⟩))
  · exact hv

theorem max_val {s : SimOut K} {i j : ℤ} {lo hi : K} {k : ℕ} {v : K}
    (hv : v = lo ∨ v = hi ∨ v = 0 ∨ ∃ k', v = s.body k' i j) :
    max (s.body k i j) v = lo ∨ max (s.body k i j) v = hi ∨ max (s.body k i j) v = 0 ∨
      ∃ k', max (s.body k i j) v = s.body k' i j := by
  rcases max_choice (s.body k i j) v with e | e <;> rw [e]
  · exact .inr (.inr (.inr ⟨k, rfl⟩))
  · exact hv

/-- the heights of a column after adding an interval -/
def InclAt (tol lo hi : K) (s s' : SimOut K) (i j : ℤ) : Prop :=
  Incl tol lo hi (s.body 0 i j) (s.body 1 i j) (s.body 2 i j) (s.body 3 i j)
    (s'.body 0 i j) (s'.body 1 i j) (s'.body 2 i j) (s'.body 3 i j)

theorem colOK_iff (tol : K) (s : SimOut K) (i j : ℤ) :
    ColOK tol s i j ↔ C4 tol (s.body 0 i j) (s.body 1 i j) (s.body 2 i j) (s.body 3 i j) := by
  constructor
  · intro h
    exact ⟨h.order 0 (.inl rfl), h.order 2 (.inr rfl), h.apart⟩
  · intro h
    refine ⟨?_, h.ap⟩
    rintro k (rfl | rfl) hb
    · exact h.o0 hb
    · exact h.o2 hb

theorem occ_iff (s : SimOut K) (i j : ℤ) (h : K) :
    Occ s i j h ↔ O (s.body 0 i j) (s.body 1 i j) (s.body 2 i j) (s.body 3 i j) h := by
  constructor
  · rintro ⟨k, rfl | rfl, h1, h2, h3⟩
    · exact .inl ⟨h1, h2, h3⟩
    · exact .inr ⟨h1, h2, h3⟩
  · rintro (⟨h1, h2, h3⟩ | ⟨h1, h2, h3⟩)
    · exact ⟨0, .inl rfl, h1, h2, h3⟩
    · exact ⟨2, .inr rfl, h1, h2, h3⟩

theorem includeNewBodyPos_spec (s : SimOut K) (i j : ℤ) (lo hi tol : K) (h : lo < hi) (ht : 0 < tol)
    (hij : s.InGrid i j) (hc : ColOK tol s i j) :
    Ok (includeNewBodyPos s i j lo hi tol) fun s' =>
      BFrame s s' i j lo hi ∧ InclAt tol lo hi s s' i j := by
  have hc4 := (colOK_iff tol s i j).mp hc
  unfold includeNewBodyPos
  refine Ok.guard hij ?_
  have h0 := layerStatus_spec s i j lo hi tol 0 h ht (hc.order 0 (.inl rfl))
  have h2 := layerStatus_spec s i j lo hi tol 2 h ht (hc.order 2 (.inr rfl))
  dsimp only
  generalize layerStatus s i j lo hi tol 0 = st0 at h0 ⊢
  generalize layerStatus s i j lo hi tol 2 = st1 at h2 ⊢
  have hfr := BFrame.refl s i j lo hi
  have vlo : lo = lo ∨ lo = hi ∨ lo = 0 ∨ ∃ k', lo = s.body k' i j := .inl rfl
  have vhi : hi = lo ∨ hi = hi ∨ hi = 0 ∨ ∃ k', hi = s.body k' i j := .inr (.inl rfl)
  have vz : (0 : K) = lo ∨ (0 : K) = hi ∨ (0 : K) = 0 ∨ ∃ k', (0 : K) = s.body k' i j :=
    .inr (.inr (.inl rfl))
  have hA : st0 = .overlap → ¬ st1 = .within → ¬ st1 = .overlap → Ok (Except.ok
      ((s.setB 0 i j (min (s.body 0 i j) lo)).setB 1 i j (max (s.body 1 i j) hi)) : M (SimOut K)) fun s' =>
      BFrame s s' i j lo hi ∧ InclAt tol lo hi s s' i j := by
    intro e1 e2 e3
    subst e1
    refine Ok.ok ⟨(hfr.setB 0 _ (min_val vlo)).setB 1 _ (max_val vhi), ?_⟩
    have hb : P (s.body 2 i j) (s.body 3 i j) →
        s.body 3 i j + tol ≤ lo ∨ hi + tol ≤ s.body 2 i j := by
      intro hP
      cases st1 with
      | none => exact absurd hP h2
      | overlap => exact absurd rfl e3
      | within => exact absurd rfl e2
      | disjoint => exact h2.2
    have := incl_one hc4 h ht h0.1 h0.2.1 h0.2.2 hb
    simpa [InclAt, setB_body] using this
  have hB : st1 = .overlap → ¬ st0 = .within → ¬ st0 = .overlap → Ok (Except.ok
      ((s.setB 2 i j (min (s.body 2 i j) lo)).setB 3 i j (max (s.body 3 i j) hi)) : M (SimOut K)) fun s' =>
      BFrame s s' i j lo hi ∧ InclAt tol lo hi s s' i j := by
    intro e1 e2 e3
    subst e1
    refine Ok.ok ⟨(hfr.setB 2 _ (min_val vlo)).setB 3 _ (max_val vhi), ?_⟩
    have hb : P (s.body 0 i j) (s.body 1 i j) →
        s.body 1 i j + tol ≤ lo ∨ hi + tol ≤ s.body 0 i j := by
      intro hP
      cases st0 with
      | none => exact absurd hP h0
      | overlap => exact absurd rfl e3
      | within => exact absurd rfl e2
      | disjoint => exact h0.2
    have := (incl_one hc4.swap h ht h2.1 h2.2.1 h2.2.2 hb).swap
    simpa [InclAt, setB_body] using this
  by_cases c0 : st0 = .within
  · subst c0
    simp only [if_true]
    exact Ok.ok ⟨hfr, incl_within hc4 ht h0.1 h0.2.1 h0.2.2⟩
  rw [if_neg c0]
  by_cases c1 : st1 = .within
  · subst c1
    simp only [if_true]
    exact Ok.ok ⟨hfr, (incl_within hc4.swap ht h2.1 h2.2.1 h2.2.2).swap⟩
  rw [if_neg c1]
  by_cases c2 : st0 = .overlap ∧ st1 = .overlap
  · rw [if_pos c2]
    obtain ⟨rfl, rfl⟩ := c2
    simp only [FOps.minL, FOps.maxL, List.foldl, ex_min, ex_max, ex_zero, min_assoc, max_assoc]
    refine Ok.ok ⟨(((hfr.setB 0 _ (min_val (min_val vlo))).setB 1 _ (max_val (max_val vhi))).setB 2 _
      vz).setB 3 _ vz, ?_⟩
    have := incl_both hc4 h ht h0.1 h2.1 h0.2.1 h0.2.2 h2.2.1 h2.2.2
    simpa [InclAt, setB_body] using this
  rw [if_neg c2]
  by_cases c3 : st0 = .overlap
  · rw [if_pos c3]
    simp only [ex_min, ex_max]
    exact hA c3 c1 fun e => c2 ⟨c3, e⟩
  rw [if_neg c3]
  by_cases c4 : st1 = .overlap
  · rw [if_pos c4]
    simp only [ex_min, ex_max]
    exact hB c4 c0 c3
  rw [if_neg c4]
  by_cases c5 : st0 = .none
  · rw [if_pos c5]
    subst c5
    refine Ok.ok ⟨(hfr.setB 0 _ vlo).setB 1 _ vhi, ?_⟩
    have := incl_empty (lo := lo) (hi := hi) hc4 h h0 (by
      intro hP
      cases st1 with
      | none => exact absurd hP h2
      | overlap => exact absurd rfl c4
      | within => exact absurd rfl c1
      | disjoint => exact h2.2)
    simpa [InclAt, setB_body] using this
  rw [if_neg c5]
  have d0 : st0 = .disjoint := by cases st0 <;> simp_all
  subst d0
  by_cases c6 : st1 = .none
  · rw [if_pos c6]
    subst c6
    refine Ok.ok ⟨(hfr.setB 2 _ vlo).setB 3 _ vhi, ?_⟩
    have := (incl_empty (lo := lo) (hi := hi) hc4.swap h h2 fun _ => h0.2).swap
    simpa [InclAt, setB_body] using this
  rw [if_neg c6]
  have d1 : st1 = .disjoint := by cases st1 <;> simp_all
  subst d1
  clear hA hB c0 c1 c2 c3 c4 c5 c6
  obtain ⟨p0, g0⟩ := h0
  obtain ⟨p2, g2⟩ := h2
  refine Ok.ok ?_
  unfold mergeClosest
  simp only [ex_abs, ex_sub, ex_min, ex_lt, decide_eq_true_eq]
  have o0 := hc4.o0 p0
  have o2 := hc4.o2 p2
  obtain ⟨m0, l0⟩ := dist_gap (hi := hi) (lo := lo) h o0 ht g0
  obtain ⟨m2, l2⟩ := dist_gap (hi := hi) (lo := lo) h o2 ht g2
  simp only [Nat.reduceAdd] at g0 g2
  rw [m0, m2]
  by_cases e : max (lo - s.body 1 i j) (s.body 0 i j - hi) < max (lo - s.body 3 i j) (s.body 2 i j - hi)
  · rw [if_pos e]
    have hI := incl_far hc4 h ht p0 p2 g0 g2 e.le
    by_cases e' : hi + tol ≤ s.body 0 i j
    · rw [if_pos (l0.mpr e')]
      refine ⟨hfr.setB 0 _ vlo, ?_⟩
      rw [min_eq_right (by linarith), max_eq_left (by linarith)] at hI
      simpa [InclAt, setB_body] using hI
    · rw [if_neg fun x => e' (l0.mp x)]
      refine ⟨hfr.setB 1 _ vhi, ?_⟩
      have g : s.body 1 i j + tol ≤ lo := g0.resolve_right e'
      rw [min_eq_left (by linarith), max_eq_right (by linarith)] at hI
      simpa [InclAt, setB_body] using hI
  · rw [if_neg e]
    have hI := (incl_far hc4.swap h ht p2 p0 g2 g0 (not_lt.mp e)).swap
    by_cases e' : hi + tol ≤ s.body 2 i j
    · rw [if_pos (l2.mpr e')]
      refine ⟨hfr.setB 2 _ vlo, ?_⟩
      rw [min_eq_right (by linarith), max_eq_left (by linarith)] at hI
      simpa [InclAt, setB_body] using hI
    · rw [if_neg fun x => e' (l2.mp x)]
      refine ⟨hfr.setB 3 _ vhi, ?_⟩
      have g : s.body 3 i j + tol ≤ lo := g2.resolve_right e'
      rw [min_eq_left (by linarith), max_eq_right (by linarith)] at hI
      simpa [InclAt, setB_body] using hI

end Soil
