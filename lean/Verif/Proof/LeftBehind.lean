import Verif.Proof.Transport
import Verif.Spec.LeftBehind

/-! # Soil that the body loses when it moves: lemmas for C70 -/

set_option linter.unusedSectionVars false

namespace Soil

variable {K : Type} [Field K] [LinearOrder K] [FloorRing K] [Transc K] [IsStrictOrderedRing K]

theorem placeOn_facts (s : SimOut K) (k : ℕ) (i j : ℤ) (e : BodySoil K) (h : K) :
    (placeOn s k i j e h).body = s.body ∧ (placeOn s k i j e h).terrain = s.terrain ∧
      (placeOn s k i j e h).bodySoilPos = s.bodySoilPos ++ [⟨k, i, j, e.xb, e.yb, e.zb, h⟩] := by
  unfold placeOn SimOut.pushPos SimOut.setBS
  exact ⟨rfl, rfl, rfl⟩

/-- one record: lost to the terrain exactly if it has no place -/
theorem updateEntry_left (pos : Vec3 K) (ori : Quat K) (g : Grid K) (body : Body K) (tol : K)
    (e : BodySoil K) (w : World K) :
    Post (updateEntry pos ori g body tol e w) fun w' => w'.out.body = w.out.body ∧
      (e.h < 9 / 10 * g.cellZ → w' = w) ∧
      (9 / 10 * g.cellZ ≤ e.h → NoPlace g tol w.out (movedTo pos ori e) →
        w'.log = w.log ++ [.soilToTerrain] ∧ w'.out.bodySoilPos = w.out.bodySoilPos ∧
        ∀ i j, w'.out.terrain i j = w.out.terrain i j +
          if colX g (movedTo pos ori e) = i ∧ colY g (movedTo pos ori e) = j then wholeCells g e.h else 0) ∧
      (9 / 10 * g.cellZ ≤ e.h → ¬ NoPlace g tol w.out (movedTo pos ori e) →
        w'.log = w.log ∧ w'.out.terrain = w.out.terrain ∧
        ∃ k i j, w'.out.bodySoilPos = w.out.bodySoilPos ++ [⟨k, i, j, e.xb, e.yb, e.zb, wholeCells g e.h⟩]) := by
  have h9 : ((9 / 10 : ℚ) : K) = 9 / 10 := by push_cast; ring
  unfold updateEntry
  by_cases hs : e.h < ((9 / 10 : ℚ) : K) * g.cellZ
  · rw [if_pos (by simpa using hs)]
    rw [h9] at hs
    exact Post.ok ⟨rfl, fun _ => rfl, fun h => absurd hs (not_lt.mpr h), fun h => absurd hs (not_lt.mpr h)⟩
  rw [if_neg (by simpa using hs)]
  rw [h9] at hs
  dsimp only
  have hr : FOps.mul g.cellZ (FOps.round (FOps.div e.h g.cellZ)) = wholeCells g e.h := by
    simp only [ex_mul, ex_round, ex_div, wholeCells]
  rw [hr]
  have hq : (calcRotationQuaternion ori ⟨e.xb, e.yb, e.zb⟩).addF pos = movedTo pos ori e := rfl
  rw [hq]
  generalize movedTo pos ori e = q
  simp only [ex_round, ex_add, ex_div, ex_ofInt, castInt_exact, truncZ_intCast, ok_bind]
  change Post (searchWall w.out q.z _ (colX g q) (colY g q) _ _ >>= _) _
  set ds := exploreOrder (F := K) _ _ with hds
  have hnear : ∀ i j, (∃ d ∈ ds, i = colX g q + d.1 ∧ j = colY g q + d.2) ↔
      (colX g q - 1 ≤ i ∧ i ≤ colX g q + 1 ∧ colY g q - 1 ≤ j ∧ j ≤ colY g q + 1) := by
    intro i j
    constructor
    · rintro ⟨d, hd, rfl, rfl⟩
      have := exploreOrder_near _ _ d hd
      omega
    · rintro ⟨h1, h2, h3, h4⟩
      exact ⟨(i - colX g q, j - colY g q), exploreOrder_all _ _ _ _ (by omega) (by omega) (by omega)
        (by omega), by simp, by simp⟩
  refine Post.bind (searchWall_spec w.out q.z (g.cellZ + tol) ((2 * g.halfZ : ℤ) : K) _ _ ds
    (fun _ _ => False) ⟨((2 * g.halfZ : ℤ) : K), none⟩ ⟨fun _ _ _ h => h.elim, le_rfl, .inl ⟨rfl, rfl⟩⟩) ?_
  rintro r ⟨-, hr⟩
  rcases r with ⟨k, i, j⟩ | c'
  · obtain ⟨r1, -, r3, r4, r5⟩ := hr
    obtain ⟨n1, n2, n3, n4⟩ := (hnear i j).mp r5
    obtain ⟨p1, p2, p3⟩ := placeOn_facts w.out k i j e (wholeCells g e.h)
    refine Post.ok ⟨p1, fun h => absurd h hs, fun _ hn => ?_, fun _ _ => ⟨rfl, p2, k, i, j, p3⟩⟩
    have := (hn k i j r1 n1 n2 n3 n4 r3).1
    exact absurd r4 (not_lt.mpr this)
  · dsimp only at hr ⊢
    rcases hr.loc with ⟨l1, l2⟩ | ⟨k, i, j, l1, l2, l3, l4, l5, l6, l7⟩
    · rw [if_neg (by simp [l1])]
      refine Post.ok ⟨rfl, fun h => absurd h hs, fun _ _ => ⟨rfl, rfl, ?_⟩, fun _ hn => ?_⟩
      · intro i j
        show upd2 w.out.terrain (colX g q) (colY g q) (w.out.terrain (colX g q) (colY g q) + wholeCells g e.h) i j = _
        simp only [upd2]
        by_cases h : i = colX g q ∧ j = colY g q
        · obtain ⟨rfl, rfl⟩ := h
          simp
        · rw [if_neg h, if_neg (fun h' => h ⟨h'.1.symm, h'.2.symm⟩), add_zero]
      · refine absurd ?_ hn
        intro k' i' j' hk' h1 h2 h3 h4 hb
        have := hr.far i' j' k' (.inr ((hnear i' j').mpr ⟨h1, h2, h3, h4⟩)) hk' hb
        rw [l1] at this
        push_cast at this
        exact this
    · rw [if_pos (by rw [ex_ne]; exact decide_eq_true l2.ne), l1]
      rcases l4 with h | h
      · exact h.elim
      obtain ⟨n1, n2, n3, n4⟩ := (hnear i j).mp h
      obtain ⟨p1, p2, p3⟩ := placeOn_facts w.out k i j e (wholeCells g e.h)
      refine Post.ok ⟨p1, fun h => absurd h hs, fun _ hn => ?_, fun _ _ => ⟨rfl, p2, k, i, j, p3⟩⟩
      have := (hn k i j l3 n1 n2 n3 n4 l6).2
      rw [l7] at l2
      push_cast at l2
      exact absurd l2 (not_lt.mpr this)

theorem NoPlace.same {g : Grid K} {tol : K} {s s' : SimOut K} (h : s'.body = s.body) (q : Vec3 K) :
    NoPlace g tol s' q ↔ NoPlace g tol s q := by
  unfold NoPlace HasBody
  rw [h]

theorem lostOf_same {g : Grid K} {tol : K} {s s' : SimOut K} (h : s'.body = s.body) (pos : Vec3 K) (ori : Quat K)
    (l : List (BodySoil K)) : lostOf g tol s' pos ori l = lostOf g tol s pos ori l := by
  unfold lostOf
  refine List.filter_congr fun e _ => ?_
  exact decide_eq_decide.mpr (and_congr_right fun _ => NoPlace.same h _)

theorem lostAt_same {g : Grid K} {tol : K} {s s' : SimOut K} (h : s'.body = s.body) (pos : Vec3 K) (ori : Quat K)
    (l : List (BodySoil K)) (i j : ℤ) : lostAt g tol s' pos ori l i j = lostAt g tol s pos ori l i j := by
  unfold lostAt
  rw [lostOf_same h]

/-- all records -/
theorem updateEntries_left (pos : Vec3 K) (ori : Quat K) (g : Grid K) (body : Body K) (tol : K)
    (l : List (BodySoil K)) (w : World K) :
    Post (updateEntries pos ori g body tol l w) fun w' => w'.out.body = w.out.body ∧
      (∀ i j, w'.out.terrain i j = w.out.terrain i j + lostAt g tol w.out pos ori l i j) ∧
      w'.log = w.log ++ List.replicate (lostOf g tol w.out pos ori l).length .soilToTerrain ∧
      w'.out.bodySoilPos.length + (lostOf g tol w.out pos ori l).length =
        w.out.bodySoilPos.length + (l.filter fun e => decide (9 / 10 * g.cellZ ≤ e.h)).length := by
  induction l generalizing w with
  | nil =>
    exact Post.ok ⟨rfl, fun i j => by simp [lostAt, lostOf], by simp [lostOf], by simp [lostOf]⟩
  | cons e l ih =>
    unfold updateEntries
    refine Post.bind (updateEntry_left pos ori g body tol e w) ?_
    rintro w1 ⟨b1, s1, n1, p1⟩
    refine (ih w1).mono ?_
    rintro w2 ⟨b2, t2, l2, c2⟩
    rw [lostOf_same b1] at l2 c2
    simp only [lostAt_same b1] at t2
    refine ⟨b2.trans b1, ?_, ?_⟩
    · intro i j
      rw [t2]
      by_cases h : 9 / 10 * g.cellZ ≤ e.h
      · by_cases hn : NoPlace g tol w.out (movedTo pos ori e)
        · have e1 : lostOf g tol w.out pos ori (e :: l) = e :: lostOf g tol w.out pos ori l := by
            unfold lostOf; rw [List.filter_cons_of_pos (by simpa using ⟨h, hn⟩)]
          rw [(n1 h hn).2.2 i j]
          unfold lostAt
          rw [e1]
          by_cases hc : colX g (movedTo pos ori e) = i ∧ colY g (movedTo pos ori e) = j
          · rw [if_pos hc, List.filter_cons_of_pos (by simpa using hc), List.map_cons, List.sum_cons, add_assoc]
          · rw [if_neg hc, List.filter_cons_of_neg (by simpa using hc), add_zero]
        · have e1 : lostOf g tol w.out pos ori (e :: l) = lostOf g tol w.out pos ori l := by
            unfold lostOf; rw [List.filter_cons_of_neg (by simpa using fun _ => hn)]
          rw [(p1 h hn).2.1]
          unfold lostAt
          rw [e1]
      · have e1 : lostOf g tol w.out pos ori (e :: l) = lostOf g tol w.out pos ori l := by
          unfold lostOf; rw [List.filter_cons_of_neg (by simpa using fun h' => absurd h' h)]
        rw [s1 (not_le.mp h)]
        unfold lostAt
        rw [e1]
    · by_cases h : 9 / 10 * g.cellZ ≤ e.h
      · have f1 : ((e :: l).filter fun e => decide (9 / 10 * g.cellZ ≤ e.h)) =
            e :: l.filter fun e => decide (9 / 10 * g.cellZ ≤ e.h) :=
          List.filter_cons_of_pos (by simpa using h)
        by_cases hn : NoPlace g tol w.out (movedTo pos ori e)
        · have e1 : lostOf g tol w.out pos ori (e :: l) = e :: lostOf g tol w.out pos ori l := by
            unfold lostOf; rw [List.filter_cons_of_pos (by simpa using ⟨h, hn⟩)]
          obtain ⟨a1, a2, -⟩ := n1 h hn
          rw [e1, f1, l2, a1]
          rw [a2] at c2
          refine ⟨?_, ?_⟩
          · rw [List.length_cons, List.replicate_succ, List.append_assoc, List.singleton_append]
          · rw [List.length_cons, List.length_cons]; omega
        · have e1 : lostOf g tol w.out pos ori (e :: l) = lostOf g tol w.out pos ori l := by
            unfold lostOf; rw [List.filter_cons_of_neg (by simpa using fun _ => hn)]
          obtain ⟨a1, -, k, i, j, a2⟩ := p1 h hn
          rw [e1, f1, l2, a1]
          rw [a2, List.length_append, List.length_singleton] at c2
          refine ⟨rfl, ?_⟩
          rw [List.length_cons]; omega
      · have e1 : lostOf g tol w.out pos ori (e :: l) = lostOf g tol w.out pos ori l := by
          unfold lostOf; rw [List.filter_cons_of_neg (by simpa using fun h' => absurd h' h)]
        have f1 : ((e :: l).filter fun e => decide (9 / 10 * g.cellZ ≤ e.h)) =
            l.filter fun e => decide (9 / 10 * g.cellZ ≤ e.h) :=
          List.filter_cons_of_neg (by simpa using h)
        have := s1 (not_le.mp h)
        rw [e1, f1, l2, this]
        rw [this] at c2
        exact ⟨rfl, c2⟩

theorem resetBodySoil_left (l : List (BodySoil K)) (s : SimOut K) :
    Post (resetBodySoil l s) fun s' => s'.body = s.body ∧ s'.terrain = s.terrain := by
  induction l generalizing s with
  | nil => exact Post.ok ⟨rfl, rfl⟩
  | cons e l ih =>
    unfold resetBodySoil
    refine Post.guard fun _ => ?_
    refine (ih _).mono ?_
    rintro s' ⟨h1, h2⟩
    exact ⟨h1, h2⟩

end Soil
