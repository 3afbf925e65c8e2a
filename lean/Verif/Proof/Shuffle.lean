import Verif.Proof.Basic
import Mathlib.Data.List.Perm.Basic
import Mathlib.Data.List.Perm.Lattice

/-! # Shuffles -/

namespace Soil

variable {α : Type}

theorem swapL_perm (l : List α) (a b : ℕ) : (swapL l a b).Perm l := by
  unfold swapL
  split
  · rename_i x y hx hy
    obtain ⟨ha, rfl⟩ := List.getElem?_eq_some_iff.mp hx
    obtain ⟨hb, rfl⟩ := List.getElem?_eq_some_iff.mp hy
    exact List.set_set_perm ha hb
  · exact List.Perm.refl _

theorem shuffleFrom_perm (n : ℕ) (l : List α) (r : Rng) : (shuffleFrom n l r).1.Perm l := by
  induction n generalizing l r with
  | zero => exact List.Perm.refl _
  | succ n ih =>
    unfold shuffleFrom
    exact (ih _ _).trans (swapL_perm _ _ _)

theorem shuffle_perm (l : List α) (r : Rng) : (shuffle l r).1.Perm l := shuffleFrom_perm _ _ _

theorem mem_shuffle {l : List α} {r : Rng} {x : α} : x ∈ (shuffle l r).1 ↔ x ∈ l :=
  (shuffle_perm l r).mem_iff

theorem swapL_length (l : List α) (a b : ℕ) : (swapL l a b).length = l.length :=
  (swapL_perm l a b).length_eq

/-- Every rearrangement of the first `n + 1` elements can be produced. -/
theorem shuffleFrom_surj (n : ℕ) (l l' : List α) (hp : l.Perm l') (hn : n < l.length)
    (hd : l.drop (n + 1) = l'.drop (n + 1)) : ∃ r, (shuffleFrom n l r).1 = l' := by
  induction n generalizing l with
  | zero =>
    refine ⟨fun _ => 0, ?_⟩
    unfold shuffleFrom
    match l, l', hp, hn, hd with
    | [], _, _, hn, _ => simp at hn
    | a :: t, [], hp, _, _ => simp at hp
    | a :: t, b :: t', hp, _, hd =>
      simp at hd
      subst hd
      have h3 : [a].Perm [b] := (List.perm_append_right_iff t).mp hp
      simp at h3
      simp [h3]
  | succ n ih =>
    have hlen := hp.length_eq
    have hn' : n + 1 < l'.length := by omega
    -- the element wanted at position `n + 1`
    have htake : (l.take (n + 2)).Perm (l'.take (n + 2)) := by
      have h1 : (l.take (n + 2) ++ l.drop (n + 2)).Perm (l'.take (n + 2) ++ l'.drop (n + 2)) := by
        simpa using hp
      rw [hd] at h1
      exact (List.perm_append_right_iff _).mp h1
    have hmem : l'[n + 1] ∈ l.take (n + 2) := by
      rw [htake.mem_iff, List.mem_take_iff_getElem]
      exact ⟨n + 1, by omega, rfl⟩
    obtain ⟨bb, hbb, hbe⟩ := List.mem_take_iff_getElem.mp hmem
    have hbl : bb < l.length := by omega
    have hsw : swapL l (n + 1) bb = (l.set (n + 1) l[bb]).set bb l[n + 1] := by
      unfold swapL
      rw [List.getElem?_eq_getElem hn, List.getElem?_eq_getElem hbl]
    have hget : ∀ m, n + 1 ≤ m → (swapL l (n + 1) bb)[m]? = l'[m]? := by
      intro m hm
      rw [hsw]
      rcases hm.lt_or_eq with h | rfl
      · rw [List.getElem?_set_ne (by omega), List.getElem?_set_ne (by omega)]
        have h2 := congrArg (fun x => x[m - (n + 2)]?) hd
        simp only [List.getElem?_drop] at h2
        rwa [show n + 1 + 1 + (m - (n + 2)) = m by omega] at h2
      · rw [List.getElem?_eq_getElem hn']
        by_cases hb : bb = n + 1
        · subst hb
          rw [List.getElem?_set_self (by simpa using hn)]
          simpa using hbe
        · rw [List.getElem?_set_ne (by omega), List.getElem?_set_self hn]
          simpa using hbe
    have hd' : (swapL l (n + 1) bb).drop (n + 1) = l'.drop (n + 1) := by
      apply List.ext_getElem?
      intro m
      rw [List.getElem?_drop, List.getElem?_drop]
      exact hget _ (by omega)
    obtain ⟨r, hr⟩ := ih (swapL l (n + 1) bb) ((swapL_perm _ _ _).trans hp)
      (by rw [swapL_length]; omega) hd'
    refine ⟨fun m => match m with
      | 0 => bb
      | m + 1 => r m, ?_⟩
    unfold shuffleFrom Rng.draw
    dsimp only
    rw [Nat.mod_eq_of_lt (by omega)]
    exact hr

theorem shuffle_surj (l l' : List α) (hp : l.Perm l') : ∃ r, (shuffle l r).1 = l' := by
  by_cases hl : l = []
  · subst hl
    have := hp.nil_eq
    subst this
    exact ⟨fun _ => 0, rfl⟩
  · have hpos : 0 < l.length := List.length_pos_iff.mpr hl
    have hlen := hp.length_eq
    refine shuffleFrom_surj _ l l' hp (by omega) ?_
    rw [List.drop_of_length_le (by omega), List.drop_of_length_le (by omega)]

end Soil
