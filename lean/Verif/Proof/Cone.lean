import Verif.Spec.Cone
import Verif.Proof.SimBody
import Verif.Proof.Frame
import Verif.Proof.Record

/-! # How far from the body soil can move in one step (any arithmetic) -/

set_option linter.unusedSectionVars false
set_option linter.unusedSimpArgs false

namespace Soil

open FOps

variable {F : Type} [FOps F]

theorem NearRect.mono {a : Area} {r r' i j : ℤ} (h : NearRect a r i j) (hr : r ≤ r') : NearRect a r' i j := by
  unfold NearRect at *; omega

theorem NearRect.shift {a : Area} {r i j i' j' : ℤ} (h : NearRect a r i j) (hi : i - 1 ≤ i' ∧ i' ≤ i + 1)
    (hj : j - 1 ≤ j' ∧ j' ≤ j + 1) : NearRect a (r + 1) i' j' := by
  unfold NearRect at *; omega

/-- every column with body is in `B` -/
def On (B : ℤ → ℤ → Prop) (s : SimOut F) : Prop :=
  ∀ i j, s.InGrid i j → (s.bodyAbs 0 i j && s.bodyAbs 2 i j) = false → B i j

/-- every entry is in `B` -/
def Ent (B : ℤ → ℤ → Prop) (s : SimOut F) : Prop := ∀ e ∈ s.bodySoilPos, B e.ii e.jj

section Basic

variable {B P : ℤ → ℤ → Prop} {s s' : SimOut F}

theorem On.same (h : On B s) (hs : SameBody s s') : On B s' := by
  intro i j hij hb
  refine h i j ?_ ?_
  · unfold SimOut.InGrid at *; rwa [hs.2.2.1, hs.2.2.2] at hij
  · unfold SimOut.bodyAbs at *; rwa [hs.1] at hb

theorem Ent.push (h : Ent B s) {e : BodySoil F} (he : B e.ii e.jj) : Ent B (s.pushPos e) := by
  intro x hx
  rcases List.mem_append.mp hx with hx | hx
  · exact h x hx
  · rw [List.mem_singleton.mp hx]; exact he

theorem Ent.setH (h : Ent B s) (n : ℕ) (v : F) : Ent B (s.setH n v) := by
  intro x hx
  obtain ⟨k, hk⟩ := List.mem_iff_getElem?.mp hx
  unfold SimOut.setH at hk
  rw [List.getElem?_modify] at hk
  cases h1 : s.bodySoilPos[k]? with
  | none => rw [h1] at hk; cases hk
  | some e =>
    rw [h1] at hk
    have := h e (List.mem_of_getElem? h1)
    simp only [Option.map_eq_map, Option.map_some, Option.some.injEq] at hk
    rw [← hk]
    split_ifs <;> exact this

theorem Ent.of_eq (h : Ent B s) (he : s'.bodySoilPos = s.bodySoilPos) : Ent B s' := by
  unfold Ent at *; rwa [he]

end Basic

/-! ## Terrain relaxation -/

variable {B : ℤ → ℤ → Prop}

theorem checkUnstableTerrainCell_abs (s : SimOut F) (ic jc : ℤ) (h tol : F)
    (hb : (s.bodyAbs 0 ic jc && s.bodyAbs 2 ic jc) = true) :
    checkUnstableTerrainCell s ic jc h tol = 0 ∨ checkUnstableTerrainCell s ic jc h tol = 40 := by
  unfold checkUnstableTerrainCell
  simp only [hb, if_true]
  split_ifs <;> simp

theorem relaxUnstableTerrainCell_ent (s : SimOut F) (status : ℕ) (dh : F)
    (ii jj ic jc : ℤ) (g : Grid F) (body : Body F) (tol : F) (hs : Ent B s)
    (hB : B ic jc ∨ status = 0 ∨ status = 40) :
    Post (relaxUnstableTerrainCell s status dh ii jj ic jc g body tol) (Ent B) := by
  have hT : ∀ st0, Post (relaxTerrainOnTerrain s st0 dh ii jj ic jc g tol) (Ent B) := by
    intro st0
    unfold relaxTerrainOnTerrain
    dsimp only
    intro s' h
    split at h
    · cases h; exact hs.of_eq rfl
    all_goals first
      | (split_ifs at h <;> (cases h; exact hs.of_eq rfl))
      | cases h
  rcases hB with hB | rfl | rfl
  · unfold relaxUnstableTerrainCell
    split
    · exact hT _
    · exact Post.ok (Ent.push (hs.of_eq rfl) hB)
    · exact Post.ok (Ent.push (hs.of_eq rfl) hB)
    · exact Post.ok (Ent.push (hs.of_eq rfl) hB)
    · exact Post.ok (Ent.push (hs.of_eq rfl) hB)
    · exact Post.ok hs
  · exact Post.ok hs
  · exact hT 4

theorem relaxTerrainDirs_ent (g : Grid F) (body : Body F) (dh tol : F) (ii jj : ℤ)
    (ds : List (ℤ × ℤ)) (s : SimOut F) (hO : On B s) (hs : Ent B s) :
    Post (relaxTerrainDirs g body dh tol ii jj ds s) (Ent B) := by
  induction ds generalizing s with
  | nil => exact Post.ok hs
  | cons d ds ih =>
    unfold relaxTerrainDirs
    dsimp only
    refine Post.guard fun hg => ?_
    split_ifs
    · exact ih s hO hs
    · refine Post.bind (P := fun s1 => Ent B s1 ∧ On B s1) ?_ fun s1 h1 => ih s1 h1.2 h1.1
      have h1 := relaxUnstableTerrainCell_local (P := fun _ _ => True) { s with equilibrium := false }
        (checkUnstableTerrainCell s (ii + d.1) (jj + d.2) (s.terrain ii jj -ᶠ dh) tol) dh ii jj (ii + d.1)
        (jj + d.2) g body tol trivial trivial
      have h2 := relaxUnstableTerrainCell_ent (B := B) { s with equilibrium := false }
        (checkUnstableTerrainCell s (ii + d.1) (jj + d.2) (s.terrain ii jj -ᶠ dh) tol) dh ii jj (ii + d.1)
        (jj + d.2) g body tol (hs.of_eq rfl) (by
          cases hb : (s.bodyAbs 0 (ii + d.1) (jj + d.2) && s.bodyAbs 2 (ii + d.1) (jj + d.2)) with
          | false => exact .inl (hO _ _ hg.2 hb)
          | true => exact .inr (checkUnstableTerrainCell_abs s _ _ _ _ hb))
      intro s1 e1
      exact ⟨h2 s1 e1, (On.same (s' := { s with equilibrium := false }) hO ⟨rfl, rfl, rfl, rfl⟩).same
        (h1 s1 e1).body⟩

theorem relaxTerrainCells_ent (g : Grid F) (body : Body F) (dh tol : F) (cs ds : List (ℤ × ℤ))
    (hds : ∀ d ∈ ds, d ∈ directions4) (s : SimOut F) (r : Rng) (hO : On B s) (hs : Ent B s) :
    Post (relaxTerrainCells g body dh tol cs ds s r) (fun x => Ent B x.1) := by
  induction cs generalizing s r ds with
  | nil => exact Post.ok hs
  | cons c cs ih =>
    unfold relaxTerrainCells
    dsimp only
    have hds' : ∀ d ∈ (shuffle ds r).1, d ∈ directions4 := fun d hd => hds d (mem_shuffle.mp hd)
    have h1 := relaxTerrainDirs_local g body dh tol c.1 c.2 _ hds' s
    have h2 := relaxTerrainDirs_ent (B := B) g body dh tol c.1 c.2 (shuffle ds r).1 s hO hs
    refine Post.bind (P := fun s1 => Ent B s1 ∧ On B s1) (fun s1 e1 => ⟨h2 s1 e1, hO.same (h1 s1 e1).body⟩) ?_
    intro s1 h
    exact ih _ hds' s1 _ h.2 h.1

theorem locateUnstableCells_in (s : SimOut F) (dh tol : F) (l : List (ℤ × ℤ)) :
    Post (locateUnstableCells s dh tol l) (fun r => ∀ c ∈ r, unstableAt s dh tol c.1 c.2 = true ∧
      s.InGrid (c.1 - 1) c.2 ∧ s.InGrid (c.1 + 1) c.2 ∧ s.InGrid c.1 (c.2 - 1) ∧ s.InGrid c.1 (c.2 + 1)) := by
  induction l with
  | nil => exact Post.ok (by simp)
  | cons p l ih =>
    unfold locateUnstableCells
    refine Post.guard fun hg => ?_
    refine Post.bind ih ?_
    intro r hr
    refine Post.ok ?_
    intro c hc
    split_ifs at hc with h
    · rcases List.mem_cons.mp hc with rfl | hc
      · exact ⟨h, hg.2⟩
      · exact hr c hc
    · exact hr c hc

/-- Every unstable column off the border is within `r` of the rectangle. -/
def Quiet (a : Area) (dh tol : F) (r : ℤ) (s : SimOut F) : Prop :=
  ∀ i j, s.InGrid (i - 1) j → s.InGrid (i + 1) j → s.InGrid i (j - 1) → s.InGrid i (j + 1) →
    unstableAt s dh tol i j = true → NearRect a r i j

/-- Outside the rectangle grown by `r` the terrain is the same -/
def SameT (a : Area) (r : ℤ) (s s' : SimOut F) : Prop :=
  ∀ i j, ¬ NearRect a r i j → s'.terrain i j = s.terrain i j

theorem SameT.trans {a : Area} {r : ℤ} {s s' s'' : SimOut F} (h : SameT a r s s') (h' : SameT a r s' s'') :
    SameT a r s s'' := fun i j hn => (h' i j hn).trans (h i j hn)

theorem SameT.mono {a : Area} {r r' : ℤ} {s s' : SimOut F} (h : SameT a r s s') (hr : r ≤ r') :
    SameT a r' s s' := fun i j hn => h i j fun hw => hn (hw.mono hr)

theorem Quiet.next {a : Area} {dh tol : F} {r r' : ℤ} {s s' : SimOut F} (h : Quiet a dh tol r s)
    (ht : SameT a r' s s') (hs : SameBody s s') (h1 : r ≤ r' + 1) : Quiet a dh tol (r' + 1) s' := by
  intro i j g1 g2 g3 g4 hu
  by_contra hn
  have e : ∀ i' j', (i - 1 ≤ i' ∧ i' ≤ i + 1) → (j - 1 ≤ j' ∧ j' ≤ j + 1) →
      s'.terrain i' j' = s.terrain i' j' := by
    intro i' j' hi hj
    refine ht i' j' fun hw => hn (hw.shift ?_ ?_) <;> omega
  have hu' : unstableAt s dh tol i j = true := by
    unfold unstableAt at hu ⊢
    dsimp only at hu ⊢
    rwa [e i j (by omega) (by omega), e (i - 1) j (by omega) (by omega), e (i + 1) j (by omega) (by omega),
      e i (j - 1) (by omega) (by omega), e i (j + 1) (by omega) (by omega)] at hu
  have hg : ∀ i j, s'.InGrid i j → s.InGrid i j := by
    intro i j h; unfold SimOut.InGrid at *; rwa [hs.2.2.1, hs.2.2.2] at h
  exact hn ((h i j (hg _ _ g1) (hg _ _ g2) (hg _ _ g3) (hg _ _ g4) hu').mono h1)

theorem relaxTerrain_cone {a : Area} {r : ℤ} (g : Grid F) (body : Body F) (p : SimParam F) (tol : F)
    (w : World F) (hO : On B w.out) (hE : Ent B w.out) (hq : Quiet a (dhMax g p) tol r w.out) :
    Post (relaxTerrain g body p tol w) (fun w' => SameBody w.out w'.out ∧ Ent B w'.out ∧
      SameT a (r + 1) w.out w'.out) := by
  unfold relaxTerrain
  dsimp only
  refine Post.bind (locateUnstableCells_in _ _ _ _) ?_
  intro cells hc
  split_ifs
  · exact Post.ok ⟨⟨rfl, rfl, rfl, rfl⟩, hE.of_eq rfl, fun _ _ _ => rfl⟩
  · have h1 := relaxTerrainCells_local g body (dhMax g p) tol (shuffle cells w.rng).1 directions4
      (fun d hd => hd) { w.out with equilibrium := true } (shuffle cells w.rng).2
    have h2 := relaxTerrainCells_ent (B := B) g body (dhMax g p) tol (shuffle cells w.rng).1 directions4
      (fun d hd => hd) { w.out with equilibrium := true } (shuffle cells w.rng).2
      (hO.same ⟨rfl, rfl, rfl, rfl⟩) (hE.of_eq rfl)
    refine Post.bind (P := fun x => _ ∧ _) (fun x hx => ⟨h1 x hx, h2 x hx⟩) ?_
    rintro ⟨s1, r1⟩ ⟨l1, e1⟩
    refine Post.ok ⟨l1.body, e1.of_eq rfl, ?_⟩
    intro i j hij
    refine l1.terrain i j ?_
    rintro ⟨c, hcm, hn⟩
    obtain ⟨u, g1, g2, g3, g4⟩ := hc c (mem_shuffle.mp hcm)
    have hw := hq c.1 c.2 g1 g2 g3 g4 u
    apply hij
    unfold NearCol at hn
    apply hw.shift <;> omega

/-! ## Body-soil relaxation -/

theorem checkUnstableBodyCell_abs (s : SimOut F) (ii jj : ℤ) (ind : ℕ) (ic jc : ℤ) (h tol : F)
    (hb : (s.bodyAbs 0 ic jc && s.bodyAbs 2 ic jc) = true) :
    checkUnstableBodyCell s ii jj ind ic jc h tol = 0 ∨ checkUnstableBodyCell s ii jj ind ic jc h tol = 40 := by
  unfold checkUnstableBodyCell
  simp only [hb, if_true]
  unfold lowEnough
  split_ifs <;> simp

theorem relaxUnstableBodyCell_ent (s : SimOut F) (status : ℕ) (dh : F)
    (nn : ℕ) (ii jj : ℤ) (ind : ℕ) (ic jc : ℤ) (g : Grid F) (body : Body F) (tol : F)
    (hs : Ent B s) (hB : B ic jc ∨ status = 0 ∨ status = 40) :
    Ent B (relaxUnstableBodyCell s status dh nn ii jj ind ic jc g body tol).1 ∧
      ∀ e ∈ (relaxUnstableBodyCell s status dh nn ii jj ind ic jc g body tol).2, B e.ii e.jj := by
  have em : ∀ (x : SimOut F), Ent B x → Ent B (emptyColumn x nn ind ii jj) := fun x hx =>
    Ent.setH (hx.of_eq rfl) _ _
  have tk : ∀ (x : SimOut F) a b, Ent B x → Ent B (takeFromColumn x nn ind ii jj a b tol) := by
    intro x a b hx
    unfold takeFromColumn
    split_ifs
    · exact Ent.setH (hx.of_eq rfl) _ _
    · exact em _ hx
  have hA : ∀ st0, Ent B (relaxBodyOnTerrain s st0 dh nn ii jj ind ic jc g tol) := by
    intro st0
    unfold relaxBodyOnTerrain
    dsimp only
    split_ifs
    all_goals first
      | exact Ent.setH (hs.of_eq rfl) _ _
      | exact em _ (hs.of_eq rfl)
  rcases hB with hB | rfl | rfl
  · have one : ∀ (x : SimOut F) k h, ∀ e ∈ [mkEntry x g body k ic jc h], B e.ii e.jj := by
      intro x k h e he
      rw [List.mem_singleton.mp he]; exact hB
    unfold relaxUnstableBodyCell
    dsimp only
    split
    · exact ⟨hA _, by simp⟩
    · exact ⟨(tk _ _ _ hs).of_eq rfl, one _ _ _⟩
    · unfold relaxBodyOnBody1
      dsimp only
      exact ⟨Ent.of_eq (tk (s.setBS _ _ _ _) _ _ (hs.of_eq rfl)) rfl, one _ _ _⟩
    · exact ⟨(tk _ _ _ hs).of_eq rfl, one _ _ _⟩
    · unfold relaxBodyOnBody1
      dsimp only
      exact ⟨Ent.of_eq (tk (s.setBS _ _ _ _) _ _ (hs.of_eq rfl)) rfl, one _ _ _⟩
    all_goals first
      | exact ⟨hs, by simp⟩
      | (unfold relaxBodyOnSoil2
         dsimp only
         refine ⟨?_, ?_⟩
         · split_ifs
           · exact Ent.setH (hs.of_eq rfl) _ _
           · exact Ent.setH (hs.of_eq rfl) _ _
           · exact em _ (hs.of_eq rfl)
         · split_ifs <;> first | exact one _ _ _ | simp)
      | (unfold relaxBodyOnBody2
         dsimp only
         refine ⟨?_, one _ _ _⟩
         split_ifs
         all_goals first
           | exact Ent.setH (hs.of_eq rfl) _ _
           | exact em _ (hs.of_eq rfl)
           | exact tk _ _ _ (hs.of_eq rfl))
  · exact ⟨hs, by intro e he; cases he⟩
  · exact ⟨hA _, by intro e he; cases he⟩

theorem relaxBodyDirs_ent (g : Grid F) (body : Body F) (dh tol : F) (nn : ℕ) (ii jj : ℤ)
    (ind : ℕ) (ds : List (ℤ × ℤ)) (s : SimOut F)
    (q : List (BodySoil F)) (hO : On B s) (hs : Ent B s) (hq : ∀ e ∈ q, B e.ii e.jj) :
    Post (relaxBodyDirs g body dh tol nn ii jj ind ds s q)
      (fun x => Ent B x.1 ∧ ∀ e ∈ x.2, B e.ii e.jj) := by
  induction ds generalizing s q with
  | nil => exact Post.ok ⟨hs, hq⟩
  | cons d ds ih =>
    unfold relaxBodyDirs
    dsimp only
    refine Post.guard fun hg => ?_
    split_ifs
    · exact ih s q hO hs hq
    · have h1 := relaxUnstableBodyCell_local (P := fun _ _ => True) { s with equilibrium := false }
        (checkUnstableBodyCell s ii jj ind (ii + d.1) (jj + d.2) (s.bodySoil (ind + 1) ii jj -ᶠ dh) tol) dh nn
        ii jj ind (ii + d.1) (jj + d.2) g body tol trivial trivial
      have h2 := relaxUnstableBodyCell_ent (B := B) { s with equilibrium := false }
        (checkUnstableBodyCell s ii jj ind (ii + d.1) (jj + d.2) (s.bodySoil (ind + 1) ii jj -ᶠ dh) tol) dh nn
        ii jj ind (ii + d.1) (jj + d.2) g body tol (hs.of_eq rfl) (by
          cases hb : (s.bodyAbs 0 (ii + d.1) (jj + d.2) && s.bodyAbs 2 (ii + d.1) (jj + d.2)) with
          | false => exact .inl (hO _ _ hg.2.1 hb)
          | true => exact .inr (checkUnstableBodyCell_abs s _ _ _ _ _ _ _ hb))
      refine ih _ _ ((On.same (s' := { s with equilibrium := false }) hO ⟨rfl, rfl, rfl, rfl⟩).same h1.body)
        h2.1 ?_
      intro e he
      rcases List.mem_append.mp he with he | he
      · exact hq e he
      · exact h2.2 e he

theorem relaxBodyEntries_cone {a : Area} (hB : ∀ i j, B i j → NearRect a 0 i j) (g : Grid F) (body : Body F)
    (dh tol : F) (count nn : ℕ)
    (ds : List (ℤ × ℤ)) (hds : ∀ d ∈ ds, d ∈ directions4) (s : SimOut F) (q : List (BodySoil F))
    (r : Rng) (hO : On B s) (hs : Ent B s) (hq : ∀ e ∈ q, B e.ii e.jj) :
    Post (relaxBodyEntries g body dh tol count nn ds s q r)
      (fun x => Local (NearRect a 1) s x.1 ∧ Ent B x.1 ∧ ∀ e ∈ x.2.1, B e.ii e.jj) := by
  induction count generalizing nn ds s q r with
  | zero => exact Post.ok ⟨.refl s, hs, hq⟩
  | succ count ih =>
    unfold relaxBodyEntries
    split
    · exact Post.error
    · rename_i e he
      split_ifs
      · exact ih _ _ hds _ _ _ hO hs hq
      · have hds' : ∀ d ∈ (shuffle ds r).1, d ∈ directions4 := fun d hd => hds d (mem_shuffle.mp hd)
        have h1 := relaxBodyDirs_local g body dh tol nn e.ii e.jj e.ind _ hds' s q
        have h2 := relaxBodyDirs_ent (B := B) g body dh tol nn e.ii e.jj e.ind (shuffle ds r).1 s q hO hs hq
        refine Post.bind (P := fun x => _ ∧ _) (fun x hx => ⟨h1 x hx, h2 x hx⟩) ?_
        rintro ⟨s1, q1⟩ ⟨l1, e1, q1'⟩
        refine (ih _ _ hds' _ _ _ (hO.same l1.body) e1 q1').mono fun x hx => ?_
        refine ⟨(l1.mono fun i j hn => ?_).trans hx.1, hx.2⟩
        have hw := hB _ _ (hs e (List.mem_of_getElem? he))
        unfold NearCol at hn
        unfold NearRect at hw ⊢
        omega

theorem relaxBodySoil_cone {a : Area} (hB : ∀ i j, B i j → NearRect a 0 i j) (g : Grid F) (body : Body F)
    (p : SimParam F) (tol : F) (w : World F) (hO : On B w.out) (hs : Ent B w.out) :
    Post (relaxBodySoil g body p tol w) (fun w' => SameBody w.out w'.out ∧ Ent B w'.out ∧
      SameT a 1 w.out w'.out) := by
  unfold relaxBodySoil
  refine Post.bind (relaxBodyEntries_cone hB _ _ _ _ _ _ _ (fun d hd => hd) _ _ _ hO hs (by simp)) ?_
  rintro ⟨s1, q1, r1⟩ ⟨l1, e1, q1'⟩
  refine Post.ok ⟨l1.body, ?_, l1.terrain⟩
  intro e he
  rcases List.mem_append.mp he with he | he
  · exact e1 e he
  · exact q1' e he

theorem relaxOnce_cone {a : Area} (hB : ∀ i j, B i j → NearRect a 0 i j) {r : ℤ} (hr : 0 ≤ r) (g : Grid F)
    (body : Body F) (p : SimParam F) (tol : F) (w : World F) (hO : On B w.out) (hE : Ent B w.out)
    (hq : Quiet a (dhMax g p) tol r w.out) :
    Post (relaxOnce g body p tol w) (fun w' => SameBody w.out w'.out ∧ Ent B w'.out ∧
      SameT a (r + 1) w.out w'.out ∧ Quiet a (dhMax g p) tol (r + 2) w'.out) := by
  unfold relaxOnce
  dsimp only
  refine Post.bind (relaxTerrain_cone (B := B) (a := a) (r := r) g body p tol _ (hO.same ⟨rfl, rfl, rfl, rfl⟩)
    (hE.of_eq rfl) hq) ?_
  rintro w1 ⟨b1, e1, t1⟩
  have b1' : SameBody w.out w1.out := b1
  have hE1 : Ent B (shuffleEntries w1).out := by
    intro e he
    exact e1 e (mem_shuffle.mp he)
  refine (relaxBodySoil_cone hB g body p tol (shuffleEntries w1) (hO.same b1') hE1).mono ?_
  rintro w2 ⟨b2, e2, t2⟩
  have hb : SameBody w.out w2.out := b1'.trans b2
  have ht : SameT a (r + 1) w.out w2.out :=
    SameT.trans (s' := w1.out) t1 (fun i j hn => t2 i j fun hw => hn (hw.mono (by omega)))
  have hn := hq.next ht hb (by omega)
  rw [show r + 1 + 1 = r + 2 by ring] at hn
  exact ⟨hb, e2, ht, hn⟩

theorem relaxLoop_cone {a : Area} (hB : ∀ i j, B i j → NearRect a 0 i j) (g : Grid F)
    (body : Body F) (p : SimParam F) (tol : F) (fuel : ℕ) (it : ℤ) {r : ℤ} (hr : 0 ≤ r) (w : World F)
    (hO : On B w.out) (hE : Ent B w.out) (hq : Quiet a (dhMax g p) tol r w.out) :
    Post (relaxLoop g body p tol fuel it w) (fun x => it ≤ x.2 ∧ (x.2 ≤ it ∨ x.2 ≤ p.maxIterations) ∧
      SameBody w.out x.1.out ∧
      SameT a (r + 2 * (x.2 - it) - 1) w.out x.1.out ∧
      Quiet a (dhMax g p) tol (r + 2 * (x.2 - it)) x.1.out) := by
  induction fuel generalizing it w r with
  | zero =>
    unfold relaxLoop
    split_ifs
    · exact Post.error
    · refine Post.ok ⟨le_rfl, .inl le_rfl, .refl _, fun _ _ _ => rfl, ?_⟩
      simpa using hq
  | succ n ih =>
    unfold relaxLoop
    split_ifs with hc
    · have hlt : it < p.maxIterations := by
        simp only [Bool.and_eq_true, decide_eq_true_eq] at hc; exact hc.2
      refine Post.bind (relaxOnce_cone hB hr g body p tol w hO hE hq) ?_
      rintro w1 ⟨b1, e1, t1, q1⟩
      refine (ih (it + 1) (r := r + 2) (by omega) w1 (hO.same b1) e1 q1).mono ?_
      rintro ⟨w2, m⟩ ⟨h1, h2, b2, t2, q2⟩
      dsimp only at h1 h2 b2 t2 q2 ⊢
      refine ⟨by omega, by omega, b1.trans b2, SameT.trans (t1.mono (by omega)) (t2.mono (by omega)), ?_⟩
      have e : r + 2 + 2 * (m - (it + 1)) = r + 2 * (m - it) := by ring
      rwa [e] at q2
    · refine Post.ok ⟨le_rfl, .inl le_rfl, .refl _, fun _ _ _ => rfl, ?_⟩
      simpa using hq

/-! ## Soil met by the body -/

theorem spreadRing_cone {a : Area} (hB : ∀ i j, B i j → NearRect a 0 i j) (tol : F) (ht : (tol <ᶠ zero) = false)
    (ii jj pp : ℤ) (ds : List (ℤ × ℤ)) (s : SimOut F) (h : F) (hO : On B s)
    (hd : ∀ d ∈ ds, NearRect a 1 (ii + d.1 * pp) (jj + d.2 * pp)) :
    Post (spreadRing tol ii jj pp ds s h) (fun x => Local (NearRect a 1) s x.1 ∧
      x.1.bodySoilPos = s.bodySoilPos ∧
      ((tol <ᶠ x.2) = true → ∀ d ∈ ds, NearRect a 0 (ii + d.1 * pp) (jj + d.2 * pp))) := by
  induction ds generalizing s h with
  | nil => exact Post.ok ⟨.refl s, rfl, fun _ => by simp⟩
  | cons d ds ih =>
    unfold spreadRing
    dsimp only
    have hd0 := hd d List.mem_cons_self
    have hds := fun x hx => hd x (List.mem_cons_of_mem _ hx)
    refine Post.guard fun hg => ?_
    split_ifs with h1 h2 h3
    · exact Post.ok ⟨(Local.refl s).setT hd0 _, rfl, fun h => by rw [ht] at h; cases h⟩
    · have hb := hB _ _ (hO _ _ hg (Bool.eq_false_iff.mpr h1))
      refine (ih (s.setT _ _ _) _ (hO.same ⟨rfl, rfl, rfl, rfl⟩) hds).mono ?_
      rintro x ⟨l, e, k⟩
      refine ⟨((Local.refl s).setT hd0 _).trans l, e, fun hx d' hd' => ?_⟩
      rcases List.mem_cons.mp hd' with rfl | hd'
      · exact hb
      · exact k hx d' hd'
    · exact Post.ok ⟨(Local.refl s).setT hd0 _, rfl, fun h => by rw [ht] at h; cases h⟩
    · have hb := hB _ _ (hO _ _ hg (Bool.eq_false_iff.mpr h1))
      refine (ih s _ hO hds).mono ?_
      rintro x ⟨l, e, k⟩
      refine ⟨l, e, fun hx d' hd' => ?_⟩
      rcases List.mem_cons.mp hd' with rfl | hd'
      · exact hb
      · exact k hx d' hd'

theorem dir8 {d : ℤ × ℤ} (hd : d ∈ directions8) : (-1 ≤ d.1 ∧ d.1 ≤ 1) ∧ (-1 ≤ d.2 ∧ d.2 ≤ 1) := by
  simp only [directions8, List.mem_cons, List.mem_nil_iff, or_false] at hd
  rcases hd with rfl | rfl | rfl | rfl | rfl | rfl | rfl | rfl <;> decide

theorem within_next {a : Area} {d : ℤ × ℤ} (hd : d ∈ directions8) {i j pp : ℤ}
    (h : NearRect a 0 (i + d.1 * pp) (j + d.2 * pp)) : NearRect a 1 (i + d.1 * (pp + 1)) (j + d.2 * (pp + 1)) := by
  have := dir8 hd
  have h1 := h.shift (i' := i + d.1 * (pp + 1)) (j' := j + d.2 * (pp + 1))
    (by rw [mul_add]; omega) (by rw [mul_add]; omega)
  exact h1

theorem spreadOut_cone {a : Area} (hB : ∀ i j, B i j → NearRect a 0 i j) (tol : F) (ht : (tol <ᶠ zero) = false)
    (ii jj : ℤ) (ds : List (ℤ × ℤ)) (hds : ∀ d ∈ ds, d ∈ directions8) (fuel : ℕ) (pp : ℤ)
    (s : SimOut F) (h : F) (hO : On B s)
    (hd : ∀ d ∈ ds, NearRect a 0 (ii + d.1 * pp) (jj + d.2 * pp)) :
    Post (spreadOut tol ii jj ds fuel pp s h) (fun s' => Local (NearRect a 1) s s' ∧
      s'.bodySoilPos = s.bodySoilPos) := by
  induction fuel generalizing pp s h with
  | zero =>
    unfold spreadOut
    split_ifs
    · exact Post.error
    · exact Post.ok ⟨.refl s, rfl⟩
  | succ n ih =>
    unfold spreadOut
    split_ifs
    · refine Post.bind (spreadRing_cone hB tol ht ii jj (pp + 1) ds s h hO
        fun d hm => within_next (hds d hm) (hd d hm)) ?_
      rintro ⟨s1, h1⟩ ⟨l1, e1, k1⟩
      dsimp only at l1 e1 k1 ⊢
      by_cases hc : (tol <ᶠ h1) = true
      · refine (ih (pp + 1) s1 h1 (hO.same l1.body) (k1 hc)).mono ?_
        rintro s2 ⟨l2, e2⟩
        exact ⟨l1.trans l2, e2.trans e1⟩
      · unfold spreadOut
        rw [if_neg hc]
        exact Post.ok ⟨l1, e1⟩
    · exact Post.ok ⟨.refl s, rfl⟩

theorem moveIntersectingBodyCells_cone {a : Area} (hB : ∀ i j, B i j → NearRect a 0 i j) (fuel : ℕ) (tol : F)
    (ht : (tol <ᶠ zero) = false) (cs : List (ℕ × ℤ × ℤ)) (hcs : ∀ c ∈ cs, B c.2.1 c.2.2)
    (ds : List (ℤ × ℤ)) (hds : ∀ d ∈ ds, d ∈ directions8) (s : SimOut F) (r : Rng) (hO : On B s) :
    Post (moveIntersectingBodyCells fuel tol cs ds s r) (fun x => Local (NearRect a 1) s x.1 ∧
      x.1.bodySoilPos = s.bodySoilPos) := by
  induction cs generalizing ds s r with
  | nil => exact Post.ok ⟨.refl s, rfl⟩
  | cons c cs ih =>
    obtain ⟨k, ii, jj⟩ := c
    have hc := hB _ _ (hcs _ List.mem_cons_self)
    have hcs' := fun c hm => hcs c (List.mem_cons_of_mem _ hm)
    unfold moveIntersectingBodyCells
    dsimp only
    refine Post.guard fun hg => ?_
    split_ifs
    · exact ih hcs' _ hds s r hO
    · have hds' : ∀ d ∈ (shuffle ds r).1, d ∈ directions8 := fun d hd => hds d (mem_shuffle.mp hd)
      refine Post.bind (spreadOut_cone hB tol ht ii jj _ hds' fuel 0 s _ hO
        fun d _ => by simpa using hc) ?_
      rintro s1 ⟨l1, e1⟩
      refine (ih hcs' _ hds' _ _ (hO.same (l1.setT (i := ii) (j := jj) (hc.mono (by omega)) _).body)).mono ?_
      rintro x ⟨l2, e2⟩
      exact ⟨(l1.setT (i := ii) (j := jj) (hc.mono (by omega)) _).trans l2, e2.trans e1⟩

theorem locateIntersectingIn_on (s : SimOut F) (tol : F) (hO : On B s) (l : List (ℤ × ℤ)) :
    Post (locateIntersectingIn s tol l) (fun r => ∀ c ∈ r, B c.2.1 c.2.2) := by
  induction l with
  | nil => exact Post.ok (by simp)
  | cons p l ih =>
    unfold locateIntersectingIn
    refine Post.guard fun hg => ?_
    refine Post.bind ih ?_
    intro r hr
    refine Post.ok ?_
    have key : ∀ k, (k = 0 ∨ k = 2) → intersectingAt s tol k p.1 p.2 = true → B p.1 p.2 := by
      intro k hk h
      unfold intersectingAt at h
      simp only [Bool.and_eq_true, Bool.not_eq_true'] at h
      refine hO _ _ hg ?_
      rcases hk with rfl | rfl <;> simp [h.1]
    intro c hc
    rcases List.mem_append.mp hc with hc | hc
    · rcases List.mem_append.mp hc with hc | hc
      · split_ifs at hc with h
        · rw [List.mem_singleton.mp hc]; exact key 0 (.inl rfl) h
        · cases hc
      · split_ifs at hc with h
        · rw [List.mem_singleton.mp hc]; exact key 2 (.inr rfl) h
        · cases hc
    · exact hr c hc

theorem moveIntersectingBody_cone {a : Area} (hB : ∀ i j, B i j → NearRect a 0 i j) (fuel : ℕ) (tol : F)
    (ht : (tol <ᶠ zero) = false) (w : World F) (hO : On B w.out) :
    Post (moveIntersectingBody fuel tol w) (fun w' => Local (NearRect a 1) w.out w'.out ∧
      w'.out.bodySoilPos = w.out.bodySoilPos) := by
  unfold moveIntersectingBody
  refine Post.bind (locateIntersectingIn_on (B := B) _ _ hO _) ?_
  intro cells hc
  split_ifs
  · exact Post.ok ⟨.refl _, rfl⟩
  · refine Post.bind (moveIntersectingBodyCells_cone hB fuel tol ht cells hc _ (fun d hd => hd) _ _ hO) ?_
    rintro ⟨s1, r1⟩ h1
    exact Post.ok h1

theorem moveBodySoil_cone {a : Area} (hB : ∀ i j, B i j → NearRect a 0 i j) (s : SimOut F) (q : Probe F)
    (maxH : F) (iN jN : ℤ) (g : Grid F) (body : Body F) (tol : F) (ht : (tol <ᶠ zero) = false) (hO : On B s)
    (hE : Ent B s) (hg : s.InGrid iN jN) (hw : NearRect a 1 iN jN) :
    let x := moveBodySoil s q maxH iN jN g body tol
    Local (NearRect a 1) s x.1 ∧ Ent B x.1 ∧ ((tol <ᶠ x.2.h) = true → NearRect a 0 iN jN) := by
  have hs : Local (NearRect a 1) s s := .refl s
  have two : ∀ kb kt, B iN jN → let x := moveBodySoil2 s q iN jN g body tol kb kt
      Local (NearRect a 1) s x.1 ∧ Ent B x.1 := by
    intro kb kt hb
    unfold moveBodySoil2
    dsimp only
    split_ifs
    · exact ⟨hs, hE⟩
    · exact ⟨(hs.setBS hw _).pushPos _, Ent.push (hE.of_eq rfl) hb⟩
    · exact ⟨(hs.setBS hw _).pushPos _, Ent.push (hE.of_eq rfl) hb⟩
    · exact ⟨((hs.setBS hw _).setBS hw _).pushPos _, Ent.push (hE.of_eq rfl) hb⟩
    · exact ⟨((hs.setBS hw _).setBS hw _).pushPos _, Ent.push (hE.of_eq rfl) hb⟩
  have one : ∀ k, B iN jN → let x := moveBodySoil1 s q maxH iN jN g body tol k
      Local (NearRect a 1) s x.1 ∧ Ent B x.1 := by
    intro k hb
    unfold moveBodySoil1
    dsimp only
    split_ifs
    · exact ⟨hs.setT hw _, hE.of_eq rfl⟩
    · exact ⟨hs, hE⟩
    · exact ⟨(hs.setBS hw _).pushPos _, Ent.push (hE.of_eq rfl) hb⟩
    · exact ⟨((hs.setBS hw _).setBS hw _).pushPos _, Ent.push (hE.of_eq rfl) hb⟩
  dsimp only at one two ⊢
  cases hb : (s.bodyAbs 0 iN jN && s.bodyAbs 2 iN jN) with
  | true =>
    unfold moveBodySoil
    rw [if_pos hb]
    exact ⟨hs.setT hw _, hE.of_eq rfl, fun h => by rw [ht] at h; cases h⟩
  | false =>
    have hb' := hO _ _ hg hb
    rw [← and_assoc]
    refine ⟨?_, fun _ => hB _ _ hb'⟩
    unfold moveBodySoil
    rw [if_neg (by rw [hb]; decide)]
    split_ifs
    · exact one _ hb'
    · exact one _ hb'
    · exact two _ _ hb'
    · exact two _ _ hb'

theorem exploreDir_cone {a : Area} (hB : ∀ i j, B i j → NearRect a 0 i j) (g : Grid F) (body : Body F) (tol : F)
    (ht : (tol <ᶠ zero) = false) (ii jj : ℤ) (d : ℤ × ℤ) (hd : d ∈ directions8) (fuel : ℕ)
    (pp : ℤ) (s : SimOut F) (q : Probe F) (maxH : F) (hO : On B s) (hE : Ent B s)
    (hw : NearRect a 0 (ii + pp * d.1) (jj + pp * d.2)) :
    Post (exploreDir g body tol ii jj d fuel pp s q maxH) (fun x => Local (NearRect a 1) s x.1 ∧ Ent B x.1) := by
  induction fuel generalizing pp s q maxH with
  | zero =>
    unfold exploreDir
    split_ifs
    · exact Post.error
    · exact Post.ok ⟨.refl s, hE⟩
  | succ n ih =>
    unfold exploreDir
    split_ifs
    · dsimp only
      refine Post.guard fun hg => ?_
      have hw1 : NearRect a 1 (ii + (pp + 1) * d.1) (jj + (pp + 1) * d.2) := by
        rw [mul_comm pp, mul_comm pp] at hw
        rw [mul_comm (pp + 1), mul_comm (pp + 1)]
        exact within_next hd hw
      obtain ⟨l1, e1, k1⟩ := moveBodySoil_cone hB s q maxH _ _ g body tol ht hO hE hg hw1
      by_cases hc : (tol <ᶠ (moveBodySoil s q maxH (ii + (pp + 1) * d.1) (jj + (pp + 1) * d.2) g body tol).2.h) = true
      · refine (ih (pp + 1) _ _ _ (hO.same l1.body) e1 (k1 hc)).mono ?_
        rintro x ⟨l2, e2⟩
        exact ⟨l1.trans l2, e2⟩
      · unfold exploreDir
        rw [if_neg (by simp [hc])]
        exact Post.ok ⟨l1, e1⟩
    · exact Post.ok ⟨.refl s, hE⟩

theorem exploreDirs_cone {a : Area} (hB : ∀ i j, B i j → NearRect a 0 i j) (fuel : ℕ) (g : Grid F)
    (body : Body F) (tol : F) (ht : (tol <ᶠ zero) = false) (ind indT : ℕ)
    (ii jj : ℤ) (hw : NearRect a 0 ii jj) (ds : List (ℤ × ℤ)) (hds : ∀ d ∈ ds, d ∈ directions8) (s : SimOut F)
    (h : F) (hO : On B s) (hE : Ent B s) :
    Post (exploreDirs fuel g body tol ind indT ii jj ds s h)
      (fun x => Local (NearRect a 1) s x.1 ∧ Ent B x.1) := by
  induction ds generalizing s h with
  | nil => exact Post.ok ⟨.refl s, hE⟩
  | cons d ds ih =>
    unfold exploreDirs
    refine Post.bind (exploreDir_cone hB g body tol ht ii jj d (hds d List.mem_cons_self) fuel 0 s _ _ hO hE
      (by simpa using hw)) ?_
    rintro ⟨s1, h1⟩ ⟨l1, e1⟩
    dsimp only
    split_ifs
    · exact Post.ok ⟨l1, e1⟩
    · refine (ih (fun x hx => hds x (List.mem_cons_of_mem _ hx)) s1 h1 (hO.same l1.body) e1).mono ?_
      rintro x ⟨l2, e2⟩
      exact ⟨l1.trans l2, e2⟩

theorem moveIntersectingEntries_cone {a : Area} (hB : ∀ i j, B i j → NearRect a 0 i j) (fuel : ℕ) (g : Grid F)
    (body : Body F) (tol : F) (ht : (tol <ᶠ zero) = false)
    (fuelN nn : ℕ) (ds : List (ℤ × ℤ)) (hds : ∀ d ∈ ds, d ∈ directions8) (w : World F) (hO : On B w.out)
    (hE : Ent B w.out) :
    Post (moveIntersectingEntries fuel g body tol fuelN nn ds w)
      (fun w' => Local (NearRect a 1) w.out w'.out ∧ Ent B w'.out) := by
  induction fuelN generalizing nn ds w with
  | zero =>
    unfold moveIntersectingEntries
    split
    · exact Post.ok ⟨.refl _, hE⟩
    · exact Post.error
  | succ n ih =>
    unfold moveIntersectingEntries
    split
    · exact Post.ok ⟨.refl _, hE⟩
    · rename_i e he
      have hw := hB _ _ (hE e (List.mem_of_getElem? he))
      have hw1 : NearRect a 1 e.ii e.jj := hw.mono (by omega)
      dsimp only
      refine Post.guard fun hg => ?_
      generalize (if e.ind = 0 then 2 else 0) = indT
      split_ifs
      · exact ih _ _ hds w hO hE
      all_goals try exact ih _ _ hds w hO hE
      all_goals
        have hds' : ∀ d ∈ (shuffle ds w.rng).1, d ∈ directions8 := fun d hd => hds d (mem_shuffle.mp hd)
        refine Post.bind (exploreDirs_cone hB fuel g body tol ht e.ind indT e.ii e.jj hw _ hds' _ _
          (hO.same ⟨rfl, rfl, rfl, rfl⟩) (Ent.of_eq (hE.setH _ _) rfl)) ?_
        rintro ⟨s1, h1⟩ ⟨l1, e1⟩
        have l0 := (((Local.refl (P := NearRect a 1) w.out).setH _ _).setBS (k := e.ind + 1) hw1 _).trans l1
        dsimp only
        split_ifs
        all_goals
          refine (ih _ _ hds' _ (hO.same l0.body) e1).mono ?_
          rintro w2 ⟨l2, e2⟩
          exact ⟨l0.trans l2, e2⟩

theorem moveIntersectingCells_cone {a : Area} (hB : ∀ i j, B i j → NearRect a 0 i j) (fuel : ℕ) (g : Grid F)
    (body : Body F) (tol : F) (ht : (tol <ᶠ zero) = false) (w : World F) (hO : On B w.out)
    (hE : Ent B w.out) :
    Post (moveIntersectingCells fuel g body tol w)
      (fun w' => Local (NearRect a 1) w.out w'.out ∧ Ent B w'.out) := by
  unfold moveIntersectingCells
  refine Post.bind (moveIntersectingEntries_cone hB fuel g body tol ht fuel 0 _ (fun d hd => hd) w hO hE) ?_
  rintro w1 ⟨l1, e1⟩
  refine (moveIntersectingBody_cone hB fuel tol ht w1 (hO.same l1.body)).mono ?_
  rintro w2 ⟨l2, e2⟩
  exact ⟨l1.trans l2, e1.of_eq e2⟩

/-! ## Transport of the soil on the body -/

/-- The column the record of an entry is carried to, if it holds soil, is in `B`. -/
def LandsIn (B : ℤ → ℤ → Prop) (pos : Vec3 F) (ori : Quat F) (g : Grid F) (e : BodySoil F) : Prop :=
  (e.h <ᶠ ofRat (9 / 10) *ᶠ g.cellZ) = false →
    let new := (calcRotationQuaternion ori ⟨e.xb, e.yb, e.zb⟩).addF pos
    ∀ i j, castInt (FOps.round (new.x /ᶠ g.cellXY +ᶠ ofInt g.halfX)) = .ok i →
      castInt (FOps.round (new.y /ᶠ g.cellXY +ᶠ ofInt g.halfY)) = .ok j → B i j

theorem updateEntry_cone (pos : Vec3 F) (ori : Quat F) (g : Grid F) (body : Body F) (tol : F)
    (e : BodySoil F) (hl : LandsIn B pos ori g e) (w : World F) (hO : On B w.out) (hE : Ent B w.out) :
    Post (updateEntry pos ori g body tol e w) (fun w' => Local B w.out w'.out ∧ Ent B w'.out) := by
  unfold updateEntry
  dsimp only
  split_ifs with h0
  · exact Post.ok ⟨.refl _, hE⟩
  · refine Post.bind (P := fun x => castInt _ = .ok x) (fun _ h => h) fun iN hi => ?_
    refine Post.bind (P := fun x => castInt _ = .ok x) (fun _ h => h) fun jN hj => ?_
    have hland := hl (Bool.eq_false_iff.mpr h0) iN jN hi hj
    refine Post.bind (searchWall_onBody _ _ _ _ _ _ _ (by intro x hx; cases hx)) ?_
    rintro r ⟨-, hr⟩
    have place : ∀ k i j h, OnBody w.out (k, i, j) → Local B w.out (placeOn w.out k i j e h) ∧
        Ent B (placeOn w.out k i j e h) := by
      rintro k i j h ⟨hk, hij, hab⟩
      dsimp only at hk hij hab
      have hb : B i j := hO i j hij (by rcases hk with rfl | rfl <;> simp [hab])
      exact ⟨(((Local.refl _).setBS hb _).setBS hb _).pushPos _, Ent.push (hE.of_eq rfl) hb⟩
    rcases r with ⟨k, i, j⟩ | c
    · exact Post.ok (place k i j _ hr)
    dsimp only at hr ⊢
    split_ifs
    · split
      · rename_i k i j hc
        exact Post.ok (place k i j _ (hr _ hc))
      · exact Post.error
    · exact Post.ok ⟨(Local.refl _).setT hland _, hE.of_eq rfl⟩

theorem updateEntries_cone (pos : Vec3 F) (ori : Quat F) (g : Grid F) (body : Body F) (tol : F)
    (l : List (BodySoil F)) (hl : ∀ e ∈ l, LandsIn B pos ori g e) (w : World F) (hO : On B w.out)
    (hE : Ent B w.out) :
    Post (updateEntries pos ori g body tol l w) (fun w' => Local B w.out w'.out ∧ Ent B w'.out) := by
  induction l generalizing w with
  | nil => exact Post.ok ⟨.refl _, hE⟩
  | cons e l ih =>
    unfold updateEntries
    refine Post.bind (updateEntry_cone pos ori g body tol e (hl e List.mem_cons_self) w hO hE) ?_
    rintro w1 ⟨l1, e1⟩
    refine (ih (fun x hx => hl x (List.mem_cons_of_mem _ hx)) w1 (hO.same l1.body) e1).mono ?_
    rintro w2 ⟨l2, e2⟩
    exact ⟨l1.trans l2, e2⟩

theorem resetBodySoil_terrain (l : List (BodySoil F)) (s : SimOut F) :
    Post (resetBodySoil l s) (fun s' => SameBody s s' ∧ s'.terrain = s.terrain) := by
  induction l generalizing s with
  | nil => exact Post.ok ⟨.refl s, rfl⟩
  | cons e l ih =>
    unfold resetBodySoil
    refine Post.guard fun _ => ?_
    exact (ih _).mono fun x hx => ⟨SameBody.trans (b := (s.setBS e.ind e.ii e.jj zero).setBS (e.ind + 1) e.ii e.jj zero)
      ⟨rfl, rfl, rfl, rfl⟩ hx.1, hx.2⟩

theorem updateBodySoil_cone (pos : Vec3 F) (ori : Quat F) (g : Grid F) (body : Body F) (tol : F)
    (w : World F) (hl : ∀ e ∈ w.out.bodySoilPos, LandsIn B pos ori g e) (hO : On B w.out) :
    Post (updateBodySoil pos ori g body tol w) (fun x => SameBody w.out x.1.out ∧ Ent B x.1.out ∧
      ∀ i j, ¬ B i j → x.1.out.terrain i j = w.out.terrain i j) := by
  unfold updateBodySoil
  dsimp only
  refine Post.bind (resetBodySoil_terrain _ _) ?_
  rintro s1 ⟨b1, t1⟩
  refine Post.bind (updateEntries_cone (B := B) pos ori g body tol _ hl _
    ((hO.same b1).same (s' := { s1 with bodySoilPos := [] }) ⟨rfl, rfl, rfl, rfl⟩) (by intro e he; cases he)) ?_
  rintro w1 ⟨l1, e1⟩
  refine Post.ok ⟨?_, e1, fun i j hn => ?_⟩
  · exact b1.trans (SameBody.trans (b := { s1 with bodySoilPos := [] }) ⟨rfl, rfl, rfl, rfl⟩ l1.body)
  · have h1 := l1.terrain i j hn
    dsimp only at h1 ⊢
    rw [h1, t1]

/-! ## One step -/

/-- In one step of any arithmetic terrain changes only near the columns of the body and of its soil, as
far as one pass after another can hand a slope on. -/
theorem step_cone {a : Area} {r : ℤ} (hr : 2 ≤ r) {fuel : ℕ} {pos : Vec3 F} {ori : Quat F} {g : Grid F}
    {body : Body F} {p : SimParam F} {tol : F} (ht : (tol <ᶠ zero) = false) {w : World F}
    (hl : ∀ e ∈ w.out.bodySoilPos, LandsIn (NearRect a 0) pos ori g e)
    (hO : ∀ s, calcBodyPos fuel w.out pos ori g body p tol = .ok s → OnlyBody w.out s ∧ On (NearRect a 0) s)
    (hq : Quiet a (dhMax g p) tol r w.out) {x : StepResult F}
    (h : step fuel pos ori g body p tol w = .ok x) :
    0 ≤ x.passes ∧ (x.passes = 0 ∨ x.passes ≤ p.maxIterations) ∧
      SameT a (r + 2 * x.passes - 1) w.out x.world.out ∧
      Quiet a (dhMax g p) tol (r + 2 * x.passes) x.world.out := by
  unfold step at h
  dsimp only at h
  split_ifs at h with hm
  · cases h
    refine ⟨le_rfl, .inl rfl, fun _ _ _ => rfl, ?_⟩
    simpa using hq
  obtain ⟨s, h1, h⟩ := bind_eq_ok.mp h
  obtain ⟨⟨w1, b1⟩, h2, h⟩ := bind_eq_ok.mp h
  obtain ⟨w2, h3, h⟩ := bind_eq_ok.mp h
  obtain ⟨⟨w3, it⟩, h4, h⟩ := bind_eq_ok.mp h
  cases h
  obtain ⟨ob, on⟩ := hO s h1
  have hT : s.terrain = w.out.terrain := by unfold OnlyBody at ob; rw [ob]
  have hP : s.bodySoilPos = w.out.bodySoilPos := by unfold OnlyBody at ob; rw [ob]
  have hX : s.lenX = w.out.lenX ∧ s.lenY = w.out.lenY := by unfold OnlyBody at ob; rw [ob]; exact ⟨rfl, rfl⟩
  obtain ⟨sb1, e1, t1⟩ := updateBodySoil_cone (B := NearRect a 0) _ _ _ _ _ _ (by dsimp only; rw [hP]; exact hl) on _ h2
  dsimp only at sb1 e1 t1 h3
  obtain ⟨l2, e2⟩ := moveIntersectingCells_cone (B := NearRect a 0) (a := a) (fun _ _ h => h) _ _ _ _ ht _
    (on.same sb1) e1 _ h3
  have tt : SameT a 1 w.out w2.out := by
    intro i j hn
    rw [l2.terrain i j hn, t1 i j fun hw => hn (hw.mono (by omega)), hT]
  have q0 : Quiet a (dhMax g p) tol r s := by
    intro i j g1 g2 g3 g4 hu
    have hg : ∀ i j, s.InGrid i j → w.out.InGrid i j := by
      intro i j h; unfold SimOut.InGrid at *; rwa [hX.1, hX.2] at h
    refine hq i j (hg _ _ g1) (hg _ _ g2) (hg _ _ g3) (hg _ _ g4) ?_
    unfold unstableAt at hu ⊢
    rwa [hT] at hu
  have ts : SameT a (r - 1) s w2.out := by
    intro i j hn
    rw [tt i j fun hw => hn (hw.mono (by omega)), hT]
  have q2 : Quiet a (dhMax g p) tol r w2.out := by
    have := q0.next ts (sb1.trans l2.body) (by omega)
    simpa using this
  obtain ⟨c1, c2, -, t3, q3⟩ := relaxLoop_cone (B := NearRect a 0) (a := a) (fun _ _ h => h) g b1 p tol fuel 0
    (r := r) (by omega) (w2.mapOut fun s => { s with equilibrium := false })
    ((on.same (sb1.trans l2.body)).same ⟨rfl, rfl, rfl, rfl⟩) (e2.of_eq rfl) q2 _ h4
  dsimp only at c1 c2 t3 q3 ⊢
  rw [sub_zero] at t3 q3
  refine ⟨c1, by omega, SameT.trans (tt.mono (by omega)) (s' := w2.out) t3, q3⟩

end Soil
