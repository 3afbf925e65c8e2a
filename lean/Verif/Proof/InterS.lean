import Verif.Proof.InterT

/-! # Intersection resolution: safety in any arithmetic, and independence of the fuel -/

set_option linter.unusedSectionVars false
set_option linter.unusedSimpArgs false

namespace Soil

variable {F : Type} [FOps F]

/-- the call returns normally with a result satisfying `P`, or the modelled loop needs more fuel:
in particular there is no undefined behaviour -/
def Tame {α : Type} (x : M α) (P : α → Prop) : Prop :=
  (∃ a, x = .ok a ∧ P a) ∨ x = .error .fuel

namespace Tame
variable {α β : Type}

theorem ok {P : α → Prop} {a : α} (h : P a) : Tame (.ok a) P := .inl ⟨a, rfl, h⟩

theorem of_ok {x : M α} {P : α → Prop} (h : Ok x P) : Tame x P := .inl h

theorem bind {x : M α} {f : α → M β} {P : α → Prop} {Q : β → Prop} (h : Tame x P)
    (hf : ∀ a, P a → Tame (f a) Q) : Tame (x >>= f) Q := by
  rcases h with ⟨a, rfl, ha⟩ | rfl
  · exact hf a ha
  · exact .inr rfl

theorem mono {x : M α} {P Q : α → Prop} (h : Tame x P) (hpq : ∀ a, P a → Q a) : Tame x Q := by
  rcases h with ⟨a, rfl, ha⟩ | rfl
  · exact .ok (hpq a ha)
  · exact .inr rfl

theorem guard {p : Prop} [Decidable p] {f : Unit → M β} {Q : β → Prop} (h : p)
    (hf : Tame (f ()) Q) : Tame (guardOob p >>= f) Q := by
  rw [guardOob_of h]; exact hf

end Tame

/-- the soil moved, and the bookkeeping still refers to the grid -/
def LocE (s s' : SimOut F) : Prop := Loc s s' ∧ (EntriesInGrid s → EntriesInGrid s')

theorem LocE.refl (s : SimOut F) : LocE s s := ⟨.refl s, fun h => h⟩

theorem LocE.trans {a b c : SimOut F} (h : LocE a b) (h' : LocE b c) : LocE a c :=
  ⟨h.1.trans h'.1, fun x => h'.2 (h.2 x)⟩

theorem LocE.setT (s : SimOut F) (i j : ℤ) (v : F) : LocE s (s.setT i j v) :=
  ⟨(Local.refl s).setT trivial _, fun h => h⟩

theorem LocE.setBS {s s' : SimOut F} (h : LocE s s') (k : ℕ) (i j : ℤ) (v : F) :
    LocE s (s'.setBS k i j v) := ⟨h.1.setBS trivial _, fun x => h.2 x⟩

theorem LocE.setH {s s' : SimOut F} (h : LocE s s') (n : ℕ) (v : F) : LocE s (s'.setH n v) := by
  refine ⟨h.1.setH _ _, fun x => ?_⟩
  have h2 := h.2 x
  intro e he
  have : ∃ e' ∈ s'.bodySoilPos, e'.ind = e.ind ∧ e'.ii = e.ii ∧ e'.jj = e.jj := by
    obtain ⟨m, hm⟩ := List.mem_iff_getElem?.mp he
    change (s'.bodySoilPos.modify n _)[m]? = some e at hm
    rw [List.getElem?_modify] at hm
    cases hy : s'.bodySoilPos[m]? with
    | none => rw [hy] at hm; simp at hm
    | some y =>
      rw [hy] at hm
      simp only [Option.map_eq_map, Option.map_some, Option.some.injEq] at hm
      subst hm
      exact ⟨y, List.mem_iff_getElem?.mpr ⟨m, hy⟩, by split_ifs <;> exact ⟨rfl, rfl, rfl⟩⟩
  obtain ⟨e', he', a, b, c⟩ := this
  have := h2 e' he'
  rw [a, b, c] at this
  exact this

theorem LocE.pushPos {s s' : SimOut F} (h : LocE s s') {e : BodySoil F} (hij : s.InGrid e.ii e.jj)
    (hk : e.ind = 0 ∨ e.ind = 2) : LocE s (s'.pushPos e) := by
  refine ⟨h.1.pushPos _, fun x y hy => ?_⟩
  change y ∈ s'.bodySoilPos ++ [e] at hy
  rcases List.mem_append.mp hy with hy | hy
  · exact h.2 x y hy
  · rw [List.mem_singleton] at hy
    subst hy
    exact ⟨(h.1.inGrid _ _).mpr hij, hk⟩

theorem moveBodySoil_locE (s : SimOut F) (q : Probe F) (maxH : F) (i j : ℤ) (g : Grid F)
    (body : Body F) (tol : F) (hij : s.InGrid i j) :
    LocE s (moveBodySoil s q maxH i j g body tol).1 ∧
      (s.bodyAbs 0 i j = true ∧ s.bodyAbs 2 i j = true →
        (moveBodySoil s q maxH i j g body tol).2.h = FOps.zero) := by
  have h1 : ∀ k, k = 0 ∨ k = 2 → LocE s (moveBodySoil1 s q maxH i j g body tol k).1 := by
    intro k hk
    unfold moveBodySoil1
    dsimp only
    split_ifs
    · exact .setT _ _ _ _
    · exact .refl _
    · exact ((LocE.refl s).setBS _ _ _ _).pushPos hij hk
    · exact (((LocE.refl s).setBS _ _ _ _).setBS _ _ _ _).pushPos hij hk
  have h2 : ∀ k k', k = 0 ∨ k = 2 → LocE s (moveBodySoil2 s q i j g body tol k k').1 := by
    intro k k' hk
    unfold moveBodySoil2
    dsimp only
    split_ifs
    · exact .refl _
    · exact ((LocE.refl s).setBS _ _ _ _).pushPos hij hk
    · exact ((LocE.refl s).setBS _ _ _ _).pushPos hij hk
    · exact (((LocE.refl s).setBS _ _ _ _).setBS _ _ _ _).pushPos hij hk
    · exact (((LocE.refl s).setBS _ _ _ _).setBS _ _ _ _).pushPos hij hk
  unfold moveBodySoil
  constructor
  · split_ifs
    · exact .setT _ _ _ _
    · exact h1 _ (.inr rfl)
    · exact h1 _ (.inl rfl)
    · exact h2 _ _ (.inl rfl)
    · exact h2 _ _ (.inr rfl)
  · rintro ⟨a, b⟩
    rw [if_pos (by simp [a, b])]

theorem exploreDir_tame (g : Grid F) (body : Body F) (tol : F)
    (htol : FOps.lt tol FOps.zero = false) (ii jj : ℤ) (d : ℤ × ℤ)
    (hd : d ∈ directions8) (fuel : ℕ) (pp : ℤ) (s : SimOut F) (q : Probe F) (maxH : F)
    (hb : BorderFree s)
    (hinv : FOps.lt tol q.h = true → s.InGrid (ii + d.1 * pp) (jj + d.2 * pp) ∧
      ¬ OnBorder s (ii + d.1 * pp) (jj + d.2 * pp)) :
    Tame (exploreDir g body tol ii jj d fuel pp s q maxH) fun x => LocE s x.1 := by
  induction fuel generalizing pp s q maxH with
  | zero =>
    unfold exploreDir
    split_ifs
    · exact .inr rfl
    · exact .ok (.refl s)
  | succ n ih =>
    unfold exploreDir
    split_ifs with hc
    · simp only [Bool.and_eq_true] at hc
      obtain ⟨g1, g2⟩ := hinv hc.2
      have hg := next_inGrid hd g1 g2
      rw [mul_comm d.1, mul_comm d.2] at hg
      refine Tame.guard hg ?_
      obtain ⟨r1, r2⟩ := moveBodySoil_locE s q maxH _ _ g body tol hg
      dsimp only
      generalize moveBodySoil s q maxH (ii + (pp + 1) * d.1) (jj + (pp + 1) * d.2) g body tol = x at *
      obtain ⟨s1, q1⟩ := x
      dsimp only at r1 r2 ⊢
      refine (ih (pp + 1) s1 q1 _ (r1.1.borderFree hb) ?_).mono fun x hx => r1.trans hx
      intro hlt
      rw [mul_comm d.1, mul_comm d.2]
      refine ⟨(r1.1.inGrid _ _).mpr hg, fun ho => ?_⟩
      rw [r2 (hb _ _ hg ((r1.1.onBorder _ _).mp ho)), htol] at hlt
      cases hlt
    · exact .ok (.refl s)

theorem exploreDirs_tame (fuel : ℕ) (g : Grid F) (body : Body F) (tol : F)
    (htol : FOps.lt tol FOps.zero = false) (ind indT : ℕ) (ii jj : ℤ) (ds : List (ℤ × ℤ))
    (hds : ∀ d ∈ ds, d ∈ directions8) (s : SimOut F) (h : F) (hb : BorderFree s)
    (hij : s.InGrid ii jj) (hno : ¬ OnBorder s ii jj) :
    Tame (exploreDirs fuel g body tol ind indT ii jj ds s h) fun x => LocE s x.1 := by
  induction ds generalizing s h with
  | nil => exact .ok (.refl s)
  | cons d ds ih =>
    unfold exploreDirs
    refine (exploreDir_tame g body tol htol ii jj d (hds d List.mem_cons_self) fuel 0 s _ _ hb
      (fun _ => by simpa using ⟨hij, hno⟩)).bind ?_
    rintro ⟨s1, h1⟩ r1
    dsimp only at r1 ⊢
    split_ifs
    · exact .ok r1
    · exact (ih (fun x hx => hds x (List.mem_cons_of_mem _ hx)) s1 h1 (r1.1.borderFree hb)
        ((r1.1.inGrid _ _).mpr hij) (fun ho => hno ((r1.1.onBorder _ _).mp ho))).mono
        fun x hx => r1.trans hx

theorem moveIntersectingEntries_tame (fuel : ℕ) (g : Grid F) (body : Body F) (tol : F)
    (htol : FOps.lt tol FOps.zero = false) (fuelN nn : ℕ) (ds : List (ℤ × ℤ))
    (hds : ∀ d ∈ ds, d ∈ directions8) (w : World F) (hb : BorderFree w.out)
    (he : EntriesInGrid w.out) :
    Tame (moveIntersectingEntries fuel g body tol fuelN nn ds w) fun w' => LocE w.out w'.out := by
  induction fuelN generalizing nn ds w with
  | zero =>
    unfold moveIntersectingEntries
    cases w.out.bodySoilPos[nn]? with
    | none => exact .ok (.refl _)
    | some e => exact .inr rfl
  | succ n ih =>
    unfold moveIntersectingEntries
    cases hn : w.out.bodySoilPos[nn]? with
    | none => exact .ok (.refl _)
    | some e =>
      dsimp only
      obtain ⟨hij, hk⟩ := he e (List.mem_iff_getElem?.mpr ⟨nn, hn⟩)
      refine Tame.guard ⟨hij, by omega⟩ ?_
      by_cases c1 : w.out.bodyAbs (if e.ind = 0 then 2 else 0) e.ii e.jj = true
      · rw [if_pos c1]; exact ih _ _ hds w hb he
      rw [if_neg c1]
      generalize hot : (if e.ind = 0 then 2 else 0) = ot at *
      have hno : ¬ OnBorder w.out e.ii e.jj := by
        intro ho
        obtain ⟨a, b⟩ := hb _ _ hij ho
        subst hot
        split_ifs at c1
        · exact c1 b
        · exact c1 a
      split_ifs with c2 c3 c4 c4
      all_goals first
        | exact ih _ _ hds w hb he
        | skip
      all_goals
        dsimp only
        refine (exploreDirs_tame fuel g body tol htol e.ind ot e.ii e.jj _
          (fun d hd => hds d (mem_shuffle.mp hd)) _ _ (Local.borderFree
            (((LocE.refl w.out).setH _ _).setBS _ _ _ _).1 hb)
          hij hno).bind ?_
        rintro ⟨s1, h1⟩ r1
        have r2 := LocE.trans (((LocE.refl w.out).setH _ _).setBS _ _ _ _) r1
        split_ifs
        all_goals
          exact (ih _ _ (fun d hd => hds d (mem_shuffle.mp hd)) _ (r2.1.borderFree hb)
            (r2.2 he)).mono fun x hx => r2.trans hx

/-! ## More fuel does not change a result -/

theorem spreadOut_fuel {tol : F} {ii jj : ℤ} {ds : List (ℤ × ℤ)} {fuel fuel' : ℕ} (hf : fuel ≤ fuel')
    {pp : ℤ} {s s' : SimOut F} {h : F} (hs : spreadOut tol ii jj ds fuel pp s h = .ok s') :
    spreadOut tol ii jj ds fuel' pp s h = .ok s' := by
  induction fuel generalizing fuel' pp s h with
  | zero =>
    unfold spreadOut at hs ⊢
    split_ifs at hs ⊢ with hc
    exact hs
  | succ n ih =>
    obtain ⟨m, rfl⟩ : ∃ m, fuel' = m + 1 := ⟨fuel' - 1, by omega⟩
    unfold spreadOut at hs ⊢
    split_ifs at hs ⊢ with hc
    · obtain ⟨⟨s1, h1⟩, e1, e2⟩ := bind_eq_ok.mp hs
      rw [e1]
      exact ih (by omega) e2
    · exact hs

theorem moveIntersectingBodyCells_fuel {tol : F} {fuel fuel' : ℕ} (hf : fuel ≤ fuel')
    {cs : List (ℕ × ℤ × ℤ)} {ds : List (ℤ × ℤ)} {s : SimOut F} {r : Rng} {x : SimOut F × Rng}
    (hs : moveIntersectingBodyCells fuel tol cs ds s r = .ok x) :
    moveIntersectingBodyCells fuel' tol cs ds s r = .ok x := by
  induction cs generalizing ds s r with
  | nil => exact hs
  | cons c cs ih =>
    obtain ⟨k, i, j⟩ := c
    unfold moveIntersectingBodyCells at hs ⊢
    dsimp only at hs ⊢
    obtain ⟨hg, hs⟩ := guardOob_bind.mp hs
    rw [guardOob_of hg, ok_bind]
    split_ifs at hs ⊢ with hc
    · exact ih hs
    · obtain ⟨s1, e1, e2⟩ := bind_eq_ok.mp hs
      rw [spreadOut_fuel hf e1]
      exact ih e2

theorem moveIntersectingBody_fuel {tol : F} {fuel fuel' : ℕ} (hf : fuel ≤ fuel') {w w' : World F}
    (hs : moveIntersectingBody fuel tol w = .ok w') :
    moveIntersectingBody fuel' tol w = .ok w' := by
  unfold moveIntersectingBody at hs ⊢
  obtain ⟨cs, e1, hs⟩ := bind_eq_ok.mp hs
  rw [e1, ok_bind]
  split_ifs at hs ⊢ with hc
  · exact hs
  · obtain ⟨x, e2, hs⟩ := bind_eq_ok.mp hs
    rw [moveIntersectingBodyCells_fuel hf e2]
    exact hs

theorem exploreDir_fuel {g : Grid F} {body : Body F} {tol : F} {ii jj : ℤ} {d : ℤ × ℤ}
    {fuel fuel' : ℕ} (hf : fuel ≤ fuel') {pp : ℤ} {s : SimOut F} {q : Probe F} {maxH : F}
    {x : SimOut F × F} (hs : exploreDir g body tol ii jj d fuel pp s q maxH = .ok x) :
    exploreDir g body tol ii jj d fuel' pp s q maxH = .ok x := by
  induction fuel generalizing fuel' pp s q maxH with
  | zero =>
    unfold exploreDir at hs ⊢
    split_ifs at hs ⊢ with hc
    exact hs
  | succ n ih =>
    obtain ⟨m, rfl⟩ : ∃ m, fuel' = m + 1 := ⟨fuel' - 1, by omega⟩
    unfold exploreDir at hs ⊢
    split_ifs at hs ⊢ with hc
    · dsimp only at hs ⊢
      obtain ⟨hg, hs⟩ := guardOob_bind.mp hs
      rw [guardOob_of hg, ok_bind]
      exact ih (by omega) hs
    · exact hs

theorem exploreDirs_fuel {g : Grid F} {body : Body F} {tol : F} {ind indT : ℕ} {ii jj : ℤ}
    {ds : List (ℤ × ℤ)} {fuel fuel' : ℕ} (hf : fuel ≤ fuel') {s : SimOut F} {h : F}
    {x : SimOut F × F} (hs : exploreDirs fuel g body tol ind indT ii jj ds s h = .ok x) :
    exploreDirs fuel' g body tol ind indT ii jj ds s h = .ok x := by
  induction ds generalizing s h with
  | nil => exact hs
  | cons d ds ih =>
    unfold exploreDirs at hs ⊢
    obtain ⟨⟨s1, h1⟩, e1, hs⟩ := bind_eq_ok.mp hs
    rw [exploreDir_fuel hf e1, ok_bind]
    dsimp only at hs ⊢
    split_ifs at hs ⊢ with hc
    · exact hs
    · exact ih hs

theorem moveIntersectingEntries_fuel {g : Grid F} {body : Body F} {tol : F} {fuel fuel' : ℕ}
    (hf : fuel ≤ fuel') {fuelN fuelN' nn : ℕ} (hN : fuelN ≤ fuelN') {ds : List (ℤ × ℤ)}
    {w w' : World F} (hs : moveIntersectingEntries fuel g body tol fuelN nn ds w = .ok w') :
    moveIntersectingEntries fuel' g body tol fuelN' nn ds w = .ok w' := by
  induction fuelN generalizing fuelN' nn ds w with
  | zero =>
    unfold moveIntersectingEntries at hs ⊢
    cases he : w.out.bodySoilPos[nn]? with
    | none => rw [he] at hs; exact hs
    | some e => rw [he] at hs; cases hs
  | succ n ih =>
    obtain ⟨m, rfl⟩ : ∃ m, fuelN' = m + 1 := ⟨fuelN' - 1, by omega⟩
    unfold moveIntersectingEntries at hs ⊢
    cases he : w.out.bodySoilPos[nn]? with
    | none => rw [he] at hs; exact hs
    | some e =>
      rw [he] at hs
      dsimp only at hs ⊢
      obtain ⟨hg, hs⟩ := guardOob_bind.mp hs
      rw [guardOob_of hg, ok_bind]
      by_cases c1 : w.out.bodyAbs (if e.ind = 0 then 2 else 0) e.ii e.jj = true
      · rw [if_pos c1] at hs ⊢; exact ih (by omega) hs
      rw [if_neg c1] at hs ⊢
      split_ifs at hs ⊢ <;> first
        | exact ih (by omega) hs
        | (obtain ⟨⟨s1, h1⟩, e1, hs⟩ := bind_eq_ok.mp hs
           rw [exploreDirs_fuel hf e1, ok_bind]
           exact ih (by omega) hs)

theorem moveIntersectingCells_fuel {g : Grid F} {body : Body F} {tol : F} {fuel fuel' : ℕ}
    (hf : fuel ≤ fuel') {w w' : World F}
    (hs : moveIntersectingCells fuel g body tol w = .ok w') :
    moveIntersectingCells fuel' g body tol w = .ok w' := by
  unfold moveIntersectingCells moveIntersectingBodySoil at hs ⊢
  obtain ⟨w1, e1, hs⟩ := bind_eq_ok.mp hs
  rw [moveIntersectingEntries_fuel hf hf e1]
  exact moveIntersectingBody_fuel hf hs

end Soil
