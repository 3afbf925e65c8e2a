import Verif.Proof.Basic
import Verif.Model.SoilDynamics

/-! # More fuel gives the same result (any arithmetic) -/

set_option linter.unusedSectionVars false
set_option linter.unusedSimpArgs false

namespace Soil

open FOps

/-- `y` returns what `x` returns, if `x` returns -/
def Ext {α : Type} (x y : M α) : Prop := ∀ a, x = .ok a → y = .ok a

namespace Ext

variable {α β : Type}

theorem refl (x : M α) : Ext x x := fun _ h => h

theorem error {e : Err} {y : M α} : Ext (.error e) y := fun _ h => nomatch h

theorem bind {x y : M α} {f f' : α → M β} (h : Ext x y) (hf : ∀ a, Ext (f a) (f' a)) :
    Ext (x >>= f) (y >>= f') := by
  intro b hb
  obtain ⟨a, ha, hb⟩ := bind_eq_ok.mp hb
  exact bind_eq_ok.mpr ⟨a, h a ha, hf a b hb⟩

theorem guard {p : Prop} [Decidable p] {x y : M α} (h : Ext x y) :
    Ext (guardOob p >>= fun _ => x) (guardOob p >>= fun _ => y) := bind (refl _) fun _ => h

end Ext

variable {F : Type} [FOps F]

theorem lineLoop_ext (c : LineCfg F) {n m : ℕ} (h : n ≤ m) (l : LineSt F) :
    Ext (lineLoop c n l) (lineLoop c m l) := by
  induction n generalizing m l with
  | zero =>
    unfold lineLoop
    split_ifs
    · exact .error
    · exact .refl _
  | succ n ih =>
    obtain ⟨m, rfl⟩ : ∃ k, m = k + 1 := ⟨m - 1, by omega⟩
    unfold lineLoop
    split_ifs
    · exact .bind (.refl _) fun _ => .bind (ih (by omega) _) fun _ => .refl _
    · exact .refl _

theorem calcLinePos_ext {n m : ℕ} (h : n ≤ m) (a b : Vec3 F) (g : Grid F) :
    Ext (calcLinePos n a b g) (calcLinePos m a b g) := by
  unfold calcLinePos
  dsimp only
  exact .bind (.refl _) fun _ => .bind (lineLoop_ext _ h _) fun _ => .refl _

theorem calcRectanglePos_ext {n m : ℕ} (h : n ≤ m) (a b c d : Vec3 F) (g : Grid F) (tol : F) :
    Ext (calcRectanglePos n a b c d g tol) (calcRectanglePos m a b c d g tol) := by
  unfold calcRectanglePos
  dsimp only
  exact .bind (.refl _) fun _ => .bind (.refl _) fun _ => .bind (.refl _) fun _ => .bind (.refl _) fun _ =>
    .bind (calcLinePos_ext h _ _ _) fun _ => .bind (calcLinePos_ext h _ _ _) fun _ =>
    .bind (calcLinePos_ext h _ _ _) fun _ => .bind (calcLinePos_ext h _ _ _) fun _ => .refl _

theorem calcTrianglePos_ext {n m : ℕ} (h : n ≤ m) (a b c : Vec3 F) (g : Grid F) (tol : F) :
    Ext (calcTrianglePos n a b c g tol) (calcTrianglePos m a b c g tol) := by
  unfold calcTrianglePos
  dsimp only
  exact .bind (.refl _) fun _ => .bind (.refl _) fun _ => .bind (.refl _) fun _ => .bind (.refl _) fun _ =>
    .bind (calcLinePos_ext h _ _ _) fun _ => .bind (calcLinePos_ext h _ _ _) fun _ =>
    .bind (calcLinePos_ext h _ _ _) fun _ => .refl _

theorem calcBodyPos_ext {n m : ℕ} (h : n ≤ m) (s : SimOut F) (pos : Vec3 F) (ori : Quat F) (g : Grid F)
    (body : Body F) (p : SimParam F) (tol : F) :
    Ext (calcBodyPos n s pos ori g body p tol) (calcBodyPos m s pos ori g body p tol) := by
  unfold calcBodyPos
  refine .bind (.refl _) fun s => ?_
  dsimp only
  cases body.kind with
  | bucket =>
    refine .bind (.refl _) fun _ => .bind ?_ fun _ => .refl _
    unfold bucketWalls
    exact .bind (calcRectanglePos_ext h _ _ _ _ _ _) fun _ =>
      .bind (calcRectanglePos_ext h _ _ _ _ _ _) fun _ =>
      .bind (calcTrianglePos_ext h _ _ _ _ _) fun _ =>
      .bind (calcTrianglePos_ext h _ _ _ _ _) fun _ => .refl _
  | blade =>
    refine .bind (.refl _) fun _ => .bind ?_ fun _ => .refl _
    unfold bladeWalls
    exact .bind (calcRectanglePos_ext h _ _ _ _ _ _) fun _ =>
      .bind (calcRectanglePos_ext h _ _ _ _ _ _) fun _ =>
      .bind (calcRectanglePos_ext h _ _ _ _ _ _) fun _ =>
      .bind (calcRectanglePos_ext h _ _ _ _ _ _) fun _ => .refl _

theorem spreadOut_ext (tol : F) (ii jj : ℤ) (ds : List (ℤ × ℤ)) {n m : ℕ} (h : n ≤ m) (pp : ℤ)
    (s : SimOut F) (x : F) : Ext (spreadOut tol ii jj ds n pp s x) (spreadOut tol ii jj ds m pp s x) := by
  induction n generalizing m pp s x with
  | zero =>
    unfold spreadOut
    split_ifs
    · exact .error
    · exact .refl _
  | succ n ih =>
    obtain ⟨m, rfl⟩ : ∃ k, m = k + 1 := ⟨m - 1, by omega⟩
    unfold spreadOut
    split_ifs
    · exact .bind (.refl _) fun _ => ih (by omega) _ _ _
    · exact .refl _

theorem moveIntersectingBodyCells_ext {n m : ℕ} (h : n ≤ m) (tol : F) (cs : List (ℕ × ℤ × ℤ))
    (ds : List (ℤ × ℤ)) (s : SimOut F) (r : Rng) :
    Ext (moveIntersectingBodyCells n tol cs ds s r) (moveIntersectingBodyCells m tol cs ds s r) := by
  induction cs generalizing ds s r with
  | nil => exact .refl _
  | cons c cs ih =>
    obtain ⟨k, ii, jj⟩ := c
    unfold moveIntersectingBodyCells
    refine .bind (.refl _) fun _ => ?_
    split_ifs
    · exact ih _ _ _
    · exact .bind (spreadOut_ext _ _ _ _ h _ _ _) fun _ => ih _ _ _

theorem moveIntersectingBody_ext {n m : ℕ} (h : n ≤ m) (tol : F) (w : World F) :
    Ext (moveIntersectingBody n tol w) (moveIntersectingBody m tol w) := by
  unfold moveIntersectingBody
  refine .bind (.refl _) fun _ => ?_
  split_ifs
  · exact .refl _
  · exact .bind (moveIntersectingBodyCells_ext h _ _ _ _ _) fun _ => .refl _

theorem exploreDir_ext (g : Grid F) (body : Body F) (tol : F) (ii jj : ℤ) (d : ℤ × ℤ) {n m : ℕ}
    (h : n ≤ m) (pp : ℤ) (s : SimOut F) (q : Probe F) (maxH : F) :
    Ext (exploreDir g body tol ii jj d n pp s q maxH) (exploreDir g body tol ii jj d m pp s q maxH) := by
  induction n generalizing m pp s q maxH with
  | zero =>
    unfold exploreDir
    split_ifs
    · exact .error
    · exact .refl _
  | succ n ih =>
    obtain ⟨m, rfl⟩ : ∃ k, m = k + 1 := ⟨m - 1, by omega⟩
    unfold exploreDir
    split_ifs
    · exact .bind (.refl _) fun _ => ih (by omega) _ _ _ _
    · exact .refl _

theorem exploreDirs_ext {n m : ℕ} (h : n ≤ m) (g : Grid F) (body : Body F) (tol : F) (ind indT : ℕ)
    (ii jj : ℤ) (ds : List (ℤ × ℤ)) (s : SimOut F) (x : F) :
    Ext (exploreDirs n g body tol ind indT ii jj ds s x) (exploreDirs m g body tol ind indT ii jj ds s x) := by
  induction ds generalizing s x with
  | nil => exact .refl _
  | cons d ds ih =>
    unfold exploreDirs
    refine .bind (exploreDir_ext _ _ _ _ _ _ h _ _ _ _) fun y => ?_
    dsimp only
    split_ifs
    · exact .refl _
    · exact ih _ _

theorem moveIntersectingEntries_ext {n m : ℕ} (h : n ≤ m) (g : Grid F) (body : Body F) (tol : F)
    {a b : ℕ} (hab : a ≤ b) (nn : ℕ) (ds : List (ℤ × ℤ)) (w : World F) :
    Ext (moveIntersectingEntries n g body tol a nn ds w)
      (moveIntersectingEntries m g body tol b nn ds w) := by
  induction a generalizing b nn ds w with
  | zero =>
    unfold moveIntersectingEntries
    split
    · exact .refl _
    · exact .error
  | succ a ih =>
    obtain ⟨b, rfl⟩ : ∃ k, b = k + 1 := ⟨b - 1, by omega⟩
    unfold moveIntersectingEntries
    split
    · exact .refl _
    · refine .bind (.refl _) fun _ => ?_
      dsimp only
      split_ifs
      all_goals first
        | exact ih (by omega) _ _ _
        | exact .bind (exploreDirs_ext h _ _ _ _ _ _ _ _ _ _) fun _ => ih (by omega) _ _ _

theorem moveIntersectingCells_ext {n m : ℕ} (h : n ≤ m) (g : Grid F) (body : Body F) (tol : F)
    (w : World F) : Ext (moveIntersectingCells n g body tol w) (moveIntersectingCells m g body tol w) := by
  unfold moveIntersectingCells moveIntersectingBodySoil
  exact .bind (moveIntersectingEntries_ext h _ _ _ h _ _ _) fun _ => moveIntersectingBody_ext h _ _

theorem relaxLoop_ext (g : Grid F) (body : Body F) (p : SimParam F) (tol : F) {n m : ℕ} (h : n ≤ m)
    (it : ℤ) (w : World F) :
    Ext (relaxLoop g body p tol n it w) (relaxLoop g body p tol m it w) := by
  induction n generalizing m it w with
  | zero =>
    unfold relaxLoop
    split_ifs
    · exact .error
    · exact .refl _
  | succ n ih =>
    obtain ⟨m, rfl⟩ : ∃ k, m = k + 1 := ⟨m - 1, by omega⟩
    unfold relaxLoop
    split_ifs
    · exact .bind (.refl _) fun _ => ih (by omega) _ _
    · exact .refl _

theorem step_ext {n m : ℕ} (h : n ≤ m) (pos : Vec3 F) (ori : Quat F) (g : Grid F) (body : Body F)
    (p : SimParam F) (tol : F) (w : World F) :
    Ext (step n pos ori g body p tol w) (step m pos ori g body p tol w) := by
  unfold step
  dsimp only
  split_ifs
  · exact .refl _
  · exact .bind (calcBodyPos_ext h _ _ _ _ _ _ _) fun _ => .bind (.refl _) fun _ =>
      .bind (moveIntersectingCells_ext h _ _ _ _) fun _ => .bind (relaxLoop_ext _ _ _ _ h _ _) fun _ =>
      .refl _

theorem run_ext {n m : ℕ} (h : n ≤ m) (g : Grid F) (p : SimParam F) (tol : F)
    (qs : List (Vec3 F × Quat F)) (body : Body F) (w : World F) :
    Ext (run n g p tol qs body w) (run m g p tol qs body w) := by
  induction qs generalizing body w with
  | nil => exact .refl _
  | cons q qs ih =>
    obtain ⟨pos, ori⟩ := q
    unfold run
    exact .bind (step_ext h _ _ _ _ _ _ _) fun _ => ih _ _

/-! ## Functions that take no fuel never run out of it -/

/-- the outcome is not "out of fuel" -/
def NoFuel {α : Type} (x : M α) : Prop := x ≠ .error .fuel

namespace NoFuel

variable {α β : Type}

theorem ok {a : α} : NoFuel (.ok a : M α) := by simp [NoFuel]

theorem bind {x : M α} {f : α → M β} (h : NoFuel x) (hf : ∀ a, NoFuel (f a)) : NoFuel (x >>= f) := by
  cases x with
  | error e =>
    intro he
    rw [error_bind] at he
    cases he
    exact h rfl
  | ok a => rw [ok_bind]; exact hf a

theorem guard {p : Prop} [Decidable p] {x : Unit → M α} (h : NoFuel (x ())) :
    NoFuel (guardOob p >>= x) := by
  refine bind ?_ fun _ => h
  unfold guardOob NoFuel
  split_ifs <;> simp

end NoFuel

theorem locateUnstableCells_noFuel (s : SimOut F) (dh tol : F) (l : List (ℤ × ℤ)) :
    NoFuel (locateUnstableCells s dh tol l) := by
  induction l with
  | nil => exact .ok
  | cons p l ih =>
    unfold locateUnstableCells
    exact .guard (.bind ih fun _ => .ok)

theorem relaxTerrainOnTerrain_noFuel (s : SimOut F) (st0 : ℕ) (dh : F) (ii jj ic jc : ℤ) (g : Grid F)
    (tol : F) : NoFuel (relaxTerrainOnTerrain s st0 dh ii jj ic jc g tol) := by
  unfold relaxTerrainOnTerrain
  dsimp only
  split <;> simp [NoFuel]

theorem relaxUnstableTerrainCell_noFuel (s : SimOut F) (status : ℕ) (dh : F) (ii jj ic jc : ℤ)
    (g : Grid F) (body : Body F) (tol : F) :
    NoFuel (relaxUnstableTerrainCell s status dh ii jj ic jc g body tol) := by
  unfold relaxUnstableTerrainCell
  split
  · exact relaxTerrainOnTerrain_noFuel _ _ _ _ _ _ _ _ _
  all_goals exact .ok

theorem relaxTerrainDirs_noFuel (g : Grid F) (body : Body F) (dh tol : F) (ii jj : ℤ)
    (ds : List (ℤ × ℤ)) (s : SimOut F) : NoFuel (relaxTerrainDirs g body dh tol ii jj ds s) := by
  induction ds generalizing s with
  | nil => exact .ok
  | cons d ds ih =>
    unfold relaxTerrainDirs
    dsimp only
    refine .guard ?_
    split_ifs
    · exact ih _
    · exact .bind (relaxUnstableTerrainCell_noFuel _ _ _ _ _ _ _ _ _ _) fun _ => ih _

theorem relaxTerrainCells_noFuel (g : Grid F) (body : Body F) (dh tol : F) (cs ds : List (ℤ × ℤ))
    (s : SimOut F) (r : Rng) : NoFuel (relaxTerrainCells g body dh tol cs ds s r) := by
  induction cs generalizing ds s r with
  | nil => exact .ok
  | cons c cs ih =>
    unfold relaxTerrainCells
    dsimp only
    exact .bind (relaxTerrainDirs_noFuel _ _ _ _ _ _ _ _) fun _ => ih _ _ _

theorem relaxTerrain_noFuel (g : Grid F) (body : Body F) (p : SimParam F) (tol : F) (w : World F) :
    NoFuel (relaxTerrain g body p tol w) := by
  unfold relaxTerrain locateUnstableTerrainCell
  dsimp only
  refine .bind (locateUnstableCells_noFuel _ _ _ _) fun cells => ?_
  split_ifs
  · exact .ok
  · exact .bind (relaxTerrainCells_noFuel _ _ _ _ _ _ _ _) fun _ => .ok

theorem relaxBodyDirs_noFuel (g : Grid F) (body : Body F) (dh tol : F) (nn : ℕ) (ii jj : ℤ) (ind : ℕ)
    (ds : List (ℤ × ℤ)) (s : SimOut F) (q : List (BodySoil F)) :
    NoFuel (relaxBodyDirs g body dh tol nn ii jj ind ds s q) := by
  induction ds generalizing s q with
  | nil => exact .ok
  | cons d ds ih =>
    unfold relaxBodyDirs
    dsimp only
    refine .guard ?_
    split_ifs
    · exact ih _ _
    · exact ih _ _

theorem relaxBodyEntries_noFuel (g : Grid F) (body : Body F) (dh tol : F) (n nn : ℕ)
    (ds : List (ℤ × ℤ)) (s : SimOut F) (q : List (BodySoil F)) (r : Rng) :
    NoFuel (relaxBodyEntries g body dh tol n nn ds s q r) := by
  induction n generalizing nn ds s q r with
  | zero => exact .ok
  | succ n ih =>
    unfold relaxBodyEntries
    split
    · simp [NoFuel]
    · split_ifs
      · exact ih _ _ _ _ _
      · dsimp only
        exact .bind (relaxBodyDirs_noFuel _ _ _ _ _ _ _ _ _ _ _) fun _ => ih _ _ _ _ _

/-- a round of relaxation contains no unbounded loop -/
theorem relaxOnce_noFuel (g : Grid F) (body : Body F) (p : SimParam F) (tol : F) (w : World F) :
    NoFuel (relaxOnce g body p tol w) := by
  unfold relaxOnce relaxBodySoil
  dsimp only
  exact .bind (relaxTerrain_noFuel _ _ _ _ _) fun _ =>
    .bind (relaxBodyEntries_noFuel _ _ _ _ _ _ _ _ _ _) fun _ => .ok

end Soil
