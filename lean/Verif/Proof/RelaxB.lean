import Verif.Proof.RelaxT

/-! # Body-soil relaxation: conservation and well-formedness -/

set_option linter.unusedSectionVars false
set_option linter.unusedSimpArgs false

namespace Soil

section General
variable {F : Type} [FOps F]

open FOps

/-- the state with queued entries already recorded -/
def SimOut.app (s : SimOut F) (q : List (BodySoil F)) : SimOut F :=
  { s with bodySoilPos := s.bodySoilPos ++ q }

theorem modify_append_left {α : Type} (l q : List α) (f : α → α) {n : ℕ} (hn : n < l.length) :
    (l ++ q).modify n f = l.modify n f ++ q := by
  induction l generalizing n with
  | nil => simp at hn
  | cons a l ih =>
    cases n with
    | zero => rfl
    | succ n =>
      simp only [List.cons_append, List.modify_succ_cons]
      rw [ih (by simpa using hn)]

theorem app_setH (s : SimOut F) (q : List (BodySoil F)) {n : ℕ} (v : F)
    (hn : n < s.bodySoilPos.length) : (s.setH n v).app q = (s.app q).setH n v := by
  unfold SimOut.setH SimOut.app
  simp only [SimOut.mk.injEq, true_and, and_true]
  rw [modify_append_left _ _ _ hn]

theorem app_entryH (s : SimOut F) (q : List (BodySoil F)) {n : ℕ}
    (hn : n < s.bodySoilPos.length) : (s.app q).entryH n = s.entryH n := by
  unfold SimOut.entryH SimOut.app
  simp only
  rw [List.getElem?_append_left hn]

theorem app_nil (s : SimOut F) : s.app [] = s := by
  unfold SimOut.app; simp

theorem app_single (s : SimOut F) (e : BodySoil F) : s.app [e] = s.pushPos e := rfl

theorem app_app (s : SimOut F) (q q' : List (BodySoil F)) : (s.app q).app q' = s.app (q ++ q') := by
  unfold SimOut.app; simp

theorem setH_length (s : SimOut F) (n : ℕ) (v : F) :
    (s.setH n v).bodySoilPos.length = s.bodySoilPos.length := by
  unfold SimOut.setH; simp

theorem setBS_comm (s : SimOut F) {k k' : ℕ} {i j i' j' : ℤ} (v v' : F)
    (h : ¬ (i = i' ∧ j = j')) :
    (s.setBS k i j v).setBS k' i' j' v' = (s.setBS k' i' j' v').setBS k i j v := by
  unfold SimOut.setBS
  simp only [SimOut.mk.injEq, true_and, and_true]
  funext c a b
  unfold upd3
  split_ifs <;> first | rfl | (exfalso; apply h; constructor <;> omega)

theorem takeFromColumn_app (s : SimOut F) (q : List (BodySoil F)) {nn : ℕ} (ind : ℕ) (ii jj : ℤ)
    (hNew hSoil tol : F) (hn : nn < s.bodySoilPos.length) :
    takeFromColumn (s.app q) nn ind ii jj hNew hSoil tol =
      (takeFromColumn s nn ind ii jj hNew hSoil tol).app q := by
  unfold takeFromColumn emptyColumn
  rw [app_entryH s q hn]
  split_ifs with h1 h2 h3
  · rw [app_setH _ q _ (by exact hn)]; rfl
  · exact absurd h1 h2
  · exact absurd h3 h1
  · rw [app_setH _ q _ (by exact hn)]; rfl

theorem limitToEntry_app (s : SimOut F) (q : List (BodySoil F)) {nn : ℕ} (ind : ℕ) (ii jj : ℤ)
    (hNew : F) (hn : nn < s.bodySoilPos.length) :
    limitToEntry (s.app q) nn ind ii jj hNew = limitToEntry s nn ind ii jj hNew := by
  unfold limitToEntry
  rw [app_entryH s q hn]
  rfl

/-- adding entries at the end commutes with an operation -/
def Equiv (q : List (BodySoil F)) (r r' : SimOut F × List (BodySoil F)) : Prop :=
  r'.1 = r.1.app q ∧ r'.2 = r.2

theorem relaxBodyOnTerrain_app (s : SimOut F) (q : List (BodySoil F)) (st0 : ℕ) (dh : F) {nn : ℕ}
    (ii jj : ℤ) (ind : ℕ) (ic jc : ℤ) (g : Grid F) (tol : F) (hn : nn < s.bodySoilPos.length) :
    relaxBodyOnTerrain (s.app q) st0 dh nn ii jj ind ic jc g tol =
      (relaxBodyOnTerrain s st0 dh nn ii jj ind ic jc g tol).app q := by
  unfold relaxBodyOnTerrain emptyColumn
  dsimp only
  rw [limitToEntry_app s q ind ii jj _ hn, app_entryH s q hn]
  simp only [apply_ite (fun x : SimOut F => x.app q)]
  simp only [app_setH _ q _ (show nn < (s.setT ic jc _).bodySoilPos.length from hn), 
    app_setH _ q _ (show nn < ((s.setT ic jc _).setBS _ _ _ _).bodySoilPos.length from hn), 
    app_setH _ q _ (show nn < (((s.setT ic jc _).setBS _ _ _ _).setBS _ _ _ _).bodySoilPos.length from hn)]
  rfl

theorem relaxBodyOnSoil1_app (s : SimOut F) (q : List (BodySoil F)) (dh : F) {nn : ℕ}
    (ii jj : ℤ) (ind : ℕ) (ic jc : ℤ) (g : Grid F) (body : Body F) (tol : F) (k : ℕ)
    (hn : nn < s.bodySoilPos.length) :
    Equiv q (relaxBodyOnSoil1 s dh nn ii jj ind ic jc g body tol k)
      (relaxBodyOnSoil1 (s.app q) dh nn ii jj ind ic jc g body tol k) := by
  unfold relaxBodyOnSoil1
  dsimp only
  rw [limitToEntry_app s q ind ii jj _ hn, takeFromColumn_app s q ind ii jj _ _ _ hn]
  exact ⟨rfl, rfl⟩

theorem relaxBodyOnBody1_app (s : SimOut F) (q : List (BodySoil F)) (dh : F) {nn : ℕ}
    (ii jj : ℤ) (ind : ℕ) (ic jc : ℤ) (g : Grid F) (body : Body F) (tol : F) (k : ℕ)
    (hn : nn < s.bodySoilPos.length) :
    Equiv q (relaxBodyOnBody1 s dh nn ii jj ind ic jc g body tol k)
      (relaxBodyOnBody1 (s.app q) dh nn ii jj ind ic jc g body tol k) := by
  unfold relaxBodyOnBody1
  dsimp only
  rw [limitToEntry_app s q ind ii jj _ hn]
  have : ∀ v, (s.app q).setBS k ic jc v = (s.setBS k ic jc v).app q := fun _ => rfl
  rw [this, takeFromColumn_app _ q ind ii jj _ _ _ (by exact hn)]
  exact ⟨rfl, rfl⟩

theorem relaxBodyOnSoil2_app (s : SimOut F) (q : List (BodySoil F)) (dh : F) {nn : ℕ}
    (ii jj : ℤ) (ind : ℕ) (ic jc : ℤ) (g : Grid F) (body : Body F) (tol : F) (k ko : ℕ) (ob : Bool)
    (hn : nn < s.bodySoilPos.length) :
    Equiv q (relaxBodyOnSoil2 s dh nn ii jj ind ic jc g body tol k ko ob)
      (relaxBodyOnSoil2 (s.app q) dh nn ii jj ind ic jc g body tol k ko ob) := by
  unfold relaxBodyOnSoil2
  dsimp only
  rw [limitToEntry_app s q ind ii jj _ hn]
  have e1 : ∀ k ii jj v, (s.app q).setBS k ii jj v = (s.setBS k ii jj v).app q := fun _ _ _ _ => rfl
  have e2 : ∀ k ii jj v k' ii' jj' v', ((s.setBS k ii jj v).app q).setBS k' ii' jj' v' =
    ((s.setBS k ii jj v).setBS k' ii' jj' v').app q := fun _ _ _ _ _ _ _ _ => rfl
  have e3 : ∀ k ii jj v k' ii' jj' v' k'' ii'' jj'' v'',
    (((s.setBS k ii jj v).setBS k' ii' jj' v').app q).setBS k'' ii'' jj'' v'' =
    (((s.setBS k ii jj v).setBS k' ii' jj' v').setBS k'' ii'' jj'' v'').app q :=
    fun _ _ _ _ _ _ _ _ _ _ _ _ => rfl
  have hL : ∀ k ii jj v k' ii' jj' v', nn <
    ((s.setBS k ii jj v).setBS k' ii' jj' v').bodySoilPos.length := fun _ _ _ _ _ _ _ _ => hn
  have hL3 : ∀ k ii jj v k' ii' jj' v' k'' ii'' jj'' v'', nn <
    (((s.setBS k ii jj v).setBS k' ii' jj' v').setBS k'' ii'' jj'' v'').bodySoilPos.length :=
    fun _ _ _ _ _ _ _ _ _ _ _ _ => hn
  simp only [emptyColumn, e1, e2, e3, ← app_setH _ q _ (hL _ _ _ _ _ _ _ _), 
    ← app_setH _ q _ (hL3 _ _ _ _ _ _ _ _ _ _ _ _), app_entryH _ q (hL _ _ _ _ _ _ _ _)]
  have c1 : (s.app q).bodySoil = s.bodySoil := rfl
  have c2 : (s.app q).body = s.body := rfl
  simp only [c1, c2]
  generalize limitToEntry s nn ind ii jj _ = L
  cases h1 : (s.bodySoil ind ii jj <ᶠ L.2 -ᶠ tol) <;>
  cases h2 : (ob && s.body ko ic jc <ᶠ s.bodySoil (k + 1) ic jc +ᶠ L.1 -ᶠ tol) <;>
  simp only [Bool.false_eq_true, if_false, if_true] <;>
  exact ⟨rfl, rfl⟩

theorem relaxBodyOnBody2_app (s : SimOut F) (q : List (BodySoil F)) (dh : F) {nn : ℕ}
    (ii jj : ℤ) (ind : ℕ) (ic jc : ℤ) (g : Grid F) (body : Body F) (tol : F) (k ko : ℕ)
    (ob wc : Bool) (hn : nn < s.bodySoilPos.length) :
    Equiv q (relaxBodyOnBody2 s dh nn ii jj ind ic jc g body tol k ko ob wc)
      (relaxBodyOnBody2 (s.app q) dh nn ii jj ind ic jc g body tol k ko ob wc) := by
  unfold relaxBodyOnBody2
  dsimp only
  rw [limitToEntry_app s q ind ii jj _ hn]
  have c0 : (s.app q).bodySoil (ind + 1) ii jj = s.bodySoil (ind + 1) ii jj := rfl
  have c0' : (s.app q).body = s.body := rfl
  rw [c0, c0']
  generalize limitToEntry s nn ind ii jj _ = L
  have e1 : ∀ v, (s.app q).setBS k ic jc v = (s.setBS k ic jc v).app q := fun _ => rfl
  rw [e1]
  obtain ⟨X, hX⟩ : ∃ X, X = s.body (k + 1) ic jc +ᶠ L.1 := ⟨_, rfl⟩
  rw [← hX]
  clear hX
  have hn' : nn < (s.setBS k ic jc (s.body (k + 1) ic jc)).bodySoilPos.length := hn
  generalize s.setBS k ic jc (s.body (k + 1) ic jc) = s at hn'
  have e1 : ∀ k ii jj v, (s.app q).setBS k ii jj v = (s.setBS k ii jj v).app q := fun _ _ _ _ => rfl
  have e2 : ∀ k ii jj v k' ii' jj' v', ((s.setBS k ii jj v).app q).setBS k' ii' jj' v' =
    ((s.setBS k ii jj v).setBS k' ii' jj' v').app q := fun _ _ _ _ _ _ _ _ => rfl
  have e3 : ∀ k ii jj v k' ii' jj' v' k'' ii'' jj'' v'',
    (((s.setBS k ii jj v).setBS k' ii' jj' v').app q).setBS k'' ii'' jj'' v'' =
    (((s.setBS k ii jj v).setBS k' ii' jj' v').setBS k'' ii'' jj'' v'').app q :=
    fun _ _ _ _ _ _ _ _ _ _ _ _ => rfl
  have hL1 : ∀ k ii jj v, nn < (s.setBS k ii jj v).bodySoilPos.length := fun _ _ _ _ => hn'
  have hL : ∀ k ii jj v k' ii' jj' v', nn <
    ((s.setBS k ii jj v).setBS k' ii' jj' v').bodySoilPos.length := fun _ _ _ _ _ _ _ _ => hn'
  have hL3 : ∀ k ii jj v k' ii' jj' v' k'' ii'' jj'' v'', nn <
    (((s.setBS k ii jj v).setBS k' ii' jj' v').setBS k'' ii'' jj'' v'').bodySoilPos.length :=
    fun _ _ _ _ _ _ _ _ _ _ _ _ => hn'
  simp only [emptyColumn, e1, e2, e3, ← app_setH _ q _ (hL _ _ _ _ _ _ _ _),
    ← app_setH _ q _ (hL3 _ _ _ _ _ _ _ _ _ _ _ _), app_entryH _ q (hL _ _ _ _ _ _ _ _),
    takeFromColumn_app _ q _ _ _ _ _ _ (hL1 _ _ _ _)]
  have c1 : (s.app q).bodySoil = s.bodySoil := rfl
  have c2 : (s.app q).body = s.body := rfl
  simp only [c1, c2]
  cases ob <;> cases wc <;>
  cases h1 : (s.bodySoil ind ii jj <ᶠ L.2 -ᶠ tol) <;>
  cases h2 : (s.body ko ic jc <ᶠ X -ᶠ tol) <;>
  simp only [Bool.false_eq_true, if_false, if_true] <;>
  exact ⟨rfl, rfl⟩

theorem relaxUnstableBodyCell_app (s : SimOut F) (q : List (BodySoil F)) (status : ℕ) (dh : F)
    {nn : ℕ} (ii jj : ℤ) (ind : ℕ) (ic jc : ℤ) (g : Grid F) (body : Body F) (tol : F)
    (hn : nn < s.bodySoilPos.length) :
    Equiv q (relaxUnstableBodyCell s status dh nn ii jj ind ic jc g body tol)
      (relaxUnstableBodyCell (s.app q) status dh nn ii jj ind ic jc g body tol) := by
  unfold relaxUnstableBodyCell
  dsimp only
  split
  · exact ⟨relaxBodyOnTerrain_app s q _ dh ii jj ind ic jc g tol hn, rfl⟩
  · exact relaxBodyOnSoil1_app s q dh ii jj ind ic jc g body tol _ hn
  · exact relaxBodyOnBody1_app s q dh ii jj ind ic jc g body tol _ hn
  · exact relaxBodyOnSoil1_app s q dh ii jj ind ic jc g body tol _ hn
  · exact relaxBodyOnBody1_app s q dh ii jj ind ic jc g body tol _ hn
  · exact relaxBodyOnSoil2_app s q dh ii jj ind ic jc g body tol _ _ _ hn
  · exact relaxBodyOnBody2_app s q dh ii jj ind ic jc g body tol _ _ _ _ hn
  · exact relaxBodyOnSoil2_app s q dh ii jj ind ic jc g body tol _ _ _ hn
  · exact relaxBodyOnBody2_app s q dh ii jj ind ic jc g body tol _ _ _ _ hn
  · exact ⟨rfl, rfl⟩

/-- the columns the entries refer to -/
def keys (s : SimOut F) : List (ℕ × ℤ × ℤ) := s.bodySoilPos.map fun e => (e.ind, e.ii, e.jj)

theorem keys_setH (s : SimOut F) (n : ℕ) (v : F) : keys (s.setH n v) = keys s := by
  unfold keys SimOut.setH
  simp only
  generalize s.bodySoilPos = l
  induction l generalizing n with
  | nil => simp
  | cons a l ih =>
    cases n with
    | zero => rfl
    | succ n => simp [List.modify_succ_cons, ih]

theorem keys_take (s : SimOut F) (nn ind : ℕ) (ii jj : ℤ) (hNew hSoil tol : F) :
    keys (takeFromColumn s nn ind ii jj hNew hSoil tol) = keys s := by
  unfold takeFromColumn emptyColumn
  split_ifs <;> exact keys_setH _ _ _

theorem relaxUnstableBodyCell_keys (s : SimOut F) (status : ℕ) (dh : F)
    (nn : ℕ) (ii jj : ℤ) (ind : ℕ) (ic jc : ℤ) (g : Grid F) (body : Body F) (tol : F) :
    keys (relaxUnstableBodyCell s status dh nn ii jj ind ic jc g body tol).1 = keys s := by
  have hA : ∀ st0, keys (relaxBodyOnTerrain s st0 dh nn ii jj ind ic jc g tol) = keys s := by
    intro st0
    unfold relaxBodyOnTerrain emptyColumn
    dsimp only
    split_ifs
    all_goals exact keys_setH _ _ _
  have hB : ∀ k, keys (relaxBodyOnSoil1 s dh nn ii jj ind ic jc g body tol k).1 = keys s := by
    intro k
    exact keys_take s _ _ _ _ _ _ _
  have hC : ∀ k, keys (relaxBodyOnBody1 s dh nn ii jj ind ic jc g body tol k).1 = keys s := by
    intro k
    exact (keys_take (s.setBS k ic jc _) _ _ _ _ _ _ _)
  have hD : ∀ k ko b, keys (relaxBodyOnSoil2 s dh nn ii jj ind ic jc g body tol k ko b).1 = keys s := by
    intro k ko b
    unfold relaxBodyOnSoil2 emptyColumn
    dsimp only
    split_ifs
    all_goals exact keys_setH _ _ _
  have hE : ∀ k ko b c,
      keys (relaxBodyOnBody2 s dh nn ii jj ind ic jc g body tol k ko b c).1 = keys s := by
    intro k ko b c
    unfold relaxBodyOnBody2 emptyColumn
    dsimp only
    split_ifs
    all_goals first
      | exact keys_setH _ _ _
      | exact keys_take ((s.setBS k ic jc _).setBS (k + 1) ic jc _) _ _ _ _ _ _ _
  unfold relaxUnstableBodyCell
  dsimp only
  split
  · exact hA _
  · exact hB _
  · exact hC _
  · exact hB _
  · exact hC _
  · exact hD _ _ _
  · exact hE _ _ _ _
  · exact hD _ _ _
  · exact hE _ _ _ _
  · rfl

theorem keys_get {s s' : SimOut F} (h : keys s' = keys s) {n : ℕ} {e : BodySoil F}
    (he : s.bodySoilPos[n]? = some e) :
    ∃ e', s'.bodySoilPos[n]? = some e' ∧ e'.ind = e.ind ∧ e'.ii = e.ii ∧ e'.jj = e.jj := by
  have h1 : (keys s')[n]? = some (e.ind, e.ii, e.jj) := by
    rw [h]; unfold keys; rw [List.getElem?_map, he]; rfl
  unfold keys at h1
  rw [List.getElem?_map, Option.map_eq_some_iff] at h1
  obtain ⟨e', h2, h3⟩ := h1
  simp only [Prod.mk.injEq] at h3
  exact ⟨e', h2, h3⟩

theorem checkUnstableBodyCell_app (s : SimOut F) (q : List (BodySoil F)) (ii jj : ℤ) (ind : ℕ)
    (ic jc : ℤ) (hMin tol : F) : checkUnstableBodyCell (s.app q) ii jj ind ic jc hMin tol =
      checkUnstableBodyCell s ii jj ind ic jc hMin tol := rfl

end General

variable {K : Type} [Field K] [LinearOrder K] [FloorRing K] [Transc K] [IsStrictOrderedRing K]

/-! ## Taking soil from a column -/

theorem entryH_eq {s : SimOut K} {n : ℕ} {e : BodySoil K} (he : s.bodySoilPos[n]? = some e) :
    s.entryH n = e.h := by unfold SimOut.entryH; rw [he]

/-- take `δ` from entry `n`, which is `e` -/
def takeE (s : SimOut K) (n : ℕ) (e : BodySoil K) (δ tol : K) : SimOut K :=
  takeFromColumn s n e.ind e.ii e.jj (s.bodySoil (e.ind + 1) e.ii e.jj - δ) δ tol

/-- the parts of the state left alone when soil is taken from column `(i, j)` -/
structure Taken (s s' : SimOut K) (i j : ℤ) : Prop where
  body : s'.body = s.body
  terrain : s'.terrain = s.terrain
  lenX : s'.lenX = s.lenX
  lenY : s'.lenY = s.lenY
  area : s'.bodyArea = s.bodyArea
  soil : ∀ k a b, ¬ (a = i ∧ b = j) → s'.bodySoil k a b = s.bodySoil k a b

theorem takeE_taken (s : SimOut K) (n : ℕ) (e : BodySoil K) (δ tol : K) :
    Taken s (takeE s n e δ tol) e.ii e.jj := by
  unfold takeE takeFromColumn emptyColumn
  split_ifs
  · refine ⟨rfl, rfl, rfl, rfl, rfl, fun k a b h => upd3_ne _ _ (by tauto)⟩
  · refine ⟨rfl, rfl, rfl, rfl, rfl, fun k a b h => ?_⟩
    exact (upd3_ne _ _ (by tauto)).trans (upd3_ne _ _ (by tauto))

theorem takeE_entry (s : SimOut K) (n : ℕ) (e : BodySoil K) (δ tol : K)
    (he : s.bodySoilPos[n]? = some e) :
    ∃ v, (takeE s n e δ tol).bodySoilPos[n]? = some { e with h := v } ∧
      (takeE s n e δ tol).bodySoilPos.length = s.bodySoilPos.length := by
  unfold takeE takeFromColumn emptyColumn
  split_ifs
  · refine ⟨FOps.sub (s.entryH n) δ, ?_, setH_length _ _ _⟩
    simp only [SimOut.setH, SimOut.setBS, List.getElem?_modify]
    simp [he]
  · refine ⟨FOps.zero, ?_, setH_length _ _ _⟩
    simp only [SimOut.setH, SimOut.setBS, List.getElem?_modify]
    simp [he]

theorem takeE_wf {c tol : K} (t : TolOK c tol) {s : SimOut K} (h : WellFormed c s) {n : ℕ}
    {e : BodySoil K} {δ : K} (he : s.bodySoilPos[n]? = some e) (h0 : 0 ≤ δ) (h1 : δ ≤ e.h)
    (ha : Al c δ) :
    WellFormed c (takeE s n e δ tol) ∧ totalSoil (takeE s n e δ tol) = totalSoil s - δ := by
  have hm : e ∈ s.bodySoilPos := List.mem_iff_getElem?.mpr ⟨n, he⟩
  obtain ⟨hij, hk⟩ := h.soilOK.entries e hm
  have hle := h.soilOK.entry_le hm
  have hA1 := h.soilOK.soil_al (e.ind + 1) _ _ hij
  have hA0 := h.soilOK.soil_al e.ind _ _ hij
  unfold takeE takeFromColumn emptyColumn
  rw [entryH_eq he]
  simp only [ex_sub, ex_lt, decide_eq_true_eq, ex_zero, t.lt_sub hA0 (hA1.sub ha)]
  split_ifs with hc
  · exact ⟨h.wdPart he h0 h1 ha, totalSoil_wdPart hij hk⟩
  · have hl : layerSoil s e.ind e.ii e.jj = e.h := by
      apply le_antisymm _ hle
      unfold layerSoil; linarith
    refine ⟨h.wdAll he hl, ?_⟩
    have := totalSoil_wdAll (s := s) (n := n) (e := e) hij hk
    unfold wdAll at this
    rw [this]
    have : δ = layerSoil s e.ind e.ii e.jj := by
      apply le_antisymm (h1.trans hle)
      unfold layerSoil; linarith
    rw [this]

theorem takeE_energy {c tol : K} (t : TolOK c tol) {s : SimOut K} (h : WellFormed c s) {n : ℕ}
    {e : BodySoil K} {δ : K} (he : s.bodySoilPos[n]? = some e) (h1 : δ ≤ e.h) (ha : Al c δ) :
    energy (takeE s n e δ tol) = energy s - 2 * s.bodySoil (e.ind + 1) e.ii e.jj * δ + δ ^ 2 ∧
      (δ = 0 → SameSoil s (takeE s n e δ tol)) := by
  have hm : e ∈ s.bodySoilPos := List.mem_iff_getElem?.mpr ⟨n, he⟩
  obtain ⟨hij, hk⟩ := h.soilOK.entries e hm
  have hle := h.soilOK.entry_le hm
  have hA1 := h.soilOK.soil_al (e.ind + 1) _ _ hij
  have hA0 := h.soilOK.soil_al e.ind _ _ hij
  unfold takeE takeFromColumn emptyColumn
  rw [entryH_eq he]
  simp only [ex_sub, ex_lt, decide_eq_true_eq, ex_zero, t.lt_sub hA0 (hA1.sub ha)]
  split_ifs with hc
  · refine ⟨energy_wdPart hij hk, ?_⟩
    rintro rfl
    refine ⟨rfl, fun k i j _ => ?_⟩
    unfold layerSoil
    simp only [SimOut.setH, SimOut.setBS, upd3, sub_zero]
    congr 1 <;> split_ifs with hx
    · obtain ⟨h1, rfl, rfl⟩ := hx; rw [h1]
    · rfl
    · obtain ⟨h1, rfl, rfl⟩ := hx; rw [h1]
    · rfl
  · have hl : δ = layerSoil s e.ind e.ii e.jj := by
      apply le_antisymm (h1.trans hle)
      unfold layerSoil; linarith
    have := energy_wdAll (s := s) (n := n) (e := e) hij hk
    rw [← hl] at this
    refine ⟨this, ?_⟩
    intro h0
    rw [h0] at hl
    refine ⟨rfl, fun k i j hk' => ?_⟩
    by_cases hx : k = e.ind ∧ i = e.ii ∧ j = e.jj
    · obtain ⟨rfl, rfl, rfl⟩ := hx
      rw [← hl]
      unfold layerSoil
      simp only [SimOut.setH, SimOut.setBS, upd3]
      simp
    · unfold layerSoil
      simp only [SimOut.setH, SimOut.setBS, upd3]
      rw [if_neg (by rintro ⟨h1, h2, h3⟩; exact hx ⟨by omega, h2, h3⟩),
        if_neg (by rintro ⟨h1, h2, h3⟩; omega),
        if_neg (by rintro ⟨h1, h2, h3⟩; omega),
        if_neg (by rintro ⟨h1, h2, h3⟩; exact hx ⟨h1, h2, h3⟩)]

theorem takeE_layer {c tol : K} (t : TolOK c tol) {s : SimOut K} (h : WellFormed c s) {n : ℕ}
    {e : BodySoil K} {δ : K} (he : s.bodySoilPos[n]? = some e) (h1 : δ ≤ e.h) (ha : Al c δ) :
    layerSoil (takeE s n e δ tol) e.ind e.ii e.jj = layerSoil s e.ind e.ii e.jj - δ ∧
      ∀ k i j, k = 0 ∨ k = 2 → ¬ (k = e.ind ∧ i = e.ii ∧ j = e.jj) →
        layerSoil (takeE s n e δ tol) k i j = layerSoil s k i j := by
  have hm : e ∈ s.bodySoilPos := List.mem_iff_getElem?.mpr ⟨n, he⟩
  obtain ⟨hij, hk⟩ := h.soilOK.entries e hm
  have hle := h.soilOK.entry_le hm
  have hA1 := h.soilOK.soil_al (e.ind + 1) _ _ hij
  have hA0 := h.soilOK.soil_al e.ind _ _ hij
  unfold takeE takeFromColumn emptyColumn
  rw [entryH_eq he]
  simp only [ex_sub, ex_lt, decide_eq_true_eq, ex_zero, t.lt_sub hA0 (hA1.sub ha)]
  split_ifs with hc
  · constructor
    · obtain ⟨e1, e2⟩ := wdPart_soil_here s n e δ
      show (wdPart s n e δ).bodySoil (e.ind + 1) e.ii e.jj - (wdPart s n e δ).bodySoil e.ind e.ii e.jj = _
      rw [e1, e2]; unfold layerSoil; ring
    · intro k i j hk' hx
      obtain ⟨e1, e2⟩ := wdPart_soil_other s n e δ hk hk' hx
      show (wdPart s n e δ).bodySoil (k + 1) i j - (wdPart s n e δ).bodySoil k i j = _
      rw [e1, e2]; rfl
  · have hl : δ = layerSoil s e.ind e.ii e.jj := by
      apply le_antisymm (h1.trans hle)
      unfold layerSoil; linarith
    constructor
    · obtain ⟨e1, e2⟩ := wdAll_soil_here s n e
      show (wdAll s n e).bodySoil (e.ind + 1) e.ii e.jj - (wdAll s n e).bodySoil e.ind e.ii e.jj = _
      rw [e1, e2, ← hl]; ring
    · intro k i j hk' hx
      obtain ⟨e1, e2⟩ := wdAll_soil_other s n e hk hk' hx
      show (wdAll s n e).bodySoil (k + 1) i j - (wdAll s n e).bodySoil k i j = _
      rw [e1, e2]; rfl

theorem takeE_height {c tol : K} (t : TolOK c tol) {s : SimOut K} (h : WellFormed c s) {n : ℕ}
    {e : BodySoil K} {δ : K} (he : s.bodySoilPos[n]? = some e) (h1 : δ ≤ e.h) (ha : Al c δ)
    (h0 : 0 < δ) :
    (Place.layer e.ind e.ii e.jj).In s ∧
    (Place.layer e.ind e.ii e.jj).height s = s.bodySoil (e.ind + 1) e.ii e.jj ∧
    (Place.layer e.ind e.ii e.jj).height (takeE s n e δ tol) = s.bodySoil (e.ind + 1) e.ii e.jj - δ ∧
    ∀ p : Place, p.In s → p ≠ .layer e.ind e.ii e.jj → p.height (takeE s n e δ tol) = p.height s := by
  have hm : e ∈ s.bodySoilPos := List.mem_iff_getElem?.mpr ⟨n, he⟩
  obtain ⟨hij, hk⟩ := h.soilOK.entries e hm
  have hs := h.soilOK.entry_hasSoil hm (h0.trans_le h1)
  have hT := takeE_taken s n e δ tol
  obtain ⟨l1, l2⟩ := takeE_layer t h he h1 ha
  have htop := h.soilOK.top_eq hij hk hs
  refine ⟨⟨hij, hk, (h.soilOK.rest _ _ _ hij hk hs).1⟩, htop, ?_, fun p hp hne => ?_⟩
  · show (takeE s n e δ tol).body _ _ _ + layerSoil _ _ _ _ = _
    rw [l1, hT.body, ← htop]; ring
  · cases p with
    | ground i j => show (takeE s n e δ tol).terrain i j = _; rw [hT.terrain]; rfl
    | layer k i j =>
      show (takeE s n e δ tol).body _ _ _ + layerSoil _ _ _ _ = _
      rw [l2 k i j hp.2.1 (by rintro ⟨rfl, rfl, rfl⟩; exact hne rfl), hT.body]; rfl

theorem Taken.sameBody {s s' : SimOut K} {i j : ℤ} (h : Taken s s' i j) : SameBody s s' :=
  ⟨h.body, h.area, h.lenX, h.lenY⟩

theorem Taken.hasBody {s s' : SimOut K} {i j : ℤ} (h : Taken s s' i j) (k : ℕ) (a b : ℤ) :
    HasBody s' k a b ↔ HasBody s k a b := by unfold HasBody; rw [h.body]

theorem Taken.inGrid {s s' : SimOut K} {i j : ℤ} (h : Taken s s' i j) (a b : ℤ) :
    s'.InGrid a b ↔ s.InGrid a b := by unfold SimOut.InGrid; rw [h.lenX, h.lenY]

/-- soil moved from a body layer to the terrain of another column -/
theorem moveBT_wf {c tol dh : K} (t : TolOK c tol) {s : SimOut K} (h : WellFormed c s) {n : ℕ}
    {e : BodySoil K} {δ : K} (he : s.bodySoilPos[n]? = some e) (h0 : 0 ≤ δ) (h1 : δ ≤ e.h)
    (ha : Al c δ) {ic jc : ℤ} (hg : s.InGrid ic jc)
    (hlow : s.terrain ic jc + dh < s.bodySoil (e.ind + 1) e.ii e.jj)
    (h2d : 2 * δ ≤ s.bodySoil (e.ind + 1) e.ii e.jj - s.terrain ic jc - dh + c)
    (hr : ∀ k, k = 0 ∨ k = 2 → HasBody s k ic jc → s.terrain ic jc + δ ≤ s.body k ic jc)
    (hstop : s.bodySoil (e.ind + 1) e.ii e.jj - δ ≤ s.terrain ic jc + δ + dh ∨
      (∃ k, (k = 0 ∨ k = 2) ∧ HasBody s k ic jc ∧ s.terrain ic jc + δ = s.body k ic jc) ∨ e.h = δ) :
    WellFormed c (addT (takeE s n e δ tol) ic jc δ) ∧
      totalSoil (addT (takeE s n e δ tol) ic jc δ) = totalSoil s ∧
      Fall c dh (some e.h) (.layer e.ind e.ii e.jj) (.ground ic jc) δ s
        (addT (takeE s n e δ tol) ic jc δ) ∧
      ∀ a b, s.terrain a b ≤ (addT (takeE s n e δ tol) ic jc δ).terrain a b := by
  obtain ⟨w, ht⟩ := takeE_wf t h he h0 h1 ha
  obtain ⟨hE, hS⟩ := takeE_energy t h he h1 ha
  have hT := takeE_taken s n e δ tol
  have hx : (Place.ground ic jc).height (addT (takeE s n e δ tol) ic jc δ) = s.terrain ic jc + δ := by
    rw [height_addT_here, hT.terrain]
  refine ⟨w.addT ha fun k hk hb => ?_, ?_, Fall.make (A := s.bodySoil (e.ind + 1) e.ii e.jj)
    (x := s.terrain ic jc) h0 ha hT.sameBody ?_
    (fun hp => ?_) hg rfl hlow h2d (fun hp => ?_) (fun y hy => ?_) ?_ ?_, ?_⟩
  · rw [hT.terrain, hT.body]
    exact hr k hk ((hT.hasBody _ _ _).mp hb)
  · rw [totalSoil_addT ((hT.inGrid _ _).mpr hg), ht]; ring
  · intro hz
    have := SameSoil.addT (takeE s n e δ tol) ic jc
    rw [← hz] at this
    exact (hS hz).trans this
  · obtain ⟨x1, x2, -⟩ := takeE_height t h he h1 ha hp
    exact ⟨x1, x2⟩
  · obtain ⟨x1, x2, x3, x4⟩ := takeE_height t h he h1 ha hp
    refine ⟨?_, hx, fun p hp' hpa hpb => ?_⟩
    · rw [height_addT_other _ _ (by intro hh; cases hh), x3]
    · rw [height_addT_other _ _ hpb, x4 p hp' hpa]
  · cases hy; exact h1
  · refine hstop.imp id (Or.imp ?_ fun h => by rw [h])
    rintro ⟨k, y1, y2, y3⟩
    refine ⟨k, y1, (hT.hasBody _ _ _).mpr y2, hx.trans (y3.trans ?_)⟩
    show _ = (takeE s n e δ tol).body k ic jc
    rw [hT.body]
  · rw [energy_addT ((hT.inGrid _ _).mpr hg), hE, hT.terrain]; ring
  · intro a b
    show _ ≤ upd2 _ _ _ _ _ _
    rw [hT.terrain]
    unfold upd2
    split_ifs with hx
    · obtain ⟨rfl, rfl⟩ := hx; linarith
    · exact le_rfl

theorem otherLayer_mem (k : ℕ) : otherLayer k = 0 ∨ otherLayer k = 2 := by
  unfold otherLayer; split_ifs <;> simp

/-- soil moved from a body layer to a body layer of another column -/
theorem moveBB_wf {c tol dh : K} (t : TolOK c tol) {s : SimOut K} (h : WellFormed c s) {n : ℕ}
    {e : BodySoil K} (he : s.bodySoilPos[n]? = some e) {e' : BodySoil K} (h0 : 0 ≤ e'.h)
    (h1 : e'.h ≤ e.h) (ha : Al c e'.h) (hg : s.InGrid e'.ii e'.jj) (hk : e'.ind = 0 ∨ e'.ind = 2)
    (hb : HasBody s e'.ind e'.ii e'.jj) (hne : ¬ (e'.ii = e.ii ∧ e'.jj = e.jj))
    (hlow : s.body (e'.ind + 1) e'.ii e'.jj + layerSoil s e'.ind e'.ii e'.jj + dh <
      s.bodySoil (e.ind + 1) e.ii e.jj)
    (h2d : 2 * e'.h ≤ s.bodySoil (e.ind + 1) e.ii e.jj -
      (s.body (e'.ind + 1) e'.ii e'.jj + layerSoil s e'.ind e'.ii e'.jj) - dh + c)
    (hr : HasBody s (otherLayer e'.ind) e'.ii e'.jj →
      s.body e'.ind e'.ii e'.jj < s.body (otherLayer e'.ind) e'.ii e'.jj →
      s.body (e'.ind + 1) e'.ii e'.jj + layerSoil s e'.ind e'.ii e'.jj + e'.h ≤
        s.body (otherLayer e'.ind) e'.ii e'.jj)
    (hstop : s.bodySoil (e.ind + 1) e.ii e.jj - e'.h ≤
        s.body (e'.ind + 1) e'.ii e'.jj + layerSoil s e'.ind e'.ii e'.jj + e'.h + dh ∨
      (HasBody s (otherLayer e'.ind) e'.ii e'.jj ∧
        s.body e'.ind e'.ii e'.jj < s.body (otherLayer e'.ind) e'.ii e'.jj ∧
        s.body (e'.ind + 1) e'.ii e'.jj + layerSoil s e'.ind e'.ii e'.jj + e'.h =
          s.body (otherLayer e'.ind) e'.ii e'.jj) ∨ e.h = e'.h) :
    WellFormed c (dep (takeE s n e e'.h tol) e') ∧
      totalSoil (dep (takeE s n e e'.h tol) e') = totalSoil s ∧
      Fall c dh (some e.h) (.layer e.ind e.ii e.jj) (.layer e'.ind e'.ii e'.jj) e'.h s
        (dep (takeE s n e e'.h tol) e') ∧
      ∀ a b, s.terrain a b ≤ (dep (takeE s n e e'.h tol) e').terrain a b := by
  obtain ⟨w, ht⟩ := takeE_wf t h he h0 h1 ha
  obtain ⟨hE, hS⟩ := takeE_energy t h he h1 ha
  have hT := takeE_taken s n e e'.h tol
  have hl : layerSoil (takeE s n e e'.h tol) e'.ind e'.ii e'.jj = layerSoil s e'.ind e'.ii e'.jj := by
    unfold layerSoil
    rw [hT.soil _ _ _ hne, hT.soil _ _ _ hne]
  have hx : (Place.layer e'.ind e'.ii e'.jj).height (dep (takeE s n e e'.h tol) e') =
      s.body (e'.ind + 1) e'.ii e'.jj + layerSoil s e'.ind e'.ii e'.jj + e'.h := by
    rw [height_dep_here, hl, hT.body]
  have hpl : Place.layer e.ind e.ii e.jj ≠ Place.layer e'.ind e'.ii e'.jj := by
    intro hh; injection hh with _ h3 h4; exact hne ⟨h3.symm, h4.symm⟩
  refine ⟨w.dep ((hT.inGrid _ _).mpr hg) hk ((hT.hasBody _ _ _).mpr hb) h0 ha fun hB hlt => ?_, ?_,
    Fall.make (A := s.bodySoil (e.ind + 1) e.ii e.jj)
      (x := s.body (e'.ind + 1) e'.ii e'.jj + layerSoil s e'.ind e'.ii e'.jj) h0 ha hT.sameBody
      (fun hz => (hS hz).trans (.dep _ _ hk hz)) (fun hp => ?_) ⟨hg, hk, hb⟩ rfl hlow h2d
      (fun hp => ?_) (fun y hy => ?_) ?_ ?_, ?_⟩
  · rw [hl, hT.body]
    rw [hT.body] at hlt
    exact hr ((hT.hasBody _ _ _).mp hB) hlt
  · rw [totalSoil_dep ((hT.inGrid _ _).mpr hg) hk, ht]; ring
  · obtain ⟨x1, x2, -⟩ := takeE_height t h he h1 ha hp
    exact ⟨x1, x2⟩
  · obtain ⟨x1, x2, x3, x4⟩ := takeE_height t h he h1 ha hp
    refine ⟨?_, hx, fun p hp' hpa hpb => ?_⟩
    · rw [height_dep_other _ _ hk (x1.congr hT.sameBody) hpl, x3]
    · rw [height_dep_other _ _ hk (hp'.congr hT.sameBody) hpb, x4 p hp' hpa]
  · cases hy; exact h1
  · refine hstop.imp id (Or.imp ?_ fun h => by rw [h])
    rintro ⟨y1, y2, y3⟩
    refine ⟨otherLayer e'.ind, otherLayer_mem _, (hT.hasBody _ _ _).mpr y1, ?_, hx.trans (y3.trans ?_)⟩
    · show (takeE s n e e'.h tol).body _ _ _ < (takeE s n e e'.h tol).body _ _ _
      rw [hT.body]; exact y2
    · show _ = (takeE s n e e'.h tol).body _ _ _
      rw [hT.body]
  · rw [energy_dep w.soilOK ((hT.inGrid _ _).mpr hg) hk, hE, hl, hT.body]; ring
  · intro a b
    show _ ≤ (takeE s n e e'.h tol).terrain a b
    rw [hT.terrain]

/-- what `limitToEntry` gives for a surface `x` low enough to receive soil -/
theorem limitToEntry_spec {g : Grid K} {tol dh x : K} (t : TolOK g.cellZ tol) (hd : Al g.cellZ dh)
    {s : SimOut K} (h : WellFormed g.cellZ s) {n : ℕ} {e : BodySoil K}
    (he : s.bodySoilPos[n]? = some e) (hx : Al g.cellZ x)
    (hlow : x + tol < s.bodySoil (e.ind + 1) e.ii e.jj - dh) :
    ∃ δ, limitToEntry s n e.ind e.ii e.jj (newHeight g tol dh (s.bodySoil (e.ind + 1) e.ii e.jj) x) =
        (δ, s.bodySoil (e.ind + 1) e.ii e.jj - δ) ∧
      0 ≤ δ ∧ δ ≤ e.h ∧ Al g.cellZ δ ∧
      2 * δ ≤ s.bodySoil (e.ind + 1) e.ii e.jj - x - dh + g.cellZ ∧
      (s.bodySoil (e.ind + 1) e.ii e.jj - δ ≤ x + δ + dh ∨ e.h = δ) := by
  have hm : e ∈ s.bodySoilPos := List.mem_iff_getElem?.mpr ⟨n, he⟩
  obtain ⟨hij, hk⟩ := h.soilOK.entries e hm
  have hA1 := h.soilOK.soil_al (e.ind + 1) _ _ hij
  obtain ⟨hal, hnew⟩ := newHeight_spec t hd hA1 hx
  have htp := t.pos
  have hcp := t.cpos
  unfold limitToEntry
  rw [entryH_eq he]
  simp only [ex_sub, ex_lt, decide_eq_true_eq]
  generalize newHeight g tol dh (s.bodySoil (e.ind + 1) e.ii e.jj) x = hN at *
  split_ifs with hc
  · refine ⟨e.h, rfl, h.soilOK.entry_nonneg e hm, le_rfl, h.soilOK.entry_al e hm, ?_, .inr rfl⟩
    rcases hnew with h | h <;> linarith
  · refine ⟨s.bodySoil (e.ind + 1) e.ii e.jj - hN, ?_, ?_, not_lt.mp hc, hA1.sub hal, ?_, .inl ?_⟩
    · rw [sub_sub_cancel]
    · rcases hnew with h | h <;> linarith
    · rcases hnew with h | h <;> linarith
    · rcases hnew with h | h <;> linarith

/-- result of a body-soil avalanche: well-formed, nothing lost, some amount fell, no terrain was taken -/
structure BodyMove (c dh : K) (e : BodySoil K) (b : Place) (s : SimOut K) (r : SimOut K) : Prop where
  wf : WellFormed c r
  total : totalSoil r = totalSoil s
  fall : ∃ δ, Fall c dh (some e.h) (.layer e.ind e.ii e.jj) b δ s r ∧
    ∀ a b, s.terrain a b ≤ r.terrain a b

theorem relaxBodyOnTerrain_wf (s : SimOut K) (st0 : ℕ) (dh : K) (n : ℕ) (e : BodySoil K) (ic jc : ℤ)
    (g : Grid K) (tol : K) (t : TolOK g.cellZ tol) (hd : Al g.cellZ dh) (h : WellFormed g.cellZ s)
    (he : s.bodySoilPos[n]? = some e) (h2 : s.InGrid ic jc)
    (hlow : s.terrain ic jc + tol < s.bodySoil (e.ind + 1) e.ii e.jj - dh)
    (hst : (st0 = 4 ∧ ¬ HasBody s 0 ic jc ∧ ¬ HasBody s 2 ic jc) ∨
         (st0 = 1 ∧ HasBody s 0 ic jc ∧ ¬ HasBody s 2 ic jc) ∨
         (st0 = 2 ∧ ¬ HasBody s 0 ic jc ∧ HasBody s 2 ic jc)) :
    BodyMove g.cellZ dh e (.ground ic jc) s (relaxBodyOnTerrain s st0 dh n e.ii e.jj e.ind ic jc g tol) := by
  have hm : e ∈ s.bodySoilPos := List.mem_iff_getElem?.mpr ⟨n, he⟩
  obtain ⟨hij, hk⟩ := h.soilOK.entries e hm
  have hT := h.soilOK.terrain_al ic jc h2
  have hB := fun k => h.bodyOK.al k ic jc h2
  obtain ⟨δ, hL, d0, d1, dA, d2, dS⟩ := limitToEntry_spec t hd h he hT hlow
  have hA1 := h.soilOK.soil_al (e.ind + 1) _ _ hij
  have hA0 := h.soilOK.soil_al e.ind _ _ hij
  -- the final form, for the amount actually moved
  have key : ∀ δ', 0 ≤ δ' → δ' ≤ e.h → Al g.cellZ δ' → δ' ≤ δ →
      (∀ k, k = 0 ∨ k = 2 → HasBody s k ic jc → s.terrain ic jc + δ' ≤ s.body k ic jc) →
      (δ' = δ ∨ ∃ k, (k = 0 ∨ k = 2) ∧ HasBody s k ic jc ∧ s.terrain ic jc + δ' = s.body k ic jc) →
      BodyMove g.cellZ dh e (.ground ic jc) s (if s.bodySoil e.ind e.ii e.jj < s.bodySoil (e.ind + 1) e.ii e.jj - δ' - tol then
          ((s.setT ic jc (s.terrain ic jc + δ')).setBS (e.ind + 1) e.ii e.jj
            (s.bodySoil (e.ind + 1) e.ii e.jj - δ')).setH n (e.h - δ')
        else emptyColumn (s.setT ic jc (s.terrain ic jc + δ')) n e.ind e.ii e.jj) := by
    intro δ' d0 d1 dA dd hr hS
    obtain ⟨w, ht, hf⟩ := moveBT_wf (dh := dh) t h he d0 d1 dA h2
      (by have := t.pos; linarith) (by linarith) hr (by
        rcases hS with rfl | hS
        · exact dS.imp id .inr
        · exact .inr (.inl hS))
    have : addT (takeE s n e δ' tol) ic jc δ' =
      (if s.bodySoil e.ind e.ii e.jj < s.bodySoil (e.ind + 1) e.ii e.jj - δ' - tol then
          ((s.setT ic jc (s.terrain ic jc + δ')).setBS (e.ind + 1) e.ii e.jj
            (s.bodySoil (e.ind + 1) e.ii e.jj - δ')).setH n (e.h - δ')
        else emptyColumn (s.setT ic jc (s.terrain ic jc + δ')) n e.ind e.ii e.jj) := by
      unfold addT takeE takeFromColumn
      rw [entryH_eq he]
      simp only [ex_sub, ex_lt, decide_eq_true_eq]
      split_ifs <;> rfl
    rw [← this]
    exact ⟨w, ht, _, hf⟩
  unfold relaxBodyOnTerrain
  dsimp only
  rw [hL, entryH_eq he]
  dsimp only
  simp only [ex_add, ex_sub, ex_lt, decide_eq_true_eq, Bool.and_eq_true, beq_iff_eq]
  rcases hst with ⟨rfl, b0, b2⟩ | ⟨rfl, b0, b2⟩ | ⟨rfl, b0, b2⟩
  · simp only [show ¬ (4 : ℕ) = 1 by decide, show ¬ (4 : ℕ) = 2 by decide, false_and, if_false]
    refine key δ d0 d1 dA le_rfl ?_ (.inl rfl)
    rintro k (rfl | rfl) hb
    · exact absurd hb b0
    · exact absurd hb b2
  · have hf := h.terrainFree 0 ic jc h2 (.inl rfl) b0
    simp only [true_and, show ¬ (1 : ℕ) = 2 by decide, false_and, if_false,
      t.lt_sub (hB 0) (hT.add dA)]
    by_cases hc : s.body 0 ic jc < s.terrain ic jc + δ
    · simp only [hc, if_true]
      have := key (s.body 0 ic jc - s.terrain ic jc) (by linarith) (by linarith) ((hB 0).sub hT) (by linarith) (by
        rintro k (rfl | rfl) hb
        · linarith
        · exact absurd hb b2) (.inr ⟨0, .inl rfl, b0, by ring⟩)
      simpa only [add_sub_cancel] using this
    · simp only [hc, if_false]
      refine key δ d0 d1 dA le_rfl ?_ (.inl rfl)
      rintro k (rfl | rfl) hb
      · exact not_lt.mp hc
      · exact absurd hb b2
  · have hf := h.terrainFree 2 ic jc h2 (.inr rfl) b2
    simp only [true_and, show ¬ (2 : ℕ) = 1 by decide, false_and, if_false,
      t.lt_sub (hB 2) (hT.add dA)]
    by_cases hc : s.body 2 ic jc < s.terrain ic jc + δ
    · simp only [hc, if_true]
      have := key (s.body 2 ic jc - s.terrain ic jc) (by linarith) (by linarith) ((hB 2).sub hT) (by linarith) (by
        rintro k (rfl | rfl) hb
        · exact absurd hb b0
        · linarith) (.inr ⟨2, .inr rfl, b2, by ring⟩)
      simpa only [add_sub_cancel] using this
    · simp only [hc, if_false]
      refine key δ d0 d1 dA le_rfl ?_ (.inl rfl)
      rintro k (rfl | rfl) hb
      · exact absurd hb b0
      · exact not_lt.mp hc

theorem setH_setBS (s : SimOut K) (n : ℕ) (v : K) (k : ℕ) (i j : ℤ) (x : K) :
    (s.setH n v).setBS k i j x = (s.setBS k i j x).setH n v := rfl

theorem takeFromColumn_setBS (s : SimOut K) (n ind : ℕ) (ii jj : ℤ) (hNew hSoil tol : K) (k : ℕ)
    (ic jc : ℤ) (v : K) (hne : ¬ (ic = ii ∧ jc = jj)) :
    takeFromColumn (s.setBS k ic jc v) n ind ii jj hNew hSoil tol =
      (takeFromColumn s n ind ii jj hNew hSoil tol).setBS k ic jc v := by
  unfold takeFromColumn emptyColumn
  have e1 : (s.setBS k ic jc v).bodySoil ind ii jj = s.bodySoil ind ii jj :=
    upd3_ne _ _ (by rintro ⟨-, rfl, rfl⟩; exact hne ⟨rfl, rfl⟩)
  have e2 : (s.setBS k ic jc v).entryH n = s.entryH n := rfl
  rw [e1, e2]
  split_ifs
  · rw [setBS_comm _ _ _ hne]; rfl
  · rw [setBS_comm _ _ _ hne, setBS_comm _ _ _ hne]; rfl

theorem takeE_partial {s : SimOut K} {n : ℕ} {e : BodySoil K} {δ tol : K}
    (he : s.bodySoilPos[n]? = some e)
    (h : s.bodySoil e.ind e.ii e.jj < s.bodySoil (e.ind + 1) e.ii e.jj - δ - tol) :
    takeE s n e δ tol = (s.setBS (e.ind + 1) e.ii e.jj (s.bodySoil (e.ind + 1) e.ii e.jj - δ)).setH n
      (e.h - δ) := by
  unfold takeE takeFromColumn
  rw [entryH_eq he]
  simp only [ex_sub, ex_lt, decide_eq_true_eq]
  rw [if_pos h]

theorem takeE_full {s : SimOut K} {n : ℕ} {e : BodySoil K} {δ tol : K}
    (h : ¬ s.bodySoil e.ind e.ii e.jj < s.bodySoil (e.ind + 1) e.ii e.jj - δ - tol) :
    takeE s n e δ tol = emptyColumn s n e.ind e.ii e.jj := by
  unfold takeE takeFromColumn
  simp only [ex_sub, ex_lt, decide_eq_true_eq]
  rw [if_neg h]

/-- In a full avalanche the amount moved is the whole column. -/
theorem full_amount {c tol : K} (t : TolOK c tol) {s : SimOut K} (h : WellFormed c s) {n : ℕ}
    {e : BodySoil K} {δ : K} (he : s.bodySoilPos[n]? = some e) (h1 : δ ≤ e.h) (ha : Al c δ)
    (hc : ¬ s.bodySoil e.ind e.ii e.jj < s.bodySoil (e.ind + 1) e.ii e.jj - δ - tol) :
    s.bodySoil (e.ind + 1) e.ii e.jj = s.bodySoil e.ind e.ii e.jj + δ := by
  have hm : e ∈ s.bodySoilPos := List.mem_iff_getElem?.mpr ⟨n, he⟩
  obtain ⟨hij, hk⟩ := h.soilOK.entries e hm
  have hle := h.soilOK.entry_le hm
  rw [t.lt_sub (h.soilOK.soil_al _ _ _ hij) ((h.soilOK.soil_al _ _ _ hij).sub ha)] at hc
  unfold layerSoil at hle
  linarith

section
variable (s : SimOut K) (dh : K) (n : ℕ) (e : BodySoil K) (ic jc : ℤ)
    (g : Grid K) (body : Body K) (tol : K) (t : TolOK g.cellZ tol) (hd : Al g.cellZ dh)
    (hd0 : 0 ≤ dh) (h : WellFormed g.cellZ s)
    (he : s.bodySoilPos[n]? = some e) (h2 : s.InGrid ic jc) (hne : ¬ (ic = e.ii ∧ jc = e.jj))
    (k : ℕ) (hk : k = 0 ∨ k = 2) (hb : HasBody s k ic jc)
include t hd h he h2 hne hk hb

theorem relaxBodyOnSoil1_wf (hs : HasSoil s k ic jc) (hno : ¬ HasBody s (otherLayer k) ic jc)
    (hlow : s.bodySoil (k + 1) ic jc + tol < s.bodySoil (e.ind + 1) e.ii e.jj - dh) :
    BodyMove g.cellZ dh e (.layer k ic jc) s
      ((relaxBodyOnSoil1 s dh n e.ii e.jj e.ind ic jc g body tol k).1.app
        (relaxBodyOnSoil1 s dh n e.ii e.jj e.ind ic jc g body tol k).2) := by
  obtain ⟨δ, hL, d0, d1, dA, d2, dS⟩ :=
    limitToEntry_spec t hd h he (h.soilOK.soil_al (k + 1) ic jc h2) hlow
  unfold relaxBodyOnSoil1
  dsimp only
  rw [hL]
  dsimp only
  have hT := takeE_taken s n e δ tol
  rw [app_single]
  generalize hE : mkEntry _ g body k ic jc δ = e'
  have h3 : e'.ind = k ∧ e'.ii = ic ∧ e'.jj = jc ∧ e'.h = δ := by rw [← hE]; exact ⟨rfl, rfl, rfl, rfl⟩
  obtain ⟨rfl, rfl, rfl, rfl⟩ := h3
  obtain ⟨w, ht, hf⟩ := moveBB_wf (dh := dh) t h he d0 d1 dA h2 hk hb hne
    (by rw [h.soilOK.top_eq h2 hk hs]; linarith [t.pos])
    (by rw [h.soilOK.top_eq h2 hk hs]; exact d2) (fun hB => absurd hB hno)
    (by rw [h.soilOK.top_eq h2 hk hs]; exact dS.imp id .inr)
  have e1 : dep (takeE s n e e'.h tol) e' = ((takeE s n e e'.h tol).setBS (e'.ind + 1) e'.ii e'.jj
      ((takeE s n e e'.h tol).bodySoil (e'.ind + 1) e'.ii e'.jj + e'.h)).pushPos e' := by
    refine dep_on_soil _ _ ?_
    rw [hT.soil _ _ _ hne, hT.body]
    exact (h.soilOK.rest _ _ _ h2 hk hs).2.1
  rw [e1] at w ht hf
  exact ⟨w, ht, _, hf⟩

theorem relaxBodyOnBody1_wf (hs : ¬ HasSoil s k ic jc) (hno : ¬ HasBody s (otherLayer k) ic jc)
    (hlow : s.body (k + 1) ic jc + tol < s.bodySoil (e.ind + 1) e.ii e.jj - dh) :
    BodyMove g.cellZ dh e (.layer k ic jc) s
      ((relaxBodyOnBody1 s dh n e.ii e.jj e.ind ic jc g body tol k).1.app
        (relaxBodyOnBody1 s dh n e.ii e.jj e.ind ic jc g body tol k).2) := by
  obtain ⟨δ, hL, d0, d1, dA, d2, dS⟩ :=
    limitToEntry_spec t hd h he (h.bodyOK.al (k + 1) ic jc h2) hlow
  unfold relaxBodyOnBody1
  dsimp only
  rw [hL]
  dsimp only
  have hT := takeE_taken s n e δ tol
  rw [app_single, takeFromColumn_setBS _ _ _ _ _ _ _ _ _ _ _ _ hne]
  generalize hE : mkEntry _ g body k ic jc δ = e'
  have h3 : e'.ind = k ∧ e'.ii = ic ∧ e'.jj = jc ∧ e'.h = δ := by rw [← hE]; exact ⟨rfl, rfl, rfl, rfl⟩
  obtain ⟨rfl, rfl, rfl, rfl⟩ := h3
  obtain ⟨z0, z1⟩ := layerSoil_of_not_hasSoil hs
  have hl0 : layerSoil s e'.ind e'.ii e'.jj = 0 := by unfold layerSoil; rw [z0, z1]; simp
  obtain ⟨w, ht, hf⟩ := moveBB_wf (dh := dh) t h he d0 d1 dA h2 hk hb hne
    (by rw [hl0, add_zero]; linarith [t.pos]) (by rw [hl0, add_zero]; exact d2)
    (fun hB => absurd hB hno) (by rw [hl0, add_zero]; exact dS.imp id .inr)
  have hs' : ¬ HasSoil (takeE s n e e'.h tol) e'.ind e'.ii e'.jj := by
    unfold HasSoil at hs ⊢
    rw [hT.soil _ _ _ hne, hT.soil _ _ _ hne]
    exact hs
  rw [dep_on_bare _ _ hs', hT.body] at w ht hf
  have : ((takeFromColumn s n e.ind e.ii e.jj (s.bodySoil (e.ind + 1) e.ii e.jj - e'.h) e'.h tol).setBS
    e'.ind e'.ii e'.jj (s.body (e'.ind + 1) e'.ii e'.jj)).body = s.body := hT.body
  rw [this]
  exact ⟨w, ht, _, hf⟩

include hd0

/-- room in the space between the layers for a full avalanche -/
theorem room_full {x δ : K} (hx : Al g.cellZ x) (hlow : x + tol < s.bodySoil (e.ind + 1) e.ii e.jj - dh)
    (d1 : δ ≤ e.h) (dA : Al g.cellZ δ)
    (d2 : 2 * δ ≤ s.bodySoil (e.ind + 1) e.ii e.jj - x - dh + g.cellZ)
    (hz : s.body (e.ind + 1) e.ii e.jj < s.body (otherLayer k) ic jc)
    (hxo : x ≤ s.body (otherLayer k) ic jc)
    (hc : ¬ s.bodySoil e.ind e.ii e.jj < s.bodySoil (e.ind + 1) e.ii e.jj - δ - tol) :
    x + δ ≤ s.body (otherLayer k) ic jc := by
  have hm : e ∈ s.bodySoilPos := List.mem_iff_getElem?.mpr ⟨n, he⟩
  obtain ⟨hij, hk'⟩ := h.soilOK.entries e hm
  have hf := full_amount t h he d1 dA hc
  by_cases hs : HasSoil s e.ind e.ii e.jj
  · have hr := (h.soilOK.rest _ _ _ hij hk' hs).2.1
    have := Al.add_le t.cpos (h.bodyOK.al (e.ind + 1) _ _ hij) (h.bodyOK.al (otherLayer k) _ _ h2) hz
    linarith
  · obtain ⟨z0, z1⟩ := layerSoil_of_not_hasSoil hs
    rw [z0, z1] at hf
    linarith

theorem relaxBodyOnSoil2_wf (hs : HasSoil s k ic jc) (hB : HasBody s (otherLayer k) ic jc) (ob : Bool)
    (hlow : s.bodySoil (k + 1) ic jc + tol < s.bodySoil (e.ind + 1) e.ii e.jj - dh)
    (hob : ob = true → s.body k ic jc ≤ s.body (otherLayer k) ic jc ∧
      s.body (e.ind + 1) e.ii e.jj < s.body (otherLayer k) ic jc)
    (hob' : ob = false → s.body (otherLayer k) ic jc ≤ s.body k ic jc) :
    BodyMove g.cellZ dh e (.layer k ic jc) s
      ((relaxBodyOnSoil2 s dh n e.ii e.jj e.ind ic jc g body tol k (otherLayer k) ob).1.app
        (relaxBodyOnSoil2 s dh n e.ii e.jj e.ind ic jc g body tol k (otherLayer k) ob).2) := by
  have hX := h.soilOK.soil_al (k + 1) ic jc h2
  obtain ⟨δ, hL, d0, d1, dA, d2, dS⟩ := limitToEntry_spec t hd h he hX hlow
  have hrest := (h.soilOK.rest _ _ _ h2 hk hs).2.1
  have htop := h.soilOK.top_eq h2 hk hs
  have hBo := h.bodyOK.al (otherLayer k) ic jc h2
  -- the common result
  have key : ∀ δ', 0 ≤ δ' → δ' ≤ e.h → Al g.cellZ δ' → δ' ≤ δ →
      (s.body k ic jc < s.body (otherLayer k) ic jc →
        s.bodySoil (k + 1) ic jc + δ' ≤ s.body (otherLayer k) ic jc) →
      (δ' = δ ∨ (s.body k ic jc < s.body (otherLayer k) ic jc ∧
        s.bodySoil (k + 1) ic jc + δ' = s.body (otherLayer k) ic jc)) → ∀ r : SimOut K,
      r = (takeE s n e δ' tol).setBS (k + 1) ic jc (s.bodySoil (k + 1) ic jc + δ') →
      BodyMove g.cellZ dh e (.layer k ic jc) s (r.app (if FOps.lt tol δ' then [mkEntry r g body k ic jc δ'] else [])) := by
    intro δ' d0 d1 dA dd hr hS r hr'
    have hT := takeE_taken s n e δ' tol
    have hA := dA
    simp only [ex_lt, decide_eq_true_eq, t.tol_lt dA]
    split_ifs with hp
    · rw [app_single]
      generalize hE : mkEntry r g body k ic jc δ' = e'
      have h3 : e'.ind = k ∧ e'.ii = ic ∧ e'.jj = jc ∧ e'.h = δ' := by
        rw [← hE]; exact ⟨rfl, rfl, rfl, rfl⟩
      clear hE
      obtain ⟨rfl, rfl, rfl, rfl⟩ := h3
      obtain ⟨w, ht, hf⟩ := moveBB_wf (dh := dh) t h he d0 d1 dA h2 hk hb hne
        (by rw [htop]; linarith [t.pos]) (by rw [htop]; linarith) (fun _ hlt => by
        rw [htop]; exact hr hlt) (by
        rw [htop]
        rcases hS with hS | hS
        · rw [hS]; exact dS.imp id .inr
        · exact .inr (.inl ⟨hB, hS⟩))
      have e1 : dep (takeE s n e e'.h tol) e' = r.pushPos e' := by
        rw [dep_on_soil, hr', hT.soil _ _ _ hne]
        rw [hT.soil _ _ _ hne, hT.body]
        exact hrest
      rw [e1] at w ht hf
      exact ⟨w, ht, _, hf⟩
    · have h0 : δ' = 0 := le_antisymm (not_lt.mp hp) d0
      rw [app_nil]
      obtain ⟨w, ht⟩ := takeE_wf t h he d0 d1 dA
      have : r = takeE s n e δ' tol := by
        rw [hr']
        apply setBS_same
        rw [hT.soil _ _ _ hne, h0, add_zero]
      rw [this]
      obtain ⟨hE, hZ⟩ := takeE_energy t h he d1 dA
      refine ⟨w, by rw [ht, h0, sub_zero], δ', Fall.make (A := s.bodySoil (e.ind + 1) e.ii e.jj)
        (x := s.bodySoil (k + 1) ic jc) d0 dA hT.sameBody hZ (fun hp' => absurd hp' hp) ⟨h2, hk, hb⟩
        htop (by linarith [t.pos]) (by linarith) (fun hp' => absurd hp' hp)
        (fun y hy => by cases hy; exact d1) ?_ (by rw [hE, h0]; ring), fun a b => by rw [hT.terrain]⟩
      rcases hS with hS | hS
      · rw [hS]; exact dS.imp id fun h => .inr (by rw [h])
      · refine .inr (.inl ⟨otherLayer k, otherLayer_mem k, (hT.hasBody _ _ _).mpr hB, ?_, ?_⟩)
        · rw [hT.body]; exact hS.1
        · rw [(hZ h0).layer k ic jc hk, hT.body, htop, ← hS.2, h0, add_zero]
  unfold relaxBodyOnSoil2
  dsimp only
  rw [hL]
  dsimp only
  simp only [ex_sub, ex_lt, ex_add]
  have eE : ∀ a b c d a' b' c' d', ((s.setBS a b c d).setBS a' b' c' d').entryH n = e.h := by
    intro a b c d a' b' c' d'
    exact entryH_eq he
  have eb : ∀ a b c d, (s.setBS a b c d).body = s.body := fun _ _ _ _ => rfl
  simp only [eE, eb]
  by_cases hc : s.bodySoil e.ind e.ii e.jj < s.bodySoil (e.ind + 1) e.ii e.jj - δ - tol
  · simp only [hc, decide_true, if_true]
    by_cases hf : (ob && decide (s.body (otherLayer k) ic jc < s.bodySoil (k + 1) ic jc + δ - tol)) = true
    · simp only [hf, if_true]
      simp only [Bool.and_eq_true, decide_eq_true_eq] at hf
      rw [t.lt_sub hBo (hX.add dA)] at hf
      have hlt := (h.bodyOK.order k ic jc h2 hk hb).trans
        (h.bodyOK.above h2 hk hb hB (hob hf.1).1)
      have hsf := h.soilFree k ic jc h2 hk hs hB hlt
      have := key (s.body (otherLayer k) ic jc - s.bodySoil (k + 1) ic jc) (by linarith) (by linarith)
        (hBo.sub hX) (by linarith) (fun _ => by linarith) (.inr ⟨hlt, by ring⟩)
        (((s.setBS (e.ind + 1) e.ii e.jj (s.bodySoil (e.ind + 1) e.ii e.jj -
          (s.body (otherLayer k) ic jc - s.bodySoil (k + 1) ic jc))).setBS (k + 1) ic jc
          (s.body (otherLayer k) ic jc)).setH n
          (e.h - (s.body (otherLayer k) ic jc - s.bodySoil (k + 1) ic jc))) (by
          rw [takeE_partial he (by linarith), add_sub_cancel]; rfl)
      simpa only [ex_lt] using this
    · simp only [hf]
      refine key δ d0 d1 dA le_rfl ?_ (.inl rfl) _ ?_
      · intro hlt
        simp only [Bool.and_eq_true, decide_eq_true_eq, not_and] at hf
        have ho : ob = true := by
          cases ob
          · exact absurd hlt (not_lt.mpr (hob' rfl))
          · rfl
        have := hf ho
        rw [t.lt_sub hBo (hX.add dA)] at this
        exact not_lt.mp this
      · rw [takeE_partial he hc, setH_setBS, setBS_comm _ _ _ hne]
        rfl
  · simp only [hc, decide_false, Bool.false_eq_true, if_false]
    refine key δ d0 d1 dA le_rfl ?_ (.inl rfl) _ ?_
    · intro hlt
      have ho : ob = true := by
        cases ob
        · exact absurd hlt (not_lt.mpr (hob' rfl))
        · rfl
      exact room_full s dh n e ic jc g tol t hd hd0 h he h2 hne k hk hb hX hlow d1 dA d2 (hob ho).2
        (h.soilFree k ic jc h2 hk hs hB hlt) hc
    · rw [takeE_full hc]
      unfold emptyColumn
      rw [setH_setBS, setBS_comm _ _ _ hne, setBS_comm _ _ _ hne]

theorem relaxBodyOnBody2_wf (hs : ¬ HasSoil s k ic jc) (hB : HasBody s (otherLayer k) ic jc)
    (ob wc : Bool)
    (hlow : s.body (k + 1) ic jc + tol < s.bodySoil (e.ind + 1) e.ii e.jj - dh)
    (hob : ob = true → s.body k ic jc ≤ s.body (otherLayer k) ic jc ∧
      s.body (e.ind + 1) e.ii e.jj < s.body (otherLayer k) ic jc)
    (hob' : ob = false → s.body (otherLayer k) ic jc ≤ s.body k ic jc) :
    BodyMove g.cellZ dh e (.layer k ic jc) s
      ((relaxBodyOnBody2 s dh n e.ii e.jj e.ind ic jc g body tol k (otherLayer k) ob wc).1.app
        (relaxBodyOnBody2 s dh n e.ii e.jj e.ind ic jc g body tol k (otherLayer k) ob wc).2) := by
  have hX := h.bodyOK.al (k + 1) ic jc h2
  obtain ⟨δ, hL, d0, d1, dA, d2, dS⟩ := limitToEntry_spec t hd h he hX hlow
  have hBo := h.bodyOK.al (otherLayer k) ic jc h2
  obtain ⟨z0, z1⟩ := layerSoil_of_not_hasSoil hs
  have hl0 : layerSoil s k ic jc = 0 := by unfold layerSoil; rw [z0, z1]; simp
  have key : ∀ δ', 0 ≤ δ' → δ' ≤ e.h → Al g.cellZ δ' → δ' ≤ δ →
      (s.body k ic jc < s.body (otherLayer k) ic jc →
        s.body (k + 1) ic jc + δ' ≤ s.body (otherLayer k) ic jc) →
      (δ' = δ ∨ (s.body k ic jc < s.body (otherLayer k) ic jc ∧
        s.body (k + 1) ic jc + δ' = s.body (otherLayer k) ic jc)) → ∀ r : SimOut K,
      r = ((takeE s n e δ' tol).setBS k ic jc (s.body (k + 1) ic jc)).setBS (k + 1) ic jc
        (s.body (k + 1) ic jc + δ') →
      BodyMove g.cellZ dh e (.layer k ic jc) s (r.app [mkEntry r g body k ic jc δ']) := by
    intro δ' d0 d1 dA dd hr hS r hr'
    have hT := takeE_taken s n e δ' tol
    rw [app_single]
    generalize hE : mkEntry r g body k ic jc δ' = e'
    have h3 : e'.ind = k ∧ e'.ii = ic ∧ e'.jj = jc ∧ e'.h = δ' := by
      rw [← hE]; exact ⟨rfl, rfl, rfl, rfl⟩
    clear hE
    obtain ⟨rfl, rfl, rfl, rfl⟩ := h3
    obtain ⟨w, ht, hf⟩ := moveBB_wf (dh := dh) t h he d0 d1 dA h2 hk hb hne
        (by rw [hl0, add_zero]; linarith [t.pos]) (by rw [hl0, add_zero]; linarith) (fun _ hlt => by
      rw [hl0, add_zero]; exact hr hlt) (by
        rw [hl0, add_zero]
        rcases hS with hS | hS
        · rw [hS]; exact dS.imp id .inr
        · exact .inr (.inl ⟨hB, hS⟩))
    have e1 : dep (takeE s n e e'.h tol) e' = r.pushPos e' := by
      rw [dep_on_bare, hr', hT.body]
      unfold HasSoil at hs ⊢
      rw [hT.soil _ _ _ hne, hT.soil _ _ _ hne]
      exact hs
    rw [e1] at w ht hf
    exact ⟨w, ht, _, hf⟩
  unfold relaxBodyOnBody2
  dsimp only
  rw [hL]
  dsimp only
  simp only [ex_sub, ex_lt, ex_add]
  have eE : ∀ a b c d a' b' c' d' a'' b'' c'' d'',
      (((s.setBS a b c d).setBS a' b' c' d').setBS a'' b'' c'' d'').entryH n = e.h := by
    intros
    exact entryH_eq he
  have eb : ∀ a b c d, (s.setBS a b c d).body = s.body := fun _ _ _ _ => rfl
  have eb2 : ∀ a b c d a' b' c' d', ((s.setBS a b c d).setBS a' b' c' d').body = s.body :=
    fun _ _ _ _ _ _ _ _ => rfl
  have es : ∀ m v, (s.setBS k ic jc v).bodySoil m e.ii e.jj = s.bodySoil m e.ii e.jj :=
    fun m v => upd3_ne _ _ (by rintro ⟨-, h1, h2⟩; exact hne ⟨h1.symm, h2.symm⟩)
  simp only [eE, eb, eb2, es]
  cases ob
  · simp only [Bool.false_eq_true, if_false]
    refine key δ d0 d1 dA le_rfl (fun hlt => absurd hlt (not_lt.mpr (hob' rfl))) (.inl rfl) _ ?_
    rw [takeFromColumn_setBS _ _ _ _ _ _ _ _ _ _ _ _ hne,
      takeFromColumn_setBS _ _ _ _ _ _ _ _ _ _ _ _ hne]
    rfl
  · simp only [if_true]
    obtain ⟨ho1, hz⟩ := hob rfl
    have hab := h.bodyOK.above h2 hk hb hB ho1
    by_cases hc : s.bodySoil e.ind e.ii e.jj < s.bodySoil (e.ind + 1) e.ii e.jj - δ - tol
    · simp only [hc, decide_true, if_true]
      by_cases hf : s.body (otherLayer k) ic jc < s.body (k + 1) ic jc + δ - tol
      · simp only [hf, decide_true, if_true]
        rw [t.lt_sub hBo (hX.add dA)] at hf
        refine key _ (by linarith) (by linarith) (hBo.sub hX) (by linarith) (fun _ => by linarith)
          (.inr ⟨(h.bodyOK.order k ic jc h2 hk hb).trans hab, by ring⟩) _ ?_
        rw [takeE_partial he (by linarith), add_sub_cancel, setH_setBS, setH_setBS,
          setBS_comm s _ _ hne]
      · simp only [hf, decide_false, Bool.false_eq_true, if_false]
        rw [t.lt_sub hBo (hX.add dA)] at hf
        refine key δ d0 d1 dA le_rfl (fun _ => not_lt.mp hf) (.inl rfl) _ ?_
        rw [takeE_partial he hc, setH_setBS, setH_setBS, setBS_comm _ _ _ hne, setBS_comm s _ _ hne]
    · simp only [hc, decide_false, Bool.false_eq_true, if_false]
      have hfa := full_amount t h he d1 dA hc
      have hx : (if wc = true then s.body (k + 1) ic jc + s.bodySoil (e.ind + 1) e.ii e.jj -
          s.bodySoil e.ind e.ii e.jj else s.body (k + 1) ic jc + δ) = s.body (k + 1) ic jc + δ := by
        split_ifs
        · rw [hfa]; ring
        · rfl
      rw [hx]
      refine key δ d0 d1 dA le_rfl (fun _ => ?_) (.inl rfl) _ ?_
      · exact room_full s dh n e ic jc g tol t hd hd0 h he h2 hne k hk hb hX hlow d1 dA d2 hz hab.le hc
      · rw [takeE_full hc]
        unfold emptyColumn
        rw [setH_setBS, setH_setBS, setBS_comm ((s.setBS k ic jc _)) _ _ hne,
          setBS_comm s _ _ hne, setBS_comm _ _ _ hne, setBS_comm _ _ _ hne]

end

/-- the two layers of a well-formed column start at different heights -/
theorem BodyOK.ne {c : K} {s : SimOut K} (h : BodyOK c s) {i j : ℤ} (hij : s.InGrid i j)
    (h0 : HasBody s 0 i j) (h2 : HasBody s 2 i j) : s.body 0 i j ≠ s.body 2 i j := by
  intro he
  have := h.above hij (.inl rfl) h0 (by simpa [otherLayer] using h2) (by simp [otherLayer, he])
  have := h.order 0 i j hij (.inl rfl) h0
  simp [otherLayer] at *
  linarith

/-- `relaxUnstableBodyCell` for the code given by the stability test -/
theorem relaxUnstableBodyCell_wf (s : SimOut K) (dh : K) (n : ℕ) (e : BodySoil K) (ic jc : ℤ)
    (g : Grid K) (body : Body K) (tol : K) (t : TolOK g.cellZ tol) (hd : Al g.cellZ dh)
    (hd0 : 0 ≤ dh) (h : WellFormed g.cellZ s)
    (he : s.bodySoilPos[n]? = some e) (h2 : s.InGrid ic jc) (hne : ¬ (ic = e.ii ∧ jc = e.jj))
    (st : ℕ) (hst : st = checkUnstableBodyCell s e.ii e.jj e.ind ic jc
      (s.bodySoil (e.ind + 1) e.ii e.jj - dh) tol) (h0 : st ≠ 0) :
    BodyMove g.cellZ dh e (landing st ic jc) s
      ((relaxUnstableBodyCell s st dh n e.ii e.jj e.ind ic jc g body tol).1.app
        (relaxUnstableBodyCell s st dh n e.ii e.jj e.ind ic jc g body tol).2) := by
  have hm : e ∈ s.bodySoilPos := List.mem_iff_getElem?.mpr ⟨n, he⟩
  obtain ⟨hij, hk⟩ := h.soilOK.entries e hm
  have hz := h.bodyOK.al (e.ind + 1) _ _ hij
  have hBA := fun k => h.bodyOK.al k ic jc h2
  obtain ⟨c, x, ht, hce⟩ := checkUnstableBodyCell_spec s e.ii e.jj e.ind ic jc
    (s.bodySoil (e.ind + 1) e.ii e.jj - dh) tol
  rw [hce] at hst
  split_ifs at hst with hlow
  swap
  · exact absurd hst h0
  subst hst
  have one : ∀ {k d x}, LandsOn s ic jc k d x → HasBody s k ic jc → ¬ HasBody s (otherLayer k) ic jc →
      x + tol < s.bodySoil (e.ind + 1) e.ii e.jj - dh →
      ∀ st, (k = 0 → st = 10 + d) → (k = 2 → st = 20 + d) → BodyMove g.cellZ dh e (landing st ic jc) s
      ((relaxUnstableBodyCell s st dh n e.ii e.jj e.ind ic jc g body tol).1.app
        (relaxUnstableBodyCell s st dh n e.ii e.jj e.ind ic jc g body tol).2) := by
    intro k d x hl hb hno hlow st e0 e2
    cases hl with
    | soil2 hs =>
      obtain rfl := e2 rfl
      exact relaxBodyOnSoil1_wf s dh n e ic jc g body tol t hd h he h2 hne 2 (.inr rfl) hb hs hno hlow
    | bare2 hs =>
      obtain rfl := e2 rfl
      exact relaxBodyOnBody1_wf s dh n e ic jc g body tol t hd h he h2 hne 2 (.inr rfl) hb hs hno hlow
    | soil0 hs =>
      obtain rfl := e0 rfl
      exact relaxBodyOnSoil1_wf s dh n e ic jc g body tol t hd h he h2 hne 0 (.inl rfl) hb hs hno hlow
    | bare0 hs =>
      obtain rfl := e0 rfl
      exact relaxBodyOnBody1_wf s dh n e ic jc g body tol t hd h he h2 hne 0 (.inl rfl) hb hs hno hlow
  have two : ∀ {k d x}, LandsOn s ic jc k d x → HasBody s 0 ic jc → HasBody s 2 ic jc →
      x + tol < s.bodySoil (e.ind + 1) e.ii e.jj - dh →
      (s.body k ic jc < s.body (otherLayer k) ic jc →
        s.body (e.ind + 1) e.ii e.jj < s.body (otherLayer k) ic jc) → BodyMove g.cellZ dh e (landing (30 + d) ic jc) s
      ((relaxUnstableBodyCell s (30 + d) dh n e.ii e.jj e.ind ic jc g body tol).1.app
        (relaxUnstableBodyCell s (30 + d) dh n e.ii e.jj e.ind ic jc g body tol).2) := by
    intro k d x hl hb0 hb2 hlow hz
    have hneq := h.bodyOK.ne h2 hb0 hb2
    have o2 : (FOps.lt (s.body 2 ic jc) (s.body 0 ic jc) = true →
        s.body 2 ic jc ≤ s.body (otherLayer 2) ic jc ∧ s.body 2 ic jc < s.body (otherLayer 2) ic jc) ∧
        (FOps.lt (s.body 2 ic jc) (s.body 0 ic jc) = false →
        s.body (otherLayer 2) ic jc ≤ s.body 2 ic jc) := by
      simp only [ex_lt, decide_eq_true_eq, decide_eq_false_iff_not, otherLayer]
      exact ⟨fun h => ⟨h.le, h⟩, fun h => not_lt.mp h⟩
    have o0 : ((!FOps.lt (s.body 2 ic jc) (s.body 0 ic jc)) = true →
        s.body 0 ic jc ≤ s.body (otherLayer 0) ic jc ∧ s.body 0 ic jc < s.body (otherLayer 0) ic jc) ∧
        ((!FOps.lt (s.body 2 ic jc) (s.body 0 ic jc)) = false →
        s.body (otherLayer 0) ic jc ≤ s.body 0 ic jc) := by
      simp only [ex_lt, Bool.not_eq_true', Bool.not_eq_false', decide_eq_true_eq,
        decide_eq_false_iff_not, otherLayer]
      exact ⟨fun h => ⟨not_lt.mp h, lt_of_le_of_ne (not_lt.mp h) hneq⟩, fun h => h.le⟩
    cases hl with
    | soil2 hs =>
      exact relaxBodyOnSoil2_wf s dh n e ic jc g body tol t hd hd0 h he h2 hne 2 (.inr rfl) hb2 hs
        hb0 _ hlow (fun h => ⟨(o2.1 h).1, hz (o2.1 h).2⟩) o2.2
    | bare2 hs =>
      exact relaxBodyOnBody2_wf s dh n e ic jc g body tol t hd hd0 h he h2 hne 2 (.inr rfl) hb2 hs
        hb0 _ _ hlow (fun h => ⟨(o2.1 h).1, hz (o2.1 h).2⟩) o2.2
    | soil0 hs =>
      exact relaxBodyOnSoil2_wf s dh n e ic jc g body tol t hd hd0 h he h2 hne 0 (.inl rfl) hb0 hs
        hb2 _ hlow (fun h => ⟨(o0.1 h).1, hz (o0.1 h).2⟩) o0.2
    | bare0 hs =>
      exact relaxBodyOnBody2_wf s dh n e ic jc g body tol t hd hd0 h he h2 hne 0 (.inl rfl) hb0 hs
        hb2 _ _ hlow (fun h => ⟨(o0.1 h).1, hz (o0.1 h).2⟩) o0.2
  cases ht with
  | free h1 h3 =>
    have := relaxBodyOnTerrain_wf s 4 dh n e ic jc g tol t hd h he h2 hlow (.inl ⟨rfl, h1, h3⟩)
    show BodyMove g.cellZ dh e (.ground ic jc) s (SimOut.app _ [])
    rw [app_nil]; exact this
  | under2 h1 h3 h4 =>
    have := relaxBodyOnTerrain_wf s 2 dh n e ic jc g tol t hd h he h2 hlow (.inr (.inr ⟨rfl, h1, h3⟩))
    show BodyMove g.cellZ dh e (.ground ic jc) s (SimOut.app _ [])
    rw [app_nil]; exact this
  | under0 h1 h3 h4 =>
    have := relaxBodyOnTerrain_wf s 1 dh n e ic jc g tol t hd h he h2 hlow (.inr (.inl ⟨rfl, h1, h3⟩))
    show BodyMove g.cellZ dh e (.ground ic jc) s (SimOut.app _ [])
    rw [app_nil]; exact this
  | on2 h1 h3 h4 hl =>
    exact one hl h3 (by simpa [otherLayer] using h1) hlow _ (by simp) (by simp)
  | on0 h1 h3 h4 hl =>
    exact one hl h1 (by simpa [otherLayer] using h3) hlow _ (by simp) (by simp)
  | onBottom h1 h3 hbt h4 h5 hl =>
    refine two hl h1 h3 hlow fun _ => ?_
    rcases hbt with ⟨rfl, rfl, hlt⟩ | ⟨rfl, rfl, hlt⟩
    · exact (t.add_lt hz (hBA 2)).mp h4
    · exact (t.add_lt hz (hBA 0)).mp h4
  | onTop h1 h3 hbt h4 hl =>
    refine two hl h1 h3 hlow fun hlt' => ?_
    rcases hbt with ⟨rfl, rfl, hlt⟩ | ⟨rfl, rfl, hlt⟩
    · simp only [otherLayer] at hlt'
      exact absurd hlt' (not_lt.mpr hlt.le)
    · simp only [otherLayer] at hlt'
      exact absurd hlt' (not_lt.mpr hlt)

theorem relaxBodyDirs_wf (g : Grid K) (body : Body K) (dh tol : K) (t : TolOK g.cellZ tol)
    (hd : Al g.cellZ dh) (hd0 : 0 ≤ dh) (n : ℕ) (ii jj : ℤ) (ind : ℕ) (ds : List (ℤ × ℤ))
    (hds : ∀ d ∈ ds, d ∈ directions4) (s : SimOut K) (q : List (BodySoil K))
    (h : WellFormed g.cellZ (s.app q))
    (he : ∃ e, s.bodySoilPos[n]? = some e ∧ e.ind = ind ∧ e.ii = ii ∧ e.jj = jj) :
    Post (relaxBodyDirs g body dh tol n ii jj ind ds s q) fun x =>
      WellFormed g.cellZ (x.1.app x.2) ∧ totalSoil x.1 = totalSoil s ∧
        (g.cellZ ≤ dh → Falls g.cellZ s x.1) ∧ (∀ a b, s.terrain a b ≤ x.1.terrain a b) ∧
        Avalanches Place.OnBody g.cellZ dh (s.app q) (x.1.app x.2) := by
  induction ds generalizing s q with
  | nil => exact Post.ok ⟨h, rfl, fun _ => .refl _ _, fun _ _ => le_rfl, .refl⟩
  | cons d ds ih =>
    have ih' := ih fun x hx => hds x (List.mem_cons_of_mem _ hx)
    have hne := dir_ne (hds d List.mem_cons_self) ii jj
    unfold relaxBodyDirs
    dsimp only
    refine Post.guard fun ⟨h1, h2, _⟩ => ?_
    split_ifs with hst
    · exact ih' s q h he
    · obtain ⟨e, hn, rfl, rfl, rfl⟩ := he
      have hn' : n < s.bodySoilPos.length := (List.getElem?_eq_some_iff.mp hn).1
      have hkeys := relaxUnstableBodyCell_keys ({ s with equilibrium := false } : SimOut K)
        (checkUnstableBodyCell s e.ii e.jj e.ind (e.ii + d.1) (e.jj + d.2)
          (FOps.sub (s.bodySoil (e.ind + 1) e.ii e.jj) dh) tol) dh n e.ii e.jj e.ind (e.ii + d.1)
          (e.jj + d.2) g body tol
      obtain ⟨q1, q2⟩ := relaxUnstableBodyCell_app ({ s with equilibrium := false } : SimOut K) q
        (checkUnstableBodyCell s e.ii e.jj e.ind (e.ii + d.1) (e.jj + d.2)
          (FOps.sub (s.bodySoil (e.ind + 1) e.ii e.jj) dh) tol) dh (nn := n) e.ii e.jj e.ind (e.ii + d.1)
          (e.jj + d.2) g body tol hn'
      have hm := relaxUnstableBodyCell_wf (({ s with equilibrium := false } : SimOut K).app q) dh n e
        (e.ii + d.1) (e.jj + d.2) g body tol t hd hd0 (h.setEq false)
        (by exact (List.getElem?_append_left hn').trans hn) h2 hne _ rfl hst
      have hst' : checkUnstableBodyCell (({ s with equilibrium := false } : SimOut K).app q) e.ii e.jj
          e.ind (e.ii + d.1) (e.jj + d.2)
          ((({ s with equilibrium := false } : SimOut K).app q).bodySoil (e.ind + 1) e.ii e.jj - dh) tol =
          checkUnstableBodyCell s e.ii e.jj e.ind (e.ii + d.1) (e.jj + d.2)
          (FOps.sub (s.bodySoil (e.ind + 1) e.ii e.jj) dh) tol := rfl
      rw [hst', q1, q2, app_app] at hm
      generalize relaxUnstableBodyCell ({ s with equilibrium := false } : SimOut K)
        (checkUnstableBodyCell s e.ii e.jj e.ind (e.ii + d.1) (e.jj + d.2)
          (FOps.sub (s.bodySoil (e.ind + 1) e.ii e.jj) dh) tol) dh n e.ii e.jj e.ind (e.ii + d.1)
          (e.jj + d.2) g body tol = r at *
      obtain ⟨e', k1, k2, k3, k4⟩ := keys_get hkeys hn
      obtain ⟨δ, hf, hup⟩ := hm.fall
      refine (ih' r.1 (q ++ r.2) hm.wf ⟨e', k1, k2, k3, k4⟩).mono fun x hx =>
        ⟨hx.1, hx.2.1.trans hm.total, fun hc => ?_, fun a b => (hup a b).trans (hx.2.2.2.1 a b), ?_⟩
      swap
      · have e0 : Avalanches Place.OnBody g.cellZ dh (s.app q) (({ s with equilibrium := false } : SimOut K).app q) :=
          .same rfl rfl ⟨rfl, rfl, rfl, rfl⟩
        refine (e0.trans (hf.avalanches (h.setEq false) ?_ (.entry e ?_) trivial hm.wf)).trans hx.2.2.2.2
        · rw [landing_col]
          exact beside_dir (hds d List.mem_cons_self) _ _
        · exact List.mem_append_left _ (List.mem_iff_getElem?.mpr ⟨n, hn⟩)
      have := (hf.falls t.cpos hc).congr (r' := r.1) rfl rfl rfl rfl
      refine Falls.trans ⟨?_, ?_⟩ (hx.2.2.1 hc)
      · exact this.le.trans (energy_congr rfl rfl rfl rfl).le
      · exact this.lt.imp (fun h => ⟨h.1, h.2⟩) fun h => h.trans (energy_congr rfl rfl rfl rfl).le

theorem relaxBodyEntries_wf (g : Grid K) (body : Body K) (dh tol : K) (t : TolOK g.cellZ tol)
    (hd : Al g.cellZ dh) (hd0 : 0 ≤ dh) (count n : ℕ) (ds : List (ℤ × ℤ))
    (hds : ∀ d ∈ ds, d ∈ directions4) (s : SimOut K) (q : List (BodySoil K)) (r : Rng)
    (h : WellFormed g.cellZ (s.app q)) :
    Post (relaxBodyEntries g body dh tol count n ds s q r) fun x =>
      WellFormed g.cellZ (x.1.app x.2.1) ∧ totalSoil x.1 = totalSoil s ∧
        (g.cellZ ≤ dh → Falls g.cellZ s x.1) ∧ (∀ a b, s.terrain a b ≤ x.1.terrain a b) ∧
        Avalanches Place.OnBody g.cellZ dh (s.app q) (x.1.app x.2.1) := by
  induction count generalizing n ds s q r with
  | zero => exact Post.ok ⟨h, rfl, fun _ => .refl _ _, fun _ _ => le_rfl, .refl⟩
  | succ count ih =>
    unfold relaxBodyEntries
    split
    · exact Post.error
    · rename_i e he
      split_ifs
      · exact ih _ _ hds _ _ _ h
      · have hds' : ∀ d ∈ (shuffle ds r).1, d ∈ directions4 := fun d hd => hds d (mem_shuffle.mp hd)
        refine Post.bind (relaxBodyDirs_wf g body dh tol t hd hd0 n e.ii e.jj e.ind _ hds' s q h
          ⟨e, he, rfl, rfl, rfl⟩) ?_
        rintro ⟨s1, q1⟩ ⟨h1, h2, h3, h4, h5⟩
        exact (ih _ _ hds' _ _ _ h1).mono fun x hx =>
          ⟨hx.1, hx.2.1.trans h2, fun hc => (h3 hc).trans (hx.2.2.1 hc),
            fun a b => (h4 a b).trans (hx.2.2.2.1 a b), h5.trans hx.2.2.2.2⟩

theorem relaxBodySoil_wf (g : Grid K) (body : Body K) (p : SimParam K) (tol : K)
    (t : TolOK g.cellZ tol) (hd0 : 0 ≤ dhMax g p) (w : World K) (h : WellFormed g.cellZ w.out) :
    Post (relaxBodySoil g body p tol w) fun w' =>
      WellFormed g.cellZ w'.out ∧ totalSoil w'.out = totalSoil w.out := by
  unfold relaxBodySoil
  refine Post.bind (relaxBodyEntries_wf g body _ tol t (dhMax_al g p) hd0 _ _ _ (fun d hd => hd) _ _ _
    (by rw [app_nil]; exact h)) ?_
  rintro ⟨s1, q1, r1⟩ ⟨h1, h2, -⟩
  exact Post.ok ⟨h1, h2⟩

theorem relaxBodySoil_falls (g : Grid K) (body : Body K) (p : SimParam K) (tol : K)
    (t : TolOK g.cellZ tol) (hc : g.cellZ ≤ dhMax g p) (w : World K) (h : WellFormed g.cellZ w.out) :
    Post (relaxBodySoil g body p tol w) fun w' => Falls g.cellZ w.out w'.out := by
  unfold relaxBodySoil
  refine Post.bind (relaxBodyEntries_wf g body _ tol t (dhMax_al g p) (t.cpos.le.trans hc) _ _ _
    (fun d hd => hd) _ _ _ (by rw [app_nil]; exact h)) ?_
  rintro ⟨s1, q1, r1⟩ ⟨h1, -, h2, -⟩
  exact Post.ok ((h2 hc).congr rfl rfl rfl rfl)

theorem relaxBodySoil_avalanches (g : Grid K) (body : Body K) (p : SimParam K) (tol : K)
    (t : TolOK g.cellZ tol) (hd0 : 0 ≤ dhMax g p) (w : World K) (h : WellFormed g.cellZ w.out) :
    Post (relaxBodySoil g body p tol w) fun w' => Avalanches Place.OnBody g.cellZ (dhMax g p) w.out w'.out := by
  unfold relaxBodySoil
  refine Post.bind (relaxBodyEntries_wf g body _ tol t (dhMax_al g p) hd0 _ _ _ (fun d hd => hd) _ _ _
    (by rw [app_nil]; exact h)) ?_
  rintro ⟨s1, q1, r1⟩ ⟨-, -, -, -, h2⟩
  rw [app_nil] at h2
  exact Post.ok h2

end Soil
