import Verif.Proof.Lattice
import Verif.Proof.Volume

/-! # Elementary soil movements and what they preserve

Every branch of the simulator that moves soil is a combination of four movements: changing the
terrain of a column, putting soil on a body layer, taking part of an entry, taking a whole entry. -/

set_option linter.unusedSectionVars false
set_option linter.unusedSimpArgs false

namespace Soil

variable {K : Type} [Field K] [LinearOrder K] [IsStrictOrderedRing K]

/-- change the terrain by `δ` -/
def addT (s : SimOut K) (i j : ℤ) (δ : K) : SimOut K := s.setT i j (s.terrain i j + δ)

/-- put `e.h` on the layer of entry `e`, and record the entry -/
def dep (s : SimOut K) (e : BodySoil K) : SimOut K :=
  ((s.setBS e.ind e.ii e.jj (s.body (e.ind + 1) e.ii e.jj)).setBS (e.ind + 1) e.ii e.jj
    (s.body (e.ind + 1) e.ii e.jj + layerSoil s e.ind e.ii e.jj + e.h)).pushPos e

/-- take `δ` from entry number `n`, which is `e` -/
def wdPart (s : SimOut K) (n : ℕ) (e : BodySoil K) (δ : K) : SimOut K :=
  (s.setBS (e.ind + 1) e.ii e.jj (s.bodySoil (e.ind + 1) e.ii e.jj - δ)).setH n (e.h - δ)

/-- take all soil of the column of entry number `n`, which is `e` -/
def wdAll (s : SimOut K) (n : ℕ) (e : BodySoil K) : SimOut K :=
  ((s.setBS e.ind e.ii e.jj 0).setBS (e.ind + 1) e.ii e.jj 0).setH n 0

/-! ## Bookkeeping facts -/

theorem entrySum_nonneg {l : List (BodySoil K)} (h : ∀ e ∈ l, 0 ≤ e.h) (k : ℕ) (i j : ℤ) :
    0 ≤ entrySum l k i j := by
  unfold entrySum
  apply List.sum_nonneg
  intro x hx
  obtain ⟨e, he, rfl⟩ := List.mem_map.mp hx
  exact h e (List.mem_of_mem_filter he)

theorem le_entrySum {l : List (BodySoil K)} (h : ∀ e ∈ l, 0 ≤ e.h) {e : BodySoil K} (he : e ∈ l) :
    e.h ≤ entrySum l e.ind e.ii e.jj := by
  induction l with
  | nil => simp at he
  | cons a l ih =>
    have h' : ∀ e ∈ l, 0 ≤ e.h := fun x hx => h x (List.mem_cons_of_mem _ hx)
    rw [entrySum_cons]
    rcases List.mem_cons.mp he with rfl | he
    · simp only [and_self, if_true]
      linarith [entrySum_nonneg h' e.ind e.ii e.jj]
    · have := ih h' he
      have ha := h a List.mem_cons_self
      split_ifs <;> linarith

variable {c : K} {s : SimOut K}

theorem SoilOK.entry_le (h : SoilOK c s) {e : BodySoil K} (he : e ∈ s.bodySoilPos) :
    e.h ≤ layerSoil s e.ind e.ii e.jj := by
  obtain ⟨h1, h2⟩ := h.entries e he
  rw [h.booked _ _ h1 _ h2]
  exact le_entrySum h.entry_nonneg he

theorem layerSoil_of_not_hasSoil {k : ℕ} {i j : ℤ} (h : ¬ HasSoil s k i j) :
    s.bodySoil k i j = 0 ∧ s.bodySoil (k + 1) i j = 0 := by
  unfold HasSoil at h
  exact ⟨not_not.mp fun h' => h (.inl h'), not_not.mp fun h' => h (.inr h')⟩

theorem SoilOK.layerSoil_nonneg (h : SoilOK c s) {k : ℕ} {i j : ℤ} (hij : s.InGrid i j)
    (hk : k = 0 ∨ k = 2) : 0 ≤ layerSoil s k i j := by
  by_cases hs : HasSoil s k i j
  · have := (h.rest k i j hij hk hs).2.2
    unfold layerSoil; linarith
  · obtain ⟨h1, h2⟩ := layerSoil_of_not_hasSoil hs
    unfold layerSoil; rw [h1, h2]; simp

theorem hasSoil_of_layerSoil {k : ℕ} {i j : ℤ} (h : layerSoil s k i j ≠ 0) : HasSoil s k i j := by
  by_contra hs
  obtain ⟨h1, h2⟩ := layerSoil_of_not_hasSoil hs
  apply h; unfold layerSoil; rw [h1, h2]; simp

theorem SoilOK.entry_hasSoil (h : SoilOK c s) {e : BodySoil K} (he : e ∈ s.bodySoilPos)
    (hp : 0 < e.h) : HasSoil s e.ind e.ii e.jj :=
  hasSoil_of_layerSoil (by have := h.entry_le he; linarith)

/-- With no soil (0, 0) or soil resting on the body, the base plus the thickness is the top. -/
theorem SoilOK.top_eq (h : SoilOK c s) {k : ℕ} {i j : ℤ} (hij : s.InGrid i j) (hk : k = 0 ∨ k = 2)
    (hs : HasSoil s k i j) : s.body (k + 1) i j + layerSoil s k i j = s.bodySoil (k + 1) i j := by
  rw [← (h.rest k i j hij hk hs).2.1]; unfold layerSoil; ring

/-! ## Terrain -/

theorem SoilOK.addT (h : SoilOK c s) {i j : ℤ} {δ : K} (hδ : Al c δ) : SoilOK c (addT s i j δ) where
  terrain_al a b hab := by
    show Al c (upd2 s.terrain i j _ a b)
    unfold upd2
    split_ifs with hc
    · obtain ⟨rfl, rfl⟩ := hc; exact (h.terrain_al _ _ hab).add hδ
    · exact h.terrain_al _ _ hab
  soil_al := h.soil_al
  rest := h.rest
  entries := h.entries
  entry_al := h.entry_al
  entry_nonneg := h.entry_nonneg
  booked := h.booked
  listed := h.listed

theorem BodyOK.congr {s' : SimOut K} (h : BodyOK c s) (hb : s'.body = s.body) (hx : s'.lenX = s.lenX)
    (hy : s'.lenY = s.lenY) : BodyOK c s' := by
  have hg : ∀ i j, s'.InGrid i j ↔ s.InGrid i j := by
    intro i j; unfold SimOut.InGrid; rw [hx, hy]
  have hB : ∀ k i j, HasBody s' k i j ↔ HasBody s k i j := by
    intro k i j; unfold HasBody; rw [hb]
  have hO : ∀ i j, OnBorder s' i j ↔ OnBorder s i j := by
    intro i j; unfold OnBorder; rw [hx, hy]
  constructor
  · intro k i j hij; rw [hb]; exact h.al k i j ((hg i j).mp hij)
  · intro k i j hij hk hB'; rw [hb]; exact h.order k i j ((hg i j).mp hij) hk ((hB k i j).mp hB')
  · intro i j hij h0 h2
    rw [hb]; exact h.apart i j ((hg i j).mp hij) ((hB _ i j).mp h0) ((hB _ i j).mp h2)
  · intro k i j hij ho hk hB'
    exact h.border k i j ((hg i j).mp hij) ((hO i j).mp ho) hk ((hB k i j).mp hB')

theorem totalSoil_addT {i j : ℤ} {δ : K} (hij : s.InGrid i j) :
    totalSoil (addT s i j δ) = totalSoil s + δ := by
  unfold addT; rw [totalSoil_setT s _ hij]; ring

theorem TerrainFree.addT (h : TerrainFree s) {i j : ℤ} {δ : K}
    (hd : ∀ k, k = 0 ∨ k = 2 → HasBody s k i j → s.terrain i j + δ ≤ s.body k i j) :
    TerrainFree (addT s i j δ) := by
  intro k a b hab hk hB
  show upd2 s.terrain i j _ a b ≤ s.body k a b
  unfold upd2
  split_ifs with hc
  · obtain ⟨rfl, rfl⟩ := hc; exact hd k hk hB
  · exact h k a b hab hk hB

theorem SoilFree.addT (h : SoilFree s) {i j : ℤ} {δ : K} : SoilFree (addT s i j δ) := h

/-! ## Soil put on a layer -/

theorem dep_soil (s : SimOut K) (e : BodySoil K) (k : ℕ) (a b : ℤ) :
    (dep s e).bodySoil k a b =
      if a = e.ii ∧ b = e.jj ∧ k = e.ind then s.body (e.ind + 1) a b
      else if a = e.ii ∧ b = e.jj ∧ k = e.ind + 1 then
        s.body (e.ind + 1) a b + layerSoil s e.ind a b + e.h
      else s.bodySoil k a b := by
  simp only [dep, SimOut.pushPos, SimOut.setBS, upd3]
  by_cases hc : a = e.ii ∧ b = e.jj
  · obtain ⟨rfl, rfl⟩ := hc
    by_cases h1 : k = e.ind
    · subst h1; simp
    · simp [h1]
  · have h1 : ¬ (k = e.ind + 1 ∧ a = e.ii ∧ b = e.jj) := fun h => hc h.2
    have h2 : ¬ (k = e.ind ∧ a = e.ii ∧ b = e.jj) := fun h => hc h.2
    have h3 : ¬ (a = e.ii ∧ b = e.jj ∧ k = e.ind) := fun h => hc ⟨h.1, h.2.1⟩
    have h4 : ¬ (a = e.ii ∧ b = e.jj ∧ k = e.ind + 1) := fun h => hc ⟨h.1, h.2.1⟩
    rw [if_neg h1, if_neg h2, if_neg h3, if_neg h4]

theorem dep_soil_here (s : SimOut K) (e : BodySoil K) :
    (dep s e).bodySoil e.ind e.ii e.jj = s.body (e.ind + 1) e.ii e.jj ∧
    (dep s e).bodySoil (e.ind + 1) e.ii e.jj =
      s.body (e.ind + 1) e.ii e.jj + layerSoil s e.ind e.ii e.jj + e.h := by
  rw [dep_soil, dep_soil]; simp

theorem dep_soil_other (s : SimOut K) (e : BodySoil K) {k : ℕ} {a b : ℤ} (he : e.ind = 0 ∨ e.ind = 2)
    (hk : k = 0 ∨ k = 2) (h : ¬ (k = e.ind ∧ a = e.ii ∧ b = e.jj)) :
    (dep s e).bodySoil k a b = s.bodySoil k a b ∧
    (dep s e).bodySoil (k + 1) a b = s.bodySoil (k + 1) a b := by
  rw [dep_soil, dep_soil]
  constructor
  · rw [if_neg (by tauto), if_neg (by rintro ⟨-, -, h'⟩; omega)]
  · rw [if_neg (by rintro ⟨-, -, h'⟩; omega),
      if_neg (by rintro ⟨h1, h2, h3⟩; exact h ⟨by omega, h1, h2⟩)]

theorem SoilOK.dep (hB : BodyOK c s) (h : SoilOK c s) {e : BodySoil K}
    (hij : s.InGrid e.ii e.jj) (hk : e.ind = 0 ∨ e.ind = 2) (hb : HasBody s e.ind e.ii e.jj)
    (hh : 0 ≤ e.h) (ha : Al c e.h) : SoilOK c (dep s e) := by
  have hsoil : ∀ k a b, k = 0 ∨ k = 2 → (k = e.ind ∧ a = e.ii ∧ b = e.jj) ∨
      ((Soil.dep s e).bodySoil k a b = s.bodySoil k a b ∧
        (Soil.dep s e).bodySoil (k + 1) a b = s.bodySoil (k + 1) a b) := by
    intro k a b hk'
    by_cases hc : k = e.ind ∧ a = e.ii ∧ b = e.jj
    · exact .inl hc
    · exact .inr (dep_soil_other s e hk hk' hc)
  constructor
  · exact h.terrain_al
  · intro k a b hab
    rw [dep_soil]
    have hl : ∀ k, Al c (layerSoil s k a b) := fun k =>
      (h.soil_al _ _ _ hab).sub (h.soil_al _ _ _ hab)
    split_ifs
    · exact hB.al _ _ _ hab
    · exact ((hB.al _ _ _ hab).add (hl _)).add ha
    · exact h.soil_al _ _ _ hab
  · intro k a b hab hk' hs
    rcases hsoil k a b hk' with ⟨rfl, rfl, rfl⟩ | ⟨h1, h2⟩
    · obtain ⟨h1, h2⟩ := dep_soil_here s e
      refine ⟨hb, h1, ?_⟩
      rw [h1, h2]
      have := h.layerSoil_nonneg hij hk
      linarith
    · rw [h1, h2]
      unfold HasSoil at hs
      rw [h1, h2] at hs
      exact h.rest k a b hab hk' hs
  · intro x hx
    rcases List.mem_append.mp hx with hx | hx
    · exact h.entries x hx
    · obtain rfl := List.mem_singleton.mp hx; exact ⟨hij, hk⟩
  · intro x hx
    rcases List.mem_append.mp hx with hx | hx
    · exact h.entry_al x hx
    · obtain rfl := List.mem_singleton.mp hx; exact ha
  · intro x hx
    rcases List.mem_append.mp hx with hx | hx
    · exact h.entry_nonneg x hx
    · obtain rfl := List.mem_singleton.mp hx; exact hh
  · intro a b hab k hk'
    show layerSoil _ k a b = entrySum (s.bodySoilPos ++ [e]) k a b
    rw [entrySum_append, entrySum_single, ← h.booked a b hab k hk']
    rcases hsoil k a b hk' with ⟨rfl, rfl, rfl⟩ | ⟨h1, h2⟩
    · obtain ⟨h1, h2⟩ := dep_soil_here s e
      rw [if_pos ⟨rfl, rfl, rfl⟩]
      show (Soil.dep s e).bodySoil (e.ind + 1) e.ii e.jj - _ = _
      rw [h1, h2]; ring
    · show (Soil.dep s e).bodySoil (k + 1) a b - _ = _
      rw [h1, h2]
      by_cases hc : e.ind = k ∧ e.ii = a ∧ e.jj = b
      · obtain ⟨rfl, rfl, rfl⟩ := hc
        rw [if_pos ⟨rfl, rfl, rfl⟩]
        obtain ⟨h3, h4⟩ := dep_soil_here s e
        rw [h1] at h3; rw [h2] at h4
        unfold layerSoil at h4 ⊢
        linarith
      · rw [if_neg hc, add_zero]; rfl
  · intro k a b hab hk' hs
    rcases hsoil k a b hk' with ⟨rfl, rfl, rfl⟩ | ⟨h1, h2⟩
    · exact ⟨e, List.mem_append.mpr (.inr (List.mem_singleton.mpr rfl)), rfl, rfl, rfl⟩
    · unfold HasSoil at hs
      rw [h1, h2] at hs
      obtain ⟨x, hx, h3⟩ := h.listed k a b hab hk' hs
      exact ⟨x, List.mem_append.mpr (.inl hx), h3⟩

theorem totalSoil_dep {e : BodySoil K} (hij : s.InGrid e.ii e.jj) (hk : e.ind = 0 ∨ e.ind = 2) :
    totalSoil (dep s e) = totalSoil s + e.h := by
  unfold dep
  rw [totalSoil_pushPos, totalSoil_setBS1 _ _ (by exact hij) hk, totalSoil_setBS0 _ _ hij hk]
  have : (s.setBS e.ind e.ii e.jj (s.body (e.ind + 1) e.ii e.jj)).bodySoil (e.ind + 1) e.ii e.jj =
      s.bodySoil (e.ind + 1) e.ii e.jj := upd3_ne _ _ (by rintro ⟨h, -⟩; omega)
  rw [this]
  unfold layerSoil
  ring

theorem SoilFree.dep (hf : SoilFree s) {e : BodySoil K}
    (hk : e.ind = 0 ∨ e.ind = 2)
    (hr : HasBody s (otherLayer e.ind) e.ii e.jj →
      s.body e.ind e.ii e.jj < s.body (otherLayer e.ind) e.ii e.jj →
      s.body (e.ind + 1) e.ii e.jj + layerSoil s e.ind e.ii e.jj + e.h ≤
        s.body (otherLayer e.ind) e.ii e.jj) : SoilFree (dep s e) := by
  intro k a b hab hk' hs hB hlt
  by_cases hc : k = e.ind ∧ a = e.ii ∧ b = e.jj
  · obtain ⟨rfl, rfl, rfl⟩ := hc
    rw [(dep_soil_here s e).2]
    exact hr hB hlt
  · obtain ⟨h1, h2⟩ := dep_soil_other s e hk hk' hc
    rw [h2]
    unfold HasSoil at hs
    rw [h1, h2] at hs
    exact hf k a b hab hk' hs hB hlt

/-! ## Soil taken from an entry -/

theorem mem_modify {l : List (BodySoil K)} {n : ℕ} {e x : BodySoil K} {v : K} (he : l[n]? = some e)
    (hx : x ∈ l.modify n fun e => { e with h := v }) : x ∈ l ∨ x = { e with h := v } := by
  obtain ⟨m, hm⟩ := List.mem_iff_getElem?.mp hx
  rw [List.getElem?_modify] at hm
  by_cases hc : n = m
  · subst hc
    simp only [if_true, he, Option.map_some, Option.map_eq_map, Option.some.injEq] at hm
    exact .inr hm.symm
  · exact .inl (List.mem_iff_getElem?.mpr ⟨m, by simpa [hc] using hm⟩)

theorem mem_modify_of_mem {l : List (BodySoil K)} {n : ℕ} {x : BodySoil K} {v : K} (hx : x ∈ l) :
    ∃ y ∈ l.modify n fun e => { e with h := v }, y.ind = x.ind ∧ y.ii = x.ii ∧ y.jj = x.jj := by
  obtain ⟨m, hm⟩ := List.mem_iff_getElem?.mp hx
  by_cases hc : n = m
  · subst hc
    refine ⟨{ x with h := v }, List.mem_iff_getElem?.mpr ⟨n, ?_⟩, rfl, rfl, rfl⟩
    rw [List.getElem?_modify, hm]; simp
  · refine ⟨x, List.mem_iff_getElem?.mpr ⟨m, ?_⟩, rfl, rfl, rfl⟩
    rw [List.getElem?_modify, hm]; simp [hc]

theorem wdPart_soil_here (s : SimOut K) (n : ℕ) (e : BodySoil K) (δ : K) :
    (wdPart s n e δ).bodySoil e.ind e.ii e.jj = s.bodySoil e.ind e.ii e.jj ∧
    (wdPart s n e δ).bodySoil (e.ind + 1) e.ii e.jj = s.bodySoil (e.ind + 1) e.ii e.jj - δ := by
  simp [wdPart, SimOut.setBS, SimOut.setH, upd3]

theorem wdPart_soil_other (s : SimOut K) (n : ℕ) (e : BodySoil K) (δ : K) {k : ℕ} {a b : ℤ}
    (he : e.ind = 0 ∨ e.ind = 2) (hk : k = 0 ∨ k = 2)
    (h : ¬ (k = e.ind ∧ a = e.ii ∧ b = e.jj)) :
    (wdPart s n e δ).bodySoil k a b = s.bodySoil k a b ∧
    (wdPart s n e δ).bodySoil (k + 1) a b = s.bodySoil (k + 1) a b := by
  constructor
  · exact upd3_ne _ _ (by rintro ⟨h', -⟩; omega)
  · exact upd3_ne _ _ (by rintro ⟨h1, h2, h3⟩; exact h ⟨by omega, h2, h3⟩)

theorem SoilOK.wdPart (h : SoilOK c s) {n : ℕ} {e : BodySoil K} {δ : K}
    (he : s.bodySoilPos[n]? = some e) (h0 : 0 ≤ δ) (h1 : δ ≤ e.h) (ha : Al c δ) :
    SoilOK c (wdPart s n e δ) := by
  have hm : e ∈ s.bodySoilPos := List.mem_iff_getElem?.mpr ⟨n, he⟩
  obtain ⟨hij, hk⟩ := h.entries e hm
  have hle := h.entry_le hm
  have hsoil : ∀ k a b, k = 0 ∨ k = 2 → (k = e.ind ∧ a = e.ii ∧ b = e.jj) ∨
      ((Soil.wdPart s n e δ).bodySoil k a b = s.bodySoil k a b ∧
        (Soil.wdPart s n e δ).bodySoil (k + 1) a b = s.bodySoil (k + 1) a b) := by
    intro k a b hk'
    by_cases hc : k = e.ind ∧ a = e.ii ∧ b = e.jj
    · exact .inl hc
    · exact .inr (wdPart_soil_other s n e δ hk hk' hc)
  -- soil afterwards means soil before
  have hhas : ∀ k a b, k = 0 ∨ k = 2 → HasSoil (Soil.wdPart s n e δ) k a b → HasSoil s k a b := by
    intro k a b hk' hs
    rcases hsoil k a b hk' with ⟨rfl, rfl, rfl⟩ | ⟨e1, e2⟩
    · by_contra hn
      obtain ⟨e1, e2⟩ := layerSoil_of_not_hasSoil hn
      have : layerSoil s e.ind e.ii e.jj = 0 := by unfold layerSoil; rw [e1, e2]; simp
      have hd : δ = 0 := by linarith
      obtain ⟨e3, e4⟩ := wdPart_soil_here s n e δ
      unfold HasSoil at hs
      rw [e3, e4, e1, e2, hd] at hs
      simp at hs
    · unfold HasSoil at hs ⊢
      rwa [e1, e2] at hs
  constructor
  · exact h.terrain_al
  · intro k a b hab
    show Al c (upd3 s.bodySoil (e.ind + 1) e.ii e.jj _ k a b)
    unfold upd3
    split_ifs
    · exact (h.soil_al _ _ _ hij).sub ha
    · exact h.soil_al _ _ _ hab
  · intro k a b hab hk' hs
    obtain ⟨r1, r2, r3⟩ := h.rest k a b hab hk' (hhas k a b hk' hs)
    rcases hsoil k a b hk' with ⟨rfl, rfl, rfl⟩ | ⟨e1, e2⟩
    · obtain ⟨e3, e4⟩ := wdPart_soil_here s n e δ
      refine ⟨r1, e3.trans r2, ?_⟩
      rw [e3, e4]
      unfold layerSoil at hle
      linarith
    · rw [e1, e2]
      exact ⟨r1, r2, r3⟩
  · intro x hx
    rcases mem_modify he hx with hx | rfl
    · exact h.entries x hx
    · exact ⟨hij, hk⟩
  · intro x hx
    rcases mem_modify he hx with hx | rfl
    · exact h.entry_al x hx
    · exact (h.entry_al e hm).sub ha
  · intro x hx
    rcases mem_modify he hx with hx | rfl
    · exact h.entry_nonneg x hx
    · show 0 ≤ e.h - δ; linarith
  · intro a b hab k hk'
    show layerSoil _ k a b = entrySum (s.bodySoilPos.modify n fun x => { x with h := e.h - δ }) k a b
    rw [entrySum_modify _ _ _ _ he, ← h.booked a b hab k hk']
    rcases hsoil k a b hk' with ⟨rfl, rfl, rfl⟩ | ⟨e1, e2⟩
    · obtain ⟨e3, e4⟩ := wdPart_soil_here s n e δ
      rw [if_pos ⟨rfl, rfl, rfl⟩]
      show (Soil.wdPart s n e δ).bodySoil (e.ind + 1) e.ii e.jj - _ = _
      rw [e3, e4]; unfold layerSoil; ring
    · by_cases hc : e.ind = k ∧ e.ii = a ∧ e.jj = b
      · obtain ⟨rfl, rfl, rfl⟩ := hc
        rw [if_pos ⟨rfl, rfl, rfl⟩]
        obtain ⟨e3, e4⟩ := wdPart_soil_here s n e δ
        show (Soil.wdPart s n e δ).bodySoil (e.ind + 1) e.ii e.jj - _ = _
        rw [e3, e4]; unfold layerSoil; ring
      · rw [if_neg hc, add_zero]
        show (Soil.wdPart s n e δ).bodySoil (k + 1) a b - _ = _
        rw [e1, e2]; rfl
  · intro k a b hab hk' hs
    obtain ⟨x, hx, h1, h2, h3⟩ := h.listed k a b hab hk' (hhas k a b hk' hs)
    obtain ⟨y, hy, g1, g2, g3⟩ := mem_modify_of_mem (n := n) (v := e.h - δ) hx
    exact ⟨y, hy, g1.trans h1, g2.trans h2, g3.trans h3⟩

theorem totalSoil_wdPart {n : ℕ} {e : BodySoil K} {δ : K} (hij : s.InGrid e.ii e.jj)
    (hk : e.ind = 0 ∨ e.ind = 2) : totalSoil (wdPart s n e δ) = totalSoil s - δ := by
  unfold wdPart
  rw [totalSoil_setH, totalSoil_setBS1 _ _ hij hk]
  ring

theorem SoilFree.wdPart (hf : SoilFree s) (h : SoilOK c s) {n : ℕ} {e : BodySoil K} {δ : K}
    (he : s.bodySoilPos[n]? = some e) (h0 : 0 ≤ δ) (h1 : δ ≤ e.h) :
    SoilFree (wdPart s n e δ) := by
  have hm : e ∈ s.bodySoilPos := List.mem_iff_getElem?.mpr ⟨n, he⟩
  obtain ⟨hij, hk⟩ := h.entries e hm
  intro k a b hab hk' hs hB hlt
  by_cases hc : k = e.ind ∧ a = e.ii ∧ b = e.jj
  · obtain ⟨rfl, rfl, rfl⟩ := hc
    obtain ⟨e3, e4⟩ := wdPart_soil_here s n e δ
    have hle := h.entry_le hm
    have hhas : HasSoil s e.ind e.ii e.jj := by
      by_contra hn
      obtain ⟨e1, e2⟩ := layerSoil_of_not_hasSoil hn
      have : layerSoil s e.ind e.ii e.jj = 0 := by unfold layerSoil; rw [e1, e2]; simp
      have hd : δ = 0 := by linarith
      unfold HasSoil at hs
      rw [e3, e4, e1, e2, hd] at hs
      simp at hs
    rw [e4]
    have : s.bodySoil (e.ind + 1) e.ii e.jj ≤ s.body (otherLayer e.ind) e.ii e.jj :=
      hf _ _ _ hab hk' hhas hB hlt
    show s.bodySoil (e.ind + 1) e.ii e.jj - δ ≤ s.body (otherLayer e.ind) e.ii e.jj
    linarith
  · obtain ⟨e1, e2⟩ := wdPart_soil_other s n e δ hk hk' hc
    unfold HasSoil at hs
    rw [e1, e2] at hs
    rw [e2]
    exact hf k a b hab hk' hs hB hlt

theorem wdAll_soil_here (s : SimOut K) (n : ℕ) (e : BodySoil K) :
    (wdAll s n e).bodySoil e.ind e.ii e.jj = 0 ∧
    (wdAll s n e).bodySoil (e.ind + 1) e.ii e.jj = 0 := by
  simp [wdAll, SimOut.setBS, SimOut.setH, upd3]

theorem wdAll_soil_other (s : SimOut K) (n : ℕ) (e : BodySoil K) {k : ℕ} {a b : ℤ}
    (he : e.ind = 0 ∨ e.ind = 2) (hk : k = 0 ∨ k = 2)
    (h : ¬ (k = e.ind ∧ a = e.ii ∧ b = e.jj)) :
    (wdAll s n e).bodySoil k a b = s.bodySoil k a b ∧
    (wdAll s n e).bodySoil (k + 1) a b = s.bodySoil (k + 1) a b := by
  constructor
  · refine (upd3_ne _ _ (by rintro ⟨h', -⟩; omega)).trans (upd3_ne _ _ h)
  · refine (upd3_ne _ _ ?_).trans (upd3_ne _ _ (by rintro ⟨h', -⟩; omega))
    rintro ⟨h1, h2, h3⟩; exact h ⟨by omega, h2, h3⟩

theorem SoilOK.wdAll (h : SoilOK c s) {n : ℕ} {e : BodySoil K}
    (he : s.bodySoilPos[n]? = some e) (h1 : layerSoil s e.ind e.ii e.jj = e.h) :
    SoilOK c (wdAll s n e) := by
  have hm : e ∈ s.bodySoilPos := List.mem_iff_getElem?.mpr ⟨n, he⟩
  obtain ⟨hij, hk⟩ := h.entries e hm
  have hsoil : ∀ k a b, k = 0 ∨ k = 2 → (k = e.ind ∧ a = e.ii ∧ b = e.jj) ∨
      ((Soil.wdAll s n e).bodySoil k a b = s.bodySoil k a b ∧
        (Soil.wdAll s n e).bodySoil (k + 1) a b = s.bodySoil (k + 1) a b) := by
    intro k a b hk'
    by_cases hc : k = e.ind ∧ a = e.ii ∧ b = e.jj
    · exact .inl hc
    · exact .inr (wdAll_soil_other s n e hk hk' hc)
  have hnot : ¬ HasSoil (Soil.wdAll s n e) e.ind e.ii e.jj := by
    unfold HasSoil
    obtain ⟨e1, e2⟩ := wdAll_soil_here s n e
    rw [e1, e2]; simp
  constructor
  · exact h.terrain_al
  · intro k a b hab
    show Al c (upd3 (upd3 s.bodySoil e.ind e.ii e.jj 0) (e.ind + 1) e.ii e.jj 0 k a b)
    unfold upd3
    split_ifs
    · exact Al.zero
    · exact Al.zero
    · exact h.soil_al _ _ _ hab
  · intro k a b hab hk' hs
    rcases hsoil k a b hk' with ⟨rfl, rfl, rfl⟩ | ⟨e1, e2⟩
    · exact absurd hs hnot
    · unfold HasSoil at hs
      rw [e1, e2] at hs
      rw [e1, e2]
      exact h.rest k a b hab hk' hs
  · intro x hx
    rcases mem_modify he hx with hx | rfl
    · exact h.entries x hx
    · exact ⟨hij, hk⟩
  · intro x hx
    rcases mem_modify he hx with hx | rfl
    · exact h.entry_al x hx
    · exact Al.zero
  · intro x hx
    rcases mem_modify he hx with hx | rfl
    · exact h.entry_nonneg x hx
    · exact le_rfl
  · intro a b hab k hk'
    show layerSoil _ k a b = entrySum (s.bodySoilPos.modify n fun x => { x with h := 0 }) k a b
    rw [entrySum_modify _ _ _ _ he, ← h.booked a b hab k hk']
    by_cases hc : e.ind = k ∧ e.ii = a ∧ e.jj = b
    · obtain ⟨rfl, rfl, rfl⟩ := hc
      obtain ⟨e3, e4⟩ := wdAll_soil_here s n e
      rw [if_pos ⟨rfl, rfl, rfl⟩, h1]
      show (Soil.wdAll s n e).bodySoil (e.ind + 1) e.ii e.jj - _ = _
      rw [e3, e4]; ring
    · rw [if_neg hc, add_zero]
      obtain ⟨e1, e2⟩ := wdAll_soil_other s n e (k := k) (a := a) (b := b) hk hk' (by
        rintro ⟨rfl, rfl, rfl⟩; exact hc ⟨rfl, rfl, rfl⟩)
      show (Soil.wdAll s n e).bodySoil (k + 1) a b - _ = _
      rw [e1, e2]; rfl
  · intro k a b hab hk' hs
    rcases hsoil k a b hk' with ⟨rfl, rfl, rfl⟩ | ⟨e1, e2⟩
    · exact absurd hs hnot
    · unfold HasSoil at hs
      rw [e1, e2] at hs
      obtain ⟨x, hx, h1, h2, h3⟩ := h.listed k a b hab hk' hs
      obtain ⟨y, hy, g1, g2, g3⟩ := mem_modify_of_mem (n := n) (v := 0) hx
      exact ⟨y, hy, g1.trans h1, g2.trans h2, g3.trans h3⟩

theorem totalSoil_wdAll {n : ℕ} {e : BodySoil K} (hij : s.InGrid e.ii e.jj)
    (hk : e.ind = 0 ∨ e.ind = 2) :
    totalSoil (wdAll s n e) = totalSoil s - layerSoil s e.ind e.ii e.jj := by
  unfold wdAll
  rw [totalSoil_setH, totalSoil_setBS1 _ _ (by exact hij) hk, totalSoil_setBS0 _ _ hij hk]
  have : (s.setBS e.ind e.ii e.jj 0).bodySoil (e.ind + 1) e.ii e.jj =
      s.bodySoil (e.ind + 1) e.ii e.jj := upd3_ne _ _ (by rintro ⟨h, -⟩; omega)
  rw [this]
  unfold layerSoil
  ring

theorem SoilFree.wdAll (hf : SoilFree s) {n : ℕ} {e : BodySoil K} (hk : e.ind = 0 ∨ e.ind = 2) :
    SoilFree (wdAll s n e) := by
  intro k a b hab hk' hs hB hlt
  by_cases hc : k = e.ind ∧ a = e.ii ∧ b = e.jj
  · obtain ⟨rfl, rfl, rfl⟩ := hc
    obtain ⟨e1, e2⟩ := wdAll_soil_here s n e
    unfold HasSoil at hs
    rw [e1, e2] at hs
    simp at hs
  · obtain ⟨e1, e2⟩ := wdAll_soil_other s n e hk hk' hc
    unfold HasSoil at hs
    rw [e1, e2] at hs
    rw [e2]
    exact hf k a b hab hk' hs hB hlt

/-! ## Well-formed states -/

theorem WellFormed.addT (h : WellFormed c s) {i j : ℤ} {δ : K} (hδ : Al c δ)
    (hd : ∀ k, k = 0 ∨ k = 2 → HasBody s k i j → s.terrain i j + δ ≤ s.body k i j) :
    WellFormed c (Soil.addT s i j δ) :=
  ⟨h.bodyOK.congr rfl rfl rfl, h.soilOK.addT hδ, h.terrainFree.addT hd, h.soilFree⟩

theorem WellFormed.dep (h : WellFormed c s) {e : BodySoil K}
    (hij : s.InGrid e.ii e.jj) (hk : e.ind = 0 ∨ e.ind = 2) (hb : HasBody s e.ind e.ii e.jj)
    (hh : 0 ≤ e.h) (ha : Al c e.h)
    (hr : HasBody s (otherLayer e.ind) e.ii e.jj →
      s.body e.ind e.ii e.jj < s.body (otherLayer e.ind) e.ii e.jj →
      s.body (e.ind + 1) e.ii e.jj + layerSoil s e.ind e.ii e.jj + e.h ≤
        s.body (otherLayer e.ind) e.ii e.jj) : WellFormed c (Soil.dep s e) :=
  ⟨h.bodyOK.congr rfl rfl rfl, h.soilOK.dep h.bodyOK hij hk hb hh ha, h.terrainFree,
    h.soilFree.dep hk hr⟩

theorem WellFormed.wdPart (h : WellFormed c s) {n : ℕ} {e : BodySoil K} {δ : K}
    (he : s.bodySoilPos[n]? = some e) (h0 : 0 ≤ δ) (h1 : δ ≤ e.h) (ha : Al c δ) :
    WellFormed c (Soil.wdPart s n e δ) :=
  ⟨h.bodyOK.congr rfl rfl rfl, h.soilOK.wdPart he h0 h1 ha, h.terrainFree,
    h.soilFree.wdPart h.soilOK he h0 h1⟩

theorem WellFormed.wdAll (h : WellFormed c s) {n : ℕ} {e : BodySoil K}
    (he : s.bodySoilPos[n]? = some e) (h1 : layerSoil s e.ind e.ii e.jj = e.h) :
    WellFormed c (Soil.wdAll s n e) :=
  ⟨h.bodyOK.congr rfl rfl rfl, h.soilOK.wdAll he h1, h.terrainFree,
    h.soilFree.wdAll (h.soilOK.entries e (List.mem_iff_getElem?.mpr ⟨n, he⟩)).2⟩

theorem WellFormed.setEq (h : WellFormed c s) (v : Bool) :
    WellFormed c { s with equilibrium := v } :=
  ⟨h.bodyOK.congr rfl rfl rfl, ⟨h.soilOK.1, h.soilOK.2, h.soilOK.3, h.soilOK.4, h.soilOK.5,
    h.soilOK.6, h.soilOK.7, h.soilOK.8⟩, h.terrainFree, h.soilFree⟩

/-- The two layers of a well-formed column are separated: what is above the bottom of a layer is
above its top. -/
theorem BodyOK.above (h : BodyOK c s) {k : ℕ} {i j : ℤ} (hij : s.InGrid i j) (hk : k = 0 ∨ k = 2)
    (h1 : HasBody s k i j) (h2 : HasBody s (otherLayer k) i j)
    (hlt : s.body k i j ≤ s.body (otherLayer k) i j) :
    s.body (k + 1) i j < s.body (otherLayer k) i j := by
  rcases hk with rfl | rfl
  · have ho := h.order 0 i j hij (.inl rfl) h1
    have ho2 := h.order 2 i j hij (.inr rfl) h2
    rcases h.apart i j hij h1 h2 with ha | ha
    · exact ha
    · exact absurd hlt (not_le.mpr (ho2.trans ha))
  · have ho := h.order 0 i j hij (.inl rfl) h2
    have ho2 := h.order 2 i j hij (.inr rfl) h1
    rcases h.apart i j hij h2 h1 with ha | ha
    · exact absurd hlt (not_le.mpr (ho.trans ha))
    · exact ha

end Soil
