import Verif.Proof.Ops
import Verif.Spec.Avalanche

/-! # Potential energy of the soil

Twice the potential energy of the soil, up to a constant factor: squares of the heights of the
surfaces, minus the squares of the heights of the walls the soil rests on. Every avalanche lowers
it. -/

set_option linter.unusedSectionVars false
set_option linter.unusedSimpArgs false

namespace Soil

variable {K : Type} [Field K] [LinearOrder K] [FloorRing K] [Transc K] [IsStrictOrderedRing K]

/-- the state with every height of soil squared -/
def sq (s : SimOut K) : SimOut K :=
  { s with terrain := fun i j => s.terrain i j ^ 2, bodySoil := fun k i j => s.bodySoil k i j ^ 2 }

/-- the energy -/
def energy (s : SimOut K) : K := totalSoil (sq s)

theorem sq_setT (s : SimOut K) (i j : ℤ) (v : K) : sq (s.setT i j v) = (sq s).setT i j (v ^ 2) := by
  unfold sq SimOut.setT upd2
  dsimp only
  congr 1
  funext a b
  split_ifs <;> rfl

theorem sq_setBS (s : SimOut K) (k : ℕ) (i j : ℤ) (v : K) :
    sq (s.setBS k i j v) = (sq s).setBS k i j (v ^ 2) := by
  unfold sq SimOut.setBS upd3
  dsimp only
  congr 1
  funext c a b
  split_ifs <;> rfl

theorem energy_addT {s : SimOut K} {i j : ℤ} {δ : K} (hij : s.InGrid i j) :
    energy (addT s i j δ) = energy s + 2 * s.terrain i j * δ + δ ^ 2 := by
  unfold energy addT
  rw [sq_setT, totalSoil_setT _ _ (by exact hij)]
  show _ + ((s.terrain i j + δ) ^ 2 - s.terrain i j ^ 2) = _
  ring

theorem energy_dep {c : K} {s : SimOut K} (h : SoilOK c s) {e : BodySoil K}
    (hij : s.InGrid e.ii e.jj) (hk : e.ind = 0 ∨ e.ind = 2) :
    energy (dep s e) = energy s +
      2 * (s.body (e.ind + 1) e.ii e.jj + layerSoil s e.ind e.ii e.jj) * e.h + e.h ^ 2 := by
  unfold energy dep
  have e1 : ∀ r : SimOut K, totalSoil (sq (r.pushPos e)) = totalSoil (sq r) := fun _ => rfl
  rw [e1, sq_setBS, sq_setBS, totalSoil_setBS1 _ _ (by exact hij) hk,
    totalSoil_setBS0 _ _ (by exact hij) hk]
  have : ((sq s).setBS e.ind e.ii e.jj (s.body (e.ind + 1) e.ii e.jj ^ 2)).bodySoil (e.ind + 1) e.ii e.jj =
      s.bodySoil (e.ind + 1) e.ii e.jj ^ 2 := upd3_ne _ _ (by rintro ⟨h, -⟩; omega)
  rw [this]
  have : (sq s).bodySoil e.ind e.ii e.jj = s.bodySoil e.ind e.ii e.jj ^ 2 := rfl
  rw [this]
  by_cases hs : HasSoil s e.ind e.ii e.jj
  · have := (h.rest _ _ _ hij hk hs).2.1
    unfold layerSoil
    rw [← this]
    ring
  · obtain ⟨h0, h1⟩ := layerSoil_of_not_hasSoil hs
    unfold layerSoil
    rw [h0, h1]
    ring

theorem energy_wdPart {s : SimOut K} {n : ℕ} {e : BodySoil K} {δ : K} (hij : s.InGrid e.ii e.jj)
    (hk : e.ind = 0 ∨ e.ind = 2) :
    energy (wdPart s n e δ) = energy s - 2 * s.bodySoil (e.ind + 1) e.ii e.jj * δ + δ ^ 2 := by
  unfold energy wdPart
  have e1 : ∀ (r : SimOut K) v, totalSoil (sq (r.setH n v)) = totalSoil (sq r) := fun _ _ => rfl
  rw [e1, sq_setBS, totalSoil_setBS1 _ _ (by exact hij) hk]
  show _ + (_ - s.bodySoil (e.ind + 1) e.ii e.jj ^ 2) = _
  ring

theorem energy_wdAll {s : SimOut K} {n : ℕ} {e : BodySoil K} (hij : s.InGrid e.ii e.jj)
    (hk : e.ind = 0 ∨ e.ind = 2) :
    energy (wdAll s n e) = energy s - 2 * s.bodySoil (e.ind + 1) e.ii e.jj *
      layerSoil s e.ind e.ii e.jj + layerSoil s e.ind e.ii e.jj ^ 2 := by
  unfold energy wdAll
  have e1 : ∀ (r : SimOut K) v, totalSoil (sq (r.setH n v)) = totalSoil (sq r) := fun _ _ => rfl
  rw [e1, sq_setBS, sq_setBS, totalSoil_setBS1 _ _ (by exact hij) hk,
    totalSoil_setBS0 _ _ (by exact hij) hk]
  have : ((sq s).setBS e.ind e.ii e.jj ((0 : K) ^ 2)).bodySoil (e.ind + 1) e.ii e.jj =
      s.bodySoil (e.ind + 1) e.ii e.jj ^ 2 := upd3_ne _ _ (by rintro ⟨h, -⟩; omega)
  rw [this]
  have : (sq s).bodySoil e.ind e.ii e.jj = s.bodySoil e.ind e.ii e.jj ^ 2 := rfl
  rw [this]
  unfold layerSoil
  ring

theorem SameSoil.refl (s : SimOut K) : SameSoil s s := ⟨rfl, fun _ _ _ _ => rfl⟩

theorem SameSoil.trans {a b c : SimOut K} (h : SameSoil a b) (h' : SameSoil b c) : SameSoil a c :=
  ⟨h'.terrain.trans h.terrain, fun k i j hk => (h'.layer k i j hk).trans (h.layer k i j hk)⟩

theorem SameSoil.addT (s : SimOut K) (i j : ℤ) : SameSoil s (addT s i j 0) := by
  refine ⟨?_, fun _ _ _ _ => rfl⟩
  unfold Soil.addT SimOut.setT upd2
  funext a b
  dsimp only
  split_ifs with h
  · obtain ⟨rfl, rfl⟩ := h; simp
  · rfl

theorem SameSoil.dep (s : SimOut K) (e : BodySoil K) (he : e.ind = 0 ∨ e.ind = 2) (h : e.h = 0) :
    SameSoil s (dep s e) := by
  refine ⟨rfl, fun k i j hk => ?_⟩
  by_cases hc : k = e.ind ∧ i = e.ii ∧ j = e.jj
  · obtain ⟨rfl, rfl, rfl⟩ := hc
    obtain ⟨h1, h2⟩ := dep_soil_here s e
    unfold layerSoil at h2 ⊢
    rw [h1, h2, h]; ring
  · obtain ⟨h1, h2⟩ := dep_soil_other s e he hk hc
    unfold layerSoil
    rw [h1, h2]

/-! ## Heights of surfaces -/

theorem height_addT_here (s : SimOut K) (i j : ℤ) (δ : K) :
    (Place.ground i j).height (addT s i j δ) = s.terrain i j + δ := by
  simp [Place.height, Soil.addT, SimOut.setT, upd2]

theorem height_addT_other (s : SimOut K) {i j : ℤ} (δ : K) {p : Place} (h : p ≠ .ground i j) :
    p.height (addT s i j δ) = p.height s := by
  cases p with
  | ground a b =>
    show upd2 _ _ _ _ _ _ = _
    exact upd2_ne _ _ (by rintro ⟨rfl, rfl⟩; exact h rfl)
  | layer k a b => rfl

theorem height_dep_here (s : SimOut K) (e : BodySoil K) :
    (Place.layer e.ind e.ii e.jj).height (dep s e) =
      s.body (e.ind + 1) e.ii e.jj + layerSoil s e.ind e.ii e.jj + e.h := by
  obtain ⟨h1, h2⟩ := dep_soil_here s e
  show s.body (e.ind + 1) e.ii e.jj + ((Soil.dep s e).bodySoil (e.ind + 1) e.ii e.jj - _) = _
  rw [h1, h2]; ring

theorem height_dep_other (s : SimOut K) (e : BodySoil K) (he : e.ind = 0 ∨ e.ind = 2) {p : Place}
    (hp : p.In s) (h : p ≠ .layer e.ind e.ii e.jj) : p.height (dep s e) = p.height s := by
  cases p with
  | ground a b => rfl
  | layer k a b =>
    obtain ⟨h1, h2⟩ := dep_soil_other s e he hp.2.1 (a := a) (b := b)
      (by rintro ⟨rfl, rfl, rfl⟩; exact h rfl)
    show s.body (k + 1) a b + ((Soil.dep s e).bodySoil (k + 1) a b - _) = _
    rw [h1, h2]; rfl

theorem Place.In.congr {s r : SimOut K} (hb : SameBody s r) {p : Place} (h : p.In s) : p.In r := by
  cases p with
  | ground i j => unfold Place.In SimOut.InGrid at *; rw [hb.2.2.1, hb.2.2.2]; exact h
  | layer k i j => unfold Place.In SimOut.InGrid HasBody at *; rw [hb.2.2.1, hb.2.2.2, hb.1]; exact h

theorem Place.height_congr {s r : SimOut K} (hs : SameSoil s r) (hb : r.body = s.body) {p : Place}
    (hp : p.In s) : p.height r = p.height s := by
  cases p with
  | ground i j => unfold Place.height; rw [hs.terrain]
  | layer k i j => unfold Place.height; dsimp only; rw [hs.layer k i j hp.2.1, hb]

theorem Place.Filled.congr {s r : SimOut K} (hs : SameSoil s r) (hb : r.body = s.body) {p : Place}
    (hp : p.In s) (h : p.Filled r) : p.Filled s := by
  cases p with
  | ground i j => unfold Place.Filled HasBody at *; rw [hs.terrain, hb] at h; exact h
  | layer k i j =>
    unfold Place.Filled HasBody at *
    dsimp only at h ⊢
    rw [hs.layer k i j hp.2.1, hb] at h; exact h

/-- One avalanche of the amount `δ`: from a surface at height `A` onto one at height `x`. Nothing
happens when `δ = 0`. -/
structure Fall (c dh : K) (cap : Option K) (a b : Place) (δ : K) (s r : SimOut K) : Prop where
  nonneg : 0 ≤ δ
  al : Al c δ
  body : SameBody s r
  still : δ = 0 → SameSoil s r ∧ (b.Filled s ∨ cap = some 0)
  slide : 0 < δ → Avalanche c dh cap s r a b δ
  drop : ∃ A x, 2 * δ ≤ A - x - dh + c ∧ energy r = energy s - 2 * δ * (A - x - δ)

theorem Fall.make {c dh : K} {cap : Option K} {a b : Place} {δ A x : K} {s r : SimOut K}
    (h0 : 0 ≤ δ) (ha : Al c δ) (hb : SameBody s r) (hz : δ = 0 → SameSoil s r)
    (hs : 0 < δ → a.In s ∧ a.height s = A) (ht : b.In s) (hx : b.height s = x) (hlow : x + dh < A)
    (h2 : 2 * δ ≤ A - x - dh + c)
    (hm : 0 < δ → a.height r = A - δ ∧ b.height r = x + δ ∧
      ∀ p, p.In s → p ≠ a → p ≠ b → p.height r = p.height s)
    (hc : ∀ y, cap = some y → δ ≤ y)
    (stop : A - δ ≤ x + δ + dh ∨ b.Filled r ∨ cap = some δ)
    (he : energy r = energy s - 2 * δ * (A - x - δ)) : Fall c dh cap a b δ s r := by
  refine ⟨h0, ha, hb, fun h => ⟨hz h, ?_⟩, fun hp => ?_, A, x, h2, he⟩
  · rcases stop with h' | h' | h'
    · rw [h] at h'; linarith
    · exact .inl (h'.congr (hz h) hb.1 ht)
    · rw [h'] ; exact .inr (by rw [h])
  · obtain ⟨h3, h4⟩ := hs hp
    obtain ⟨h5, h6, h7⟩ := hm hp
    refine ⟨h3, ht, by rw [hx, h4]; exact hlow, hp, ha, hc, by rw [h5, h4], by rw [h6, hx], h7, hb, ?_, ?_⟩
    · rw [h5, h6]; linarith
    · rw [h5, h6]; exact stop

/-- the state before may differ in what is no soil, body or bookkeeping -/
theorem Fall.before {c dh : K} {cap : Option K} {a b : Place} {δ : K} {s s' r : SimOut K}
    (h : Fall c dh cap a b δ s r) (h1 : s'.terrain = s.terrain) (h2 : s'.bodySoil = s.bodySoil)
    (hb : SameBody s s') : Fall c dh cap a b δ s' r := by
  have hs : SameSoil s s' := ⟨h1, fun k i j _ => by unfold layerSoil; rw [h2]⟩
  have hs' : SameSoil s' s := ⟨h1.symm, fun k i j _ => by unfold layerSoil; rw [h2]⟩
  have hb' : SameBody s' s := ⟨hb.1.symm, hb.2.1.symm, hb.2.2.1.symm, hb.2.2.2.symm⟩
  have hB : SameBody s' r := ⟨h.body.1.trans hb'.1, h.body.2.1.trans hb'.2.1,
    h.body.2.2.1.trans hb'.2.2.1, h.body.2.2.2.trans hb'.2.2.2⟩
  have hf : b.Filled s → b.Filled s' := by
    intro hf
    cases b with
    | ground i j => unfold Place.Filled HasBody at *; rw [h1, hb.1]; exact hf
    | layer k i j => unfold Place.Filled HasBody layerSoil at *; rw [h2, hb.1]; exact hf
  have hh : ∀ p : Place, p.height s' = p.height s := by
    intro p
    cases p with
    | ground i j => unfold Place.height; rw [h1]
    | layer k i j => unfold Place.height layerSoil; rw [h2, hb.1]
  refine ⟨h.nonneg, h.al, hB, fun h0 => ⟨⟨(h.still h0).1.1.trans h1.symm, fun k i j hk =>
    ((h.still h0).1.2 k i j hk).trans (hs'.2 k i j hk)⟩, (h.still h0).2.imp hf id⟩, fun h0 => ?_, ?_⟩
  · obtain ⟨x1, x2, x3, x4, x5, x6, x7, x8, x9, x10, x11, x12⟩ := h.slide h0
    exact ⟨x1.congr hb, x2.congr hb, by rw [hh, hh]; exact x3, x4, x5, x6, by rw [hh]; exact x7,
      by rw [hh]; exact x8, fun p hp => by rw [hh]; exact x9 p (hp.congr hb'), hB, x11, x12⟩
  · obtain ⟨A, x, y1, y2⟩ := h.drop
    refine ⟨A, x, y1, y2.trans ?_⟩
    unfold energy totalSoil gridCols columnSoil layerSoil sq
    dsimp only
    rw [h1, h2, hb.2.2.1, hb.2.2.2]

/-- the state after may differ in what is no soil or body -/
theorem Fall.after {c dh : K} {cap : Option K} {a b : Place} {δ : K} {s r r' : SimOut K}
    (h : Fall c dh cap a b δ s r) (h1 : r'.terrain = r.terrain) (h2 : r'.bodySoil = r.bodySoil)
    (hb : SameBody r r') : Fall c dh cap a b δ s r' := by
  have hB : SameBody s r' := ⟨hb.1.trans h.body.1, hb.2.1.trans h.body.2.1,
    hb.2.2.1.trans h.body.2.2.1, hb.2.2.2.trans h.body.2.2.2⟩
  have hf : b.Filled r → b.Filled r' := by
    intro hf
    cases b with
    | ground i j => unfold Place.Filled HasBody at *; rw [h1, hb.1]; exact hf
    | layer k i j => unfold Place.Filled HasBody layerSoil at *; rw [h2, hb.1]; exact hf
  have hh : ∀ p : Place, p.height r' = p.height r := by
    intro p
    cases p with
    | ground i j => unfold Place.height; rw [h1]
    | layer k i j => unfold Place.height layerSoil; rw [h2, hb.1]
  refine ⟨h.nonneg, h.al, hB, fun h0 => ⟨⟨h1.trans (h.still h0).1.1, fun k i j hk => by
    rw [← (h.still h0).1.2 k i j hk]; unfold layerSoil; rw [h2]⟩, (h.still h0).2⟩, fun h0 => ?_, ?_⟩
  · obtain ⟨x1, x2, x3, x4, x5, x6, x7, x8, x9, x10, x11, x12⟩ := h.slide h0
    exact ⟨x1, x2, x3, x4, x5, x6, by rw [hh]; exact x7, by rw [hh]; exact x8,
      fun p hp => by rw [hh]; exact x9 p hp, hB, by rw [hh, hh]; exact x11,
      by rw [hh, hh]; exact x12.imp id (Or.imp hf id)⟩
  · obtain ⟨A, x, y1, y2⟩ := h.drop
    refine ⟨A, x, y1, Eq.trans ?_ y2⟩
    unfold energy totalSoil gridCols columnSoil layerSoil sq
    dsimp only
    rw [h1, h2, hb.2.2.1, hb.2.2.2]

/-- The energy does not rise; it falls by a definite amount when soil moves. -/
structure Falls (c : K) (s r : SimOut K) : Prop where
  le : energy r ≤ energy s
  lt : SameSoil s r ∨ energy r + c ^ 2 ≤ energy s

theorem Falls.refl (c : K) (s : SimOut K) : Falls c s s := ⟨le_rfl, .inl (.refl s)⟩

theorem Falls.trans {c : K} {s r u : SimOut K} (h : Falls c s r) (h' : Falls c r u) : Falls c s u := by
  refine ⟨h'.le.trans h.le, ?_⟩
  rcases h.lt with h1 | h1
  · rcases h'.lt with h2 | h2
    · exact .inl (h1.trans h2)
    · exact .inr (h2.trans h.le)
  · exact .inr (by linarith [h'.le])

theorem Fall.lt {c dh : K} {cap : Option K} {a b : Place} {δ : K} {s r : SimOut K} (hc : 0 < c)
    (hd : c ≤ dh) (h : Fall c dh cap a b δ s r) (h5 : 0 < δ) : energy r + c ^ 2 ≤ energy s := by
  obtain ⟨A, x, h2, he⟩ := h.drop
  have h0 := h.nonneg
  have h3 : δ * δ ≤ δ * (A - x - δ) := mul_le_mul_of_nonneg_left (by linarith) h0
  have h4 : 0 ≤ δ * δ := mul_nonneg h0 h0
  have h6 : c ≤ δ := by
    have := Al.add_le hc .zero h.al h5
    linarith
  have h7 : c * c ≤ δ * δ := mul_le_mul h6 h6 hc.le h0
  rw [he, pow_two]
  linarith

theorem Fall.falls {c dh : K} {cap : Option K} {a b : Place} {δ : K} {s r : SimOut K} (hc : 0 < c)
    (hd : c ≤ dh) (h : Fall c dh cap a b δ s r) : Falls c s r := by
  have hlt := h.lt hc hd
  obtain ⟨A, x, h2, he⟩ := h.drop
  have h0 := h.nonneg
  have h3 : δ * δ ≤ δ * (A - x - δ) := mul_le_mul_of_nonneg_left (by linarith) h0
  have h4 : 0 ≤ δ * δ := mul_nonneg h0 h0
  refine ⟨by rw [he]; linarith, ?_⟩
  rcases h0.eq_or_lt with h5 | h5
  · exact .inl (h.still h5.symm).1
  · exact .inr (hlt h5)

/-- the energy only depends on the heights of soil -/
theorem energy_congr {s r : SimOut K} (h1 : r.terrain = s.terrain) (h2 : r.bodySoil = s.bodySoil)
    (h3 : r.lenX = s.lenX) (h4 : r.lenY = s.lenY) : energy r = energy s := by
  unfold energy totalSoil gridCols columnSoil layerSoil sq
  dsimp only
  rw [h1, h2, h3, h4]

theorem SameSoil.congr {s r r' : SimOut K} (h : SameSoil s r) (h1 : r'.terrain = r.terrain)
    (h2 : r'.bodySoil = r.bodySoil) : SameSoil s r' :=
  ⟨h1.trans h.terrain, fun k i j hk => by
    rw [← h.layer k i j hk]; unfold layerSoil; rw [h2]⟩

theorem Falls.congr {c : K} {s r r' : SimOut K} (h : Falls c s r) (h1 : r'.terrain = r.terrain)
    (h2 : r'.bodySoil = r.bodySoil) (h3 : r'.lenX = r.lenX) (h4 : r'.lenY = r.lenY) :
    Falls c s r' := by
  have := energy_congr h1 h2 h3 h4
  exact ⟨by rw [this]; exact h.le, h.lt.imp (fun h => h.congr h1 h2) fun h => by rw [this]; exact h⟩

end Soil
