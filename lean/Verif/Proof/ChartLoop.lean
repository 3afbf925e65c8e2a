import Verif.Proof.ChartRelax
import Verif.Proof.Safe
import Verif.Proof.Frame

/-! # Rounds of relaxation of corresponding states -/

namespace Soil

open FOps

variable {F : Type} [FOps F] {E : Prop} {c : Chart} {g g' : Grid F} {b b' : Body F} {s s' : SimOut F}

/-! ## Areas -/

theorem intRange_shift (a b t : ℤ) : intRange (a + t) (b + t) = (intRange a b).map (· + t) := by
  unfold intRange
  rw [show b + t - (a + t) = b - a by ring, List.map_map]
  congr 1
  funext k
  simp only [Function.comp]
  ring

theorem mem_cells' {a : Area} {p : ℤ × ℤ} :
    p ∈ a.cells ↔ a.minX ≤ p.1 ∧ p.1 < a.maxX ∧ a.minY ≤ p.2 ∧ p.2 < a.maxY := by
  obtain ⟨i, j⟩ := p
  unfold Area.cells
  simp only [List.mem_flatMap, List.mem_map, mem_intRange, Prod.mk.injEq]
  constructor
  · rintro ⟨x, hx, y, hy, rfl, rfl⟩
    exact ⟨hx.1, hx.2, hy.1, hy.2⟩
  · rintro ⟨h1, h2, h3, h4⟩
    exact ⟨i, ⟨h1, h2⟩, j, ⟨h3, h4⟩, rfl, rfl⟩

theorem intRange_nodup' (a b : ℤ) : (intRange a b).Nodup := by
  unfold intRange
  exact List.Nodup.map (fun x y h => by simpa using h) List.nodup_range

theorem cells_nodup' (a : Area) : a.cells.Nodup := by
  unfold Area.cells
  rw [List.nodup_flatMap]
  refine ⟨fun i _ => (intRange_nodup' _ _).map fun x y h => (Prod.mk.injEq .. ▸ h).2, ?_⟩
  refine (intRange_nodup' _ _).imp fun {i i'} hne => ?_
  intro p hp hp'
  obtain ⟨y, -, rfl⟩ := List.mem_map.mp hp
  obtain ⟨y', -, e⟩ := List.mem_map.mp hp'
  exact hne (Prod.mk.injEq .. ▸ e).1.symm

theorem Chart.mem_area (c : Chart) {a : Area} {p : ℤ × ℤ} : c.on p ∈ (c.area a).cells ↔ p ∈ a.cells := by
  obtain ⟨i, j⟩ := p
  simp only [mem_cells', Chart.area, Chart.on, Chart.lin]
  split <;> simp only [add_le_add_iff_right, add_lt_add_iff_right]
  tauto

theorem Chart.on_surj (c : Chart) (p : ℤ × ℤ) : ∃ q, c.on q = p := by
  refine ⟨c.lin (p.1 - c.tx, p.2 - c.ty), ?_⟩
  unfold Chart.on
  rw [c.lin_lin]
  simp

theorem Chart.area_cells (c : Chart) (a : Area) : c.Lst (a.cells.map c.on) (c.area a).cells := by
  unfold Chart.Lst
  cases hs : c.swap with
  | true =>
    rw [if_pos rfl]
    refine (List.perm_ext_iff_of_nodup (cells_nodup' _) ((cells_nodup' a).map fun _ _ h => c.on_inj h)).mpr fun p => ?_
    obtain ⟨q, rfl⟩ := c.on_surj p
    rw [c.mem_area, List.mem_map]
    exact ⟨fun h => ⟨q, h, rfl⟩, fun ⟨q', h, e⟩ => c.on_inj e ▸ h⟩
  | false =>
    simp only [Bool.false_eq_true, if_false]
    have e1 : c.area a = ⟨a.minX + c.tx, a.maxX + c.tx, a.minY + c.ty, a.maxY + c.ty⟩ := by
      unfold Chart.area
      rw [hs]
      rfl
    have e2 : c.on = fun p => (p.1 + c.tx, p.2 + c.ty) := by
      funext p
      unfold Chart.on Chart.lin
      rw [hs]
      rfl
    rw [e1, e2]
    unfold Area.cells
    rw [intRange_shift, intRange_shift, List.map_flatMap, List.flatMap_map]
    simp only [List.map_map]
    rfl

theorem foldl_min_shift (f f' : ℤ × ℤ → ℤ) (h : ℤ × ℤ → ℤ × ℤ) (t : ℤ) (hf : ∀ p, f' (h p) = f p + t)
    (l : List (ℤ × ℤ)) (x : ℤ) :
    (l.map h).foldl (fun m p => Min.min m (f' p)) (x + t) = l.foldl (fun m p => Min.min m (f p)) x + t := by
  induction l generalizing x with
  | nil => rfl
  | cons p l ih =>
    simp only [List.map_cons, List.foldl_cons, hf]
    rw [min_add_add_right]
    exact ih _

theorem foldl_max_shift (f f' : ℤ × ℤ → ℤ) (h : ℤ × ℤ → ℤ × ℤ) (t : ℤ) (hf : ∀ p, f' (h p) = f p + t)
    (l : List (ℤ × ℤ)) (x : ℤ) :
    (l.map h).foldl (fun m p => Max.max m (f' p)) (x + t) = l.foldl (fun m p => Max.max m (f p)) x + t := by
  induction l generalizing x with
  | nil => rfl
  | cons p l ih =>
    simp only [List.map_cons, List.foldl_cons, hf]
    rw [max_add_add_right]
    exact ih _

theorem foldl_min_init (f : ℤ × ℤ → ℤ) (l : List (ℤ × ℤ)) (hl : l ≠ []) (x y : ℤ) (h : ∀ p ∈ l, f p ≤ x ∧ f p ≤ y) :
    l.foldl (fun m p => Min.min m (f p)) x = l.foldl (fun m p => Min.min m (f p)) y := by
  cases l with
  | nil => exact absurd rfl hl
  | cons p l =>
    have := h p List.mem_cons_self
    simp only [List.foldl_cons]
    rw [min_eq_right this.1, min_eq_right this.2]

theorem foldl_max_init (f : ℤ × ℤ → ℤ) (l : List (ℤ × ℤ)) (hl : l ≠ []) (x y : ℤ) (h : ∀ p ∈ l, x ≤ f p ∧ y ≤ f p) :
    l.foldl (fun m p => Max.max m (f p)) x = l.foldl (fun m p => Max.max m (f p)) y := by
  cases l with
  | nil => exact absurd rfl hl
  | cons p l =>
    have := h p List.mem_cons_self
    simp only [List.foldl_cons]
    rw [max_eq_right this.1, max_eq_right this.2]

theorem foldl_min_mem (f : ℤ × ℤ → ℤ) (l : List (ℤ × ℤ)) (hl : l ≠ []) (x : ℤ) (h : ∀ p ∈ l, f p ≤ x) :
    ∃ p ∈ l, l.foldl (fun m p => Min.min m (f p)) x = f p := by
  have key : ∀ (l : List (ℤ × ℤ)) (x : ℤ), l.foldl (fun m p => Min.min m (f p)) x = x ∨
      ∃ p ∈ l, l.foldl (fun m p => Min.min m (f p)) x = f p := by
    intro l
    induction l with
    | nil => exact fun x => .inl rfl
    | cons p l ih =>
      intro x
      simp only [List.foldl_cons]
      rcases ih (Min.min x (f p)) with e | ⟨q, hq, e⟩
      · rcases min_choice x (f p) with e' | e'
        · exact .inl (by rw [e, e'])
        · exact .inr ⟨p, List.mem_cons_self, by rw [e, e']⟩
      · exact .inr ⟨q, List.mem_cons_of_mem _ hq, e⟩
  cases l with
  | nil => exact absurd rfl hl
  | cons p l =>
    simp only [List.foldl_cons]
    rw [min_eq_right (h p List.mem_cons_self)]
    rcases key l (f p) with e | ⟨q, hq, e⟩
    · exact ⟨p, List.mem_cons_self, e⟩
    · exact ⟨q, List.mem_cons_of_mem _ hq, e⟩

theorem foldl_max_mem (f : ℤ × ℤ → ℤ) (l : List (ℤ × ℤ)) (hl : l ≠ []) (x : ℤ) (h : ∀ p ∈ l, x ≤ f p) :
    ∃ p ∈ l, l.foldl (fun m p => Max.max m (f p)) x = f p := by
  have key : ∀ (l : List (ℤ × ℤ)) (x : ℤ), l.foldl (fun m p => Max.max m (f p)) x = x ∨
      ∃ p ∈ l, l.foldl (fun m p => Max.max m (f p)) x = f p := by
    intro l
    induction l with
    | nil => exact fun x => .inl rfl
    | cons p l ih =>
      intro x
      simp only [List.foldl_cons]
      rcases ih (Max.max x (f p)) with e | ⟨q, hq, e⟩
      · rcases max_choice x (f p) with e' | e'
        · exact .inl (by rw [e, e'])
        · exact .inr ⟨p, List.mem_cons_self, by rw [e, e']⟩
      · exact .inr ⟨q, List.mem_cons_of_mem _ hq, e⟩
  cases l with
  | nil => exact absurd rfl hl
  | cons p l =>
    simp only [List.foldl_cons]
    rw [max_eq_right (h p List.mem_cons_self)]
    rcases key l (f p) with e | ⟨q, hq, e⟩
    · exact ⟨p, List.mem_cons_self, e⟩
    · exact ⟨q, List.mem_cons_of_mem _ hq, e⟩

/-- the area around unstable columns of a wide area is not cut off -/
theorem relaxAreaOf_wide {m buffer : ℤ} {a : Area} (hm : 0 ≤ m) (h : Wide g (m + buffer) a) (hb : 0 ≤ buffer)
    (cs : List (ℤ × ℤ)) (hne : cs ≠ []) (hc : ∀ p ∈ cs, p ∈ a.cells) :
    Wide g m (relaxAreaOf g buffer cs) ∧
    relaxAreaOf g buffer cs =
      ⟨cs.foldl (fun m p => Min.min m p.1) (2 * g.halfX) - buffer, cs.foldl (fun m p => Max.max m p.1) 0 + buffer,
        cs.foldl (fun m p => Min.min m p.2) (2 * g.halfY) - buffer, cs.foldl (fun m p => Max.max m p.2) 0 + buffer⟩ := by
  obtain ⟨h1, h2, h3, h4⟩ := h
  have hc' := fun p hp => mem_cells'.mp (hc p hp)
  obtain ⟨p1, hp1, e1⟩ := foldl_min_mem (fun p => p.1) cs hne (2 * g.halfX) fun p hp => by have := hc' p hp; omega
  obtain ⟨p2, hp2, e2⟩ := foldl_max_mem (fun p => p.1) cs hne 0 fun p hp => by have := hc' p hp; omega
  obtain ⟨p3, hp3, e3⟩ := foldl_min_mem (fun p => p.2) cs hne (2 * g.halfY) fun p hp => by have := hc' p hp; omega
  obtain ⟨p4, hp4, e4⟩ := foldl_max_mem (fun p => p.2) cs hne 0 fun p hp => by have := hc' p hp; omega
  have a1 := hc' p1 hp1
  have a2 := hc' p2 hp2
  have a3 := hc' p3 hp3
  have a4 := hc' p4 hp4
  unfold relaxAreaOf Wide
  dsimp only
  rw [e1, e2, e3, e4, Area.mk.injEq]
  omega

theorem relaxAreaOf_like {m buffer : ℤ} {a : Area} (hm : 0 ≤ m) (hb : 0 ≤ buffer) (h : c.Roomy g g' (m + buffer) a)
    (cs : List (ℤ × ℤ)) (hne : cs ≠ []) (hc : ∀ p ∈ cs, p ∈ a.cells) :
    relaxAreaOf g' buffer (cs.map c.on) = c.area (relaxAreaOf g buffer cs) ∧
      c.Roomy g g' m (relaxAreaOf g buffer cs) := by
  unfold Chart.Roomy at h ⊢
  cases hs : c.swap with
  | true =>
    rw [hs, if_pos rfl] at h
    refine ⟨?_, by rw [if_pos rfl]; exact h⟩
    obtain ⟨h1, h2, h3, h4⟩ := h
    have e2 : c.on = fun p => (p.2, p.1) := by
      funext p
      unfold Chart.on Chart.lin
      rw [hs, h1, h2]
      simp
    unfold relaxAreaOf Chart.area
    rw [hs, e2, h1, h2, h3, h4]
    simp only [List.foldl_map, if_true, add_zero]
  | false =>
    rw [hs] at h
    simp only [Bool.false_eq_true, if_false] at h ⊢
    have e2 : c.on = fun p => (p.1 + c.tx, p.2 + c.ty) := by
      funext p
      unfold Chart.on Chart.lin
      rw [hs]
      rfl
    have earea : ∀ a : Area, c.area a = ⟨a.minX + c.tx, a.maxX + c.tx, a.minY + c.ty, a.maxY + c.ty⟩ := by
      intro a
      unfold Chart.area
      rw [hs]
      rfl
    obtain ⟨w1, q1⟩ := relaxAreaOf_wide hm h.1 hb cs hne hc
    have hne' : cs.map c.on ≠ [] := by simpa using hne
    have hc2 : ∀ p ∈ cs.map c.on, p ∈ (c.area a).cells := by
      intro p hp
      obtain ⟨q, hq, rfl⟩ := List.mem_map.mp hp
      exact c.mem_area.mpr (hc q hq)
    obtain ⟨w2, q2⟩ := relaxAreaOf_wide hm h.2 hb (cs.map c.on) hne' hc2
    have key : relaxAreaOf g' buffer (cs.map c.on) = c.area (relaxAreaOf g buffer cs) := by
      rw [q2, q1, earea]
      have b1 := h.1
      have b2 := h.2
      rw [earea] at b2
      unfold Wide at b1 b2
      dsimp only at b2
      have hc' := fun p hp => mem_cells'.mp (hc p hp)
      have hc2' := fun p hp => mem_cells'.mp (hc2 p hp)
      rw [earea] at hc2'
      dsimp only at hc2'
      have s1 := foldl_min_shift (fun p => p.1) (fun p => p.1) c.on c.tx (fun p => by rw [e2]) cs (2 * g.halfX)
      have s2 := foldl_max_shift (fun p => p.1) (fun p => p.1) c.on c.tx (fun p => by rw [e2]) cs 0
      have s3 := foldl_min_shift (fun p => p.2) (fun p => p.2) c.on c.ty (fun p => by rw [e2]) cs (2 * g.halfY)
      have s4 := foldl_max_shift (fun p => p.2) (fun p => p.2) c.on c.ty (fun p => by rw [e2]) cs 0
      have bd : ∀ p ∈ cs.map c.on, p.1 ≤ 2 * g.halfX + c.tx ∧ p.1 ≤ 2 * g'.halfX ∧ 0 + c.tx ≤ p.1 ∧ 0 ≤ p.1 ∧
          p.2 ≤ 2 * g.halfY + c.ty ∧ p.2 ≤ 2 * g'.halfY ∧ 0 + c.ty ≤ p.2 ∧ 0 ≤ p.2 := by
        intro p hp
        have := hc2' p hp
        omega
      rw [foldl_min_init (fun p => p.1) _ hne' _ (2 * g'.halfX) fun p hp => ⟨(bd p hp).1, (bd p hp).2.1⟩] at s1
      rw [foldl_max_init (fun p => p.1) _ hne' _ 0 fun p hp => ⟨(bd p hp).2.2.1, (bd p hp).2.2.2.1⟩] at s2
      rw [foldl_min_init (fun p => p.2) _ hne' _ (2 * g'.halfY) fun p hp => ⟨(bd p hp).2.2.2.2.1, (bd p hp).2.2.2.2.2.1⟩]
        at s3
      rw [foldl_max_init (fun p => p.2) _ hne' _ 0 fun p hp => ⟨(bd p hp).2.2.2.2.2.2.1, (bd p hp).2.2.2.2.2.2.2⟩] at s4
      rw [s1, s2, s3, s4]
      simp only [Area.mk.injEq]
      omega
    exact ⟨key, w1, by rw [← key]; exact w2⟩

/-! ## Unstable columns -/

/-- the bounds check of `locateUnstableCells` -/
def FiveIn (s : SimOut F) (p : ℤ × ℤ) : Prop :=
  s.InGrid p.1 p.2 ∧ s.InGrid (p.1 - 1) p.2 ∧ s.InGrid (p.1 + 1) p.2 ∧ s.InGrid p.1 (p.2 - 1) ∧ s.InGrid p.1 (p.2 + 1)

theorem locateUnstableCells_char (s : SimOut F) (dh tol : F) (l : List (ℤ × ℤ)) :
    ((∀ p ∈ l, FiveIn s p) ∧ locateUnstableCells s dh tol l = .ok (l.filter fun p => unstableAt s dh tol p.1 p.2)) ∨
    ((∃ p ∈ l, ¬ FiveIn s p) ∧ locateUnstableCells s dh tol l = .error .oob) := by
  induction l with
  | nil => exact .inl ⟨fun p hp => (List.not_mem_nil hp).elim, rfl⟩
  | cons p l ih =>
    unfold locateUnstableCells
    by_cases hp : FiveIn s p
    · have hp' := hp
      unfold FiveIn at hp'
      simp only [guardOob, hp', and_self, if_true]
      rcases ih with ⟨h1, h2⟩ | ⟨⟨q, hq, h1⟩, h2⟩
      · left
        refine ⟨fun q hq => ?_, ?_⟩
        · rcases List.mem_cons.mp hq with rfl | hq
          · exact hp
          · exact h1 q hq
        · rw [h2, List.filter_cons]
          rfl
      · right
        refine ⟨⟨q, List.mem_cons_of_mem _ hq, h1⟩, ?_⟩
        rw [h2]
        rfl
    · right
      refine ⟨⟨p, List.mem_cons_self, hp⟩, ?_⟩
      have hp' := hp
      unfold FiveIn at hp'
      simp only [guardOob, hp', if_false]
      rfl

theorem fiveIn_like (h : Like E c s s') {p : ℤ × ℤ} (hp : FiveIn s p) : FiveIn s' (c.on p) ∨ E := by
  obtain ⟨i, j⟩ := p
  obtain ⟨h0, h1, h2, h3, h4⟩ := hp
  dsimp only at h0 h1 h2 h3 h4
  have g0 := h.grid i j h0
  have g1 := h.grid (i - 1) j h1
  have g2 := h.grid (i + 1) j h2
  have g3 := h.grid i (j - 1) h3
  have g4 := h.grid i (j + 1) h4
  by_cases hE : E
  · exact .inr hE
  · simp only [hE, or_false] at g0 g1 g2 g3 g4
    left
    unfold FiveIn
    unfold Chart.on Chart.lin at g0 g1 g2 g3 g4 ⊢
    unfold SimOut.InGrid at g0 g1 g2 g3 g4 ⊢
    cases hs : c.swap <;> rw [hs] at g0 g1 g2 g3 g4 <;>
      simp only [Bool.false_eq_true, if_false, if_true] at g0 g1 g2 g3 g4 ⊢ <;> omega

theorem unstableAt_like (h : Like E c s s') {p : ℤ × ℤ} (hp : FiveIn s p) (hp' : FiveIn s' (c.on p)) (dh tol : F) :
    unstableAt s' dh tol (c.on p).1 (c.on p).2 = unstableAt s dh tol p.1 p.2 := by
  obtain ⟨i, j⟩ := p
  obtain ⟨h0, h1, h2, h3, h4⟩ := hp
  obtain ⟨h0', h1', h2', h3', h4'⟩ := hp'
  dsimp only at h0 h1 h2 h3 h4
  have t0 := h.terrain i j h0 h0'
  cases hs : c.swap with
  | false =>
    have e : ∀ p, c.on p = (p.1 + c.tx, p.2 + c.ty) := fun p => by
      unfold Chart.on Chart.lin
      rw [hs]
      rfl
    have e1 := h.terrain (i - 1) j h1
    have e2 := h.terrain (i + 1) j h2
    have e3 := h.terrain i (j - 1) h3
    have e4 := h.terrain i (j + 1) h4
    simp only [e] at *
    rw [show i - 1 + c.tx = i + c.tx - 1 by ring] at e1
    rw [show i + 1 + c.tx = i + c.tx + 1 by ring] at e2
    rw [show j - 1 + c.ty = j + c.ty - 1 by ring] at e3
    rw [show j + 1 + c.ty = j + c.ty + 1 by ring] at e4
    simp only [unstableAt, t0, e1 h1', e2 h2', e3 h3', e4 h4']
  | true =>
    have e : ∀ p, c.on p = (p.2 + c.tx, p.1 + c.ty) := fun p => by
      unfold Chart.on Chart.lin
      rw [hs]
      rfl
    have e1 := h.terrain i (j - 1) h3
    have e2 := h.terrain i (j + 1) h4
    have e3 := h.terrain (i - 1) j h1
    have e4 := h.terrain (i + 1) j h2
    simp only [e] at *
    rw [show j - 1 + c.tx = j + c.tx - 1 by ring] at e1
    rw [show j + 1 + c.tx = j + c.tx + 1 by ring] at e2
    rw [show i - 1 + c.ty = i + c.ty - 1 by ring] at e3
    rw [show i + 1 + c.ty = i + c.ty + 1 by ring] at e4
    simp only [unstableAt, t0, e1 h1', e2 h2', e3 h3', e4 h4']
    generalize (s.terrain (i - 1) j <ᶠ _) = x1
    generalize (s.terrain (i + 1) j <ᶠ _) = x2
    generalize (s.terrain i (j - 1) <ᶠ _) = x3
    generalize (s.terrain i (j + 1) <ᶠ _) = x4
    revert x1 x2 x3 x4
    decide

theorem Chart.Lst.mem {c : Chart} {α : Type} {l l' : List α} (h : c.Lst l l') (x : α) : x ∈ l' ↔ x ∈ l := by
  unfold Chart.Lst at h
  split at h
  · exact h.mem_iff
  · rw [h]

theorem Chart.Lst.filter {c : Chart} {α : Type} {l l' : List α} (h : c.Lst l l') (p : α → Bool) :
    c.Lst (l.filter p) (l'.filter p) := by
  unfold Chart.Lst at h ⊢
  split at h <;> rename_i hs
  · rw [if_pos hs]
    exact List.Perm.filter p h
  · rw [if_neg hs, h]

theorem locateUnstableCells_like (h : Like E c s s') (dh tol : F) (l l' : List (ℤ × ℤ)) (hl : c.Lst (l.map c.on) l') :
    Corr E (fun f f' => (∀ p ∈ f, p ∈ l) ∧ c.Lst (f.map c.on) f') (locateUnstableCells s dh tol l)
      (locateUnstableCells s' dh tol l') := by
  intro f hf
  rcases locateUnstableCells_char s dh tol l with ⟨h1, h2⟩ | ⟨-, h2⟩
  · rw [h2] at hf
    cases hf
    rcases locateUnstableCells_char s' dh tol l' with ⟨h1', h2'⟩ | ⟨⟨p, hp, hn⟩, h2'⟩
    · refine .inl ⟨_, h2', fun p hp => (List.mem_filter.mp hp).1, ?_⟩
      have := hl.filter fun p => unstableAt s' dh tol p.1 p.2
      rw [List.filter_map] at this
      have e : l.filter ((fun p : ℤ × ℤ => unstableAt s' dh tol p.1 p.2) ∘ c.on) =
          l.filter fun p => unstableAt s dh tol p.1 p.2 := by
        refine List.filter_congr fun p hp => ?_
        exact unstableAt_like h (h1 p hp) (h1' _ ((hl.mem _).mpr (List.mem_map.mpr ⟨p, hp, rfl⟩))) dh tol
      rwa [e] at this
    · obtain ⟨q, hq, rfl⟩ := List.mem_map.mp ((hl.mem p).mp hp)
      exact .inr ⟨(fiveIn_like h (h1 q hq)).resolve_left hn, h2'⟩
  · rw [h2] at hf
    cases hf

/-! ## Rounds -/

theorem dhMax_like (S : SameScene c g g' b b') (p : SimParam F) : dhMax g' p = dhMax g p := by
  simp only [dhMax, S.cellZ, S.cellXY]

/-- The second call corresponds, whatever random numbers follow the ones used: its final state satisfies `Q` and its log is
unchanged or grown by the same warnings. -/
def CorrW (E : Prop) (c : Chart) (Q : SimOut F → SimOut F → Prop) (f f' : World F → M (World F)) (s s' : SimOut F) : Prop :=
  ∀ r log log' w1, f ⟨s, r, log⟩ = .ok w1 →
    (∃ s1' x, Q w1.out s1' ∧ w1.log = log ++ x ∧
      ∀ q1, c.Rn w1.rng q1 → ∃ q, c.Rn r q ∧ f' ⟨s', q, log'⟩ = .ok ⟨s1', q1, log' ++ x⟩) ∨
    (E ∧ ∃ q, c.Rn r q ∧ f' ⟨s', q, log'⟩ = .error .oob)

theorem CorrW.comp {Q Q2 : SimOut F → SimOut F → Prop} {f f' k k' : World F → M (World F)} (h : CorrW E c Q f f' s s')
    (hk : ∀ s1 s1', Q s1 s1' → CorrW E c Q2 k k' s1 s1') :
    CorrW E c Q2 (fun w => f w >>= k) (fun w => f' w >>= k') s s' := by
  intro r log log' w2 hr
  obtain ⟨w1, h1, h2⟩ := bind_eq_ok.mp hr
  rcases h r log log' w1 h1 with ⟨s1', x, q, e, res⟩ | ⟨hE, q, hq, res⟩
  · rcases hk _ _ q w1.rng w1.log (log' ++ x) w2 h2 with ⟨s2', y, q2, e2, res2⟩ | ⟨hE, qa, hqa, res2⟩
    · refine .inl ⟨s2', x ++ y, q2, by rw [e2, e, List.append_assoc], fun q1 hq1 => ?_⟩
      obtain ⟨qa, hqa, ra⟩ := res2 q1 hq1
      obtain ⟨qb, hqb, rb⟩ := res qa hqa
      refine ⟨qb, hqb, ?_⟩
      dsimp only
      rw [rb, ok_bind, ra, List.append_assoc]
    · obtain ⟨qb, hqb, rb⟩ := res qa hqa
      refine .inr ⟨hE, qb, hqb, ?_⟩
      dsimp only
      rw [rb, ok_bind, res2]
  · refine .inr ⟨hE, q, hq, ?_⟩
    dsimp only
    rw [res]
    rfl

theorem CorrW.mono {Q Q2 : SimOut F → SimOut F → Prop} {f f' : World F → M (World F)} (h : CorrW E c Q f f' s s')
    (hq : ∀ s1 s1', Q s1 s1' → Q2 s1 s1') : CorrW E c Q2 f f' s s' := by
  intro r log log' w2 hr
  rcases h r log log' w2 hr with ⟨s1', x, q, res⟩ | res
  · exact .inl ⟨s1', x, hq _ _ q, res⟩
  · exact .inr res

/-- `Like`, and the rectangles of the body correspond -/
structure LikeB (E : Prop) (c : Chart) (s s' : SimOut F) : Prop extends Like E c s s' where
  bodyArea : s'.bodyArea = c.area s.bodyArea

theorem LikeA.toB (h : LikeA E c s s') : LikeB E c s s' := ⟨h.toLike, h.bodyArea⟩

/-- the rectangles of the last relaxation are kept in both simulations -/
def KeptR (s s' s1 s1' : SimOut F) : Prop := s1.relaxArea = s.relaxArea ∧ s1'.relaxArea = s'.relaxArea

theorem LikeB.toA {s1 s1' : SimOut F} (h : LikeB E c s1 s1') (k : KeptR s s' s1 s1') (hr : s'.relaxArea = c.area s.relaxArea) :
    LikeA E c s1 s1' := ⟨h.toLike, h.bodyArea, by rw [k.1, k.2, hr]⟩

/-- A round of `RelaxTerrain` in which corresponding columns are found unstable. -/
theorem relaxTerrain_core (S : SameScene c g g' b b') (p : SimParam F) (tol : F) (h : LikeB E c s s') {T : ℤ × ℤ → Prop}
    (hloc : Corr E (fun f f' => (∀ p ∈ f, T p) ∧ c.Lst (f.map c.on) f')
      (locateUnstableTerrainCell { s with equilibrium := true } (dhMax g p) tol)
      (locateUnstableTerrainCell { s' with equilibrium := true } (dhMax g p) tol)) :
    CorrW E c (fun s1 s1' => LikeB E c s1 s1' ∧ (KeptR s s' s1 s1' ∨ ∃ l, l ≠ [] ∧ (∀ p ∈ l, T p) ∧
        s1.relaxArea = relaxAreaOf g p.cellBuffer l ∧ s1'.relaxArea = relaxAreaOf g' p.cellBuffer (l.map c.on)))
      (relaxTerrain g b p tol) (relaxTerrain g' b' p tol) s s' := by
  intro r log log' w1 hr
  unfold relaxTerrain at hr ⊢
  dsimp only at hr ⊢
  obtain ⟨cs, h1, h2⟩ := bind_eq_ok.mp hr
  have hL : Like E c { s with equilibrium := true } { s' with equilibrium := true } := h.toLike.setEq true
  rw [dhMax_like S]
  rcases hloc cs h1 with ⟨cs', h1', hin, hl⟩ | ⟨hE, h1'⟩
  · have he : cs'.isEmpty = cs.isEmpty := by
      rw [Bool.eq_iff_iff, List.isEmpty_iff, List.isEmpty_iff, List.eq_nil_iff_forall_not_mem,
        List.eq_nil_iff_forall_not_mem]
      simp only [hl.mem, List.mem_map]
      constructor
      · exact fun hx p hp => hx _ ⟨p, hp, rfl⟩
      · rintro hx _ ⟨p, hp, rfl⟩
        exact hx p hp
    simp only [h1', ok_bind, he]
    cases hem : cs.isEmpty with
    | true =>
      rw [hem] at h2
      cases h2
      refine .inl ⟨_, [], ⟨⟨hL, h.bodyArea⟩, .inl ⟨rfl, rfl⟩⟩, by simp, fun q1 hq => ⟨q1, hq, ?_⟩⟩
      rw [List.append_nil]
      rfl
    | false =>
      rw [hem] at h2
      simp only [Bool.false_eq_true, if_false] at h2 ⊢
      obtain ⟨⟨s1, r1⟩, h3, h4⟩ := bind_eq_ok.mp h2
      cases h4
      have hne : (shuffle cs r).1 ≠ [] := by
        intro hx
        have := (shuffle_perm cs r).length_eq
        rw [hx] at this
        rw [List.length_nil, eq_comm, List.length_eq_zero_iff] at this
        rw [this] at hem
        cases hem
      have hin' : ∀ x ∈ (shuffle cs r).1, T x := fun x hx =>
        hin x ((shuffle_perm cs r).mem_iff.mp hx)
      rcases relaxTerrainCells_like S (dhMax g p) tol (shuffle cs r).1 directions4 directions4 c.dirs4
        _ _ hL (shuffle cs r).2 s1 r1 h3 with ⟨s1', l1, res⟩ | ⟨hE, q2, hq2, res⟩
      · refine .inl ⟨{ s1' with relaxArea := relaxAreaOf g' p.cellBuffer ((shuffle cs r).1.map c.on) }, [],
          ⟨⟨l1.setRelax _ _, ?_⟩, .inr ⟨_, hne, hin', rfl, rfl⟩⟩, by simp, fun q1 hq => ?_⟩
        · obtain ⟨q2, -, e1⟩ := res r1 (Chart.Rn.refl c r1)
          have b1 := (relaxTerrainCells_local g b (dhMax g p) tol _ _ (fun d hd => hd) _ _ _ h3).body.2.1
          have b2 := (relaxTerrainCells_local g' b' (dhMax g p) tol _ _ (fun d hd => hd) _ _ _ e1).body.2.1
          dsimp only at b1 b2 ⊢
          rw [b1, b2]
          exact h.bodyArea
        · obtain ⟨q2, hq2, e1⟩ := res q1 hq
          obtain ⟨q, hqr, hsh⟩ := shuffle_like c c.on cs cs' hl r q2 hq2
          refine ⟨q, hqr, ?_⟩
          rw [hsh]
          dsimp only
          rw [e1, List.append_nil]
          rfl
      · obtain ⟨q, hqr, hsh⟩ := shuffle_like c c.on cs cs' hl r q2 hq2
        refine .inr ⟨hE, q, hqr, ?_⟩
        rw [hsh]
        dsimp only
        rw [res]
        rfl
  · refine .inr ⟨hE, r, Chart.Rn.refl c r, ?_⟩
    rw [h1']
    rfl

theorem relaxTerrain_like (S : SameScene c g g' b b') (p : SimParam F) (tol : F) (hb : 0 ≤ p.cellBuffer) {m : ℤ}
    (hm : 0 ≤ m) (h : LikeA E c s s') (hi : s'.impactArea = c.area s.impactArea)
    (hR : c.Roomy g g' (m + p.cellBuffer) s.impactArea) :
    CorrW E c (fun s1 s1' => LikeA E c s1 s1' ∧ (s1.relaxArea = s.relaxArea ∨ c.Roomy g g' m s1.relaxArea))
      (relaxTerrain g b p tol) (relaxTerrain g' b' p tol) s s' := by
  have hL : Like E c { s with equilibrium := true } { s' with equilibrium := true } := h.toLike.setEq true
  have hcells : c.Lst (s.impactArea.cells.map c.on) s'.impactArea.cells := by
    rw [hi]
    exact c.area_cells _
  refine (relaxTerrain_core S p tol h.toB (locateUnstableCells_like hL (dhMax g p) tol _ _ hcells)).mono ?_
  rintro s1 s1' ⟨l, k | ⟨l1, hne, hin, e1, e2⟩⟩
  · exact ⟨l.toA k h.relaxArea, .inl k.1⟩
  · obtain ⟨ra, rb⟩ := relaxAreaOf_like hm hb hR _ hne hin
    exact ⟨⟨l.toLike, l.bodyArea, by rw [e1, e2, ra]⟩, .inr (by rw [e1]; exact rb)⟩

theorem relaxBodySoil_likeB (S : SameScene c g g' b b') (p : SimParam F) (tol : F) (h : LikeB E c s s') :
    CorrW E c (fun s1 s1' => LikeB E c s1 s1' ∧ KeptR s s' s1 s1' ∧ s1.bodyArea = s.bodyArea)
      (relaxBodySoil g b p tol) (relaxBodySoil g' b' p tol) s s' := by
  intro r log log' w1 hr
  have f1 := relaxBodySoil_frame g b p tol ⟨s, r, log⟩ w1 hr
  unfold relaxBodySoil at hr
  obtain ⟨⟨s1, l1, r1⟩, h1, h2⟩ := bind_eq_ok.mp hr
  cases h2
  have hlen : s'.bodySoilPos.length = s.bodySoilPos.length := by rw [h.entries, List.length_map]
  rcases relaxBodyEntries_like S (dhMax g p) tol s.bodySoilPos.length 0 directions4 directions4 c.dirs4
    s s' [] [] h.toLike rfl r s1 l1 r1 h1 with ⟨s1', l1', ⟨y1, y2⟩, res⟩ | ⟨hE, q, hq, res⟩
  · have fin : ∀ q1, c.Rn r1 q1 → ∃ q, c.Rn r q ∧ relaxBodySoil g' b' p tol ⟨s', q, log'⟩ =
        .ok ⟨{ s1' with bodySoilPos := s1'.bodySoilPos ++ l1' }, q1, log'⟩ := by
      intro q1 hq1
      obtain ⟨q, hq, e1⟩ := res q1 hq1
      refine ⟨q, hq, ?_⟩
      unfold relaxBodySoil
      dsimp only
      rw [dhMax_like S, hlen, e1]
      rfl
    obtain ⟨q, -, e2⟩ := fin r1 (Chart.Rn.refl c r1)
    have f2 := relaxBodySoil_frame g' b' p tol ⟨s', q, log'⟩ _ e2
    refine .inl ⟨{ s1' with bodySoilPos := s1'.bodySoilPos ++ l1' }, [],
      ⟨⟨⟨y1.grid, y1.terrain, y1.body, y1.bodySoil, ?_, y1.equilibrium⟩, ?_⟩, ⟨f1.2.2.1, f2.2.2.1⟩, f1.1.2.1⟩, by simp,
        fun q1 hq1 => by rw [List.append_nil]; exact fin q1 hq1⟩
    · dsimp only at y2 ⊢
      rw [y1.entries, y2, List.map_append]
    · exact f2.1.2.1.trans (h.bodyArea.trans (congrArg c.area f1.1.2.1.symm))
  · refine .inr ⟨hE, q, hq, ?_⟩
    unfold relaxBodySoil
    dsimp only
    rw [dhMax_like S, hlen, res]
    rfl

theorem relaxBodySoil_like (S : SameScene c g g' b b') (p : SimParam F) (tol : F) (h : LikeA E c s s') :
    CorrW E c (fun s1 s1' => LikeA E c s1 s1' ∧ s1.relaxArea = s.relaxArea ∧ s1.bodyArea = s.bodyArea)
      (relaxBodySoil g b p tol) (relaxBodySoil g' b' p tol) s s' :=
  (relaxBodySoil_likeB S p tol h.toB).mono fun _ _ q => ⟨q.1.toA q.2.1 h.relaxArea, q.2.1.1, q.2.2⟩

theorem shuffleEntries_likeB (h : LikeB E c s s') :
    CorrW E c (fun s1 s1' => LikeB E c s1 s1' ∧ KeptR s s' s1 s1' ∧ s1.bodyArea = s.bodyArea)
      (fun w => .ok (shuffleEntries w)) (fun w => .ok (shuffleEntries w)) s s' := by
  intro r log log' w1 hr
  cases hr
  refine .inl ⟨{ s' with bodySoilPos := (shuffle s.bodySoilPos r).1.map c.entry }, [],
    ⟨⟨⟨h.grid, h.terrain, h.body, h.bodySoil, rfl, h.equilibrium⟩, h.bodyArea⟩, ⟨rfl, rfl⟩, rfl⟩, by simp [shuffleEntries],
    fun q1 hq1 => ?_⟩
  obtain ⟨q, hq, hsh⟩ := shuffle_like c c.entry s.bodySoilPos s'.bodySoilPos (by rw [h.entries]; exact Chart.Lst.refl c _) r
    q1 hq1
  refine ⟨q, hq, ?_⟩
  unfold shuffleEntries
  dsimp only
  rw [hsh, List.append_nil]

theorem shuffleEntries_like (h : LikeA E c s s') :
    CorrW E c (fun s1 s1' => LikeA E c s1 s1' ∧ s1.relaxArea = s.relaxArea ∧ s1.bodyArea = s.bodyArea)
      (fun w => .ok (shuffleEntries w)) (fun w => .ok (shuffleEntries w)) s s' :=
  (shuffleEntries_likeB h.toB).mono fun _ _ q => ⟨q.1.toA q.2.1 h.relaxArea, q.2.1.1, q.2.2⟩

theorem impactOf_like (h : LikeA E c s s') : impactOf s' = c.area (impactOf s) := by
  unfold impactOf
  rw [h.bodyArea, h.relaxArea]
  unfold Chart.area
  split <;> simp only [min_add_add_right, max_add_add_right]

theorem Chart.Roomy.impact {m n : ℤ} (hmn : m ≤ n) {s s1 : SimOut F} (h : c.Roomy g g' n (impactOf s))
    (hb : s1.bodyArea = s.bodyArea) (hr : s1.relaxArea = s.relaxArea ∨ c.Roomy g g' m s1.relaxArea) :
    c.Roomy g g' m (impactOf s1) := by
  unfold Chart.Roomy at h hr ⊢
  cases hs : c.swap with
  | true =>
    rw [hs] at h
    exact h
  | false =>
    rw [hs] at h hr
    simp only [Bool.false_eq_true, if_false] at h hr ⊢
    unfold Chart.area at h hr ⊢
    rw [hs] at h hr
    rw [hs]
    simp only [Bool.false_eq_true, if_false] at h hr ⊢
    unfold impactOf Wide at h
    unfold impactOf Wide
    dsimp only at h ⊢
    unfold Wide at hr
    dsimp only at hr
    rw [hb]
    rcases hr with hr | hr
    · rw [hr]
      omega
    · omega

theorem relaxOnce_like (S : SameScene c g g' b b') (p : SimParam F) (tol : F) (hb : 0 ≤ p.cellBuffer) {m : ℤ}
    (hm : 0 ≤ m) (h : LikeA E c s s') (hR : c.Roomy g g' (m + p.cellBuffer) (impactOf s)) :
    CorrW E c (fun s1 s1' => LikeA E c s1 s1' ∧ c.Roomy g g' m (impactOf s1))
      (relaxOnce g b p tol) (relaxOnce g' b' p tol) s s' := by
  have h0 : LikeA E c { s with impactArea := impactOf s } { s' with impactArea := impactOf s' } :=
    ⟨h.toLike.setImpact _ _, h.bodyArea, h.relaxArea⟩
  have T := relaxTerrain_like S p tol hb hm h0 (impactOf_like h) hR
  have B : CorrW E c (fun s1 s1' => LikeA E c s1 s1' ∧ (s1.relaxArea = s.relaxArea ∨ c.Roomy g g' m s1.relaxArea))
      (fun w => relaxTerrain g b p tol w >>= fun w => Except.ok (shuffleEntries w) >>= relaxBodySoil g b p tol)
      (fun w => relaxTerrain g' b' p tol w >>= fun w => Except.ok (shuffleEntries w) >>= relaxBodySoil g' b' p tol)
      { s with impactArea := impactOf s } { s' with impactArea := impactOf s' } := by
    refine T.comp fun s1 s1' q1 => ?_
    have C := shuffleEntries_like q1.1
    refine CorrW.mono (C.comp (Q2 := fun s3 s3' => LikeA E c s3 s3' ∧ s3.relaxArea = s1.relaxArea)
      fun s2 s2' q2 => (relaxBodySoil_like S p tol q2.1).mono fun s3 s3' q3 => ⟨q3.1, q3.2.1.trans q2.2.1⟩) ?_
    rintro s3 s3' ⟨q3, e⟩
    refine ⟨q3, ?_⟩
    rw [e]
    exact q1.2
  intro r log log' w1 hr
  have fr := (relaxOnce_frame g b p tol ⟨s, r, log⟩ w1 hr).1.2.1
  rcases B r log log' w1 hr with ⟨s1', x, q1, e, res⟩ | res
  · exact .inl ⟨s1', x, ⟨q1.1, hR.impact (by omega) fr q1.2⟩, e, res⟩
  · exact .inr res

theorem relaxLoop_like (S : SameScene c g g' b b') (p : SimParam F) (tol : F) (hb : 0 ≤ p.cellBuffer) (n : ℕ) (fuel : ℕ)
    (it : ℤ) (s s' : SimOut F) (hn : p.maxIterations ≤ it + n) (h : LikeA E c s s')
    (hR : c.Roomy g g' (n * p.cellBuffer) (impactOf s)) :
    ∀ r log log' w1 k, relaxLoop g b p tol fuel it ⟨s, r, log⟩ = .ok (w1, k) →
      (∃ s1' x, LikeA E c w1.out s1' ∧ w1.log = log ++ x ∧
        ∀ q1, c.Rn w1.rng q1 → ∃ q, c.Rn r q ∧
          relaxLoop g' b' p tol fuel it ⟨s', q, log'⟩ = .ok (⟨s1', q1, log' ++ x⟩, k)) ∨
      (E ∧ ∃ q, c.Rn r q ∧ relaxLoop g' b' p tol fuel it ⟨s', q, log'⟩ = .error .oob) := by
  induction n generalizing fuel it s s' with
  | zero =>
    intro r log log' w1 k hr
    have hno : ¬ it < p.maxIterations := by simp at hn; omega
    unfold relaxLoop at hr ⊢
    simp only [hno, decide_false, Bool.and_false, Bool.false_eq_true, if_false] at hr ⊢
    cases hr
    exact .inl ⟨s', [], h, by simp, fun q1 hq1 => ⟨q1, hq1, by rw [List.append_nil]⟩⟩
  | succ n ih =>
    intro r log log' w1 k hr
    unfold relaxLoop at hr ⊢
    dsimp only at hr ⊢
    simp only [h.equilibrium]
    by_cases hc : (!s.equilibrium && decide (it < p.maxIterations)) = true
    · simp only [hc, if_true] at hr ⊢
      cases fuel with
      | zero => cases hr
      | succ fuel =>
        dsimp only at hr ⊢
        obtain ⟨w2, h1, h2⟩ := bind_eq_ok.mp hr
        have hm : (0 : ℤ) ≤ n * p.cellBuffer := by positivity
        have hR' : c.Roomy g g' (n * p.cellBuffer + p.cellBuffer) (impactOf s) := by
          have : ((n + 1 : ℕ) : ℤ) * p.cellBuffer = n * p.cellBuffer + p.cellBuffer := by push_cast; ring
          rwa [this] at hR
        rcases relaxOnce_like S p tol hb hm h hR' r log log' w2 h1 with ⟨s2', x, ⟨q2, R2⟩, e, res⟩ | ⟨hE, q, hq, res⟩
        · rcases ih fuel (it + 1) w2.out s2' (by push_cast at hn; omega) q2 R2 w2.rng w2.log (log' ++ x) w1 k h2 with
            ⟨s1', y, q3, e3, res3⟩ | ⟨hE, qa, hqa, res3⟩
          · refine .inl ⟨s1', x ++ y, q3, by rw [e3, e, List.append_assoc], fun q1 hq1 => ?_⟩
            obtain ⟨qa, hqa, ra⟩ := res3 q1 hq1
            obtain ⟨qb, hqb, rb⟩ := res qa hqa
            refine ⟨qb, hqb, ?_⟩
            rw [rb, ok_bind, ra, List.append_assoc]
          · obtain ⟨qb, hqb, rb⟩ := res qa hqa
            refine .inr ⟨hE, qb, hqb, ?_⟩
            rw [rb, ok_bind, res3]
        · refine .inr ⟨hE, q, hq, ?_⟩
          rw [res]
          rfl
    · simp only [hc] at hr ⊢
      cases hr
      exact .inl ⟨s', [], h, by simp, fun q1 hq1 => ⟨q1, hq1, by rw [List.append_nil]; rfl⟩⟩

end Soil
