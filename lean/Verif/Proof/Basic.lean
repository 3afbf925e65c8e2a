import Verif.Model.Types
import Mathlib.Tactic.Linarith
import Mathlib.Tactic.Ring
import Mathlib.Tactic.FieldSimp
import Mathlib.Tactic.Positivity
import Mathlib.Tactic.NormNum
import Mathlib.Tactic.SplitIfs

/-! # Basic lemmas: the exact operations, the `Except` monad, array updates -/

namespace Soil

section Exact

variable {K : Type} [Field K] [LinearOrder K] [FloorRing K] [Transc K]

@[simp] theorem ex_add (a b : K) : FOps.add a b = a + b := rfl
@[simp] theorem ex_sub (a b : K) : FOps.sub a b = a - b := rfl
@[simp] theorem ex_mul (a b : K) : FOps.mul a b = a * b := rfl
@[simp] theorem ex_div (a b : K) : FOps.div a b = a / b := rfl
@[simp] theorem ex_neg (a : K) : FOps.neg a = -a := rfl
@[simp] theorem ex_lt (a b : K) : FOps.lt a b = decide (a < b) := rfl
@[simp] theorem ex_le (a b : K) : FOps.le a b = decide (a ≤ b) := rfl
@[simp] theorem ex_eq (a b : K) : FOps.eq a b = decide (a = b) := rfl
@[simp] theorem ex_ne (a b : K) : FOps.ne a b = decide (a ≠ b) := by simp [FOps.ne]
@[simp] theorem ex_signBit (a : K) : FOps.signBit a = decide (a < 0) := rfl
@[simp] theorem ex_ofRat (q : ℚ) : (FOps.ofRat q : K) = (q : K) := rfl
@[simp] theorem ex_ofInt (z : ℤ) : (FOps.ofInt z : K) = (z : K) := rfl
@[simp] theorem ex_zero [IsStrictOrderedRing K] : (FOps.zero : K) = 0 := by simp [FOps.zero]
@[simp] theorem ex_floor (a : K) : FOps.floor a = (⌊a⌋ : K) := rfl
@[simp] theorem ex_ceil (a : K) : FOps.ceil a = (⌈a⌉ : K) := rfl
@[simp] theorem ex_round (a : K) : FOps.round a = (roundAway a : K) := rfl
@[simp] theorem ex_sqrt (a : K) : FOps.sqrt a = Transc.sqrt a := rfl
@[simp] theorem ex_sin (a : K) : FOps.sin a = Transc.sin a := rfl
@[simp] theorem ex_cos (a : K) : FOps.cos a = Transc.cos a := rfl
@[simp] theorem ex_tan (a : K) : FOps.tan a = Transc.tan a := rfl
@[simp] theorem ex_pi : (FOps.pi : K) = Transc.pi := rfl
@[simp] theorem ex_toInt (a : K) : FOps.toInt a = some (truncZ a) := rfl

@[simp] theorem ex_max (a b : K) : FOps.max a b = Max.max a b := by
  unfold FOps.max
  simp only [ex_lt, decide_eq_true_eq]
  split_ifs with h
  · exact (max_eq_right h.le).symm
  · exact (max_eq_left (not_lt.mp h)).symm

@[simp] theorem ex_min (a b : K) : FOps.min a b = Min.min a b := by
  unfold FOps.min
  simp only [ex_lt, decide_eq_true_eq]
  split_ifs with h
  · exact (min_eq_right h.le).symm
  · exact (min_eq_left (not_lt.mp h)).symm

@[simp] theorem ex_abs [IsStrictOrderedRing K] (a : K) : FOps.abs a = |a| := by
  show (if a < 0 then -a else a) = |a|
  split_ifs with h
  · exact (abs_of_neg h).symm
  · exact (abs_of_nonneg (not_lt.mp h)).symm

@[simp] theorem castInt_exact (a : K) : castInt a = .ok (truncZ a) := rfl

end Exact

section Round

variable {K : Type} [Field K] [LinearOrder K] [FloorRing K] [IsStrictOrderedRing K]

@[simp] theorem truncZ_intCast (z : ℤ) : truncZ (z : K) = z := by
  unfold truncZ; split_ifs <;> simp

@[simp] theorem roundAway_intCast (z : ℤ) : roundAway (z : K) = z := by
  unfold roundAway
  split_ifs with h
  · rw [Int.floor_eq_iff]; constructor <;> linarith
  · rw [Int.ceil_eq_iff]; constructor <;> linarith

/-- `round` is within one half of its argument -/
theorem abs_roundAway_sub_le (x : K) : |(roundAway x : K) - x| ≤ 1 / 2 := by
  unfold roundAway
  split_ifs with h
  · have h1 := Int.floor_le (x + 1 / 2); have h2 := Int.lt_floor_add_one (x + 1 / 2)
    rw [abs_le]; constructor <;> linarith
  · have h1 := Int.le_ceil (x - 1 / 2); have h2 := Int.ceil_lt_add_one (x - 1 / 2)
    rw [abs_le]; constructor <;> linarith

/-- an integer closer than one half is the rounded value -/
theorem roundAway_eq_of_abs_lt (x : K) (z : ℤ) (h : |x - z| < 1 / 2) : roundAway x = z := by
  have h1 := abs_roundAway_sub_le x
  rw [abs_le] at h1; rw [abs_lt] at h
  have h2 : ((roundAway x : ℤ) : K) - z < 1 := by linarith
  have h3 : (-1 : K) < (roundAway x : K) - z := by linarith
  have h4 : roundAway x - z < 1 := by exact_mod_cast h2
  have h5 : -1 < roundAway x - z := by exact_mod_cast h3
  omega

theorem roundAway_mono {x y : K} (h : x ≤ y) : roundAway x ≤ roundAway y := by
  unfold roundAway
  split_ifs with h1 h2 h2
  · exact Int.floor_mono (by linarith)
  · exact absurd (h1.trans h) h2
  · have : ⌈x - 1 / 2⌉ ≤ 0 := by rw [Int.ceil_le]; push_cast; linarith
    have h3 : 0 ≤ ⌊y + 1 / 2⌋ := by rw [Int.le_floor]; push_cast; linarith
    omega
  · exact Int.ceil_mono (by linarith)

theorem le_roundAway_of_le {x : K} {z : ℤ} (h : (z : K) ≤ x) : z ≤ roundAway x := by
  have := roundAway_mono h; simpa using this

theorem roundAway_le_of_le {x : K} {z : ℤ} (h : x ≤ (z : K)) : roundAway x ≤ z := by
  have := roundAway_mono h; simpa using this

end Round

/-! ## `Except` -/

section Monad

variable {α β : Type}

theorem bind_eq_ok {x : M α} {f : α → M β} {b : β} :
    (x >>= f) = .ok b ↔ ∃ a, x = .ok a ∧ f a = .ok b := by
  cases x with
  | error e => simp [bind, Except.bind]
  | ok a => simp [bind, Except.bind]

@[simp] theorem ok_bind (a : α) (f : α → M β) : ((Except.ok a : M α) >>= f) = f a := rfl
@[simp] theorem error_bind (e : Err) (f : α → M β) : ((Except.error e : M α) >>= f) = .error e := rfl
@[simp] theorem pure_eq_ok (a : α) : (pure a : M α) = .ok a := rfl
@[simp] theorem throw_eq_error (e : Err) : (throw e : M α) = .error e := rfl

theorem guardOob_eq_ok {p : Prop} [Decidable p] {u : Unit} : guardOob p = .ok u ↔ p := by
  unfold guardOob; split_ifs with h <;> simp [h]

theorem guardOob_of {p : Prop} [Decidable p] (h : p) : guardOob p = .ok () := by
  simp [guardOob, h]

theorem guardOob_bind {p : Prop} [Decidable p] {f : Unit → M β} {b : β} :
    (guardOob p >>= f) = .ok b ↔ p ∧ f () = .ok b := by
  rw [bind_eq_ok]
  constructor
  · rintro ⟨_, h, h'⟩; exact ⟨guardOob_eq_ok.mp h, h'⟩
  · rintro ⟨h, h'⟩; exact ⟨(), guardOob_of h, h'⟩

/-- the call returns normally and its result satisfies `P` -/
def Ok (x : M α) (P : α → Prop) : Prop := ∃ a, x = .ok a ∧ P a

/-- if the call returns normally, its result satisfies `P` -/
def Post (x : M α) (P : α → Prop) : Prop := ∀ a, x = .ok a → P a

theorem Ok.post {x : M α} {P : α → Prop} (h : Ok x P) : Post x P := by
  obtain ⟨a, ha, hp⟩ := h
  intro b hb; rw [ha] at hb; cases hb; exact hp

theorem Ok.mono {x : M α} {P Q : α → Prop} (h : Ok x P) (hpq : ∀ a, P a → Q a) : Ok x Q := by
  obtain ⟨a, ha, hp⟩ := h; exact ⟨a, ha, hpq a hp⟩

theorem Post.mono {x : M α} {P Q : α → Prop} (h : Post x P) (hpq : ∀ a, P a → Q a) : Post x Q :=
  fun a ha => hpq a (h a ha)

theorem Ok.bind {x : M α} {f : α → M β} {P : α → Prop} {Q : β → Prop} (h : Ok x P)
    (hf : ∀ a, P a → Ok (f a) Q) : Ok (x >>= f) Q := by
  obtain ⟨a, rfl, hp⟩ := h; exact hf a hp

theorem Post.bind {x : M α} {f : α → M β} {P : α → Prop} {Q : β → Prop} (h : Post x P)
    (hf : ∀ a, P a → Post (f a) Q) : Post (x >>= f) Q := by
  intro b hb
  obtain ⟨a, ha, hb⟩ := bind_eq_ok.mp hb
  exact hf a (h a ha) b hb

theorem Ok.of_eq {x : M α} {P : α → Prop} {a : α} (h : x = .ok a) (hp : P a) : Ok x P := ⟨a, h, hp⟩

theorem Ok.ok {P : α → Prop} {a : α} (hp : P a) : Ok (.ok a) P := ⟨a, rfl, hp⟩

theorem Post.ok {P : α → Prop} {a : α} (hp : P a) : Post (.ok a) P := by
  intro b hb; cases hb; exact hp

theorem Post.error {P : α → Prop} {e : Err} : Post (.error e) P := by
  intro b hb; cases hb

theorem Ok.guard {p : Prop} [Decidable p] {f : Unit → M β} {Q : β → Prop} (h : p)
    (hf : Ok (f ()) Q) : Ok (guardOob p >>= f) Q := by
  rw [guardOob_of h]; exact hf

theorem Post.guard {p : Prop} [Decidable p] {f : Unit → M β} {Q : β → Prop}
    (hf : p → Post (f ()) Q) : Post (guardOob p >>= f) Q := by
  intro b hb
  obtain ⟨h, hb⟩ := guardOob_bind.mp hb
  exact hf h b hb

end Monad

/-! ## Array updates -/

section Upd

variable {F : Type}

theorem upd2_same (f : ℤ → ℤ → F) (i j : ℤ) (v : F) : upd2 f i j v i j = v := by simp [upd2]

theorem upd2_ne (f : ℤ → ℤ → F) {i j a b : ℤ} (v : F) (h : ¬(a = i ∧ b = j)) :
    upd2 f i j v a b = f a b := by simp [upd2, h]

theorem upd3_same (f : ℕ → ℤ → ℤ → F) (k : ℕ) (i j : ℤ) (v : F) : upd3 f k i j v k i j = v := by
  simp [upd3]

theorem upd3_ne (f : ℕ → ℤ → ℤ → F) {k c : ℕ} {i j a b : ℤ} (v : F)
    (h : ¬(c = k ∧ a = i ∧ b = j)) : upd3 f k i j v c a b = f c a b := by simp [upd3, h]

end Upd

/-! ## Loops over cells -/

theorem mem_intRange {a b x : ℤ} : x ∈ intRange a b ↔ a ≤ x ∧ x < b := by
  unfold intRange
  simp only [List.mem_map, List.mem_range]
  constructor
  · rintro ⟨k, hk, rfl⟩; omega
  · rintro ⟨h1, h2⟩; exact ⟨(x - a).toNat, by omega, by omega⟩

theorem nodup_intRange (a b : ℤ) : (intRange a b).Nodup := by
  unfold intRange
  refine List.Nodup.map ?_ List.nodup_range
  intro x y h
  simpa using h

theorem Area.mem_cells {a : Area} {p : ℤ × ℤ} :
    p ∈ a.cells ↔ a.minX ≤ p.1 ∧ p.1 < a.maxX ∧ a.minY ≤ p.2 ∧ p.2 < a.maxY := by
  unfold Area.cells
  simp only [List.mem_flatMap, List.mem_map, mem_intRange]
  constructor
  · rintro ⟨i, ⟨h1, h2⟩, j, ⟨h3, h4⟩, rfl⟩; exact ⟨h1, h2, h3, h4⟩
  · rintro ⟨h1, h2, h3, h4⟩; exact ⟨p.1, ⟨h1, h2⟩, p.2, ⟨h3, h4⟩, rfl⟩

theorem Area.nodup_cells (a : Area) : a.cells.Nodup := by
  unfold Area.cells
  rw [List.nodup_flatMap]
  refine ⟨fun i _ => (nodup_intRange _ _).map (fun x y h => by simpa using h), ?_⟩
  refine (nodup_intRange _ _).imp ?_
  intro i j hij
  rw [Function.onFun, List.disjoint_left]
  simp only [List.mem_map]
  rintro p ⟨_, _, rfl⟩ ⟨_, _, h⟩
  exact hij (by simpa using (congrArg Prod.fst h).symm)

theorem SimOut.mem_allCells {F : Type} {s : SimOut F} {p : ℤ × ℤ} :
    p ∈ s.allCells ↔ s.InGrid p.1 p.2 := by
  unfold SimOut.allCells SimOut.InGrid
  rw [Area.mem_cells]

end Soil
