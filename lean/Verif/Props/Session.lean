import Verif.Model.Session
import Verif.Spec.Output
import Verif.Props.Output
import Verif.Props.Example
import Mathlib.Data.List.Lex
import Mathlib.Data.String.Basic

/-! # Properties C42 and C60: contents of the output files, files of a whole run -/

set_option linter.unusedSectionVars false

namespace Soil

variable {F : Type} [FOps F]

/-! ## Contents -/

theorem pairwise_intRange (a b : ℤ) : (intRange a b).Pairwise (· < ·) := by
  unfold intRange
  rw [List.pairwise_map]
  exact List.pairwise_lt_range.imp (fun h => by omega)

theorem pairwise_cells (a : Area) :
    a.cells.Pairwise fun p q => p.1 < q.1 ∨ (p.1 = q.1 ∧ p.2 < q.2) := by
  unfold Area.cells
  rw [List.pairwise_flatMap]
  refine ⟨fun i _ => ?_, (pairwise_intRange _ _).imp fun {i j} h => ?_⟩
  · rw [List.pairwise_map]
    exact (pairwise_intRange _ _).imp fun h => .inr ⟨rfl, h⟩
  · intro x hx y hy
    obtain ⟨_, _, rfl⟩ := List.mem_map.mp hx
    obtain ⟨_, _, rfl⟩ := List.mem_map.mp hy
    exact .inl h

theorem terrainRows_file (s : SimOut F) (g : Grid F) : TerrainFile s g (terrainRows s g) := by
  refine ⟨s.allCells.map fun p => (p.1, p.2, 0), ?_, fun x => ?_, ?_⟩
  · rw [List.pairwise_map]
    refine (pairwise_cells _).imp fun {p q} h => ?_
    rcases h with h | h
    · exact .inl h
    · exact .inr ⟨h.1, .inl h.2⟩
  · obtain ⟨i, j, k⟩ := x
    simp only [List.mem_map, SimOut.mem_allCells, Prod.mk.injEq]
    constructor
    · rintro ⟨p, hp, rfl, rfl, rfl⟩; exact ⟨hp, rfl⟩
    · rintro ⟨hp, rfl⟩; exact ⟨(i, j), hp, rfl, rfl, rfl⟩
  · unfold terrainRows
    rw [List.map_map]
    rfl

/-- the layers of a column holding soil -/
def soilPlaces (s : SimOut F) (p : ℤ × ℤ) : List (ℤ × ℤ × ℕ) :=
  (if s.soilPres 0 p.1 p.2 then [(p.1, p.2, 0)] else []) ++ (if s.soilPres 2 p.1 p.2 then [(p.1, p.2, 2)] else [])

theorem mem_soilPlaces {s : SimOut F} {p : ℤ × ℤ} {x : ℤ × ℤ × ℕ} :
    x ∈ soilPlaces s p ↔ (x.1, x.2.1) = p ∧ (x.2.2 = 0 ∨ x.2.2 = 2) ∧ s.soilPres x.2.2 x.1 x.2.1 = true := by
  obtain ⟨i, j, k⟩ := x
  obtain ⟨a, b⟩ := p
  unfold soilPlaces
  constructor
  · intro h
    rcases List.mem_append.mp h with h | h <;> split_ifs at h with hs
    · obtain ⟨rfl, rfl, rfl⟩ : i = a ∧ j = b ∧ k = 0 := by simpa using h
      exact ⟨rfl, .inl rfl, hs⟩
    · simp at h
    · obtain ⟨rfl, rfl, rfl⟩ : i = a ∧ j = b ∧ k = 2 := by simpa using h
      exact ⟨rfl, .inr rfl, hs⟩
    · simp at h
  · rintro ⟨h, hk, hs⟩
    obtain ⟨rfl, rfl⟩ := Prod.mk.inj h
    dsimp only at hk hs
    rcases hk with rfl | rfl <;> simp [hs]

theorem bodySoilRows_file (s : SimOut F) (g : Grid F) : BodySoilFile s g (bodySoilRows s g) := by
  refine ⟨fun h => by simp [bodySoilRows, h], fun h => ⟨s.allCells.flatMap (soilPlaces s), ?_, fun x => ?_, ?_⟩⟩
  · rw [List.pairwise_flatMap]
    refine ⟨fun p _ => ?_, (pairwise_cells _).imp fun {p q} h => ?_⟩
    · unfold soilPlaces
      split_ifs <;> simp [FileOrder]
    · intro x hx y hy
      obtain ⟨rfl, -⟩ := mem_soilPlaces.mp hx
      obtain ⟨rfl, -⟩ := mem_soilPlaces.mp hy
      rcases h with h | h
      · exact .inl h
      · exact .inr ⟨h.1, .inl h.2⟩
  · rw [List.mem_flatMap]
    constructor
    · rintro ⟨p, hp, hx⟩
      obtain ⟨rfl, h2, h3⟩ := mem_soilPlaces.mp hx
      exact ⟨SimOut.mem_allCells.mp hp, h2, h3⟩
    · rintro ⟨h1, h2, h3⟩
      exact ⟨(x.1, x.2.1), SimOut.mem_allCells.mpr h1, mem_soilPlaces.mpr ⟨rfl, h2, h3⟩⟩
  · unfold bodySoilRows
    rw [if_neg (by simpa using h), List.map_flatMap]
    refine List.flatMap_congr fun p _ => ?_
    unfold layerRow soilPlaces
    split_ifs <;> rfl

/-- **C42**, contents. `WriteSoil` writes two files with the same number. The rows of the terrain file are the
columns of the grid, each once and in order; the rows of the body-soil file are the layers that hold soil, each
once and in order. The rows of the body file are outlines of the faces of the body. -/
theorem C42_contents (taken : String → Bool) (s : SimOut F) (g : Grid F) (body : Body F) :
    (∃ n t b, writeSoil taken s g = [⟨fileName "terrain" n, t⟩, ⟨fileName "body_soil" n, b⟩] ∧
      TerrainFile s g t ∧ BodySoilFile s g b) ∧
    BodyFile body (writeBody taken body).rows :=
  ⟨⟨_, _, _, rfl, terrainRows_file s g, bodySoilRows_file s g⟩, fun c hc => C42_body_rows taken body c hc⟩

/-! ## Names -/

theorem fileName_take (base : String) (n : ℕ) (h : 2 ≤ base.toList.length) :
    (fileName base n).toList.take 2 = base.toList.take 2 := by
  unfold fileName
  simp only [String.toList_append, List.append_assoc]
  rw [List.take_append_of_le_length h]

theorem fileName_ne {b b' : String} (n m : ℕ) (h : 2 ≤ b.toList.length) (h' : 2 ≤ b'.toList.length)
    (hne : b.toList.take 2 ≠ b'.toList.take 2) : fileName b n ≠ fileName b' m := by
  intro e
  apply hne
  rw [← fileName_take b n h, ← fileName_take b' m h', e]

/-- name of the body files -/
def bodyBase : BodyKind → String
  | .bucket => "bucket"
  | .blade => "blade"

theorem writeBody_name (taken : String → Bool) (body : Body F) :
    (writeBody taken body).name = fileName (bodyBase body.kind) (chooseNumber taken (bodyBase body.kind)) := by
  unfold writeBody bodyBase
  cases body.kind <;> rfl

theorem digits_lt {l m : List Char} (hlen : l.length = m.length) (hl : ∀ c ∈ l, c.isDigit = true)
    (hm : ∀ c ∈ m, c.isDigit = true) (h : l < m) : Nat.ofDigitChars 10 l 0 < Nat.ofDigitChars 10 m 0 := by
  have hval : ∀ c : Char, c.isDigit = true → 48 ≤ c.toNat ∧ c.toNat ≤ 57 := by
    intro c hc
    simp only [Char.isDigit, Bool.and_eq_true, decide_eq_true_eq] at hc
    exact ⟨hc.1, hc.2⟩
  have hb : ∀ l : List Char, (∀ c ∈ l, c.isDigit = true) → Nat.ofDigitChars 10 l 0 < 10 ^ l.length := by
    intro l
    induction l with
    | nil => intro _; simp
    | cons c l ih =>
      intro h
      have h1 := ih fun c hc => h c (List.mem_cons_of_mem _ hc)
      have h2 := hval c (h c List.mem_cons_self)
      rw [Nat.ofDigitChars_cons, Nat.ofDigitChars_eq_ofDigitChars_zero, List.length_cons, Nat.pow_succ]
      have h3 : 10 * 0 + (c.toNat - '0'.toNat) ≤ 9 := by
        show 10 * 0 + (c.toNat - 48) ≤ 9
        omega
      have := Nat.mul_le_mul_left (10 ^ l.length) h3
      omega
  induction l generalizing m with
  | nil =>
    cases m with
    | nil => exact absurd h (by simp)
    | cons c m => simp at hlen
  | cons a l ih =>
    cases m with
    | nil => simp at hlen
    | cons b m =>
      have hlen' : l.length = m.length := by simpa using hlen
      have ha := hval a (hl a List.mem_cons_self)
      have hb' := hval b (hm b List.mem_cons_self)
      have hl' : ∀ c ∈ l, c.isDigit = true := fun c hc => hl c (List.mem_cons_of_mem _ hc)
      have hm' : ∀ c ∈ m, c.isDigit = true := fun c hc => hm c (List.mem_cons_of_mem _ hc)
      rw [Nat.ofDigitChars_cons, Nat.ofDigitChars_cons, Nat.ofDigitChars_eq_ofDigitChars_zero,
        Nat.ofDigitChars_eq_ofDigitChars_zero (l := m), hlen']
      rcases List.cons_lt_cons_iff.mp h with h | ⟨rfl, h''⟩
      · have h1 := hb l hl'
        rw [hlen'] at h1
        have h2 : a.toNat < b.toNat := h
        have h3 : 10 * 0 + (a.toNat - '0'.toNat) + 1 ≤ 10 * 0 + (b.toNat - '0'.toNat) := by
          show 10 * 0 + (a.toNat - 48) + 1 ≤ 10 * 0 + (b.toNat - 48)
          omega
        have := Nat.mul_le_mul_left (10 ^ m.length) h3
        rw [Nat.mul_add] at this
        omega
      · have := ih hlen' hl' hm' h''
        omega

theorem fileNumber_digits (n : ℕ) : ∀ c ∈ (fileNumber n).toList, c.isDigit = true := by
  rw [fileNumber_toList]
  intro c hc
  rcases List.mem_append.mp hc with h | h
  · rw [List.eq_of_mem_replicate h]; rfl
  · exact Nat.isDigit_of_mem_toDigits (by omega) (by omega) h

theorem append_lt_append {a l m : List Char} (h : l < m) : a ++ l < a ++ m := by
  induction a with
  | nil => exact h
  | cons c a ih => exact List.cons_lt_cons_iff.mpr (.inr ⟨rfl, ih⟩)

theorem append_lt_of_lt {l m : List Char} (hlen : l.length = m.length) (h : l < m) (r : List Char) : l ++ r < m ++ r := by
  induction l generalizing m with
  | nil =>
    cases m with
    | nil => exact absurd h (by simp)
    | cons c m => simp at hlen
  | cons a l ih =>
    cases m with
    | nil => simp at hlen
    | cons b m =>
      rcases List.cons_lt_cons_iff.mp h with h | ⟨rfl, h''⟩
      · exact List.cons_lt_cons_iff.mpr (.inl h)
      · exact List.cons_lt_cons_iff.mpr (.inr ⟨rfl, ih (by simpa using hlen) h''⟩)

theorem fileName_lt {base : String} {n m : ℕ} (hn : n < 100000) (hm : m < 100000) (h : n < m) :
    fileName base n < fileName base m := by
  have hlen : (fileNumber n).toList.length = (fileNumber m).toList.length := by
    rw [String.length_toList, String.length_toList, fileNumber_length hn, fileNumber_length hm]
  have h1 : (fileNumber n).toList < (fileNumber m).toList := by
    rcases lt_trichotomy (fileNumber n).toList (fileNumber m).toList with h1 | h1 | h1
    · exact h1
    · rw [← fileNumber_value n, ← fileNumber_value m, h1] at h
      omega
    · have := digits_lt hlen.symm (fileNumber_digits m) (fileNumber_digits n) h1
      rw [fileNumber_value, fileNumber_value] at this
      omega
  rw [String.lt_iff]
  unfold fileName
  simp only [String.toList_append, List.append_assoc]
  exact append_lt_append (append_lt_append (append_lt_of_lt hlen h1 _))

/-- **C60**, names. Sorted by name, the files of one kind are in the order of their numbers. -/
theorem C60_order (base : String) (n m : ℕ) (hn : n < 100000) (hm : m < 100000) :
    fileName base n < fileName base m ↔ n < m := by
  refine ⟨fun h => ?_, fileName_lt hn hm⟩
  by_contra hc
  rcases Nat.lt_or_eq_of_le (Nat.le_of_not_lt hc) with h1 | h1
  · exact lt_asymm h (fileName_lt hm hn h1)
  · exact lt_irrefl _ (h1 ▸ h)

/-! ## Sessions -/

/-- The numbers in use by the files of one kind are those below `n`. -/
def Dir.Filled (d : Dir F) (base : String) (n : ℕ) : Prop :=
  ∀ m < 100000, d (fileName base m) ≠ none ↔ m < n

theorem Dir.Filled.choose {d : Dir F} {base : String} {n : ℕ} (h : d.Filled base n) (hn : n < 100000) :
    chooseNumber d.has base = n := by
  obtain ⟨-, b, c, e⟩ := findNumber_spec d.has base 100000 0 (by omega)
  have hh : ∀ m < 100000, d.has (fileName base m) = true ↔ m < n := by
    intro m hm
    rw [← h m hm, Dir.has, Option.isSome_iff_ne_none]
  change findNumber d.has base 100000 0 = n
  rcases Nat.lt_trichotomy (findNumber d.has base 100000 0) n with h1 | h1 | h1
  · have := e ((hh _ (by omega)).mpr h1) n (by omega) (by omega)
    have := (hh n hn).mp this
    omega
  · exact h1
  · have := (hh n hn).mp (c n (by omega) h1)
    omega

theorem Dir.put_of_ne {d : Dir F} {f : OutFile F} {x : String} (h : x ≠ f.name) : d.put f x = d x := if_neg h

theorem Dir.put_self {d : Dir F} {f : OutFile F} {x : String} (h : x = f.name) : d.put f x = some f.rows := if_pos h

theorem bodyBase_ne (k : BodyKind) (n m : ℕ) :
    fileName (bodyBase k) n ≠ fileName "terrain" m ∧ fileName (bodyBase k) n ≠ fileName "body_soil" m := by
  cases k
  · exact ⟨fileName_ne n m (by decide) (by decide) (by decide), fileName_ne n m (by decide) (by decide) (by decide)⟩
  · exact ⟨fileName_ne n m (by decide) (by decide) (by decide), fileName_ne n m (by decide) (by decide) (by decide)⟩

theorem terrain_ne (n m : ℕ) : fileName "terrain" n ≠ fileName "body_soil" m :=
  fileName_ne n m (by decide) (by decide) (by decide)

theorem fileName_inj {base : String} {n m : ℕ} (h : fileName base n = fileName base m) : n = m := by
  have h' := congrArg String.toList h
  simp only [fileName, String.toList_append, List.append_assoc, List.append_cancel_left_eq,
    List.append_cancel_right_eq] at h'
  rw [← fileNumber_value n, ← fileNumber_value m, h']

/-- One call of `WriteOutputs` in a directory with free numbers -/
theorem writeInto_spec {d : Dir F} {n m : ℕ} {s : SimOut F} {g : Grid F} {body : Body F}
    (h1 : d.Filled "terrain" n) (hn : n < 100000) (h2 : d.Filled (bodyBase body.kind) m) (hm : m < 100000) :
    (∃ t, writeInto d s g body (fileName "terrain" n) = some t ∧ TerrainFile s g t) ∧
    (∃ b, writeInto d s g body (fileName "body_soil" n) = some b ∧ BodySoilFile s g b) ∧
    (∃ c, writeInto d s g body (fileName (bodyBase body.kind) m) = some c ∧ BodyFile body c) ∧
    (∀ x, x ≠ fileName "terrain" n → x ≠ fileName "body_soil" n → x ≠ fileName (bodyBase body.kind) m →
      writeInto d s g body x = d x) := by
  have e1 := h1.choose hn
  let d1 : Dir F := (d.put ⟨fileName "terrain" n, terrainRows s g⟩).put ⟨fileName "body_soil" n, bodySoilRows s g⟩
  have hd1 : (writeSoil d.has s g).foldl Dir.put d = d1 := by
    unfold writeSoil
    rw [e1]
    rfl
  have h3 : d1.Filled (bodyBase body.kind) m := by
    intro k hk
    rw [← h2 k hk]
    obtain ⟨a, b⟩ := bodyBase_ne body.kind k n
    show d1 _ ≠ none ↔ _
    rw [show d1 (fileName (bodyBase body.kind) k) = d (fileName (bodyBase body.kind) k) from
      (Dir.put_of_ne b).trans (Dir.put_of_ne a)]
  have e2 := h3.choose hm
  have hw : writeInto d s g body = d1.put (writeBody d1.has body) := by
    unfold writeInto
    rw [hd1]
  have hname : (writeBody d1.has body).name = fileName (bodyBase body.kind) m := by
    rw [writeBody_name, e2]
  obtain ⟨a, b⟩ := bodyBase_ne body.kind m n
  rw [hw]
  refine ⟨⟨_, ?_, terrainRows_file s g⟩, ⟨_, ?_, bodySoilRows_file s g⟩, ⟨_, Dir.put_self hname.symm,
    fun c hc => C42_body_rows _ body c hc⟩, fun x hx1 hx2 hx3 => ?_⟩
  · rw [Dir.put_of_ne (by rw [hname]; exact a.symm)]
    exact (Dir.put_of_ne (terrain_ne n n)).trans (Dir.put_self rfl)
  · rw [Dir.put_of_ne (by rw [hname]; exact b.symm)]
    exact Dir.put_self rfl
  · rw [Dir.put_of_ne (by rw [hname]; exact hx3)]
    exact (Dir.put_of_ne hx2).trans (Dir.put_of_ne hx1)

theorem writeInto_filled {d : Dir F} {n m : ℕ} {s : SimOut F} {g : Grid F} {body : Body F}
    (h1 : d.Filled "terrain" n) (hn : n < 100000) (h2 : d.Filled (bodyBase body.kind) m) (hm : m < 100000) :
    (writeInto d s g body).Filled "terrain" (n + 1) ∧
    (writeInto d s g body).Filled (bodyBase body.kind) (m + 1) := by
  obtain ⟨⟨t, ht, -⟩, -, ⟨c, hc, -⟩, ho⟩ := writeInto_spec (s := s) (g := g) h1 hn h2 hm
  constructor
  · intro k hk
    by_cases e : k = n
    · subst e; rw [ht]; simp
    · rw [ho _ (fun h => e (fileName_inj h)) (terrain_ne _ _) (bodyBase_ne _ _ _).1.symm, h1 k hk]
      omega
  · intro k hk
    by_cases e : k = m
    · subst e; rw [hc]; simp
    · rw [ho _ (bodyBase_ne _ _ _).1 (bodyBase_ne _ _ _).2 (fun h => e (fileName_inj h)), h2 k hk]
      omega

theorem step_kind {g : Grid F} {p : SimParam F} {tol : F} {body : Body F} {pos : Vec3 F} {ori : Quat F}
    {fuel : ℕ} {w : World F} {r : StepResult F} (hr : step fuel pos ori g body p tol w = .ok r) :
    r.body.kind = body.kind := by
  cases hu : r.updated with
  | false => rw [((C12_step fuel pos ori g body p tol w r hr).1 hu).2]
  | true => rw [(C12_step fuel pos ori g body p tol w r hr).2 hu]

/-- **C60**. A run that writes its outputs, into a directory in which terrain files have the numbers below `n` and
body files those below `m`, makes the same steps as one that does not; afterwards, the state after step `i` is
found in the terrain and body-soil files of number `n + i`, and the body after step `i` in the body file of number
`m + i`. No other file is changed; in particular no frame of this run or of an earlier one is lost. -/
theorem C60_frames (fuel : ℕ) (g : Grid F) (p : SimParam F) (tol : F) (l : List (Vec3 F × Quat F))
    (body body' : Body F) (w w' : World F) (d d' : Dir F) (n m : ℕ)
    (h1 : d.Filled "terrain" n) (hn : n + l.length ≤ 100000)
    (h2 : d.Filled (match body.kind with | .bucket => "bucket" | .blade => "blade") m) (hm : m + l.length ≤ 100000)
    (h : simulateWrite fuel g p tol l body w d = .ok (d', body', w')) :
    run fuel g p tol l body w = .ok (body', w') ∧
    (∀ i < l.length, ∃ bi wi, run fuel g p tol (l.take (i + 1)) body w = .ok (bi, wi) ∧
      (∃ t, d' (fileName "terrain" (n + i)) = some t ∧ TerrainFile wi.out g t) ∧
      (∃ b, d' (fileName "body_soil" (n + i)) = some b ∧ BodySoilFile wi.out g b) ∧
      (∃ c, d' (fileName (match body.kind with | .bucket => "bucket" | .blade => "blade") (m + i)) = some c ∧
        BodyFile bi c)) ∧
    (∀ x, (∀ i < l.length, x ≠ fileName "terrain" (n + i) ∧ x ≠ fileName "body_soil" (n + i) ∧
      x ≠ fileName (match body.kind with | .bucket => "bucket" | .blade => "blade") (m + i)) → d' x = d x) := by
  have hb : (match body.kind with | .bucket => "bucket" | .blade => "blade") = bodyBase body.kind := by
    cases body.kind <;> rfl
  rw [hb] at h2 ⊢
  clear hb
  induction l generalizing body w d n m with
  | nil =>
    cases h
    exact ⟨rfl, fun i hi => absurd hi (by simp), fun x _ => rfl⟩
  | cons q l ih =>
    obtain ⟨pos, ori⟩ := q
    obtain ⟨r, hr, h'⟩ := bind_eq_ok.mp h
    have hk := step_kind hr
    rw [← hk] at h2
    simp only [List.length_cons] at hn hm
    obtain ⟨f1, f2⟩ := writeInto_filled (s := r.world.out) (g := g) h1 (by omega) h2 (by omega)
    obtain ⟨⟨t, ht, ht'⟩, ⟨b, hb, hb'⟩, ⟨c, hc, hc'⟩, ho⟩ :=
      writeInto_spec (s := r.world.out) (g := g) h1 (by omega) h2 (by omega)
    obtain ⟨i1, i2, i3⟩ := ih r.body r.world _ (n + 1) (m + 1) f1 (by omega) f2 (by omega) h'
    refine ⟨?_, ?_, ?_⟩
    · show (step fuel pos ori g body p tol w >>= fun r => run fuel g p tol l r.body r.world) = _
      rw [hr]
      exact i1
    · intro i hi
      cases i with
      | zero =>
        refine ⟨r.body, r.world, ?_, ⟨t, ?_, ht'⟩, ⟨b, ?_, hb'⟩, ⟨c, ?_, hc'⟩⟩
        · show (step fuel pos ori g body p tol w >>= fun r => run fuel g p tol [] r.body r.world) = _
          rw [hr]
          rfl
        · rw [i3, Nat.add_zero, ht]
          intro i _
          exact ⟨fun e => by have := fileName_inj e; omega, terrain_ne _ _, (bodyBase_ne _ _ _).1.symm⟩
        · rw [i3, Nat.add_zero, hb]
          intro i _
          exact ⟨(terrain_ne _ _).symm, fun e => by have := fileName_inj e; omega, (bodyBase_ne _ _ _).2.symm⟩
        · rw [i3, Nat.add_zero, ← hk, hc]
          intro i _
          rw [← hk]
          exact ⟨(bodyBase_ne _ _ _).1, (bodyBase_ne _ _ _).2, fun e => by have := fileName_inj e; omega⟩
      | succ i =>
        obtain ⟨bi, wi, a1, a2⟩ := i2 i (by simpa using hi)
        refine ⟨bi, wi, ?_, ?_⟩
        · show (step fuel pos ori g body p tol w >>= fun r => run fuel g p tol (l.take (i + 1)) r.body r.world) = _
          rw [hr]
          exact a1
        · rw [hk, show n + 1 + i = n + (i + 1) by omega, show m + 1 + i = m + (i + 1) by omega] at a2
          exact a2
    · intro x hx
      rw [i3]
      · have := hx 0 (by simp)
        rw [← hk] at this
        exact ho x this.1 this.2.1 this.2.2
      · intro i hi
        have := hx (i + 1) (by simpa using hi)
        rw [← hk] at this
        rw [show n + 1 + i = n + (i + 1) by omega, show m + 1 + i = m + (i + 1) by omega]
        exact this

/-- **C60**. Writing outputs does not stop a run: it returns whenever the steps do. -/
theorem C60_returns (fuel : ℕ) (g : Grid F) (p : SimParam F) (tol : F) (l : List (Vec3 F × Quat F))
    (body body' : Body F) (w w' : World F) (d : Dir F) (h : run fuel g p tol l body w = .ok (body', w')) :
    ∃ d', simulateWrite fuel g p tol l body w d = .ok (d', body', w') := by
  induction l generalizing body w d with
  | nil => cases h; exact ⟨d, rfl⟩
  | cons q l ih =>
    obtain ⟨pos, ori⟩ := q
    obtain ⟨r, hr, h'⟩ := bind_eq_ok.mp h
    obtain ⟨d', hd⟩ := ih r.body r.world (writeInto d r.world.out g r.body) h'
    refine ⟨d', ?_⟩
    show (step fuel pos ori g body p tol w >>= fun r => simulateWrite fuel g p tol l r.body r.world
      (writeInto d r.world.out g r.body)) = _
    rw [hr]
    exact hd

/-- **C60**, the limit. When all 100000 numbers are in use, each call replaces the last terrain and body-soil
files: the previous frame is lost without any notice. -/
theorem C60_full (g : Grid F) (s : SimOut F) (body : Body F) (d : Dir F) (h : d.Filled "terrain" 100000) :
    (∃ t, writeInto d s g body (fileName "terrain" 99999) = some t ∧ TerrainFile s g t) ∧
    ∀ n < 99999, writeInto d s g body (fileName "terrain" n) = d (fileName "terrain" n) := by
  have hc : chooseNumber d.has "terrain" = 99999 := by
    obtain ⟨-, b, c, e⟩ := findNumber_spec d.has "terrain" 100000 0 (by omega)
    change findNumber d.has "terrain" 100000 0 = 99999
    have all : ∀ m < 100000, d.has (fileName "terrain" m) = true := by
      intro m hm
      rw [Dir.has, Option.isSome_iff_ne_none]
      exact (h m hm).mpr hm
    have last : ∀ count n, 0 < count → n + count ≤ 100000 → findNumber d.has "terrain" count n = n + count - 1 := by
      intro count
      induction count with
      | zero => omega
      | succ k ih =>
        intro n _ hk
        unfold findNumber
        rw [if_pos (all n (by omega))]
        rcases Nat.eq_zero_or_pos k with rfl | hp
        · rfl
        · rw [ih (n + 1) hp (by omega)]
          omega
    exact last 100000 0 (by omega) (by omega)
  have hw : writeInto d s g body = (((d.put ⟨fileName "terrain" 99999, terrainRows s g⟩).put
      ⟨fileName "body_soil" 99999, bodySoilRows s g⟩).put (writeBody (((d.put ⟨fileName "terrain" 99999, terrainRows s g⟩).put
      ⟨fileName "body_soil" 99999, bodySoilRows s g⟩)).has body)) := by
    unfold writeInto writeSoil
    rw [hc]
    rfl
  rw [hw]
  have key : ∀ n, (((d.put ⟨fileName "terrain" 99999, terrainRows s g⟩).put
      ⟨fileName "body_soil" 99999, bodySoilRows s g⟩).put (writeBody (((d.put ⟨fileName "terrain" 99999, terrainRows s g⟩).put
      ⟨fileName "body_soil" 99999, bodySoilRows s g⟩)).has body)) (fileName "terrain" n) =
      d.put ⟨fileName "terrain" 99999, terrainRows s g⟩ (fileName "terrain" n) := by
    intro n
    rw [Dir.put_of_ne (by rw [writeBody_name]; exact (bodyBase_ne _ _ _).1.symm)]
    exact Dir.put_of_ne (terrain_ne _ _)
  refine ⟨⟨_, (key _).trans (Dir.put_self rfl), terrainRows_file s g⟩, fun n hn => ?_⟩
  rw [key]
  exact Dir.put_of_ne fun e => by have := fileName_inj e; omega

/-- **C60**, the shipped program run with `write_outputs` in a directory without earlier outputs of a bucket, on ℝ: for all
random numbers it ends, having written between 40 and 5000 frames; frame `i` is the state after step `i`. -/
theorem C60_shipped (rng : Rng) (d : Dir ℝ) (h1 : d.Filled "terrain" 0) (h2 : d.Filled "bucket" 0) :
    ∃ (g : Grid ℝ) (p : SimParam ℝ) (body : Body ℝ) (w : World ℝ) (poses : List (Vec3 ℝ × Quat ℝ))
      (body' : Body ℝ) (w' : World ℝ) (N n : ℕ),
      mkGrid 4 4 4 (1 / 20) (1 / 100) = .ok g ∧ mkSimParam (17 / 20) 3 4 = .ok p ∧
      shippedBody .bucket = .ok body ∧ init g 32 ⟨mkSimOut g, rng, []⟩ = .ok w ∧
      40 ≤ n ∧ n ≤ 5000 ∧ poses.length = n + 1 ∧
      ∀ fuel, N ≤ fuel → ∃ d', soilEvolutionWrite fuel body (defaultTraj body) rng d = .ok (d', body', w') ∧
        d'.Filled "terrain" n ∧ d'.Filled "bucket" n ∧
        (∃ times, evolution fuel g body (defaultTraj body) = .ok (times, poses)) ∧
        ∀ i < n, ∃ bi wi, run fuel g p (1 / 100000) (poses.take (i + 1)) body w = .ok (bi, wi) ∧
          (∃ t, d' (fileName "terrain" i) = some t ∧ TerrainFile wi.out g t) ∧
          (∃ b, d' (fileName "body_soil" i) = some b ∧ BodySoilFile wi.out g b) ∧
          (∃ c, d' (fileName "bucket" i) = some c ∧ BodyFile bi c) := by
  obtain ⟨g, p, body, w, times, poses, cs, body', w', N, hg, hp, hb, hi, hrun, c1, c2, c3, c4, -⟩ := C55_shipped rng
  have hkind : body.kind = .bucket := by
    rw [shippedBody_bucket] at hb
    cases hb
    rfl
  have hl : poses.dropLast.length = cs.length := by rw [List.length_dropLast, c4, c3]; rfl
  refine ⟨g, p, body, w, poses, body', w', N, cs.length, hg, hp, hb, hi, c1, c2, by omega, fun fuel hf => ?_⟩
  obtain ⟨-, he, hr⟩ := hrun fuel hf
  obtain ⟨d', hd⟩ := C60_returns fuel g p (1 / 100000) poses.dropLast body body' w w' d hr
  obtain ⟨-, f1, f2⟩ := C60_frames fuel g p (1 / 100000) poses.dropLast body body' w w' d d' 0 0 h1 (by omega)
    (by rw [hkind]; exact h2) (by omega) hd
  rw [hkind] at f1 f2
  simp only [Nat.zero_add] at f1 f2
  rw [hl] at f1 f2
  have htake : poses.take times.length = poses.dropLast := by
    rw [List.dropLast_eq_take, c4]; rfl
  refine ⟨d', ?_, fun m hm => ⟨fun h => ?_, fun h => ?_⟩, fun m hm => ⟨fun h => ?_, fun h => ?_⟩, ⟨times, he⟩, fun i hi => ?_⟩
  · unfold soilEvolutionWrite
    simp only [ex_ofRat]
    norm_num
    norm_num at hg hp
    rw [hg, ok_bind, hp, ok_bind, he, ok_bind, hi, ok_bind]
    dsimp only
    rw [mapM_nodeAt _ _ (by omega), ok_bind, htake]
    norm_num at hd
    exact hd
  · by_contra hc
    rw [f2 _ fun i hi => ⟨fun e => by have := fileName_inj e; omega, terrain_ne _ _,
      (bodyBase_ne .bucket _ _).1.symm⟩] at h
    have := (h1 m hm).mp h
    omega
  · obtain ⟨_, _, _, ⟨t, ht, -⟩, -⟩ := f1 m h
    rw [ht]; simp
  · by_contra hc
    rw [f2 (fileName "bucket" m) fun i hi => ⟨(bodyBase_ne .bucket _ _).1, (bodyBase_ne .bucket _ _).2,
      fun e => by have := fileName_inj e; omega⟩] at h
    have := (h2 m hm).mp h
    omega
  · obtain ⟨_, _, _, -, -, ⟨t, ht, -⟩⟩ := f1 m h
    rw [ht]; simp
  · obtain ⟨bi, wi, a1, a2⟩ := f1 i hi
    refine ⟨bi, wi, ?_, a2⟩
    rw [List.dropLast_eq_take, List.take_take, c4, c3, Nat.min_eq_left (by omega)] at a1
    exact a1

/-- An empty directory meets the hypotheses of `C60_frames`, as does one with the first two frames. -/
example : Dir.Filled (F := ℚ) (fun _ => none) "terrain" 0 ∧ Dir.Filled (F := ℚ) (fun _ => none) "bucket" 0 :=
  ⟨fun m _ => by simp, fun m _ => by simp⟩

example : Dir.Filled (F := ℚ)
    (fun x => if x = fileName "terrain" 0 ∨ x = fileName "terrain" 1 then some [] else none) "terrain" 2 := by
  intro m _
  constructor
  · intro h
    dsimp only at h
    split_ifs at h with hc
    · rcases hc with hc | hc <;> have := fileName_inj hc <;> omega
    · simp at h
  · intro h
    have : m = 0 ∨ m = 1 := by omega
    rcases this with rfl | rfl <;> simp

/-- A full directory exists. -/
example : Dir.Filled (F := ℚ) (fun _ => some []) "terrain" 100000 := fun m hm => by simp [hm]

end Soil
