import Verif.Model.Output
import Verif.Proof.Basic
import Mathlib.Data.List.Rotate

/-! # Property C42: output files -/

namespace Soil

theorem fileNumber_toList (n : ℕ) : (fileNumber n).toList =
    List.replicate (5 - Min.min 5 (Nat.toDigits 10 n).length) '0' ++ Nat.toDigits 10 n := by
  simp [fileNumber, Nat.repr_eq_ofList_toDigits, Nat.toString_eq_repr]

theorem fileNumber_value (n : ℕ) : Nat.ofDigitChars 10 (fileNumber n).toList 0 = n := by
  rw [fileNumber_toList, Nat.ofDigitChars_append, Nat.ofDigitChars_replicate_zero, Nat.mul_zero,
    Nat.ofDigitChars_ten_toDigits]

theorem fileNumber_length {n : ℕ} (h : n < 100000) : (fileNumber n).length = 5 := by
  have h1 : (Nat.toDigits 10 n).length ≤ 5 :=
    (Nat.length_toDigits_le_iff (b := 10) (by omega) (by omega)).mpr (by omega)
  rw [← String.length_toList, fileNumber_toList]
  simp
  omega

theorem findNumber_spec (taken : String → Bool) (base : String) (count n : ℕ) (hc : 0 < count) :
    n ≤ findNumber taken base count n ∧ findNumber taken base count n < n + count ∧
    (∀ m, n ≤ m → m < findNumber taken base count n → taken (fileName base m) = true) ∧
    (taken (fileName base (findNumber taken base count n)) = true →
      ∀ m, n ≤ m → m < n + count → taken (fileName base m) = true) := by
  induction count generalizing n with
  | zero => omega
  | succ c ih =>
    unfold findNumber
    split_ifs with h
    · rcases Nat.eq_zero_or_pos c with rfl | hc'
      · simp only [findNumber]
        refine ⟨by omega, by omega, fun m h1 h2 => by omega, fun _ m h1 h2 => ?_⟩
        have : m = n := by omega
        exact this ▸ h
      · obtain ⟨a, b, d, e⟩ := ih (n + 1) hc'
        refine ⟨by omega, by omega, fun m h1 h2 => ?_, fun ht m h1 h2 => ?_⟩
        · by_cases hm : m = n
          · exact hm ▸ h
          · exact d m (by omega) h2
        · by_cases hm : m = n
          · exact hm ▸ h
          · exact e ht m (by omega) (by omega)
    · exact ⟨le_rfl, by omega, fun m h1 h2 => by omega, fun ht => absurd ht h⟩

/-- **C42**. Different numbers below 100000 give different file names, all with five digits. -/
theorem C42_names (base : String) (n m : ℕ) (hn : n < 100000) :
    (fileName base n = base ++ "_" ++ fileNumber n ++ ".csv" ∧ (fileNumber n).length = 5 ∧
      Nat.ofDigitChars 10 (fileNumber n).toList 0 = n) ∧
    (fileName base n = fileName base m → n = m) := by
  refine ⟨⟨rfl, fileNumber_length hn, fileNumber_value n⟩, fun h => ?_⟩
  have h' := congrArg String.toList h
  simp only [fileName, String.toList_append, List.append_assoc, List.append_cancel_left_eq,
    List.append_cancel_right_eq] at h'
  rw [← fileNumber_value n, ← fileNumber_value m, h']

/-- **C42**. One call writes exactly a terrain and a body-soil file carrying the same number; the
number is below 100000, all smaller numbers are in use by terrain files, and an existing terrain file
is overwritten only when all 100000 numbers are in use. -/
theorem C42_writeSoil {F : Type} [FOps F] (taken : String → Bool) (s : SimOut F) (g : Grid F) :
    ∃ n, n < 100000 ∧
      (writeSoil taken s g).map (fun f => f.name) = [fileName "terrain" n, fileName "body_soil" n] ∧
      (∀ m < n, taken (fileName "terrain" m) = true) ∧
      (taken (fileName "terrain" n) = true →
        ∀ m < 100000, taken (fileName "terrain" m) = true) := by
  obtain ⟨-, b, d, e⟩ := findNumber_spec taken "terrain" 100000 0 (by omega)
  exact ⟨chooseNumber taken "terrain", by simpa [chooseNumber] using b, rfl, fun m hm => d m (by omega) hm,
    fun h m hm => e h m (by omega) (by omega)⟩

/-- **C42**. The same for the body file. -/
theorem C42_writeBody {F : Type} [FOps F] (taken : String → Bool) (body : Body F) :
    ∃ n base, base = (match body.kind with | .bucket => "bucket" | .blade => "blade") ∧
      n < 100000 ∧ (writeBody taken body).name = fileName base n ∧
      (∀ m < n, taken (fileName base m) = true) ∧
      (taken (fileName base n) = true → ∀ m < 100000, taken (fileName base m) = true) := by
  have key : ∀ base, (writeBody taken body).name = fileName base (chooseNumber taken base) →
      base = (match body.kind with | .bucket => "bucket" | .blade => "blade") →
      ∃ n base, base = (match body.kind with | .bucket => "bucket" | .blade => "blade") ∧
      n < 100000 ∧ (writeBody taken body).name = fileName base n ∧
      (∀ m < n, taken (fileName base m) = true) ∧
      (taken (fileName base n) = true → ∀ m < 100000, taken (fileName base m) = true) := by
    intro base hb hk
    obtain ⟨-, b, d, e⟩ := findNumber_spec taken base 100000 0 (by omega)
    exact ⟨chooseNumber taken base, base, hk, by simpa [chooseNumber] using b, hb, fun m hm => d m (by omega) hm,
      fun h m hm => e h m (by omega) (by omega)⟩
  unfold writeBody at key ⊢
  cases h : body.kind <;> simp only [h] at key ⊢
  · exact key "bucket" rfl rfl
  · exact key "blade" rfl rfl

/-- **C42**. Only the terrain name is looked up: a body-soil file can be overwritten although its
number is in use and all other numbers are free. -/
theorem C42_body_soil_overwrites {F : Type} [FOps F] (s : SimOut F) (g : Grid F) :
    ∃ taken : String → Bool, taken (fileName "body_soil" 0) = true ∧
      (∀ m, taken (fileName "terrain" m) = false) ∧
      fileName "body_soil" 0 ∈ (writeSoil taken s g).map (fun f => f.name) := by
  refine ⟨fun x => x == fileName "body_soil" 0, by simp, fun m => ?_, ?_⟩
  · rw [beq_eq_false_iff_ne]
    intro h
    have h' := congrArg String.toList h
    simp only [fileName, String.toList_append] at h'
    have : (['t'] : List Char) = ['b'] := by
      have := congrArg (List.take 1) h'
      simpa using this
    simp at this
  · have : chooseNumber (fun x => x == fileName "body_soil" 0) "terrain" = 0 := by
      unfold chooseNumber findNumber
      rw [if_neg]
      rw [Bool.not_eq_true, beq_eq_false_iff_ne]
      decide
    simp [writeSoil, this]

/-- **C42**. The terrain file has one line per column, at the position of the column and with its
height; the body-soil file lists the top of each layer holding soil. -/
theorem C42_rows {F : Type} [FOps F] (taken : String → Bool) (s : SimOut F) (g : Grid F)
    (row : Vec3 F) :
    (∃ f ∈ writeSoil taken s g, f.name = fileName "terrain" (chooseNumber taken "terrain") ∧
      (row ∈ f.rows ↔ ∃ i j, s.InGrid i j ∧ row = ⟨g.vectX i, g.vectY j, s.terrain i j⟩)) ∧
    (∃ f ∈ writeSoil taken s g, f.name = fileName "body_soil" (chooseNumber taken "terrain") ∧
      (s.bodySoilPos ≠ [] → (row ∈ f.rows ↔ ∃ i j k, s.InGrid i j ∧ (k = 0 ∨ k = 2) ∧
        s.soilPres k i j = true ∧ row = ⟨g.vectX i, g.vectY j, s.bodySoil (k + 1) i j⟩))) := by
  refine ⟨⟨_, List.mem_cons_self, rfl, ?_⟩, ⟨_, List.mem_cons_of_mem _ List.mem_cons_self, rfl, ?_⟩⟩
  · dsimp only [terrainRows]
    rw [List.mem_map]
    constructor
    · rintro ⟨p, hp, rfl⟩; exact ⟨p.1, p.2, SimOut.mem_allCells.mp hp, rfl⟩
    · rintro ⟨i, j, hp, rfl⟩; exact ⟨(i, j), SimOut.mem_allCells.mpr hp, rfl⟩
  · intro hne
    dsimp only [bodySoilRows]
    rw [if_neg (by simpa using hne), List.mem_flatMap]
    constructor
    · rintro ⟨p, hp, h⟩
      rw [List.mem_append] at h
      unfold layerRow at h
      rcases h with h | h <;> split_ifs at h with hs
      · exact ⟨p.1, p.2, 0, SimOut.mem_allCells.mp hp, .inl rfl, hs, by simpa using h⟩
      · simp at h
      · exact ⟨p.1, p.2, 2, SimOut.mem_allCells.mp hp, .inr rfl, hs, by simpa using h⟩
      · simp at h
    · rintro ⟨i, j, k, hp, rfl | rfl, hs, rfl⟩
      · exact ⟨(i, j), SimOut.mem_allCells.mpr hp, by simp [layerRow, hs]⟩
      · exact ⟨(i, j), SimOut.mem_allCells.mpr hp, by simp [layerRow, hs]⟩

/-- **C42**. The body file is a list of outlines of faces, in terms of the corners of the body in its
current pose: for a bucket the right side, the back, the base and the left side, for a blade the front
faces above and below the joint. Each outline goes once around its face. -/
theorem C42_body_rows {F : Type} [FOps F] (taken : String → Bool) (body : Body F) (c : Corners F)
    (hc : c = calcBodyCornerPos body.pos body.ori body) :
    (body.kind = .bucket → ∃ right back base left,
      (writeBody taken body).rows = right ++ back ++ base ++ left ∧
      right.IsRotated [c.jr, c.br, c.tr] ∧ back.IsRotated [c.jr, c.jl, c.bl, c.br] ∧
      base.IsRotated [c.bl, c.br, c.tr, c.tl] ∧ left.IsRotated [c.bl, c.tl, c.jl]) ∧
    (body.kind = .blade → ∃ lower upper, (writeBody taken body).rows = lower ++ upper ∧
      lower.IsRotated [c.jr, c.br, c.bl, c.jl] ∧ upper.IsRotated [c.jr, c.jl, c.tl, c.tr]) := by
  subst hc
  constructor
  · intro h
    refine ⟨[_, _, _], [_, _, _, _], [_, _, _, _], [_, _, _], by simp only [writeBody, h]; rfl, ?_, ?_, ?_, ?_⟩
    · exact ⟨2, rfl⟩
    · exact ⟨0, rfl⟩
    · exact ⟨3, rfl⟩
    · exact ⟨0, rfl⟩
  · intro h
    refine ⟨[_, _, _, _], [_, _, _, _], by simp only [writeBody, h]; rfl, ⟨3, rfl⟩, ⟨0, rfl⟩⟩

/-- The hypotheses of `C42_names` are met, and with the first two numbers in use the third is
chosen. -/
example : (7 : ℕ) < 100000 ∧ fileName "terrain" 7 = "terrain_00007.csv" := by decide

example : chooseNumber (fun x => x == "terrain_00000.csv" || x == "terrain_00001.csv") "terrain"
    = 2 := by decide

end Soil
