import Verif.Spec.Settle
import Verif.Spec.WellFormed

/-!
# Avalanches

One avalanche moves soil from a surface to a lower surface of a neighbouring column. The surfaces of a
column are the terrain and the two body layers, bare or covered with soil.
-/

namespace Soil

/-- A surface on which soil can lie: the terrain of a column, or layer `k` (0 or 2) of the body in a
column. -/
inductive Place where
  | ground (i j : ℤ)
  | layer (k : ℕ) (i j : ℤ)

/-- the column of a surface -/
def Place.col : Place → ℤ × ℤ
  | .ground i j => (i, j)
  | .layer _ i j => (i, j)

/-- the terrain -/
def Place.OnGround : Place → Prop
  | .ground _ _ => True
  | .layer _ _ _ => False

/-- a layer of the body -/
def Place.OnBody : Place → Prop
  | .ground _ _ => False
  | .layer _ _ _ => True

/-- two columns sharing a side -/
def Beside (p q : ℤ × ℤ) : Prop :=
  (q.1 = p.1 ∧ (q.2 = p.2 + 1 ∨ q.2 = p.2 - 1)) ∨ (q.2 = p.2 ∧ (q.1 = p.1 + 1 ∨ q.1 = p.1 - 1))

/-- The surface of column `(i, j)` designated by the second digit of a stability code (relax.cpp 266-287
and 420-441): 0 the terrain, 1 and 2 the second layer of the body, 3 and 4 the first one. -/
def landing (code : ℕ) (i j : ℤ) : Place :=
  match code % 10 with
  | 1 => .layer 2 i j
  | 2 => .layer 2 i j
  | 3 => .layer 0 i j
  | 4 => .layer 0 i j
  | _ => .ground i j

variable {K : Type} [Field K] [LinearOrder K]

/-- the surface exists -/
def Place.In (s : SimOut K) : Place → Prop
  | .ground i j => s.InGrid i j
  | .layer k i j => s.InGrid i j ∧ (k = 0 ∨ k = 2) ∧ HasBody s k i j

/-- the height of the surface: the terrain, or the top of the wall plus the soil on it -/
def Place.height (s : SimOut K) : Place → K
  | .ground i j => s.terrain i j
  | .layer k i j => s.body (k + 1) i j + layerSoil s k i j

/-- soil lies there: always on the terrain -/
def Place.Soiled (s : SimOut K) : Place → Prop
  | .ground _ _ => True
  | .layer k i j => 0 < layerSoil s k i j

/-- the surface touches the bottom of a body layer above it: there is no room for more soil -/
def Place.Filled (s : SimOut K) : Place → Prop
  | .ground i j => ∃ k, (k = 0 ∨ k = 2) ∧ HasBody s k i j ∧ s.terrain i j = s.body k i j
  | .layer k i j => ∃ k', (k' = 0 ∨ k' = 2) ∧ HasBody s k' i j ∧ s.body k i j < s.body k' i j ∧
      s.body (k + 1) i j + layerSoil s k i j = s.body k' i j

/-- An avalanche of the amount `m` from surface `a` to surface `b`, for cells of height `c` and the
repose height `dh`. It starts when `b` is lower than `a` by more than the repose height, never
overshoots by more than a cell, and stops only because the slope is at most the repose height, because
there is no more room at the target, or because all the soil it may take, `cap`, has moved. -/
structure Avalanche (c dh : K) (cap : Option K) (s s' : SimOut K) (a b : Place) (m : K) : Prop where
  source : a.In s
  target : b.In s
  steep : b.height s + dh < a.height s
  pos : 0 < m
  cells : Al c m
  enough : ∀ x, cap = some x → m ≤ x
  left : a.height s' = a.height s - m
  right : b.height s' = b.height s + m
  others : ∀ p, p.In s → p ≠ a → p ≠ b → p.height s' = p.height s
  body : SameBody s s'
  gentle : b.height s' + dh ≤ a.height s' + c
  stop : a.height s' ≤ b.height s' + dh ∨ b.Filled s' ∨ cap = some m

/-- What an avalanche may take: terrain without limit, from a body layer one entry of
`body_soil_pos_`. -/
inductive Takes (s : SimOut K) : Place → Option K → Prop
  | ground (i j : ℤ) : Takes s (.ground i j) none
  | entry (e : BodySoil K) : e ∈ s.bodySoilPos → Takes s (.layer e.ind e.ii e.jj) (some e.h)

/-- A sequence of avalanches between neighbouring columns of well-formed states, all from surfaces of
the kind `src`; in between, the amounts of soil on all surfaces stay as they are. -/
inductive Avalanches (src : Place → Prop) (c dh : K) (s : SimOut K) : SimOut K → Prop
  | refl : Avalanches src c dh s s
  | still {s₁ s₂ : SimOut K} : Avalanches src c dh s s₁ → SameSoil s₁ s₂ → SameBody s₁ s₂ →
      Avalanches src c dh s s₂
  | slide {s₁ s₂ : SimOut K} {a b : Place} {cap : Option K} {m : K} : Avalanches src c dh s s₁ →
      WellFormed c s₁ → Beside a.col b.col → Takes s₁ a cap → Avalanche c dh cap s₁ s₂ a b m →
      src a → WellFormed c s₂ → Avalanches src c dh s s₂

end Soil
