import Verif.Spec.Elastic
import Verif.Model.DOFs
import Mathlib.Analysis.Calculus.Deriv.Basic

/-!
# Spec: what it means that the data of a test belong to one boundary value problem
-/

namespace PolyDiM.Spec

/-- `gx` and `gy` are the partial derivatives of `u`. -/
def HasPartials (u gx gy : ℝ × ℝ → ℝ) : Prop :=
  ∀ x y, HasDerivAt (fun t => u (t, y)) (gx (x, y)) x ∧ HasDerivAt (fun t => u (x, t)) (gy (x, y)) y

/-- `c` is the divergence of the field `(a, b)`. -/
def DivergenceIs (a b c : ℝ × ℝ → ℝ) : Prop :=
  ∀ x y, ∃ a' b', HasDerivAt (fun t => a (t, y)) a' x ∧ HasDerivAt (fun t => b (x, t)) b' y ∧ c (x, y) = a' + b'

/-- The corners of the unit square, counterclockwise. -/
def corner (i : Nat) : ℝ × ℝ := if i % 4 = 0 then (0, 0) else if i % 4 = 1 then (1, 0) else if i % 4 = 2 then (1, 1) else (0, 1)

/-- The outward normal of side `i`, from corner `i` to the next one. -/
def outward (i : Nat) : ℝ × ℝ := if i = 0 then (0, -1) else if i = 1 then (1, 0) else if i = 2 then (0, 1) else (-1, 0)

/-- `p` is a point of side `i`. -/
def OnSide (i : Nat) (p : ℝ × ℝ) : Prop :=
  ∃ t, 0 ≤ t ∧ t ≤ 1 ∧ p = ((1 - t) * (corner i).1 + t * (corner (i + 1)).1, (1 - t) * (corner i).2 + t * (corner (i + 1)).2)

/-- The table of the boundary gives a strong condition to the entities with marker `j`. -/
def StrongMark (info : Nat → Option BInfo) (j : Nat) : Prop := ∃ m, info j = some ⟨.strong, m⟩

/-- The conditions at the boundary of the unit square are those of the exact solution. The corners carry the markers 1 to 4, the sides the markers 5 to 8, the interior has marker
0. On every side there is a strong condition with the essential datum or a weak one with the natural datum; a corner has a strong condition exactly when one of its sides has. -/
structure BoundaryAgrees (info : Nat → Option BInfo) (strong weak : Nat → ℝ × ℝ → Except Fault ℝ) (essential natural : Nat → ℝ × ℝ → ℝ) : Prop where
  inner : ∃ m, info 0 = some ⟨.none, m⟩
  side : ∀ i < 4, ∀ p, OnSide i p → (∃ m, info (5 + i) = some ⟨.strong, m⟩ ∧ strong m p = .ok (essential i p)) ∨ (∃ m, info (5 + i) = some ⟨.weak, m⟩ ∧ weak m p = .ok (natural i p))
  vertex : ∀ i < 4, (∃ m, info (1 + i) = some ⟨.strong, m⟩ ∧ strong m (corner i) = .ok (essential i (corner i)) ∧ (StrongMark info (5 + i) ∨ StrongMark info (5 + (i + 3) % 4))) ∨
    ((∃ m, info (1 + i) = some ⟨.none, m⟩) ∧ ¬StrongMark info (5 + i) ∧ ¬StrongMark info (5 + (i + 3) % 4))

/-- The same for problems in mixed form, where the corners carry no degrees of freedom. -/
structure SidesAgree (info : Nat → Option BInfo) (strong weak : Nat → ℝ × ℝ → Except Fault ℝ) (essential natural : Nat → ℝ × ℝ → ℝ) : Prop where
  inner : ∃ m, info 0 = some ⟨.none, m⟩
  side : ∀ i < 4, ∀ p, OnSide i p → (∃ m, info (5 + i) = some ⟨.strong, m⟩ ∧ strong m p = .ok (essential i p)) ∨ (∃ m, info (5 + i) = some ⟨.weak, m⟩ ∧ weak m p = .ok (natural i p))
  vertex : ∀ i < 4, ∃ m, info (1 + i) = some ⟨.none, m⟩

/-- The first Lamé coefficient and the shear modulus of a material with Young modulus `E` and Poisson ratio `ν`: a bar in plane strain with the strain `(e, -ν/(1-ν) e)` has no
lateral stress, and its axial stress is `E / (1 - ν^2) e`; a pure shear `γ` has the stress `E / (2 (1 + ν)) γ`. -/
def IsLame (E ν μ l : ℝ) : Prop :=
  (∀ γ : ℝ, stress μ l (fun d1 d2 => if d1 = d2 then 0 else γ / 2) 0 1 = E / (2 * (1 + ν)) * γ) ∧
  ∀ e : ℝ, stress μ l (fun d1 d2 => if d1 = d2 then (if d1 = 0 then e else -(ν / (1 - ν)) * e) else 0) 1 1 = 0 ∧
    stress μ l (fun d1 d2 => if d1 = d2 then (if d1 = 0 then e else -(ν / (1 - ν)) * e) else 0) 0 0 = E / (1 - ν ^ 2) * e

end PolyDiM.Spec
