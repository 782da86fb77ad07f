import Verif.Spec.TestData

/-!
# Spec: data of tests on the unit cube
-/

namespace PolyDiM.Spec

/-- `gx`, `gy` and `gz` are the partial derivatives of `u`. -/
def HasPartials3 (u gx gy gz : ℝ × ℝ × ℝ → ℝ) : Prop :=
  ∀ x y z, HasDerivAt (fun t => u (t, y, z)) (gx (x, y, z)) x ∧ HasDerivAt (fun t => u (x, t, z)) (gy (x, y, z)) y ∧ HasDerivAt (fun t => u (x, y, t)) (gz (x, y, z)) z

/-- `d` is the divergence of the field `(a, b, c)`. -/
def DivergenceIs3 (a b c d : ℝ × ℝ × ℝ → ℝ) : Prop :=
  ∀ x y z, ∃ a' b' c', HasDerivAt (fun t => a (t, y, z)) a' x ∧ HasDerivAt (fun t => b (x, t, z)) b' y ∧ HasDerivAt (fun t => c (x, y, t)) c' z ∧ d (x, y, z) = a' + b' + c'

/-- The coordinates of the corners of the unit cube: bottom and top square, each counterclockwise. -/
def cubeBit (i d : Nat) : Nat := if d = 2 then i / 4 else if d = 1 then i % 4 / 2 else if i % 4 = 1 ∨ i % 4 = 2 then 1 else 0

/-- The ends of the edges of the unit cube: around the bottom, around the top, upright. -/
def cubeEdge (i : Nat) : Nat × Nat := if i < 4 then (i, (i + 1) % 4) else if i < 8 then (i, 4 + (i + 1) % 4) else (i - 8, i - 4)

/-- The axis of the normal of face `j`: bottom, top, left, right, front, back. -/
def faceAxis (j : Nat) : Nat := if j / 2 = 0 then 2 else if j / 2 = 1 then 0 else 1

/-- The coordinate of face `j` on its axis. -/
def faceSide (j : Nat) : Nat := j % 2

/-- Coordinate of a point. -/
def coord3 (p : ℝ × ℝ × ℝ) (d : Nat) : ℝ := if d = 0 then p.1 else if d = 1 then p.2.1 else p.2.2

/-- The outward normal of face `j`. -/
def cubeNormal (j d : Nat) : ℝ := if d = faceAxis j then 2 * faceSide j - 1 else 0

/-- `p` is a point of face `j`. -/
def OnFace (j : Nat) (p : ℝ × ℝ × ℝ) : Prop := (∀ d < 3, 0 ≤ coord3 p d ∧ coord3 p d ≤ 1) ∧ coord3 p (faceAxis j) = faceSide j

/-- Corner `i` is on face `j`. -/
def CornerOn (i j : Nat) : Prop := cubeBit i (faceAxis j) = faceSide j

instance (i j : Nat) : Decidable (CornerOn i j) := inferInstanceAs (Decidable (_ = _))

/-- `p` is corner `i`. -/
def IsCorner (i : Nat) (p : ℝ × ℝ × ℝ) : Prop := ∀ d < 3, coord3 p d = cubeBit i d

/-- `p` is a point of edge `i`. -/
def OnEdge3 (i : Nat) (p : ℝ × ℝ × ℝ) : Prop := ∃ t : ℝ, 0 ≤ t ∧ t ≤ 1 ∧ ∀ d < 3, coord3 p d = (1 - t) * cubeBit (cubeEdge i).1 d + t * cubeBit (cubeEdge i).2 d

/-- The conditions at the boundary of the unit cube are those of the exact solution. The corners carry the markers 1 to 8, the edges 9 to 20, the faces 21 to 26, the interior has
marker 0. On every face there is a strong condition with the essential datum or a weak one with the natural datum; an edge or a corner has a strong condition exactly when one of
its faces has. -/
structure CubeAgrees (info : Nat → Option BInfo) (strong weak : Nat → ℝ × ℝ × ℝ → Except Fault ℝ) (essential : ℝ × ℝ × ℝ → ℝ) (natural : Nat → ℝ × ℝ × ℝ → ℝ) : Prop where
  inner : ∃ m, info 0 = some ⟨.none, m⟩
  face : ∀ j < 6, ∀ p, OnFace j p → (∃ m, info (21 + j) = some ⟨.strong, m⟩ ∧ strong m p = .ok (essential p)) ∨ (∃ m, info (21 + j) = some ⟨.weak, m⟩ ∧ weak m p = .ok (natural j p))
  edge : ∀ i < 12, (∃ m, info (9 + i) = some ⟨.strong, m⟩ ∧ (∀ p, OnEdge3 i p → strong m p = .ok (essential p)) ∧
      ∃ j < 6, CornerOn (cubeEdge i).1 j ∧ CornerOn (cubeEdge i).2 j ∧ StrongMark info (21 + j)) ∨
    ((∃ m, info (9 + i) = some ⟨.none, m⟩) ∧ ∀ j < 6, CornerOn (cubeEdge i).1 j → CornerOn (cubeEdge i).2 j → ¬StrongMark info (21 + j))
  vertex : ∀ i < 8, (∃ m, info (1 + i) = some ⟨.strong, m⟩ ∧ (∀ p, IsCorner i p → strong m p = .ok (essential p)) ∧ ∃ j < 6, CornerOn i j ∧ StrongMark info (21 + j)) ∨
    ((∃ m, info (1 + i) = some ⟨.none, m⟩) ∧ ∀ j < 6, CornerOn i j → ¬StrongMark info (21 + j))

/-- The same for problems in mixed form, where only the faces carry degrees of freedom. -/
structure FacesAgree (info : Nat → Option BInfo) (strong weak : Nat → ℝ × ℝ × ℝ → Except Fault ℝ) (essential : Nat → ℝ × ℝ × ℝ → ℝ) (natural : ℝ × ℝ × ℝ → ℝ) : Prop where
  inner : ∃ m, info 0 = some ⟨.none, m⟩
  face : ∀ j < 6, ∀ p, OnFace j p → (∃ m, info (21 + j) = some ⟨.strong, m⟩ ∧ strong m p = .ok (essential j p)) ∨ (∃ m, info (21 + j) = some ⟨.weak, m⟩ ∧ weak m p = .ok (natural p))
  rest : ∀ i < 20, ∃ m, info (1 + i) = some ⟨.none, m⟩

end PolyDiM.Spec
