import Verif.Props.FemTriangleSpace
import Verif.Model.Zfem2D
import Verif.Spec.Zfem
import Verif.Lemmas.Gauss

/-!
# Specification vocabulary: the nodes of a ZFEM element
-/

namespace PolyDiM.Spec

variable {K : Type} [Field K]

/-- The triangles of the element are the triangles of the polygon with the vertices `V` around the point `c`. -/
structure IsFan (poly : ZfemPolygon K) (c : K × K) (V : Nat → K × K) : Prop where
  three : 3 ≤ poly.num
  maps : poly.maps.length = poly.num
  dirs : poly.dirs.length = poly.num
  vertices : ∀ t < poly.num, ∀ m, poly.maps[t]? = some m → triVertex m 0 = c ∧ triVertex m 1 = V t ∧ triVertex m 2 = V ((t + 1) % poly.num)
  inverse : ∀ m ∈ poly.maps, IsInverse m

/-- The position of a node: the centre, the vertices, `k - 1` equidistant points of every edge in the direction of the mesh and of every spoke from the centre,
and inside triangle `t` the points with barycentric coordinates `ty j / k`. -/
def fanPoint (n k : Nat) (c : K × K) (V : Nat → K × K) (dirs : Nat → Bool) (ty : Nat → Nat × Nat × Nat) : FanNode → K × K
  | .centre => c
  | .vertex v => V v
  | .edge v j => segPoint (polyEdge n V (dirs v) v).1 (polyEdge n V (dirs v) v).2 (((j + 1 : Nat) : K) / (k : K))
  | .spoke v j => segPoint c (V v) (((j + 1 : Nat) : K) / (k : K))
  | .inner t j =>
    (((ty j).1 / (k : K)) * c.1 + ((ty j).2.1 / (k : K)) * (V t).1 + ((ty j).2.2 / (k : K)) * (V ((t + 1) % n)).1,
      ((ty j).1 / (k : K)) * c.2 + ((ty j).2.1 / (k : K)) * (V t).2 + ((ty j).2.2 / (k : K)) * (V ((t + 1) % n)).2)

/-- The triangles around `c`. -/
def fanTris (n : Nat) (c : K × K) (V : Nat → K × K) : List ((K × K) × (K × K) × (K × K)) := (List.range n).map fun t => (c, V t, V ((t + 1) % n))

/-- `ty` lists the triples of positive numbers with sum `k`. -/
structure ListsInner (k N2 : Nat) (ty : Nat → Nat × Nat × Nat) : Prop where
  pos : ∀ j < N2, 0 < (ty j).1 ∧ 0 < (ty j).2.1 ∧ 0 < (ty j).2.2
  sum : ∀ j < N2, (ty j).1 + (ty j).2.1 + (ty j).2.2 = k
  inj : ∀ j < N2, ∀ l < N2, ty j = ty l → j = l

/-- The element has the nodes `finer` (DOF nodes first). -/
def HasNodes (ref : ZfemRef K) (poly : ZfemPolygon K) (finer : List (K × K)) : Prop :=
  ∃ tris M, zfemTriangles ref poly = .ok tris ∧ createMaps ref.order poly.num ref.fem.num1D ref.fem.num2D (zfemCounts ref poly.num).basis = .ok M ∧
    zfemNodes poly.num (zfemCounts ref poly.num).total tris M = .ok finer

/-- A polynomial of degree at most `k` is determined by its values at the points. -/
def Unisolvent (k : Nat) (points : List (ℝ × ℝ)) : Prop :=
  ∀ q : MvPolynomial (Fin 2) ℝ, q.totalDegree ≤ k → (∀ p ∈ points, ev2 q p = 0) → q = 0

/-- Twice the signed area of the triangle `a`, `b`, `p`; zero exactly when `p` lies on the line through `a` and `b` (`a ≠ b`). -/
def area2 (a b p : ℝ × ℝ) : ℝ := (b.1 - a.1) * (p.2 - a.2) - (b.2 - a.2) * (p.1 - a.1)

/-- No two of the edges in `S` of the polygon with `n` vertices `V` lie on the same line. -/
def DifferentLines (n : Nat) (V : Nat → ℝ × ℝ) (S : Finset Nat) : Prop :=
  ∀ t ∈ S, ∀ r ∈ S, t ≠ r → ¬(area2 (V t) (V ((t + 1) % n)) (V r) = 0 ∧ area2 (V t) (V ((t + 1) % n)) (V ((r + 1) % n)) = 0)

end PolyDiM.Spec
