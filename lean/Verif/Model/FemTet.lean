import Verif.Model.FemQuad

/-!
# Model of the tetrahedral Lagrange element

PolyDiM/src/FEM/PCC/3D/FEM_Tetrahedron_PCC_3D_ReferenceElement.hpp, FEM_Tetrahedron_PCC_3D_LocalSpace.hpp and .cpp over a field `K` (the
code uses `double`). Counts are unbounded natural numbers. Points are triples, columns of `DofTypes` are quadruples. The values of
the quadrature tables are left out. `MapTetrahedron`, `RotatePointsFrom2DTo3D` and `FindPointInPoints` belong to Gedim, which is not part
of the repository: the comments state what is assumed of them.
-/

namespace PolyDiM

/-- A point of space. -/
abbrev Vec3 (K : Type) := K × K × K

/-- An element of `DofTypes`, FEM_Tetrahedron_PCC_3D_ReferenceElement.hpp:42. -/
abbrev TetType := Nat × Nat × Nat × Nat

/-- `FEM_Tetrahedron_PCC_3D_ReferenceElement_Data`, FEM_Tetrahedron_PCC_3D_ReferenceElement.hpp:27-52, without quadrature and tables. -/
structure TetData (K : Type) where
  order : Nat
  num0D : Nat
  num1D : Nat
  num2D : Nat
  num3D : Nat
  numBasis : Nat
  positions : List (Vec3 K)
  types : List TetType
  boundary : TriData K

/-- `Edges_by_vertices`, FEM_Tetrahedron_PCC_3D_ReferenceElement.hpp:63-74. -/
def tetEdges : EdgeMap :=
  [((0, 1), (0, true)), ((1, 0), (0, false)), ((1, 2), (1, true)), ((2, 1), (1, false)), ((2, 0), (2, true)), ((0, 2), (2, false)),
   ((0, 3), (3, true)), ((3, 0), (3, false)), ((1, 3), (4, false)), ((3, 1), (4, true)), ((2, 3), (5, false)), ((3, 2), (5, true))]

/-- `Faces_by_edge_vertex`, FEM_Tetrahedron_PCC_3D_ReferenceElement.hpp:76-87. -/
def tetFacesByEdgeVertex : List ((Nat × Nat) × Nat) :=
  [((0, 2), 0), ((1, 0), 0), ((2, 1), 0), ((0, 3), 1), ((4, 0), 1), ((3, 1), 1), ((2, 3), 2), ((5, 0), 2), ((3, 2), 2), ((1, 3), 3),
   ((5, 1), 3), ((4, 2), 3)]

/-- `Faces_by_edges`, FEM_Tetrahedron_PCC_3D_ReferenceElement.hpp:89-112: face, starting index, direction. -/
def tetFacesByEdges : List ((Nat × Nat) × ((Nat × Nat) × Bool)) :=
  [((0, 1), ((0, 0), true)), ((1, 2), ((0, 1), true)), ((2, 0), ((0, 2), true)),
   ((1, 0), ((0, 2), false)), ((2, 1), ((0, 0), false)), ((0, 2), ((0, 1), false)),
   ((0, 4), ((1, 0), true)), ((4, 3), ((1, 1), true)), ((3, 0), ((1, 2), true)),
   ((4, 0), ((1, 2), false)), ((3, 4), ((1, 0), false)), ((0, 3), ((1, 1), false)),
   ((2, 5), ((2, 0), true)), ((5, 3), ((2, 1), true)), ((3, 2), ((2, 2), true)),
   ((5, 2), ((2, 2), false)), ((3, 5), ((2, 0), false)), ((2, 3), ((2, 1), false)),
   ((1, 5), ((3, 0), true)), ((5, 4), ((3, 1), true)), ((4, 1), ((3, 2), true)),
   ((5, 1), ((3, 2), false)), ((4, 5), ((3, 0), false)), ((1, 4), ((3, 1), false))]

variable {K : Type} [Field K]

/-- The vertices, FEM_Tetrahedron_PCC_3D_ReferenceElement.hpp:145-153. -/
def tetVertexDofs (K : Type) [Field K] (k : Nat) : List (TetType × Vec3 K) :=
  [((k, 0, 0, 0), (0, 0, 0)), ((0, k, 0, 0), (1, 0, 0)), ((0, 0, k, 0), (0, 1, 0)), ((0, 0, 0, k), (0, 0, 1))]

/-- The six loops over the edges, FEM_Tetrahedron_PCC_3D_ReferenceElement.hpp:159-205; `n1` is `NumDofs1D`. -/
def tetEdgeDofs (K : Type) [Field K] (k n1 : Nat) : List (TetType × Vec3 K) :=
  ((List.range n1).map fun d => ((k - 1 - d, d + 1, 0, 0), (((d + 1 : Nat) : K) / (k : K), 0, 0))) ++
  ((List.range n1).map fun d => ((0, k - d - 1, d + 1, 0), (((n1 - d : Nat) : K) / (k : K), ((d + 1 : Nat) : K) / (k : K), 0))) ++
  ((List.range n1).map fun d => ((d + 1, 0, k - d - 1, 0), (0, ((n1 - d : Nat) : K) / (k : K), 0))) ++
  ((List.range n1).map fun d => ((k - d - 1, 0, 0, d + 1), (0, 0, ((d + 1 : Nat) : K) / (k : K)))) ++
  ((List.range n1).map fun d => ((0, d + 1, 0, k - d - 1), (((d + 1 : Nat) : K) / (k : K), 0, ((n1 - d : Nat) : K) / (k : K)))) ++
  ((List.range n1).map fun d => ((0, 0, d + 1, k - d - 1), (0, ((d + 1 : Nat) : K) / (k : K), ((n1 - d : Nat) : K) / (k : K))))

/-- The iterations of the double loop over a face, FEM_Tetrahedron_PCC_3D_ReferenceElement.hpp:210-212, 221-223, 232-234, 243-245. -/
def tetFaceLoop (n1 : Nat) : List (Nat × Nat) := (List.range (n1 - 1)).flatMap fun d1 => (List.range (n1 - 1 - d1)).map fun d2 => (d1, d2)

/-- The four loops over the faces, FEM_Tetrahedron_PCC_3D_ReferenceElement.hpp:209-252. -/
def tetFaceDofs (K : Type) [Field K] (k n1 : Nat) : List (TetType × Vec3 K) :=
  ((tetFaceLoop n1).map fun d => ((k - d.1 - d.2 - 2, d.1 + 1, d.2 + 1, 0), (((d.1 + 1 : Nat) : K) / (k : K), ((d.2 + 1 : Nat) : K) / (k : K), 0))) ++
  ((tetFaceLoop n1).map fun d => ((k - d.1 - d.2 - 2, d.1 + 1, 0, d.2 + 1), (((d.1 + 1 : Nat) : K) / (k : K), 0, ((d.2 + 1 : Nat) : K) / (k : K)))) ++
  ((tetFaceLoop n1).map fun d => ((k - d.1 - d.2 - 2, 0, d.1 + 1, d.2 + 1), (0, ((d.1 + 1 : Nat) : K) / (k : K), ((d.2 + 1 : Nat) : K) / (k : K)))) ++
  ((tetFaceLoop n1).map fun d => ((0, d.1 + 1, d.2 + 1, k - d.1 - d.2 - 2), (((d.1 + 1 : Nat) : K) / (k : K), ((d.2 + 1 : Nat) : K) / (k : K),
    1 - ((d.1 + 1 : Nat) : K) / (k : K) - ((d.2 + 1 : Nat) : K) / (k : K))))

/-- The interior, FEM_Tetrahedron_PCC_3D_ReferenceElement.hpp:256-271. -/
def tetInnerDofs (K : Type) [Field K] (k n1 : Nat) : List (TetType × Vec3 K) :=
  (List.range (n1 - 2)).flatMap fun d3 => (List.range (n1 - 2 - d3)).flatMap fun d1 => (List.range (n1 - 2 - d1 - d3)).map fun d2 =>
    ((k - d1 - d2 - d3 - 3, d1 + 1, d2 + 1, d3 + 1), (((d1 + 1 : Nat) : K) / (k : K), ((d2 + 1 : Nat) : K) / (k : K), ((d3 + 1 : Nat) : K) / (k : K)))

/-- The columns written by `Create`, in order, FEM_Tetrahedron_PCC_3D_ReferenceElement.hpp:145-274 (`dof` starts at 4 and grows by one at every
write). -/
def tetDofs (K : Type) [Field K] (k n1 : Nat) : List (TetType × Vec3 K) :=
  tetVertexDofs K k ++ (if k > 1 then tetEdgeDofs K k n1 ++ (if k > 2 then tetFaceDofs K k n1 ++ (if k > 3 then tetInnerDofs K k n1 else [])
    else []) else [])

/-- `DofTypes` and `DofPositions` are resized to `N` columns that are not initialised, FEM_Tetrahedron_PCC_3D_ReferenceElement.hpp:143-144:
writing more columns, or leaving some unwritten (they are read by `EvaluateBasisFunctions`), is undefined behaviour. -/
def fullCols {α : Type} (N : Nat) (l : List α) : Except Fault (List α) := if l.length = N then .ok l else .error .undefinedBehaviour

/-- The reads of `DofTypes[dof]` in the loop of `EvaluateBasisFunctions`, FEM_Tetrahedron_PCC_3D_ReferenceElement.hpp:345-358, called by
`Create` to fill the tables (lines 129-131 and 285-287). They do not depend on the quadrature points. -/
def tetTable (d : TetData K) : Except Fault Unit :=
  if d.order = 1 then .ok () else do
    let _ ← (List.range d.numBasis).mapM (unchecked d.types)
    .ok ()

/-- `Create`, FEM_Tetrahedron_PCC_3D_ReferenceElement.hpp:56-289. For order 0 `DofTypes` is never resized (lines 114-135). -/
def tetCreate (K : Type) [Field K] (order : Nat) : Except Fault (TetData K) :=
  if order = 0 then do
    let b ← triCreate K order
    let d : TetData K := ⟨0, 0, 0, 0, 1, 1, [(1 / 4, 1 / 4, 1 / 4)], [], b⟩
    tetTable d
    .ok d
  else do
    let n1 := order - 1
    let n2 := if order > 2 then (order - 2) * (order - 1) / 2 else 0
    let n3 := if order > 3 then (order - 3) * (order - 2) * (order - 1) / 6 else 0
    let N := 4 * 1 + 6 * n1 + 4 * n2 + n3
    let dofs ← fullCols N (tetDofs K order n1)
    let b ← triCreate K order
    let d : TetData K := ⟨order, 1, n1, n2, n3, N, dofs.map Prod.snd, dofs.map Prod.fst, b⟩
    tetTable d
    .ok d

/-- `EvaluateLambda`, FEM_Tetrahedron_PCC_3D_ReferenceElement.hpp:291-302, at one point. -/
def tetLambda (p : Vec3 K) : List K := [1 - p.1 - p.2.1 - p.2.2, p.1, p.2.1, p.2.2]

/-- `EvaluateGradLambda`, FEM_Tetrahedron_PCC_3D_ReferenceElement.hpp:304-329: row `dir`. -/
def tetGradLambda (K : Type) [Field K] (dir : Nat) : List K :=
  [-1, if dir = 0 then 1 else 0, if dir = 1 then 1 else 0, if dir = 2 then 1 else 0]

/-- The entries of a type. -/
def tetTypeList (t : TetType) : List Nat := [t.1, t.2.1, t.2.2.1, t.2.2.2]

/-- The accumulation `v *= lambda_i - p / order` over `i < 4`, `p < DofTypes[dof][i]`, FEM_Tetrahedron_PCC_3D_ReferenceElement.hpp:347-355
(the same loop fills `normalized_factor` and the values). -/
def tetProduct (order : Nat) (lam : List K) (t : TetType) : K :=
  (List.range 4).foldl (fun v i => (List.range ((tetTypeList t).getD i 0)).foldl (fun v (p : Nat) => v * (lam.getD i 0 - (p : K) / (order : K))) v) 1

/-- `EvaluateBasisFunctions(points, data)(p, i)`, FEM_Tetrahedron_PCC_3D_ReferenceElement.hpp:331-360, at the point `x`. -/
def tetValue (d : TetData K) (x : Vec3 K) (i : Nat) : Except Fault K :=
  if d.order = 1 then unchecked (tetLambda x) i
  else do
    let t ← unchecked d.types i
    let p ← unchecked d.positions i
    .ok (tetProduct d.order (tetLambda x) t / tetProduct d.order (tetLambda p) t)

/-- One quotient `a / b` whose numerator has the factor `b`: when `b` is zero so is `a`, and `0.0 / 0.0` is not a number
(FEM_Tetrahedron_PCC_3D_ReferenceElement.hpp:386-388). -/
def quotient [DecidableEq K] (a b : K) : Except Fault K := if b = 0 then .error .notANumber else .ok (a / b)

/-- The iterations of the two inner loops, FEM_Tetrahedron_PCC_3D_ReferenceElement.hpp:382-384. -/
def tetFactors (t : TetType) : List (Nat × Nat) :=
  (List.range 4).flatMap fun i => (List.range ((tetTypeList t).getD i 0)).map fun p => (i, p)

/-- `EvaluateBasisFunctionDerivatives(points, data)[dir](p, i)`, FEM_Tetrahedron_PCC_3D_ReferenceElement.hpp:362-395, at the point `x`.
Adding to something that is not a number is not a number. -/
def tetDerivative [DecidableEq K] (d : TetData K) (x : Vec3 K) (i dir : Nat) : Except Fault K :=
  if d.order = 1 then unchecked (tetGradLambda K dir) i
  else do
    let v ← tetValue d x i
    let t ← unchecked d.types i
    (tetFactors t).foldlM (fun acc ip => do
      let q ← quotient ((tetGradLambda K dir).getD ip.1 0 * v) ((tetLambda x).getD ip.1 0 - (ip.2 : K) / (d.order : K))
      .ok (acc + q)) 0

end PolyDiM
