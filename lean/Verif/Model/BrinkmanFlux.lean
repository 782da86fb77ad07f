import Verif.Model.BrinkmanPost

/-!
# Model: `ComputeFlux` of the Brinkman example

PolyDiM/examples/Brinkman_DF_PCC_2D/src/assembler.cpp:835-927. Lines without a file refer to it.
-/

namespace PolyDiM

variable {K : Type} [Field K]

/-- One edge of a cell: its index and marker in the mesh (lines 859-861), the values of the basis functions at the points of the quadrature (lines 872-876), its length and normal (lines 909,
912). -/
structure FluxEdge (K : Type) where
  index : Nat
  marker : Nat
  table : DMat K
  length : K
  normal : K × K

/-- The value of one DOF, lines 887-903. The sum of the index and the offset is one of `unsigned int`. -/
def fluxDof (data : DOFsData) (offD offS : Nat) (free strong : List K) (r : GDOF) : Except Fault K := do
  let x ← atIdx (data.dims r.dim).cells r.cell
  let y ← atIdx x.dofs r.dof
  match y.type with
  | .strong => unchecked strong (u32 (y.globalIndex + offS))
  | .dof => unchecked free (u32 (y.globalIndex + offD))
  | .unknwon => .error .runtimeError

/-- The part of `local_solution_dofs` of component `h`, lines 880-907; `n` is `num_edge_dofs`, entries that are not written are zero. If there are more than `n` DOFs the second component
writes behind the end of the vector, and the first one into the part of the second; both are taken as undefined behaviour here. -/
def fluxSolution (datas : List DOFsData) (count : CountData) (free strong : List K) (n e h : Nat) : Except Fault (List K) := do
  let data ← unchecked datas h
  let g ← atIdx (data.dims 1).globals e
  let offD ← unchecked count.offsetsDOFs h
  let offS ← unchecked count.offsetsStrongs h
  let l ← g.gdofs.mapM (fluxDof data offD offS free strong)
  if l.length ≤ n then .ok (l ++ List.replicate (n - l.length) 0) else .error .undefinedBehaviour

/-- `edge_flux`, lines 866-916; `weights` are those of the segment of length one. -/
def edgeFluxOf [LT K] [DecidableLT K] (datas : List DOFsData) (count : CountData) (weights free strong : List K) (e : FluxEdge K) : Except Fault K := do
  let u0 ← fluxSolution datas count free strong e.table.cols e.index 0
  let u1 ← fluxSolution datas count free strong e.table.cols e.index 1
  let a ← (e.table.smul e.normal.1).mul (.col u0)
  let b ← (e.table.smul e.normal.2).mul (.col u1)
  let s ← a.add b
  dotWeights (weights.map fun w => w * if e.length < 0 then -e.length else e.length) s.toList

/-- Lines 918-922: `find`, and then the sum or a new entry. The order of the keys of `std::map` is not modelled. -/
def addFlux : List (Nat × K) → Nat → K → List (Nat × K)
  | [], k, x => [(k, x)]
  | (j, y) :: m, k, x => if j = k then (j, y + x) :: m else (j, y) :: addFlux m k x

/-- `ComputeFlux`, lines 835-927, for `n` cells with the given edges; edges with marker 0 are skipped (lines 863-864). The fluxes are computed first and collected afterwards; the code does
both edge by edge. -/
def computeFlux [LT K] [DecidableLT K] (datas : List DOFsData) (count : CountData) (weights : List K) (edges : Nat → List (FluxEdge K)) (n : Nat) (free strong : List K) :
    Except Fault (List (Nat × K)) := do
  let l ← (((List.range n).flatMap edges).filter fun e => e.marker ≠ 0).mapM fun e => do
    let f ← edgeFluxOf datas count weights free strong e
    .ok (e.marker, f)
  .ok (l.foldl (fun m x => addFlux m x.1 x.2) [])

end PolyDiM
