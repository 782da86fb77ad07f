import Verif.Model.FlowPost

/-!
# Model: `PostProcessSolution` of the Brinkman example

PolyDiM/examples/Brinkman_DF_PCC_2D/src/assembler.cpp:600-833. Lines without a file refer to it. The residual and the coefficients at the centroids (lines 612-621, 732-741) are not modelled;
the flux (line 696) is in Model/BrinkmanFlux.lean.
-/

namespace PolyDiM

variable {K : Type} [Field K]

/-- The tables of the local space on one cell, lines 701-717, and those of the pressure at the vertices, lines 747-751. -/
structure BrinkmanPostSpace (K : Type) where
  flow : FlowSpace K
  vertices : DMat K

/-- The errors and norms of one cell, lines 768-821. `none` is a test whose exact functions throw: the errors keep the zero of lines 683 and 685. A test throws in all exact functions or
in none. -/
def brinkmanErrors (t : FlowSpace K) (exact : Option (FlowExact K)) (speed pressure : List K) : Except Fault (FlowCellErrors K) :=
  match exact with
  | some e => flowErrors t e speed pressure
  | none => do
    let p ← t.pressure.mul (.col pressure)
    let normPressure ← dotWeights t.weights (p.toList.map fun x => x * x)
    let norms ← flowSquares t.ders speed (List.replicate t.points.length 0) fun _ _ u => .ok u
    let normSpeed ← dotWeights t.weights norms
    .ok ⟨0, normPressure, 0, normSpeed⟩

/-- The body of the loop over the cells, lines 701-821: the values of the pressure at the vertices and the errors. -/
def brinkmanPostCell (datas : List DOFsData) (count : CountData) (numVertices : Nat → Nat) (spaces : Nat → Except Fault (BrinkmanPostSpace K)) (exact : Option (FlowExact K))
    (free strong : List K) (c : Nat) : Except Fault (List K × FlowCellErrors K) := do
  let t ← spaces c
  let l ← flowLocal datas count free strong c
  let p ← t.vertices.mul (.col l.2)
  if p.rows = numVertices c then do
    let e ← brinkmanErrors t.flow exact l.1 l.2
    .ok (p.toList, e)
  else .error .undefinedBehaviour

/-- `repeated_connectivity`, lines 669-678: the points are numbered cell by cell, `k` is the next number. -/
def repeatedFrom (numVertices : Nat → Nat) : List Nat → Nat → List (List Nat)
  | [], _ => []
  | c :: cs, k => ((List.range (numVertices c)).map fun v => u32 (k + v)) :: repeatedFrom numVertices cs (u32 (k + numVertices c))

/-- `PostProcess_Data`, PolyDiM/examples/Brinkman_DF_PCC_2D/src/assembler.hpp:49-80, the part that is modelled. -/
structure BrinkmanPost (K : Type) where
  numeric : List (List (Option K))
  connectivity : List (List Nat)
  pressure : List K
  cells : List (FlowCellErrors K)
  errorPressure : K
  normPressure : K
  errorSpeed : K
  normSpeed : K
  meshSize : K

/-- `PostProcessSolution`, lines 600-833; `sqrt` is `std::sqrt`. The segments of `cell0Ds_numeric_pressure` are written one behind the other from 0 (lines 698, 754, 766): the vector is
their concatenation. -/
def brinkmanPost [LT K] [DecidableLT K] (sqrt : K → K) (datas : List DOFsData) (count : CountData) (diameters : Nat → K) (numVertices : Nat → Nat)
    (spaces : Nat → Except Fault (BrinkmanPostSpace K)) (mesh : PlaneMesh K) (exact : Option (FlowExact K)) (free strong : List K) : Except Fault (BrinkmanPost K) := do
  let numeric ← (List.range 2).mapM fun d => (List.range mesh.num0D).mapM fun p => do
    let data ← unchecked datas d
    elasticNumeric data count free strong d p
  let cells ← (List.range mesh.num2D).mapM (brinkmanPostCell datas count numVertices spaces exact free strong)
  .ok ⟨numeric, repeatedFrom numVertices (List.range mesh.num2D) 0, cells.flatMap Prod.fst, cells.map Prod.snd,
    sqrt (cells.map fun x => x.2.errorPressure).sum, sqrt (cells.map fun x => x.2.normPressure).sum, sqrt (cells.map fun x => x.2.errorSpeed).sum,
    sqrt (cells.map fun x => x.2.normSpeed).sum, (List.range mesh.num2D).foldl (fun m c => if m < diameters c then diameters c else m) 0⟩

end PolyDiM
