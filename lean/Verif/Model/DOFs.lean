import Verif.Model.Basic

/-!
# Model of `DOFsManager`

PolyDiM/src/PDETools/DOFs/DOFsManager.hpp and DOFsManager.cpp, function by function.
-/

namespace PolyDiM

/-- `BoundaryTypes`, DOFsManager.hpp:69-76. `unknwon` also stands for every integer value outside the
enumerators (all of them reach the `default` branch of DOFsManager.cpp:102). -/
inductive BType where
  | unknwon | strong | weak | robin | none
  deriving DecidableEq, Repr

/-- `BoundaryInfo`, DOFsManager.hpp:67-80. -/
structure BInfo where
  type : BType
  marker : Nat
  deriving DecidableEq, Repr

/-- `MeshDOFsInfo`, DOFsManager.hpp:65-86. `std::array<_, 4>` indexed by dimension is a function of the
dimension (dimensions above 3 are never used). -/
structure MeshInfo where
  numDOFs : Nat → List Nat
  bInfo : Nat → List BInfo

/-- `DOF::Types`, DOFsManager.hpp:100-105. -/
inductive DType where
  | unknwon | strong | dof
  deriving DecidableEq, Repr

/-- `DOFsData::DOF`, DOFsManager.hpp:98-109. -/
structure DOF where
  type : DType
  globalIndex : Nat
  deriving DecidableEq, Repr

/-- `DOFsData::GlobalCell_DOF`, DOFsManager.hpp:111-116. -/
structure GDOF where
  dim : Nat
  cell : Nat
  dof : Nat
  deriving DecidableEq, Repr

/-- The four global counters of `DOFsData`, DOFsManager.hpp:118-121. -/
structure Counters where
  dofs : Nat
  internal : Nat
  boundary : Nat
  strongs : Nat
  deriving DecidableEq, Repr

/-- What `DOFsData` stores for one cell by itself: entry `[dim][c]` of `CellsDOFs`, `CellsNumberDOFs`,
`CellsNumberStrongs`, `CellsHasInternalDOFs`, `CellsHasBoundaryDOFs` (DOFsManager.hpp:122,125-128).
Simplification: array of structures instead of structure of arrays. -/
structure CellDOFs where
  dofs : List DOF
  numDOFs : Nat
  numStrongs : Nat
  hasInternal : Bool
  hasBoundary : Bool
  deriving DecidableEq, Repr

/-- What `DOFsData` stores for the closure of one cell: entry `[dim][c]` of `CellsGlobalDOFs`,
`CellsGlobalNumberDOFs`, `CellsGlobalNumberStrongs`, `CellsGlobalHasInternalDOFs`,
`CellsGlobalHasBoundaryDOFs` (DOFsManager.hpp:123,130-133). For dimension 0 the code leaves the two flag
vectors empty; here they read `false`. -/
structure CellGlobal where
  gdofs : List GDOF
  numDOFs : Nat
  numStrongs : Nat
  hasInternal : Bool
  hasBoundary : Bool
  deriving DecidableEq, Repr

/-- The part of `DOFsData` of one dimension, DOFsManager.hpp:122-133. -/
structure DimData where
  cells : List CellDOFs
  globals : List CellGlobal

/-- `DOFsData`, DOFsManager.hpp:96-134. -/
structure DOFsData where
  counters : Counters
  dims : Nat → DimData

/-- The connectivity a mesh class must offer (concepts `is_mesh_connectivity_class_{0,1,2,3}D`,
DOFsManager.hpp:30-59): vertices of edges (`std::array<unsigned int, 2>`), vertices and edges of 2D cells, vertices, edges and faces of 3D
cells, as total functions of the cell index, together with the numbers of cells and their markers. -/
structure Mesh where
  cell1DVertices : Nat → Nat × Nat
  cell2DVertices : Nat → List Nat
  cell2DEdges : Nat → List Nat
  cell3DVertices : Nat → List Nat
  cell3DEdges : Nat → List Nat
  cell3DFaces : Nat → List Nat
  /-- `Cell{0,1,2,3}Ds_number` and `Cell{0,1,2,3}D_marker`: the list of markers of the cells of a dimension. -/
  markers : Nat → List Nat

/-- One iteration of the loop of `CreateCellDOFs`, DOFsManager.cpp:49-105: number the `n` DOFs of one cell of
boundary type `t` starting from the counters `k`. -/
def createOneCell (k : Counters) (n : Nat) (t : BType) : Except Fault (Counters × CellDOFs) :=
  match t with
  | .none =>
    .ok ({ k with dofs := u32 (k.dofs + n), internal := u32 (k.internal + n) },
      { dofs := (List.range n).map fun d => ⟨.dof, u32 (k.dofs + d)⟩
        numDOFs := n, numStrongs := 0, hasInternal := true, hasBoundary := false })
  | .strong =>
    .ok ({ k with strongs := u32 (k.strongs + n) },
      { dofs := (List.range n).map fun d => ⟨.strong, u32 (k.strongs + d)⟩
        numDOFs := 0, numStrongs := n, hasInternal := false, hasBoundary := false })
  | .robin | .weak =>
    .ok ({ k with dofs := u32 (k.dofs + n), boundary := u32 (k.boundary + n) },
      { dofs := (List.range n).map fun d => ⟨.dof, u32 (k.dofs + d)⟩
        numDOFs := n, numStrongs := 0, hasInternal := false, hasBoundary := true })
  | .unknwon => .error .unknownBoundaryType

/-- The loop of `CreateCellDOFs`, DOFsManager.cpp:47-106, over the remaining cells: the numbers of DOFs and
the boundary descriptions are consumed in parallel; a missing description is `cells_boundary_info.at(c)`
throwing (DOFsManager.cpp:51). -/
def createCellsLoop (k : Counters) : List Nat → List BInfo → Except Fault (Counters × List CellDOFs)
  | [], _ => .ok (k, [])
  | _ :: _, [] => .error .outOfRange
  | n :: ns, b :: bs =>
    match createOneCell k n b.type with
    | .error e => .error e
    | .ok (k', c) =>
      match createCellsLoop k' ns bs with
      | .error e => .error e
      | .ok (k'', cs) => .ok (k'', c :: cs)

/-- Replace the data of one dimension (assignment to `dofs.CellsXxx.at(dim)`, DOFsManager.cpp:40-45). -/
def setDim (f : Nat → DimData) (d : Nat) (x : DimData) : Nat → DimData :=
  fun i => if i = d then x else f i

/-- `CreateCellDOFs(meshDOFsInfo, dofs, dim)`, DOFsManager.cpp:35-107. -/
def createCellDOFs (info : MeshInfo) (data : DOFsData) (dim : Nat) : Except Fault DOFsData :=
  match createCellsLoop data.counters (info.numDOFs dim) (info.bInfo dim) with
  | .error e => .error e
  | .ok (k, cs) => .ok { counters := k, dims := setDim data.dims dim { data.dims dim with cells := cs } }

/-- The loop of `ConcatenateGlobalDOFs`, DOFsManager.cpp:27-32, from `d` on with `n` DOFs still to write:
`global_cell_DOFs[globalDOF_counter] = {dim, cell, d}` is an unchecked write into the already sized buffer. -/
def concatenateLoop (dim cell : Nat) : (n d : Nat) → List GDOF × Nat → Except Fault (List GDOF × Nat)
  | 0, _, s => .ok s
  | n + 1, d, (buf, counter) =>
    if counter < buf.length then
      concatenateLoop dim cell n (d + 1) (buf.set counter ⟨dim, cell, d⟩, counter + 1)
    else .error .undefinedBehaviour

/-- `ConcatenateGlobalDOFs`, DOFsManager.cpp:21-33. -/
def concatenateGlobalDOFs (dim cell : Nat) (localDOFs : List DOF) (s : List GDOF × Nat) :
    Except Fault (List GDOF × Nat) :=
  concatenateLoop dim cell localDOFs.length 0 s

/-- The running values while the closure of one cell is filled: the sized buffer `cellsGlobalDOFs[c]`, the
write position `globalDOF_counter`, and the four accumulators (DOFsManager.hpp:312-337, 394-425, 487-527). -/
structure CellAcc where
  buf : List GDOF
  counter : Nat
  numDOFs : Nat
  numStrongs : Nat
  hasInternal : Bool
  hasBoundary : Bool

/-- One entity of the closure, e.g. DOFsManager.hpp:400-404 (a vertex, `flags = false`) or
DOFsManager.hpp:409-419 (an edge of a 2D cell, `flags = true`): append its DOFs, add its counts, and when
`flags` is set raise the has-internal/has-boundary flags of the cell. -/
def entityStep (dims : Nat → DimData) (flags : Bool) (d : Nat) (acc : CellAcc) (c : Nat) :
    Except Fault CellAcc :=
  match atIdx (dims d).cells c with
  | .error e => .error e
  | .ok x =>
    match concatenateGlobalDOFs d c x.dofs (acc.buf, acc.counter) with
    | .error e => .error e
    | .ok (buf, counter) =>
      .ok { buf := buf
            counter := counter
            numDOFs := acc.numDOFs + x.numDOFs
            numStrongs := acc.numStrongs + x.numStrongs
            hasInternal := acc.hasInternal || (flags && x.hasInternal)
            hasBoundary := acc.hasBoundary || (flags && x.hasBoundary) }

/-- The `for` loops over the vertices, edges or faces of a cell, e.g. DOFsManager.hpp:398-405, 407-420. -/
def entityLoop (dims : Nat → DimData) (flags : Bool) (d : Nat) : CellAcc → List Nat → Except Fault CellAcc
  | acc, [] => .ok acc
  | acc, c :: cs =>
    match entityStep dims flags d acc c with
    | .error e => .error e
    | .ok acc' => entityLoop dims flags d acc' cs

/-- Sum of `dofs.CellsDOFs.at(d).at(c).size()` over the listed cells, DOFsManager.hpp:380-392, 469-485. -/
def sizeLoop (dims : Nat → DimData) (d : Nat) : List Nat → Except Fault Nat
  | [] => .ok 0
  | c :: cs =>
    match atIdx (dims d).cells c with
    | .error e => .error e
    | .ok x =>
      match sizeLoop dims d cs with
      | .error e => .error e
      | .ok s => .ok (x.dofs.length + s)

/-- The sized but not yet filled buffer (`cellsGlobalDOFs[c].resize(n)`: value-initialised entries) and zero
accumulators, DOFsManager.hpp:292-296, 309-312, 394-396, 487-489. -/
def initAcc (n : Nat) : CellAcc :=
  { buf := List.replicate n ⟨0, 0, 0⟩, counter := 0, numDOFs := 0, numStrongs := 0,
    hasInternal := false, hasBoundary := false }

/-- The stored result for the closure of a cell (DOFsManager.hpp:286-290). -/
def CellAcc.toGlobal (a : CellAcc) : CellGlobal :=
  { gdofs := a.buf, numDOFs := a.numDOFs, numStrongs := a.numStrongs,
    hasInternal := a.hasInternal, hasBoundary := a.hasBoundary }

/-- Body of the loop of `CreateCell0DDOFs`, DOFsManager.hpp:249-262. -/
def globalCell0D (dims : Nat → DimData) (c : Nat) : Except Fault CellGlobal := do
  let n ← sizeLoop dims 0 [c]
  let a ← entityLoop dims false 0 (initAcc n) [c]
  return a.toGlobal

/-- Body of the loop of `CreateCell1DDOFs`, DOFsManager.hpp:298-338. -/
def globalCell1D (mesh : Mesh) (dims : Nat → DimData) (c : Nat) : Except Fault CellGlobal := do
  let origin := (mesh.cell1DVertices c).1
  let fin := (mesh.cell1DVertices c).2
  let n0 ← sizeLoop dims 0 [origin, fin]
  let n1 ← sizeLoop dims 1 [c]
  let a ← entityLoop dims true 0 (initAcc (n0 + n1)) [origin, fin]
  let a ← entityLoop dims false 1 a [c]
  return a.toGlobal

/-- Body of the loop of `CreateCell2DDOFs`, DOFsManager.hpp:374-426. -/
def globalCell2D (mesh : Mesh) (dims : Nat → DimData) (c : Nat) : Except Fault CellGlobal := do
  let n2 ← sizeLoop dims 2 [c]
  let n0 ← sizeLoop dims 0 (mesh.cell2DVertices c)
  let n1 ← sizeLoop dims 1 (mesh.cell2DEdges c)
  let a ← entityLoop dims false 0 (initAcc (n2 + n0 + n1)) (mesh.cell2DVertices c)
  let a ← entityLoop dims true 1 a (mesh.cell2DEdges c)
  let a ← entityLoop dims false 2 a [c]
  return a.toGlobal

/-- Body of the loop of `CreateCell3DDOFs`, DOFsManager.hpp:462-528. -/
def globalCell3D (mesh : Mesh) (dims : Nat → DimData) (c : Nat) : Except Fault CellGlobal := do
  let n3 ← sizeLoop dims 3 [c]
  let n0 ← sizeLoop dims 0 (mesh.cell3DVertices c)
  let n1 ← sizeLoop dims 1 (mesh.cell3DEdges c)
  let n2 ← sizeLoop dims 2 (mesh.cell3DFaces c)
  let a ← entityLoop dims false 0 (initAcc (n3 + n0 + n1 + n2)) (mesh.cell3DVertices c)
  let a ← entityLoop dims false 1 a (mesh.cell3DEdges c)
  let a ← entityLoop dims true 2 a (mesh.cell3DFaces c)
  let a ← entityLoop dims false 3 a [c]
  return a.toGlobal

/-- The `for` loop over the cells of `CreateCell{0,1,2,3}DDOFs` (DOFsManager.hpp:249, 298, 374, 462): run
the body on the listed cells and store the results. -/
def cellsLoop (body : Nat → Except Fault CellGlobal) : List Nat → Except Fault (List CellGlobal)
  | [] => .ok []
  | c :: cs =>
    match body c with
    | .error e => .error e
    | .ok x =>
      match cellsLoop body cs with
      | .error e => .error e
      | .ok xs => .ok (x :: xs)

/-- Common frame of `CreateCell{0,1,2,3}DDOFs`: `CreateCellDOFs` for the dimension, then the loop over its
cells, DOFsManager.hpp:237-262, 282-338, 358-426, 446-528. -/
def createDim (dim : Nat) (body : (Nat → DimData) → Nat → Except Fault CellGlobal)
    (info : MeshInfo) (data : DOFsData) : Except Fault DOFsData := do
  let data ← createCellDOFs info data dim
  let gs ← cellsLoop (body data.dims) (List.range (info.numDOFs dim).length)
  return { data with dims := setDim data.dims dim { data.dims dim with globals := gs } }

/-- `CreateCell0DDOFs`, DOFsManager.hpp:229-263. -/
def createCell0DDOFs (info : MeshInfo) (data : DOFsData) : Except Fault DOFsData :=
  createDim 0 globalCell0D info data

/-- `CreateCell1DDOFs`, DOFsManager.hpp:270-339. -/
def createCell1DDOFs (mesh : Mesh) (info : MeshInfo) (data : DOFsData) : Except Fault DOFsData :=
  createDim 1 (globalCell1D mesh) info data

/-- `CreateCell2DDOFs`, DOFsManager.hpp:346-427. -/
def createCell2DDOFs (mesh : Mesh) (info : MeshInfo) (data : DOFsData) : Except Fault DOFsData :=
  createDim 2 (globalCell2D mesh) info data

/-- `CreateCell3DDOFs`, DOFsManager.hpp:434-529. -/
def createCell3DDOFs (mesh : Mesh) (info : MeshInfo) (data : DOFsData) : Except Fault DOFsData :=
  createDim 3 (globalCell3D mesh) info data

/-- The zeroed result every `CreateDOFs_xD` starts from, DOFsManager.hpp:599-604. -/
def emptyData : DOFsData :=
  { counters := ⟨0, 0, 0, 0⟩, dims := fun _ => ⟨[], []⟩ }

/-- `CreateDOFs_0D`, DOFsManager.hpp:597-613. -/
def createDOFs_0D (info : MeshInfo) : Except Fault DOFsData :=
  createCell0DDOFs info emptyData

/-- `CreateDOFs_1D`, DOFsManager.hpp:615-634. -/
def createDOFs_1D (info : MeshInfo) (mesh : Mesh) : Except Fault DOFsData := do
  let d ← createCell0DDOFs info emptyData
  createCell1DDOFs mesh info d

/-- `CreateDOFs_2D`, DOFsManager.hpp:636-657. -/
def createDOFs_2D (info : MeshInfo) (mesh : Mesh) : Except Fault DOFsData := do
  let d ← createCell0DDOFs info emptyData
  let d ← createCell1DDOFs mesh info d
  createCell2DDOFs mesh info d

/-- `CreateDOFs_3D`, DOFsManager.hpp:659-682. -/
def createDOFs_3D (info : MeshInfo) (mesh : Mesh) : Except Fault DOFsData := do
  let d ← createCell0DDOFs info emptyData
  let d ← createCell1DDOFs mesh info d
  let d ← createCell2DDOFs mesh info d
  createCell3DDOFs mesh info d

/-- The four entry points selected by the mesh dimension (DOFsManager.hpp:597-682). -/
def createDOFs (D : Fin 4) (info : MeshInfo) (mesh : Mesh) : Except Fault DOFsData :=
  match D with
  | 0 => createDOFs_0D info
  | 1 => createDOFs_1D info mesh
  | 2 => createDOFs_2D info mesh
  | 3 => createDOFs_3D info mesh

/-- Per-cell result of `ComputeCellsDOFsIndices`: entry `c` of the four vectors of `CellsDOFsIndicesData`,
DOFsManager.hpp:136-142. -/
structure CellIndices where
  dofsLocal : List Nat
  dofsGlobal : List Nat
  strongsLocal : List Nat
  strongsGlobal : List Nat
  deriving DecidableEq, Repr

/-- Resolution of a `GlobalCell_DOF`:
`dofs.CellsDOFs.at(g.Dimension).at(g.CellIndex).at(g.DOFIndex)`, DOFsManager.cpp:132. -/
def resolve (dims : Nat → DimData) (g : GDOF) : Except Fault DOF :=
  match atIdx (dims g.dim).cells g.cell with
  | .error e => .error e
  | .ok x => atIdx x.dofs g.dof

/-- The inner loop of `ComputeCellsDOFsIndices`, DOFsManager.cpp:129-149, from position `pos` on. The four
`std::list` are filled by `push_back`, i.e. in increasing position. -/
def cellIndicesLoop (dims : Nat → DimData) : Nat → List GDOF → Except Fault CellIndices
  | _, [] => .ok ⟨[], [], [], []⟩
  | pos, g :: gs =>
    match resolve dims g with
    | .error e => .error e
    | .ok x =>
      match x.type with
      | .unknwon => .error .unknownDOFType
      | .strong =>
        match cellIndicesLoop dims (pos + 1) gs with
        | .error e => .error e
        | .ok r => .ok { r with strongsLocal := pos :: r.strongsLocal
                                strongsGlobal := x.globalIndex :: r.strongsGlobal }
      | .dof =>
        match cellIndicesLoop dims (pos + 1) gs with
        | .error e => .error e
        | .ok r => .ok { r with dofsLocal := pos :: r.dofsLocal
                                dofsGlobal := x.globalIndex :: r.dofsGlobal }

/-- The outer loop of `ComputeCellsDOFsIndices`, DOFsManager.cpp:120-156. -/
def indicesLoop (dims : Nat → DimData) : List CellGlobal → Except Fault (List CellIndices)
  | [] => .ok []
  | g :: gs =>
    match cellIndicesLoop dims 0 g.gdofs with
    | .error e => .error e
    | .ok x =>
      match indicesLoop dims gs with
      | .error e => .error e
      | .ok xs => .ok (x :: xs)

/-- `ComputeCellsDOFsIndices(dofs, dimension)`, DOFsManager.cpp:109-159. -/
def computeCellsDOFsIndices (data : DOFsData) (dim : Nat) : Except Fault (List CellIndices) :=
  indicesLoop data.dims (data.dims dim).globals

/-- `ConstantDOFsInfo`, DOFsManager.hpp:90-94; `std::map` as a partial function. -/
structure ConstantInfo where
  numDOFs : Nat → Nat
  boundary : Nat → Option BInfo

/-- The loop of `Create_Constant_DOFsInfo_{0,1,2,3}D`, DOFsManager.hpp:165-168, 183-186, 201-204, 219-222. -/
def constantLoop (ci : ConstantInfo) : List Nat → Except Fault (List BInfo)
  | [] => .ok []
  | m :: ms =>
    match ci.boundary m with
    | none => .error .outOfRange
    | some b =>
      match constantLoop ci ms with
      | .error e => .error e
      | .ok bs => .ok (b :: bs)

/-- The private `Create_Constant_DOFsInfo_{0,1,2,3}D(mesh, boundary_info, mesh_dof_info)` for one dimension,
DOFsManager.hpp:153-223 (the vectors of the dimension are empty before `resize`). -/
def createConstantDim (mesh : Mesh) (ci : ConstantInfo) (d : Nat) (info : MeshInfo) : Except Fault MeshInfo :=
  match constantLoop ci (mesh.markers d) with
  | .error e => .error e
  | .ok bs => .ok
      { numDOFs := fun i => if i = d then List.replicate (mesh.markers d).length (ci.numDOFs d) else info.numDOFs i
        bInfo := fun i => if i = d then bs else info.bInfo i }

/-- The public `Create_Constant_DOFsInfo_{0,1,2,3}D(mesh, boundary_info)`, DOFsManager.hpp:532-595: the
dimensions `0..D` in increasing order, starting from an empty `MeshDOFsInfo`. -/
def createConstantInfo (D : Fin 4) (mesh : Mesh) (ci : ConstantInfo) : Except Fault MeshInfo :=
  let start : MeshInfo := ⟨fun _ => [], fun _ => []⟩
  match D with
  | 0 => createConstantDim mesh ci 0 start
  | 1 => do createConstantDim mesh ci 1 (← createConstantDim mesh ci 0 start)
  | 2 => do createConstantDim mesh ci 2 (← createConstantDim mesh ci 1 (← createConstantDim mesh ci 0 start))
  | 3 => do
    createConstantDim mesh ci 3
      (← createConstantDim mesh ci 2 (← createConstantDim mesh ci 1 (← createConstantDim mesh ci 0 start)))

end PolyDiM
