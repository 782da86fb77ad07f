import Verif.Lemmas.PlaneEval
import Verif.Lemmas.VemSpace

/-!
# Lemmas: what one cell writes
-/

namespace PolyDiM

open Spec MvPolynomial MeasureTheory

/-- The value of a function for a reference to a DOF; `M c j` is moment `j` of cell `c`. -/
noncomputable def nodeValue (mesh : PlaneMesh ℝ) (ts : List ℝ) (f : ℝ × ℝ → ℝ) (M : Nat → Nat → ℝ) (r : GDOF) : ℝ :=
  if r.dim = 0 then f (mesh.coords r.cell) else if r.dim = 1 then f (edgePoint mesh r.cell (ts.getD r.dof 0)) else M r.cell r.dof

section
variable {k : Nat} {mesh : PlaneMesh ℝ} {poly : Nat → VemPolygon ℝ} {n : Nat → Nat} {len : Nat → Nat → ℝ} {dir : Nat → Nat → Bool} {nrm : Nat → Nat → ℝ × ℝ}
  {triangle : Nat → Rule (ℝ × ℝ) ℝ} {edge : Nat → Rule ℝ ℝ} {ts ws : List ℝ} {w : ℝ} {lu llt : Solver ℝ}
  {ref : VemRef2D ℝ} {boundary : Nat → Option BInfo} {info : MeshInfo} {data : DOFsData}

theorem cell_edge_mem (hM : IsPlaneMesh k mesh poly n len dir nrm) {c e : Nat} (hc : c < mesh.num2D) (he : e < n c) :
    (mesh.topo.cell2DEdges c)[e]? = some (cellEdge mesh c e) := by
  have := hM.edges c hc
  rw [cellEdge, List.getD_eq_getElem?_getD, List.getElem?_eq_getElem (by omega), Option.getD_some]

theorem cell_vertex_mem (hM : IsPlaneMesh k mesh poly n len dir nrm) {c e : Nat} (hc : c < mesh.num2D) (he : e < n c) :
    (mesh.topo.cell2DVertices c)[e]? = some (cellVertex mesh c e) := by
  have := hM.vertices c hc
  rw [cellVertex, List.getD_eq_getElem?_getD, List.getElem?_eq_getElem (by omega), Option.getD_some]

/-- The points of an edge are the same in the cell and in the mesh. -/
theorem edge_point (hM : IsPlaneMesh k mesh poly n len dir nrm) {c e : Nat} (hc : c < mesh.num2D) (he : e < n c) (t : ℝ) :
    segPoint (polyEdge (n c) (cellPoint mesh c) (dir c e) e).1 (polyEdge (n c) (cellPoint mesh c) (dir c e) e).2 t = edgePoint mesh (cellEdge mesh c e) t := by
  rw [edgePoint, hM.ends c hc e he]
  unfold polyEdge cellPoint
  cases dir c e <;> simp

/-- The local space of a cell. -/
theorem space_ok (hM : IsPlaneMesh k mesh poly n len dir nrm) (hT : IsTables k triangle edge ts ws w) (hlu : SolvesRegular lu) (hllt : SolvesPosDef llt)
    (hr : vemRef2D triangle edge k = .ok ref) {c : Nat} (hc : c < mesh.num2D) :
    ∃ s, vemCreate2D lu llt ref (poly c) = .ok s ∧ vemSpaces lu llt ref poly c = .ok (vemCell2D ref (poly c) s) ∧
      SpaceOk k (n c) (cellPoint mesh c) (len c) (dir c) ts ws w (poly c) s := by
  obtain ⟨r, s, hr', hs, hok⟩ := vemCreate_ok (hM.element c hc) hT hlu hllt
  obtain rfl : r = ref := Except.ok.inj (hr'.symm.trans hr)
  refine ⟨s, hs, ?_, hok⟩
  rw [vemSpaces, hs, except_ok_bind]

theorem edge_coords (hM : IsPlaneMesh k mesh poly n len dir nrm) (hT : IsTables k triangle edge ts ws w) (hr : vemRef2D triangle edge k = .ok ref)
    (s : VemSpace2D ℝ) {c e : Nat} (hc : c < mesh.num2D) (he : e < n c) :
    (vemCell2D ref (poly c) s).edgeCoords e = .ok (ts.map (edgePoint mesh (cellEdge mesh c e))) := by
  show vemEdgeCoords ref.ts (poly c).edges e = _
  rw [ref_ts hT hr, vemEdgeCoords_ok (hM.element c hc) ts he]
  exact congrArg Except.ok (List.map_congr_left fun t _ => edge_point hM hc he t)

theorem handler_plane (hT : IsTables k triangle edge ts ws w) (hr : vemRef2D triangle edge k = .ok ref)
    (hi : vemMeshInfo ref mesh.topo boundary = .ok info) (hdata : createDOFs 2 info mesh.topo = .ok data) (hov : totalRequested info 2 < 2 ^ 32) :
    Handler k mesh.topo info data := handler_of (numOf_ref hT hr mesh.topo boundary ▸ hi) hdata hov

/-- The values of a function at the nodes of an edge. -/
theorem edge_values (hT : IsTables k triangle edge ts ws w) (mesh : PlaneMesh ℝ) (f : ℝ × ℝ → ℝ) (M : Nat → Nat → ℝ) (E : Nat) :
    0 + numOf k 1 ≤ (evalScalar (ts.map (edgePoint mesh E)) f).length ∧
      ∀ j < numOf k 1, (evalScalar (ts.map (edgePoint mesh E)) f)[0 + j]? = some (nodeValue mesh ts f M ⟨1, E, j⟩) := by
  have hn := hT.nodes
  have h1 : numOf k 1 = k - 1 := rfl
  refine ⟨by simp [evalScalar, h1, hn], fun j hj => ?_⟩
  have hj' : j < ts.length := by omega
  simp [evalScalar, nodeValue, List.getD_eq_getElem?_getD, List.getElem?_eq_getElem hj']

/-- What one cell writes in `evaluate_function_on_dofs`. -/
theorem evaluateCell_ok (hM : IsPlaneMesh k mesh poly n len dir nrm) (hT : IsTables k triangle edge ts ws w) (hlu : SolvesRegular lu) (hllt : SolvesPosDef llt)
    (hr : vemRef2D triangle edge k = .ok ref) (H : Handler k mesh.topo info data) (f : ℝ × ℝ → ℝ) (M : Nat → Nat → ℝ)
    (hmom : ∀ c < mesh.num2D, ∀ s, vemCreate2D lu llt ref (poly c) = .ok s → ∃ l, vemInternalDofs (poly c) s (evalScalar s.internal.points f) s.internal = .ok l ∧
      l.length = k * (k - 1) / 2 ∧ ∀ j < k * (k - 1) / 2, l.getD j 0 = M c j) {c : Nat} (hc : c < mesh.num2D) :
    ∃ log, evaluateCell data k (vemSpaces lu llt ref poly) mesh f c = .ok log ∧ Good data (fun _ => True) (nodeValue mesh ts f M) log (vemList k mesh.topo c) := by
  have hk := hT.low
  obtain ⟨log0, h0, hg0⟩ := H.vertices (nodeValue mesh ts f M) (evalScalar ((mesh.topo.cell2DVertices c).map mesh.coords) f) (mesh.topo.cell2DVertices c)
    (H.verts c hc) 0 (by simp [evalScalar]) (by
      intro i v hv
      simp [evalScalar, hv, nodeValue])
  unfold evaluateCell
  rw [h0, except_ok_bind]
  split_ifs with h1
  · obtain ⟨s, hs, hsp, hok⟩ := space_ok hM hT hlu hllt hr hc
    rw [hsp, except_ok_bind]
    obtain ⟨log1, h1, hg1⟩ := Good.flatten (data := data) (P := fun _ => True) (val := nodeValue mesh ts f M) (mesh.topo.cell2DEdges c).zipIdx
      (cellEdgeWrites data (vemCell2D ref (poly c) s) f) (fun e => Handler.refs k 1 e.1) (by
        rintro ⟨E, e⟩ hE
        rw [List.mem_zipIdx_iff_getElem?] at hE
        dsimp only at hE
        have he : e < n c := by rw [← hM.edges c hc]; exact (List.getElem?_eq_some_iff.1 hE).1
        obtain rfl : E = cellEdge mesh c e := by
          rw [cell_edge_mem hM hc he] at hE
          exact (Option.some.inj hE).symm
        obtain ⟨x, hx, -, h⟩ := H.entity (d := 1) (by norm_num) (H.edges c hc _ (List.mem_of_getElem? hE)) (nodeValue mesh ts f M)
        obtain ⟨hl, hv⟩ := edge_values hT mesh f M (cellEdge mesh c e)
        obtain ⟨⟨log, hlog, hg⟩, -⟩ := h _ 0 hl hv
        refine ⟨log, ?_, hg⟩
        rw [cellEdgeWrites, hx, except_ok_bind, edge_coords hM hT hr s hc he, except_ok_bind, hlog])
    rw [h1, except_ok_bind]
    obtain ⟨x, hx, hxl, h⟩ := H.entity (d := 2) le_rfl hc (nodeValue mesh ts f M)
    have h2 : numOf k 2 = k * (k - 1) / 2 := rfl
    have hpos : 0 < k * (k - 1) / 2 := by
      have : 2 * 1 ≤ k * (k - 1) := Nat.mul_le_mul (by omega) (by omega)
      omega
    obtain ⟨l, hl, hll, hlv⟩ := hmom c hc s hs
    obtain ⟨⟨log2, hlog2, hg2⟩, -⟩ := h l 0 (by omega) (by
      intro j hj
      rw [zero_add, List.getElem?_eq_getElem (by omega)]
      have := hlv j (by omega)
      rw [List.getD_eq_getElem?_getD, List.getElem?_eq_getElem (by omega), Option.getD_some] at this
      rw [this]
      rfl)
    have hint : internalWrites data (vemCell2D ref (poly c) s) f c = .ok log2 := by
      unfold internalWrites
      rw [hx, except_ok_bind, if_neg (by omega)]
      show (do let values ← vemInternalDofs (poly c) s (evalScalar s.internal.points f) s.internal; dofWrites values 0 x.dofs) = _
      rw [hl, except_ok_bind, hlog2]
    rw [hint, except_ok_bind]
    refine ⟨_, rfl, ?_⟩
    have : (mesh.topo.cell2DEdges c).zipIdx.flatMap (fun e => Handler.refs k 1 e.1) = (mesh.topo.cell2DEdges c).flatMap fun e => (List.range (k - 1)).map fun j => ⟨1, e, j⟩ := by
      conv_rhs => rw [← List.zipIdx_map_fst 0 (mesh.topo.cell2DEdges c), List.flatMap_map]
      rfl
    rw [this] at hg1
    exact (hg0.append hg1).append hg2
  · obtain rfl : k = 1 := by omega
    refine ⟨log0, rfl, ?_⟩
    have : vemList 1 mesh.topo c = (mesh.topo.cell2DVertices c).map fun v => ⟨0, v, 0⟩ := by simp [vemList]
    rw [this]
    exact hg0

/-- The vectors of `evaluate_function_on_dofs`. -/
theorem evaluate_ok (hM : IsPlaneMesh k mesh poly n len dir nrm) (hT : IsTables k triangle edge ts ws w) (hlu : SolvesRegular lu) (hllt : SolvesPosDef llt)
    (hr : vemRef2D triangle edge k = .ok ref) (H : Handler k mesh.topo info data) (f : ℝ × ℝ → ℝ) (M : Nat → Nat → ℝ)
    (hmom : ∀ c < mesh.num2D, ∀ s, vemCreate2D lu llt ref (poly c) = .ok s → ∃ l, vemInternalDofs (poly c) s (evalScalar s.internal.points f) s.internal = .ok l ∧
      l.length = k * (k - 1) / 2 ∧ ∀ j < k * (k - 1) / 2, l.getD j 0 = M c j) :
    ∃ v, evaluateOnDofs data k (vemSpaces lu llt ref poly) mesh f = .ok v ∧ v.free.length = data.counters.dofs ∧ v.strong.length = data.counters.strongs ∧
      ∀ c < mesh.num2D, ∀ r ∈ vemList k mesh.topo c, valueOf data v.free v.strong r = nodeValue mesh ts f M r := by
  obtain ⟨log, hlog, hg⟩ := Good.flatten (data := data) (P := fun _ => True) (val := nodeValue mesh ts f M) (List.range mesh.num2D)
    (evaluateCell data k (vemSpaces lu llt ref poly) mesh f) (vemList k mesh.topo) fun c hc =>
      evaluateCell_ok hM hT hlu hllt hr H f M hmom (List.mem_range.1 hc)
  obtain ⟨v, hv, h1, h2, h3, -⟩ := H.writes (val := nodeValue mesh ts f M) log.flatten ⟨List.replicate data.counters.dofs 0, List.replicate data.counters.strongs 0⟩
    (by simp) (by simp) fun p hp => by
      obtain ⟨r, -, h⟩ := hg.sound p hp
      exact ⟨r, h⟩
  refine ⟨v, ?_, h1, h2, fun c hc r hr => ?_⟩
  · rw [evaluateOnDofs, hlog, except_ok_bind, hv]
  · obtain ⟨x, hx, -⟩ := H.lookup_list hc hr
    obtain ⟨y, hy⟩ := hg.cover r (List.mem_flatMap.2 ⟨c, List.mem_range.2 hc, hr⟩) x hx trivial
    exact h3 r x y hx hy

/-- The moments of a function computed by a cell. -/
theorem moments_ok (hM : IsPlaneMesh k mesh poly n len dir nrm) (hT : IsTables k triangle edge ts ws w) (hlu : SolvesRegular lu) (hllt : SolvesPosDef llt)
    (hr : vemRef2D triangle edge k = .ok ref) (f : ℝ × ℝ → ℝ) : ∃ M : Nat → Nat → ℝ,
    (∀ c < mesh.num2D, ∀ s, vemCreate2D lu llt ref (poly c) = .ok s → ∃ l, vemInternalDofs (poly c) s (evalScalar s.internal.points f) s.internal = .ok l ∧
      l.length = k * (k - 1) / 2 ∧ ∀ j < k * (k - 1) / 2, l.getD j 0 = M c j) ∧
    ∀ q : MvPolynomial (Fin 2) ℝ, q.totalDegree ≤ k + 2 → (∀ p, f p = eval ![p.1, p.2] q) → ∀ c < mesh.num2D, ∀ a b, a + b + 2 ≤ k →
      M c (position a b) = 1 / (poly c).measure * ∫ p in unionOf (poly c).tris, scaledMonomial (poly c).centroid (poly c).diameter a b p * f p := by
  choose s hs _ hok using fun (c : Nat) (hc : c < mesh.num2D) => space_ok hM hT hlu hllt hr hc
  choose l hl hlen hval using fun (c : Nat) (hc : c < mesh.num2D) => vemInternalDofs_ok hT hr (hs c hc) (hok c hc) f
  refine ⟨fun c j => if h : c < mesh.num2D then (l c h).getD j 0 else 0, fun c hc s' hs' => ?_, fun q hq hf c hc a b hab => ?_⟩
  · obtain rfl : s' = s c hc := Except.ok.inj (hs'.symm.trans (hs c hc))
    exact ⟨l c hc, hl c hc, hlen c hc, fun j _ => by simp only [dif_pos hc]⟩
  · have hfq : f = ev2 q := funext hf
    have hp : position a b < tri (k - 2 + 1) := position_lt.2 (by omega)
    have hk2 : tri (k - 2 + 1) ≤ tri (k + 1) := tri_le (by omega)
    have hdeg : (basisPoly k (poly c).centroid (poly c).diameter (position a b) * q).totalDegree ≤ 2 * k := by
      refine (totalDegree_mul _ _).trans ?_
      have := basisPoly_degree k (poly c).centroid (poly c).diameter (j := position a b) (m := k - 2) (by rw [num2_eq]; omega) hp
      omega
    have hev : (ev2 (basisPoly k (poly c).centroid (poly c).diameter (position a b) * q)) = fun p => scaledMonomial (poly c).centroid (poly c).diameter a b p * f p := by
      funext p
      rw [hfq, ← ev2_basis_position k _ _ (show a + b ≤ k by omega)]
      simp [ev2]
    have := (hok c hc).rules.integral _ hdeg
    rw [hev] at this
    dsimp only
    rw [dif_pos hc, hval c hc a b hab, ← this]
    show _ = _ * quadSum _ _ (ev2 _)
    rw [hev]

/-- The marker of an entity. -/
def markerOf (info : MeshInfo) (d c : Nat) : Nat := ((info.bInfo d)[c]?).elim 0 BInfo.marker

/-- The type of a DOF is decided by the boundary type of its entity. -/
theorem Handler.type_of (H : Handler k mesh.topo info data) {d c j : Nat} {x : DOF} (hd : d ≤ 2) (hc : c < (mesh.topo.markers d).length)
    (hx : lookup data ⟨d, c, j⟩ = some x) : ∃ b, (info.bInfo d)[c]? = some b ∧ x.type = typeFor b.type := by
  obtain ⟨y, b, hy, hb, -, -, ht⟩ := H.cell d hd c hc
  rw [Handler.lookup_cell hy] at hx
  exact ⟨b, hb, ht x (List.mem_of_getElem? hx)⟩

theorem typeFor_strong {b : BType} (h : typeFor b = .strong) : b = .strong := by
  cases b <;> simp_all [typeFor]

/-- What one cell writes in `assemble_strong_solution`. -/
theorem strongCell_ok (hM : IsPlaneMesh k mesh poly n len dir nrm) (hT : IsTables k triangle edge ts ws w) (hlu : SolvesRegular lu) (hllt : SolvesPosDef llt)
    (hr : vemRef2D triangle edge k = .ok ref) (H : Handler k mesh.topo info data) (f : Nat → ℝ × ℝ → ℝ) {c : Nat} (hc : c < mesh.num2D) :
    ∃ log, strongCell info data k (vemSpaces lu llt ref poly) mesh f c = .ok log ∧
      Good data (fun x => x.type = .strong) (fun r => nodeValue mesh ts (f (markerOf info r.dim r.cell)) (fun _ _ => 0) r) (log.map fun p => (⟨.strong, p.1⟩, p.2))
        ((mesh.topo.cell2DVertices c).map (fun v => ⟨0, v, 0⟩) ++ (mesh.topo.cell2DEdges c).flatMap fun e => (List.range (k - 1)).map fun j => ⟨1, e, j⟩) := by
  have hk := hT.low
  set val : GDOF → ℝ := fun r => nodeValue mesh ts (f (markerOf info r.dim r.cell)) (fun _ _ => 0) r
  -- a whole list of entities
  have lift : ∀ {α : Type} (l : List α) (g : α → Except Fault (List (Nat × ℝ))) (rs : α → List GDOF),
      (∀ a ∈ l, ∃ log, g a = .ok log ∧ Good data (fun x => x.type = .strong) val (log.map fun p => (⟨.strong, p.1⟩, p.2)) (rs a)) →
      ∃ logs, l.mapM g = .ok logs ∧ Good data (fun x => x.type = .strong) val (logs.flatten.map fun p => (⟨.strong, p.1⟩, p.2)) (l.flatMap rs) := by
    intro α l g rs h
    induction l with
    | nil => exact ⟨[], rfl, Good.nil⟩
    | cons a l ih =>
      obtain ⟨log, h1, h2⟩ := h a List.mem_cons_self
      obtain ⟨logs, h3, h4⟩ := ih fun a ha => h a (List.mem_cons_of_mem _ ha)
      refine ⟨log :: logs, ?_, ?_⟩
      · rw [List.mapM_cons, h1, except_ok_bind, h3, except_ok_bind]
        rfl
      · rw [List.flatten_cons, List.map_append, List.flatMap_cons]
        exact h2.append h4
  have none_good : ∀ {d i : Nat} {b : BInfo}, d ≤ 2 → i < (mesh.topo.markers d).length → (info.bInfo d)[i]? = some b → b.type ≠ .strong →
      Good data (fun x => x.type = .strong) val [] (Handler.refs k d i) := by
    intro d i b hd hi hb ht
    refine ⟨by simp, fun r hr x hx hs => ?_⟩
    obtain ⟨j, -, rfl⟩ := List.mem_map.1 hr
    obtain ⟨b', hb', hb''⟩ := H.type_of hd hi hx
    rw [hb] at hb'
    obtain rfl := Option.some.inj hb'
    exact absurd (typeFor_strong (hb''.symm.trans hs)) ht
  obtain ⟨log0, h0, hg0⟩ := lift (mesh.topo.cell2DVertices c) (strongVertex info data mesh f) (fun v => Handler.refs k 0 v) (by
    intro v hv
    have hv' := H.verts c hc v hv
    obtain ⟨y, b, hy, hb, -⟩ := H.cell 0 (by norm_num) v hv'
    unfold strongVertex
    rw [(atIdx_ok_iff _ _ _).2 hb, except_ok_bind]
    split_ifs with ht
    · exact ⟨[], rfl, none_good (by norm_num) hv' hb ht⟩
    · obtain ⟨x, hx, -, h⟩ := H.entity (d := 0) (by norm_num) hv' val
      rw [hx, except_ok_bind]
      have h1 : numOf k 0 = 1 := rfl
      obtain ⟨-, log, hlog, hg⟩ := h (evalScalar [mesh.coords v] (f b.marker)) 0 (by simp [evalScalar, h1]) (by
        intro j hj
        obtain rfl : j = 0 := by omega
        simp [evalScalar, val, nodeValue, markerOf, hb])
      exact ⟨log, hlog, hg⟩)
  unfold strongCell
  rw [h0, except_ok_bind]
  have hv0 : (mesh.topo.cell2DVertices c).flatMap (fun v => Handler.refs k 0 v) = (mesh.topo.cell2DVertices c).map fun v => ⟨0, v, 0⟩ := by
    rw [show (fun v => Handler.refs k 0 v) = fun v => [(⟨0, v, 0⟩ : GDOF)] from rfl, ← List.map_eq_flatMap]
  rw [hv0] at hg0
  split_ifs with h1
  · obtain ⟨s, hs, hsp, hok⟩ := space_ok hM hT hlu hllt hr hc
    rw [hsp, except_ok_bind]
    obtain ⟨log1, h1, hg1⟩ := lift (mesh.topo.cell2DEdges c).zipIdx (strongEdge info data (vemCell2D ref (poly c) s) f) (fun e => Handler.refs k 1 e.1) (by
      rintro ⟨E, e⟩ hE
      rw [List.mem_zipIdx_iff_getElem?] at hE
      dsimp only at hE
      have he : e < n c := by rw [← hM.edges c hc]; exact (List.getElem?_eq_some_iff.1 hE).1
      obtain rfl : E = cellEdge mesh c e := by
        rw [cell_edge_mem hM hc he] at hE
        exact (Option.some.inj hE).symm
      have hE' := H.edges c hc _ (List.mem_of_getElem? hE)
      obtain ⟨y, b, hy, hb, -⟩ := H.cell 1 (by norm_num) _ hE'
      obtain ⟨x, hx, hxl, h⟩ := H.entity (d := 1) (by norm_num) hE' val
      have hn1 : numOf k 1 = k - 1 := rfl
      unfold strongEdge
      dsimp only
      rw [(atIdx_ok_iff _ _ _).2 hb, except_ok_bind, hx, except_ok_bind]
      split_ifs with ht
      · rcases ht with ht | ht
        · exact ⟨[], rfl, none_good (by norm_num) hE' hb ht⟩
        · omega
      · obtain ⟨hl, hv⟩ := edge_values hT mesh (f b.marker) (fun _ _ => 0) (cellEdge mesh c e)
        obtain ⟨-, log, hlog, hg⟩ := h _ 0 hl (by
          intro j hj
          rw [hv j hj]
          simp [val, markerOf, hb])
        refine ⟨log, ?_, hg⟩
        rw [edge_coords hM hT hr s hc he, except_ok_bind, hlog])
    rw [h1, except_ok_bind]
    refine ⟨_, rfl, ?_⟩
    have : (mesh.topo.cell2DEdges c).zipIdx.flatMap (fun e => Handler.refs k 1 e.1) = (mesh.topo.cell2DEdges c).flatMap fun e => (List.range (k - 1)).map fun j => ⟨1, e, j⟩ := by
      conv_rhs => rw [← List.zipIdx_map_fst 0 (mesh.topo.cell2DEdges c), List.flatMap_map]
      rfl
    rw [this] at hg1
    rw [List.map_append]
    exact hg0.append hg1
  · obtain rfl : k = 1 := by omega
    refine ⟨_, rfl, ?_⟩
    have : (mesh.topo.cell2DEdges c).flatMap (fun e => (List.range (1 - 1)).map fun j => (⟨1, e, j⟩ : GDOF)) = [] := List.flatMap_eq_nil_iff.2 (by simp)
    rw [this, List.append_nil]
    exact hg0

theorem mem_cells {c : Nat} : c ∈ mesh.cells ↔ c < mesh.num2D ∧ mesh.active2D c = true := by
  simp [PlaneMesh.cells]

/-- The vector of `assemble_strong_solution`. -/
theorem strong_ok (hM : IsPlaneMesh k mesh poly n len dir nrm) (hT : IsTables k triangle edge ts ws w) (hlu : SolvesRegular lu) (hllt : SolvesPosDef llt)
    (hr : vemRef2D triangle edge k = .ok ref) (H : Handler k mesh.topo info data) (f : Nat → ℝ × ℝ → ℝ) :
    ∃ g, strongSolution info data k (vemSpaces lu llt ref poly) mesh f = .ok g ∧ g.length = data.counters.strongs ∧
      ∀ r i, lookup data r = some ⟨.strong, i⟩ →
        (∀ c ∈ mesh.cells, r ∈ (mesh.topo.cell2DVertices c).map (fun v => (⟨0, v, 0⟩ : GDOF)) ++ (mesh.topo.cell2DEdges c).flatMap (fun e => (List.range (k - 1)).map fun j => ⟨1, e, j⟩) →
          g.getD i 0 = nodeValue mesh ts (f (markerOf info r.dim r.cell)) (fun _ _ => 0) r) ∧
        ((∀ c ∈ mesh.cells, r ∉ (mesh.topo.cell2DVertices c).map (fun v => (⟨0, v, 0⟩ : GDOF)) ++ (mesh.topo.cell2DEdges c).flatMap (fun e => (List.range (k - 1)).map fun j => ⟨1, e, j⟩)) →
          g.getD i 0 = 0) := by
  set val : GDOF → ℝ := fun r => nodeValue mesh ts (f (markerOf info r.dim r.cell)) (fun _ _ => 0) r with hval
  set rs : Nat → List GDOF := fun c => (mesh.topo.cell2DVertices c).map (fun v => (⟨0, v, 0⟩ : GDOF)) ++ (mesh.topo.cell2DEdges c).flatMap (fun e => (List.range (k - 1)).map fun j => ⟨1, e, j⟩) with hrs
  obtain ⟨logs, hlogs, hg⟩ : ∃ logs, mesh.cells.mapM (strongCell info data k (vemSpaces lu llt ref poly) mesh f) = .ok logs ∧
      Good data (fun x => x.type = .strong) val (logs.flatten.map fun p => (⟨.strong, p.1⟩, p.2)) (mesh.cells.flatMap rs) := by
    have hall : ∀ c ∈ mesh.cells, c < mesh.num2D := fun c hc => (mem_cells.1 hc).1
    generalize mesh.cells = l at hall
    induction l with
    | nil => exact ⟨[], rfl, Good.nil⟩
    | cons a l ih =>
      obtain ⟨log, h1, h2⟩ := strongCell_ok hM hT hlu hllt hr H f (hall a List.mem_cons_self)
      obtain ⟨logs, h3, h4⟩ := ih fun a ha => hall a (List.mem_cons_of_mem _ ha)
      refine ⟨log :: logs, ?_, ?_⟩
      · rw [List.mapM_cons, h1, except_ok_bind, h3, except_ok_bind]
        rfl
      · rw [List.flatten_cons, List.map_append, List.flatMap_cons]
        exact h2.append h4
  obtain ⟨v, hv, h1, h2, h3, h4⟩ := H.writes (val := val) (logs.flatten.map fun p => (⟨.strong, p.1⟩, p.2))
    ⟨List.replicate data.counters.dofs 0, List.replicate data.counters.strongs 0⟩ (by simp) (by simp) fun p hp => by
      obtain ⟨r, -, h⟩ := hg.sound p hp
      exact ⟨r, h⟩
  rw [fold_strong] at hv
  obtain ⟨g, hgok, hgv⟩ := (bind_ok_iff _ _ _).1 hv
  obtain rfl := (Except.ok.inj hgv).symm
  refine ⟨g, ?_, h2, fun r i hri => ⟨fun c hc hmem => ?_, fun hnot => ?_⟩⟩
  · rw [strongSolution, hlogs, except_ok_bind, hgok]
  · obtain ⟨y, hy⟩ := hg.cover r (List.mem_flatMap.2 ⟨c, hc, hmem⟩) _ hri rfl
    have := h3 r _ y hri hy
    rw [valueOf, hri] at this
    exact this
  · have := h4 r _ hri fun y hy => by
      obtain ⟨r0, hr0, hl, -⟩ := hg.sound _ hy
      obtain rfl := H.inj r r0 _ hri hl (by simp)
      obtain ⟨c, hc, hm⟩ := List.mem_flatMap.1 hr0
      exact hnot c hc hm
    rw [valueOf, valueOf, hri] at this
    dsimp only at this
    rw [this]
    simp [List.getD_eq_getElem?_getD, List.getElem?_replicate]
    split_ifs <;> rfl

end

end PolyDiM
