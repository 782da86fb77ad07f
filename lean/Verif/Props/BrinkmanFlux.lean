import Verif.Model.BrinkmanFlux
import Verif.Spec.BrinkmanFlux
import Verif.Props.BrinkmanPost

/-!
# C180: the flux of the Brinkman example
-/

namespace PolyDiM

open Spec

theorem addFlux_lookup (m : List (Nat × ℝ)) (k : Nat) (x : ℝ) (j : Nat) : (addFlux m k x).lookup j = if j = k then some ((m.lookup k).getD 0 + x) else m.lookup j := by
  induction m with
  | nil =>
    by_cases h : j = k
    · simp [addFlux, List.lookup, h]
    · simp [addFlux, List.lookup, h, beq_eq_false_iff_ne.2 h]
  | cons a m ih =>
    obtain ⟨i, y⟩ := a
    by_cases hik : i = k
    · subst hik
      by_cases h : j = i
      · simp [addFlux, List.lookup, h]
      · simp [addFlux, List.lookup, h, beq_eq_false_iff_ne.2 h]
    · have hki : (k == i) = false := beq_eq_false_iff_ne.2 (Ne.symm hik)
      rw [addFlux, if_neg hik]
      by_cases h : j = i
      · subst h
        simp [List.lookup, hik]
      · have hji : (j == i) = false := beq_eq_false_iff_ne.2 h
        simp only [List.lookup, hji, hki]
        exact ih

theorem flux_fold (l : List (Nat × ℝ)) (m : List (Nat × ℝ)) (j : Nat) : (l.foldl (fun m x => addFlux m x.1 x.2) m).lookup j
    = if j ∈ l.map Prod.fst then some ((m.lookup j).getD 0 + ((l.filter fun x => x.1 = j).map Prod.snd).sum) else m.lookup j := by
  induction l generalizing m with
  | nil => simp
  | cons a l ih =>
    obtain ⟨k, x⟩ := a
    rw [List.foldl_cons, ih]
    dsimp only
    rw [addFlux_lookup]
    simp only [List.map_cons, List.mem_cons]
    by_cases hjk : j = k
    · subst hjk
      by_cases hm : j ∈ l.map Prod.fst
      · simp [hm, add_assoc]
      · have hnil : (l.filter fun x => x.1 = j) = [] := List.filter_eq_nil_iff.2 fun y hy => by
          simp only [decide_eq_true_eq]
          rintro rfl
          exact hm (List.mem_map_of_mem hy)
        simp [hm, hnil]
    · simp only [if_neg hjk, List.filter_cons, decide_eq_true_eq, Ne.symm hjk, if_false]
      by_cases hm : j ∈ l.map Prod.fst
      · rw [if_pos hm, if_pos (Or.inr hm)]
      · rw [if_neg hm, if_neg (not_or.2 ⟨hjk, hm⟩)]

theorem range_flatMap_sum (edges : Nat → List (FluxEdge ℝ)) (p : FluxEdge ℝ → Bool) (f : FluxEdge ℝ → ℝ) (n : Nat) :
    ((((List.range n).flatMap edges).filter p).map f).sum = ∑ c ∈ Finset.range n, (((edges c).filter p).map f).sum := by
  induction n with
  | zero => simp
  | succ n ih => rw [List.range_succ, List.flatMap_append, List.filter_append, List.map_append, List.sum_append, ih, Finset.sum_range_succ]; simp

variable {ref : DfRef2D ℝ} {mesh : PlaneMesh ℝ} {boundary : Nat → Nat → Option BInfo} {info : Nat → MeshInfo} {D : Nat → DOFsData} {count : CountData}

/-- The DOFs of an edge for a component of the velocity. -/
theorem edge_dofs (hs : IsDfSetup ref mesh boundary info D count) {h e : Nat} (hh : h < 2) (he : e < (mesh.topo.markers 1).length) :
    ∃ gl, ((D h).dims 1).globals[e]? = some gl ∧ cellList (D h) 1 e = gl.gdofs ∧ gl.gdofs.length = ref.dofs1D + 2 ∧
      ∀ r ∈ gl.gdofs, ∃ x, lookup (D h) r = some x ∧ x.type ≠ .unknwon := by
  have F := (df_quad hs).field h (by omega)
  obtain ⟨hsome, hall⟩ := C06_cell_list 2 (info h) mesh.topo (D h) (hs.dofs h (by omega)) 1 e
  have ht : ∀ d ≤ 2, ∀ c < (mesh.topo.markers d).length, requested (info h) (d, c) = dfNum ref h d := fun d hd c hc => by
    obtain ⟨t1, t2, t3, -⟩ := df_types hs (h := h) (by omega) hd
    have hc' : c < ((info h).numDOFs d).length := by omega
    rw [requested]
    dsimp only
    rw [List.getElem?_eq_getElem hc', Option.getD_some]
    exact t1 _ (List.getElem_mem hc')
  obtain ⟨gl, hgl⟩ := Option.isSome_iff_exists.1 (hsome.2 ⟨by norm_num, by
    obtain ⟨-, t2, t3, -⟩ := df_types hs (h := h) (by omega) (d := 1) (by norm_num)
    omega⟩)
  obtain ⟨g1, g2, -⟩ := hall gl hgl
  obtain ⟨e1, e2⟩ := F.ends e he
  refine ⟨gl, hgl, by rw [cellList, hgl]; rfl, ?_, g2⟩
  rw [g1]
  simp only [expectedList, Spec.closure, List.flatMap_cons, List.flatMap_nil, List.append_nil, List.length_append, List.length_map, List.length_range]
  rw [ht 0 (by norm_num) _ e1, ht 0 (by norm_num) _ e2, ht 1 (by norm_num) _ he]
  simp only [dfNum, if_pos hh]
  norm_num
  omega

/-- The local solution on an edge. -/
theorem fluxSolution_ok (hs : IsDfSetup ref mesh boundary info D count) {g : List ℝ} (hg : g.length = count.totalStrong) {u : List ℝ} (hu : u.length = count.totalDOFs)
    {v : Nat → ℝ} (hv : v = withStrong count.totalDOFs (fun j => u.getD j 0) fun j => g.getD j 0) {h e : Nat} (hh : h < 2) (he : e < (mesh.topo.markers 1).length) :
    fluxSolution ((List.range 4).map D) count u g (ref.dofs1D + 2) e h = .ok ((cellList (D h) 1 e).map fun r => globalValue D count.totalDOFs v (h, r)) ∧
      (cellList (D h) 1 e).length = ref.dofs1D + 2 := by
  have H := df_quad hs
  obtain ⟨h1, h2, h3, h4⟩ := setup_count hs
  have F := H.field h (by omega)
  have ho := offset_le D (h := h) (by omega)
  have b1 := H.dofs
  have b2 := H.strongs
  obtain ⟨gl, hgl, hcl, hlen, hlook⟩ := edge_dofs hs hh he
  have hoD : unchecked ((List.range 4).map (fieldOffset D)) h = .ok (fieldOffset D h) := (unchecked_ok_iff _ _ _).2 (by rw [List.getElem?_map, List.getElem?_range (by omega)]; rfl)
  have hoS : unchecked ((List.range 4).map (strongOffset D)) h = .ok (strongOffset D h) := (unchecked_ok_iff _ _ _).2 (by rw [List.getElem?_map, List.getElem?_range (by omega)]; rfl)
  have hget : ∀ (a : List ℝ) (k : Nat), k < a.length → unchecked a k = .ok (a.getD k 0) := fun a k hk => (unchecked_ok_iff _ _ _).2 (by simp [List.getD_eq_getElem?_getD, hk])
  have hm : ∀ m, m < 2 ^ 32 → u32 m = m := fun m h => by rw [u32]; exact Nat.mod_eq_of_lt h
  have hdof : ∀ r ∈ gl.gdofs, fluxDof (D h) (fieldOffset D h) (strongOffset D h) u g r = .ok (globalValue D count.totalDOFs v (h, r)) := by
    intro r hr
    obtain ⟨⟨ty, i⟩, hx, hne⟩ := hlook r hr
    have hx' : (((D h).dims r.dim).cells[r.cell]?).bind (fun x => x.dofs[r.dof]?) = some ⟨ty, i⟩ := hx
    obtain ⟨z, hz, hz'⟩ := Option.bind_eq_some_iff.1 hx'
    unfold fluxDof
    rw [(atIdx_ok_iff _ _ _).2 hz, except_ok_bind, (atIdx_ok_iff _ _ _).2 hz', except_ok_bind, hv]
    unfold globalValue
    dsimp only
    rw [hx]
    cases ty with
    | unknwon => exact absurd rfl hne
    | dof =>
      have hi := F.free _ i hx
      dsimp only
      rw [hm _ (by omega), hget _ _ (by omega), withStrong, if_pos (by omega), Nat.add_comm]
    | strong =>
      have hi := F.strong _ i hx
      dsimp only
      rw [hm _ (by omega), hget _ _ (by omega), withStrong, if_neg (by omega), Nat.add_sub_cancel_left, Nat.add_comm]
  refine ⟨?_, by rw [hcl, hlen]⟩
  unfold fluxSolution
  rw [(unchecked_ok_iff ((List.range 4).map D) h (D h)).2 (by rw [List.getElem?_map, List.getElem?_range (by omega)]; rfl), except_ok_bind, (atIdx_ok_iff _ _ _).2 hgl, except_ok_bind, h3, h4, hoD,
    except_ok_bind, hoS, except_ok_bind, mapM_ok _ _ _ hdof, except_ok_bind, List.length_map, if_pos hlen.le, hlen, Nat.sub_self, List.replicate_zero, List.append_nil, hcl]

/-- One edge. -/
theorem edgeFluxOf_ok (hs : IsDfSetup ref mesh boundary info D count) {g : List ℝ} (hg : g.length = count.totalStrong) {u : List ℝ} (hu : u.length = count.totalDOFs)
    {v : Nat → ℝ} (hv : v = withStrong count.totalDOFs (fun j => u.getD j 0) fun j => g.getD j 0) {Q : Nat} {w : Nat → ℝ} {e : FluxEdge ℝ} (he : e.index < (mesh.topo.markers 1).length)
    (hr : e.table.rows = Q) (hc : e.table.cols = ref.dofs1D + 2) :
    edgeFluxOf ((List.range 4).map D) count (vecOf Q w) u g e = .ok (normalFlux Q w e.length e.normal (edgeSpeed D count.totalDOFs v e.index e.table.ent)) := by
  obtain ⟨s0, l0⟩ := fluxSolution_ok hs hg hu hv (h := 0) (by norm_num) he
  obtain ⟨s1, l1⟩ := fluxSolution_ok hs hg hu hv (h := 1) (by norm_num) he
  obtain ⟨idx, mk, ⟨rows, cols, ent⟩, len, nrm⟩ := e
  dsimp only at he hr hc s0 s1 l0 l1 ⊢
  subst hr hc
  unfold edgeFluxOf
  dsimp only [DMat.smul]
  rw [s0, except_ok_bind, s1, except_ok_bind, DMat.mul_ok _ _ (by rw [show ∀ l : List ℝ, (DMat.col l).rows = l.length from fun _ => rfl, List.length_map, l0]), except_ok_bind,
    DMat.mul_ok _ _ (by rw [show ∀ l : List ℝ, (DMat.col l).rows = l.length from fun _ => rfl, List.length_map, l1]), except_ok_bind, show ∀ A B : DMat ℝ, A.rows = B.rows → A.cols = B.cols → A.add B = .ok ⟨A.rows, A.cols, fun i j => A.ent i j + B.ent i j⟩ from DMat.add_ok, except_ok_bind]
  rotate_left
  · rfl
  · rfl
  dsimp only
  have hval : ∀ h, (cellList (D h) 1 idx).length = ref.dofs1D + 2 → ∀ (a : ℝ) (q : Nat),
      ∑ k ∈ Finset.range (ref.dofs1D + 2), a * ent q k * (DMat.col ((cellList (D h) 1 idx).map fun r => globalValue D count.totalDOFs v (h, r))).ent k 0
        = a * edgeSpeed D count.totalDOFs v idx ent h q := by
    intro h hl a q
    rw [edgeSpeed, hl, Finset.mul_sum]
    refine Finset.sum_congr rfl fun k _ => ?_
    rw [mul_assoc]
    refine congrArg _ (congrArg _ ?_)
    show ((cellList (D h) 1 idx).map fun r => globalValue D count.totalDOFs v (h, r)).getD k 0 = _
    rw [List.getD_eq_getElem?_getD, List.getElem?_map]
    cases (cellList (D h) 1 idx)[k]? <;> rfl
  have hlist : (⟨rows, (DMat.col ((cellList (D 0) 1 idx).map fun r => globalValue D count.totalDOFs v (0, r))).cols, fun i j =>
      (∑ k ∈ Finset.range (ref.dofs1D + 2), nrm.1 * ent i k * (DMat.col ((cellList (D 0) 1 idx).map fun r => globalValue D count.totalDOFs v (0, r))).ent k j)
        + ∑ k ∈ Finset.range (ref.dofs1D + 2), nrm.2 * ent i k * (DMat.col ((cellList (D 1) 1 idx).map fun r => globalValue D count.totalDOFs v (1, r))).ent k j⟩ : DMat ℝ).toList
      = vecOf rows fun q => nrm.1 * edgeSpeed D count.totalDOFs v idx ent 0 q + nrm.2 * edgeSpeed D count.totalDOFs v idx ent 1 q := by
    unfold DMat.toList vecOf
    dsimp only
    exact List.map_congr_left fun q _ => by rw [hval 0 l0, hval 1 l1]
  rw [hlist, flow_points, dotWeights_ok, normalFlux, Finset.mul_sum]
  have habs : (if len < 0 then -len else len) = |len| := by
    split_ifs with hl
    · rw [abs_of_neg hl]
    · rw [abs_of_nonneg (not_lt.1 hl)]
  rw [habs]
  exact congrArg Except.ok (Finset.sum_congr rfl fun q _ => by ring)

/-- **C180.** For each marker but 0 that occurs on an edge of a cell, the flux is the sum over all these edges of the quadrature of the normal component of the discrete velocity; there is no
entry for other markers. -/
theorem C180_flux (hs : IsDfSetup ref mesh boundary info D count) {Q n : Nat} {w : Nat → ℝ} {edges : Nat → List (FluxEdge ℝ)}
    (he : ∀ c < n, ∀ e ∈ edges c, e.marker ≠ 0 → e.index < (mesh.topo.markers 1).length ∧ e.table.rows = Q ∧ e.table.cols = ref.dofs1D + 2)
    {g : List ℝ} (hg : g.length = count.totalStrong) {u : List ℝ} (hu : u.length = count.totalDOFs)
    {v : Nat → ℝ} (hv : v = withStrong count.totalDOFs (fun j => u.getD j 0) fun j => g.getD j 0) :
    ∃ F, computeFlux ((List.range 4).map D) count (vecOf Q w) edges n u g = .ok F ∧
      (∀ m, m ≠ 0 → (∃ c < n, ∃ e ∈ edges c, e.marker = m) → F.lookup m = some (∑ c ∈ Finset.range n,
        (((edges c).filter fun e => e.marker = m).map fun e => normalFlux Q w e.length e.normal (edgeSpeed D count.totalDOFs v e.index e.table.ent)).sum)) ∧
      ∀ m, (m = 0 ∨ ∀ c < n, ∀ e ∈ edges c, e.marker ≠ m) → F.lookup m = none := by
  set flux : FluxEdge ℝ → ℝ := fun e => normalFlux Q w e.length e.normal (edgeSpeed D count.totalDOFs v e.index e.table.ent) with hflux
  set l := ((List.range n).flatMap edges).filter fun e => e.marker ≠ 0 with hl
  have hmem : ∀ e, e ∈ l ↔ (∃ c < n, e ∈ edges c) ∧ e.marker ≠ 0 := fun e => by simp [hl]
  have hmap := mapM_ok (fun e => do
      let f ← edgeFluxOf ((List.range 4).map D) count (vecOf Q w) u g e
      .ok (e.marker, f)) (fun e => (e.marker, flux e)) l fun e hel => by
    obtain ⟨⟨c, hc, hec⟩, hne⟩ := (hmem e).1 hel
    obtain ⟨i1, i2, i3⟩ := he c hc e hec hne
    rw [edgeFluxOf_ok hs hg hu hv i1 i2 i3, except_ok_bind]
  refine ⟨(l.map fun e => (e.marker, flux e)).foldl (fun m x => addFlux m x.1 x.2) [], ?_, fun m hm hex => ?_, fun m hno => ?_⟩
  · unfold computeFlux
    rw [← hl, hmap, except_ok_bind]
  · obtain ⟨c, hc, e, hec, rfl⟩ := hex
    rw [flux_fold, if_pos (by
      rw [List.map_map]
      exact List.mem_map.2 ⟨e, (hmem e).2 ⟨⟨c, hc, hec⟩, hm⟩, rfl⟩)]
    simp only [List.lookup_nil, Option.getD_none, zero_add]
    refine congrArg some ?_
    rw [List.filter_map, List.map_map, hl, List.filter_filter]
    have hfil : ∀ L : List (FluxEdge ℝ), L.filter (fun a => ((fun x : Nat × ℝ => decide (x.1 = e.marker)) ∘ fun e => (e.marker, flux e)) a && decide (a.marker ≠ 0))
        = L.filter fun a => a.marker = e.marker := fun L => List.filter_congr fun a _ => by
      simp only [Function.comp_apply]
      by_cases h : a.marker = e.marker
      · simp [h, hm]
      · simp [h]
    rw [hfil]
    rw [← range_flatMap_sum]
    rfl
  · rw [flux_fold, if_neg, List.lookup_nil]
    rw [List.map_map]
    intro hin
    obtain ⟨e, hel, heq⟩ := List.mem_map.1 hin
    obtain ⟨⟨c, hc, hec⟩, hne⟩ := (hmem e).1 hel
    rcases hno with rfl | hno
    · exact hne heq
    · exact hno c hc e hec heq

-- C180: on two triangles with a closed boundary, edges with the markers 3 and 0 on each cell
example : ∃ (ref : DfRef2D ℝ) (info : Nat → MeshInfo) (D : Nat → DOFsData) (count : CountData) (edges : Nat → List (FluxEdge ℝ)) (u : List ℝ),
    IsDfSetup ref patchMesh (fun _ => closedBoundary) info D count ∧
    (∀ c < 2, ∀ e ∈ edges c, e.marker ≠ 0 → e.index < (patchMesh.topo.markers 1).length ∧ e.table.rows = 1 ∧ e.table.cols = ref.dofs1D + 2) ∧
    (List.replicate 16 (1 : ℝ)).length = count.totalStrong ∧ u.length = count.totalDOFs ∧ (∃ c < 2, ∃ e ∈ edges c, e.marker = 3) ∧
    normalFlux 1 (fun _ => 1) 2 (0, -1) (fun h _ => if h = 0 then 5 else 3) = -6 := by
  obtain ⟨ref, info, D, count, href, hs, -, -, ht, hst⟩ := patch_closed
  refine ⟨ref, info, D, count, fun c => [⟨c, 3, ⟨1, ref.dofs1D + 2, fun _ _ => 1⟩, 2, (0, -1)⟩, ⟨7, 0, ⟨1, 0, fun _ _ => 0⟩, 1, (1, 0)⟩], List.replicate 5 3, hs, fun c hc e he hne => ?_, ?_,
    by rw [ht]; rfl, ⟨1, by norm_num, _, List.mem_cons_self, rfl⟩, ?_⟩
  · rcases List.mem_cons.1 he with rfl | he
    · refine ⟨lt_of_lt_of_le hc ?_, rfl, rfl⟩
      decide
    · rw [List.mem_singleton.1 he] at hne
      exact absurd rfl hne
  · rw [(setup_count hs).2.1, hst, List.length_replicate]
  · norm_num [normalFlux]

end PolyDiM
