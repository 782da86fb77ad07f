import Verif.Lemmas.LinePatch

/-!
# Lemmas: the errors computed on a mesh of segments
-/

namespace PolyDiM

open Spec Polynomial

variable {k : Nat} {d : Fem1Data ℝ} {mid : List ℝ} {mesh : LineMesh ℝ} {g : LineGeometry ℝ} {info : MeshInfo} {data : DOFsData} {rule : Rule ℝ ℝ}

theorem weightedSquare_range (n : Nat) (w e : Nat → ℝ) : weightedSquare ((List.range n).map w) ((List.range n).map e) = .ok (∑ q ∈ Finset.range n, w q * (e q * e q)) := by
  rw [weightedSquare, if_pos (by simp), List.zipWith_map, List.zipWith_self, range_sum]

theorem vectorSub_range (n : Nat) (a b : Nat → ℝ) : vectorSub ((List.range n).map a) ((List.range n).map b) = .ok ((List.range n).map fun q => a q - b q) := by
  rw [vectorSub, if_pos (by simp), List.zipWith_map, List.zipWith_self]

/-- The function the DOFs of one segment describe. -/
noncomputable def lineFunction (k : Nat) (d : Fem1Data ℝ) (topo : Mesh) (data : DOFsData) (free strong : List ℝ) (c : Nat) : ℝ[X] :=
  lineInterp k d (onList (entityList (lineNum k) topo 1 c) (valueOf data free strong))

theorem line_errors (hk : 1 ≤ k) (R : LineRef k d mid) (hrule : rule.weights.length = rule.points.length) (H : DofHandler (lineNum k) 1 mesh.topo info data) (exact : LineExact ℝ)
    {free strong : List ℝ} (hf : free.length = data.counters.dofs) (hst : strong.length = data.counters.strongs) {c : Nat} (hc : c < mesh.num1D) :
    ∃ E, lineErrors data d rule g exact free strong c = .ok E ∧
      E.errorL2 = ∑ q ∈ Finset.range rule.points.length, rule.weights.getD q 0 * |g.length c| *
        (((lineFunction k d mesh.topo data free strong c).eval (rule.points.getD q 0)
          - exact.value (segF (fem1Map (g.origin c) (g.tangent c) (g.length c)) (rule.points.getD q 0))) *
        ((lineFunction k d mesh.topo data free strong c).eval (rule.points.getD q 0)
          - exact.value (segF (fem1Map (g.origin c) (g.tangent c) (g.length c)) (rule.points.getD q 0)))) ∧
      E.normL2 = ∑ q ∈ Finset.range rule.points.length, rule.weights.getD q 0 * |g.length c| *
        ((lineFunction k d mesh.topo data free strong c).eval (rule.points.getD q 0) * (lineFunction k d mesh.topo data free strong c).eval (rule.points.getD q 0)) ∧
      E.errorH1 = ∑ q ∈ Finset.range rule.points.length, rule.weights.getD q 0 * |g.length c| *
        (((Polynomial.derivative (lineFunction k d mesh.topo data free strong c)).eval (rule.points.getD q 0) / g.length c
          - tangentDerivative g exact c (segF (fem1Map (g.origin c) (g.tangent c) (g.length c)) (rule.points.getD q 0))) *
        ((Polynomial.derivative (lineFunction k d mesh.topo data free strong c)).eval (rule.points.getD q 0) / g.length c
          - tangentDerivative g exact c (segF (fem1Map (g.origin c) (g.tangent c) (g.length c)) (rule.points.getD q 0)))) ∧
      E.normH1 = ∑ q ∈ Finset.range rule.points.length, rule.weights.getD q 0 * |g.length c| *
        ((Polynomial.derivative (lineFunction k d mesh.topo data free strong c)).eval (rule.points.getD q 0) / g.length c *
          ((Polynomial.derivative (lineFunction k d mesh.topo data free strong c)).eval (rule.points.getD q 0) / g.length c)) := by
  obtain ⟨T, D, hs, ht⟩ := R.space hk rule g c
  obtain ⟨y, hy, hyl, hyv⟩ := H.local_values hc hf hst
  set m := fem1Map (g.origin c) (g.tangent c) (g.length c) with hm
  have hpts : ∀ f : (Nat → ℝ) → ℝ, (fem1Internal rule m).points.map f = (List.range rule.points.length).map fun q => f (segF m (rule.points.getD q 0)) := by
    intro f
    rw [fem1Internal, List.map_map, map_getD rule.points 0]
    rfl
  have hwts : (fem1Internal rule m).weights = (List.range rule.points.length).map fun q => rule.weights.getD q 0 * |g.length c| := by
    rw [fem1Internal]
    dsimp only
    rw [map_getD rule.weights 0, hrule]
    rfl
  have hlen : y.length = k + 1 := by rw [hyl, lineList_length hk]
  have hval : ∀ i < k + 1, y.getD i 0 = onList (entityList (lineNum k) mesh.topo 1 c) (valueOf data free strong) i := by
    intro i hi
    have hi' : i < (entityList (lineNum k) mesh.topo 1 c).length := by rw [lineList_length hk]; exact hi
    rw [hyv i _ (List.getElem?_eq_getElem hi'), onList, List.getElem?_eq_getElem hi', Option.elim_some]
  have hU : (DMat.mk rule.points.length (k + 1) T).mul (.col y) = .ok ⟨rule.points.length, 1, fun q _ => ∑ i ∈ Finset.range (k + 1), T q i * y.getD i 0⟩ :=
    DMat.mul_ok _ _ (by simp [DMat.col, hlen])
  have hD : (DMat.mk rule.points.length (k + 1) D).mul (.col y) = .ok ⟨rule.points.length, 1, fun q _ => ∑ i ∈ Finset.range (k + 1), D q i * y.getD i 0⟩ :=
    DMat.mul_ok _ _ (by simp [DMat.col, hlen])
  have eU : (DMat.mk rule.points.length 1 fun q _ => ∑ i ∈ Finset.range (k + 1), T q i * y.getD i 0).toList
      = (List.range rule.points.length).map fun q => (lineFunction k d mesh.topo data free strong c).eval (rule.points.getD q 0) := by
    refine List.map_congr_left fun q hq => ?_
    rw [lineFunction, ← interp_table]
    dsimp only
    refine Finset.sum_congr rfl fun i hi => ?_
    rw [(ht q (List.mem_range.1 hq) i (Finset.mem_range.1 hi)).1, hval i (Finset.mem_range.1 hi), mul_comm]
  have eD : (DMat.mk rule.points.length 1 fun q _ => ∑ i ∈ Finset.range (k + 1), D q i * y.getD i 0).toList
      = (List.range rule.points.length).map fun q => (Polynomial.derivative (lineFunction k d mesh.topo data free strong c)).eval (rule.points.getD q 0) / g.length c := by
    refine List.map_congr_left fun q hq => ?_
    rw [lineFunction, ← interp_table_der, Finset.sum_div]
    dsimp only
    refine Finset.sum_congr rfl fun i hi => ?_
    rw [(ht q (List.mem_range.1 hq) i (Finset.mem_range.1 hi)).2, hval i (Finset.mem_range.1 hi)]
    ring
  refine ⟨⟨_, _, _, _⟩, ?_, rfl, rfl, rfl, rfl⟩
  unfold lineErrors
  rw [hs, except_ok_bind, H.local_count hc, except_ok_bind]
  dsimp only
  rw [hy, except_ok_bind, hU, except_ok_bind]
  have hun : unchecked [(⟨rule.points.length, k + 1, D⟩ : DMat ℝ)] 0 = .ok ⟨rule.points.length, k + 1, D⟩ := rfl
  rw [hun, except_ok_bind, hD, except_ok_bind, eU, eD, hpts, hpts, hwts, vectorSub_range, except_ok_bind, vectorSub_range, except_ok_bind, weightedSquare_range, except_ok_bind,
    weightedSquare_range, except_ok_bind, weightedSquare_range, except_ok_bind, weightedSquare_range, except_ok_bind]
  rfl

theorem lineFunction_nodes (hk : 1 ≤ k) (R : LineRef k d mid) (topo : Mesh) (data : DOFsData) (free strong : List ℝ) (c : Nat) :
    (lineFunction k d topo data free strong c).natDegree ≤ k ∧
      (lineFunction k d topo data free strong c).eval 0 = valueOf data free strong ⟨0, (topo.cell1DVertices c).1, 0⟩ ∧
      (lineFunction k d topo data free strong c).eval 1 = valueOf data free strong ⟨0, (topo.cell1DVertices c).2, 0⟩ ∧
      ∀ j < k - 1, (lineFunction k d topo data free strong c).eval (d.positions.getD (2 + j) 0) = valueOf data free strong ⟨1, c, j⟩ := by
  refine ⟨R.interp_degree _, ?_, ?_, fun j hj => ?_⟩
  · rw [lineFunction, R.interp_zero, lineList_zero]
  · rw [lineFunction, R.interp_one hk, lineList_one]
  · rw [add_comm, lineFunction, R.interp_node _ (by omega), lineList_inner hj]

theorem lineNumeric_ok (H : DofHandler (lineNum k) 1 mesh.topo info data) {free strong : List ℝ} (hf : free.length = data.counters.dofs)
    (hs : strong.length = data.counters.strongs) {p : Nat} (hp : p < mesh.num0D) :
    lineNumeric data free strong p = .ok (valueOf data free strong ⟨0, p, 0⟩) := by
  obtain ⟨x, b, hx, ⟨z, hcell, hz⟩, -⟩ := H.vertex hp
  have hkn := H.known _ x hx
  unfold lineNumeric
  rw [(atIdx_ok_iff _ _ _).2 hcell, except_ok_bind]
  rw [hz, valueOf, hx]
  obtain ⟨ty, i⟩ := x
  cases ty with
  | unknwon => exact absurd rfl hkn
  | dof =>
    have hi : i < free.length := hf ▸ H.free _ i hx
    have : unchecked free i = .ok (free.getD i 0) := (unchecked_ok_iff _ _ _).2 (by simp [List.getD_eq_getElem?_getD, hi])
    simp only [lineNumericLoop, this, except_ok_bind]
  | strong =>
    have hi : i < strong.length := hs ▸ H.strong _ i hx
    have : unchecked strong i = .ok (strong.getD i 0) := (unchecked_ok_iff _ _ _).2 (by simp [List.getD_eq_getElem?_getD, hi])
    simp only [lineNumericLoop, this, except_ok_bind]

end PolyDiM
