import Verif.Model.BrinkmanPost
import Verif.Props.FlowPost

/-!
# C179: the report of the Brinkman example
-/

namespace PolyDiM

open Spec

/-- The points of the repeated connectivity, behind `pre.length` others. -/
theorem repeated_points {α : Type} (nv : Nat → Nat) (f : Nat → List α) (cs : List Nat) (hf : ∀ c ∈ cs, (f c).length = nv c) (pre : List α) (hsm : pre.length + (cs.map nv).sum < 2 ^ 32)
    {i c v : Nat} (hi : cs[i]? = some c) (hv : v < nv c) :
    ∃ idx, ((repeatedFrom nv cs pre.length)[i]?.bind fun l => l[v]?) = some idx ∧ (pre ++ cs.flatMap f)[idx]? = (f c)[v]? := by
  induction cs generalizing pre i with
  | nil => simp at hi
  | cons a cs ih =>
    have hm : ∀ m, m < 2 ^ 32 → u32 m = m := fun m h => by rw [u32]; exact Nat.mod_eq_of_lt h
    rw [List.map_cons, List.sum_cons] at hsm
    have ha := hf a (by simp)
    cases i with
    | zero =>
      obtain rfl : a = c := by simpa using hi
      refine ⟨pre.length + v, ?_, ?_⟩
      · simp only [repeatedFrom, List.getElem?_cons_zero, Option.bind_some, List.getElem?_map, List.getElem?_range hv, Option.map_some]
        rw [hm _ (by omega)]
      · rw [List.getElem?_append_right (by omega), Nat.add_sub_cancel_left, List.flatMap_cons, List.getElem?_append_left (by omega)]
    | succ i =>
      have hi' : cs[i]? = some c := by simpa using hi
      obtain ⟨idx, h1, h2⟩ := ih (fun c hc => hf c (by simp [hc])) (pre ++ f a) (by rw [List.length_append, ha]; omega) hi'
      refine ⟨idx, ?_, ?_⟩
      · simp only [repeatedFrom, List.getElem?_cons_succ]
        rw [hm _ (by omega), ← ha, ← List.length_append]
        exact h1
      · rw [List.flatMap_cons, ← List.append_assoc]
        exact h2

/-- One cell, for given local DOFs: without exact functions the errors are zero and the norms as before. -/
theorem brinkmanErrors_none {t : FlowSpace ℝ} {Q M P : Nat} {x : Nat → ℝ × ℝ} {w : Nat → ℝ} {φ : Nat → PointField ℝ} {ψ : Nat → Nat → ℝ} (hT : FlowTables t Q M P x w φ ψ)
    {y z : List ℝ} (hy : y.length = M) (hz : z.length = P) :
    brinkmanErrors t none y z = .ok ⟨0, ∑ q ∈ Finset.range Q, w q * (∑ j ∈ Finset.range P, ψ j q * z.getD j 0) ^ 2, 0,
      ∑ q ∈ Finset.range Q, w q * gradSquare fun a b => (combined M φ fun j => y.getD j 0).grad a b q⟩ := by
  obtain ⟨p, hp, hp'⟩ := flow_mul Q P (fun q j => ψ j q) hz
  unfold brinkmanErrors
  dsimp only
  rw [hT.pressure, hT.points, hT.weights, hT.ders, hp, except_ok_bind, hp', flow_points, dotWeights_ok, except_ok_bind, vecOf_length,
    flowSquares_ok hy _ (fun a b q => (combined M φ fun j => y.getD j 0).grad a b q) (fun a _ b _ => rfl), except_ok_bind, dotWeights_ok, except_ok_bind]
  simp only [pow_two]

variable {ref : DfRef2D ℝ} {mesh : PlaneMesh ℝ} {boundary : Nat → Nat → Option BInfo} {info : Nat → MeshInfo} {D : Nat → DOFsData} {count : CountData}
  {Q nv : Nat → Nat} {x : Nat → Nat → ℝ × ℝ} {w : Nat → Nat → ℝ} {φ : Nat → Nat → PointField ℝ} {ψ ψv : Nat → Nat → Nat → ℝ}

/-- The tables on one cell: those of the flow and the functions `ψv` of the pressure at the vertices. -/
structure BrinkmanTables (t : BrinkmanPostSpace ℝ) (Q M P n : Nat) (x : Nat → ℝ × ℝ) (w : Nat → ℝ) (φ : Nat → PointField ℝ) (ψ ψv : Nat → Nat → ℝ) : Prop where
  flow : FlowTables t.flow Q M P x w φ ψ
  vertices : t.vertices = ⟨n, P, fun i j => ψv j i⟩

/-- **C179, the part that holds.** The norms, the velocities and pressures at the vertices and the mesh size are those of the discrete flow, and for a test with exact functions the errors are the
distances from them. Missing: for a test without exact functions the errors are zero (`C179_unknown`). -/
theorem C179_report_partial (hs : IsDfSetup ref mesh boundary info D count) (hsmall : ∀ c < mesh.num2D, ∑ h ∈ Finset.range 4, (cellList (D h) 2 c).length < 2 ^ 32)
    {spaces : Nat → Except Fault (BrinkmanPostSpace ℝ)}
    (hT : ∀ c < mesh.num2D, ∃ t, spaces c = .ok t ∧ BrinkmanTables t (Q c) (speedRefs D c).length (cellList (D 3) 2 c).length (nv c) (x c) (w c) (φ c) (ψ c) (ψv c))
    (hnv : ((List.range mesh.num2D).map nv).sum < 2 ^ 32)
    (diameters : Nat → ℝ) (exact : Option (FlowExact ℝ)) {g : List ℝ} (hg : g.length = count.totalStrong) {u : List ℝ} (hu : u.length = count.totalDOFs) {v : Nat → ℝ}
    (hv : v = withStrong count.totalDOFs (fun j => u.getD j 0) fun j => g.getD j 0) :
    ∃ R, brinkmanPost Real.sqrt ((List.range 4).map D) count diameters nv spaces mesh exact u g = .ok R ∧
      R.errorPressure = Real.sqrt (brokenSquare mesh.num2D Q w fun c q => exact.elim 0 fun e => (pressureOn D count.totalDOFs (ψ c) c v q - e.pressure (x c q)) ^ 2) ∧
      R.normPressure = Real.sqrt (brokenSquare mesh.num2D Q w fun c q => pressureOn D count.totalDOFs (ψ c) c v q ^ 2) ∧
      R.errorSpeed = Real.sqrt (brokenSquare mesh.num2D Q w fun c q =>
        exact.elim 0 fun e => gradSquare fun a b => (speedOn D count.totalDOFs (φ c) c v).grad a b q - e.derivative (x c q) (3 * a + b)) ∧
      R.normSpeed = Real.sqrt (brokenSquare mesh.num2D Q w fun c q => gradSquare fun a b => (speedOn D count.totalDOFs (φ c) c v).grad a b q) ∧
      (∀ d < 2, ∀ p < mesh.num0D, ((R.numeric[d]?).bind fun l => l[p]?) = some (some (globalValue D count.totalDOFs v (d, ⟨0, p, 0⟩)))) ∧
      (∀ c < mesh.num2D, ∀ i < nv c, ∃ k, ((R.connectivity[c]?).bind fun l => l[i]?) = some k ∧ R.pressure[k]? = some (pressureOn D count.totalDOFs (ψv c) c v i)) ∧
      (∀ c < mesh.num2D, diameters c ≤ R.meshSize) ∧ (R.meshSize = 0 ∨ ∃ c < mesh.num2D, R.meshSize = diameters c) := by
  have H := df_quad hs
  have hsm : ∀ c < mesh.num2D, (quadList (dfNum ref) mesh.topo c).length < 2 ^ 32 := fun c hc => by
    rw [quadList_length, localOffset]
    refine lt_of_eq_of_lt ?_ (hsmall c hc)
    exact Finset.sum_congr rfl fun h hh => by rw [(H.field h (Finset.mem_range.1 hh)).list c hc]
  have hcell : ∀ c < mesh.num2D, brinkmanPostCell ((List.range 4).map D) count nv spaces exact u g c = .ok (vecOf (nv c) fun i => pressureOn D count.totalDOFs (ψv c) c v i,
      ⟨∑ q ∈ Finset.range (Q c), w c q * exact.elim 0 fun e => (pressureOn D count.totalDOFs (ψ c) c v q - e.pressure (x c q)) ^ 2,
      ∑ q ∈ Finset.range (Q c), w c q * pressureOn D count.totalDOFs (ψ c) c v q ^ 2,
      ∑ q ∈ Finset.range (Q c), w c q * exact.elim 0 fun e => gradSquare fun a b => (speedOn D count.totalDOFs (φ c) c v).grad a b q - e.derivative (x c q) (3 * a + b),
      ∑ q ∈ Finset.range (Q c), w c q * gradSquare fun a b => (speedOn D count.totalDOFs (φ c) c v).grad a b q⟩) := by
    intro c hc
    obtain ⟨t, ht, hB⟩ := hT c hc
    obtain ⟨s, p, hl, hs1, hp1, hsp, hpr⟩ := flowLocal_ok hs hc (hsm c hc) hg hu hv
    unfold brinkmanPostCell
    rw [ht, except_ok_bind, hl, except_ok_bind, hB.vertices, DMat.mul_ok _ _ hp1.symm, except_ok_bind]
    dsimp only
    rw [if_pos rfl]
    have hlist : (⟨nv c, (DMat.col p).cols, fun i j => ∑ k ∈ Finset.range (cellList (D 3) 2 c).length, ψv c k i * (DMat.col p).ent k j⟩ : DMat ℝ).toList
        = vecOf (nv c) fun i => pressureOn D count.totalDOFs (ψv c) c v i := by
      unfold DMat.toList vecOf
      exact List.map_congr_left fun i _ => hpr (ψv c) i
    cases exact with
    | none =>
      rw [brinkmanErrors_none hB.flow hs1 hp1, except_ok_bind, hsp, hlist]
      simp only [hpr, Option.elim_none, mul_zero, Finset.sum_const_zero]
    | some e =>
      unfold brinkmanErrors
      dsimp only
      rw [flowErrors_ok hB.flow e hs1 hp1, except_ok_bind, hsp, hlist]
      simp only [hpr, Option.elim_some]
  have mc := mapM_ok _ _ (List.range mesh.num2D) fun c hc => hcell c (List.mem_range.1 hc)
  have mn := mapM_ok (fun d => (List.range mesh.num0D).mapM fun p => do
      let data ← unchecked ((List.range 4).map D) d
      elasticNumeric data count u g d p) (fun d => (List.range mesh.num0D).map fun p => some (globalValue D count.totalDOFs v (d, ⟨0, p, 0⟩))) (List.range 2) fun d hd => by
    refine mapM_ok _ _ _ fun p hp => ?_
    have hd' := List.mem_range.1 hd
    rw [(unchecked_ok_iff ((List.range 4).map D) d (D d)).2 (by rw [List.getElem?_map, List.getElem?_range (by omega)]; rfl), except_ok_bind, flowNumeric_ok hs hg hu hd' (List.mem_range.1 hp), hv]
  have hsum : ∀ f : Nat → ℝ, ((List.range mesh.num2D).map f).sum = ∑ c ∈ Finset.range mesh.num2D, f c := fun f => (range_sum _ _).symm
  unfold brinkmanPost
  rw [mn, except_ok_bind, mc, except_ok_bind]
  obtain ⟨-, m2, m3⟩ := flow_max diameters (List.range mesh.num2D) 0
  refine ⟨_, rfl, ?_, ?_, ?_, ?_, fun d hd p hp => ?_, fun c hc i hi => ?_, fun c hc => m2 c (List.mem_range.2 hc), m3.imp id fun ⟨c, hc, h⟩ => ⟨c, List.mem_range.1 hc, h⟩⟩
  · simp only [List.map_map, Function.comp_def, hsum, brokenSquare]
  · simp only [List.map_map, Function.comp_def, hsum, brokenSquare]
  · simp only [List.map_map, Function.comp_def, hsum, brokenSquare]
  · simp only [List.map_map, Function.comp_def, hsum, brokenSquare]
  · simp [hd, hp]
  · obtain ⟨k, h1, h2⟩ := repeated_points nv (fun c => vecOf (nv c) fun i => pressureOn D count.totalDOFs (ψv c) c v i) (List.range mesh.num2D) (fun c _ => vecOf_length _ _) [] (by simpa using hnv)
      (List.getElem?_range hc) hi
    refine ⟨k, h1, ?_⟩
    dsimp only
    rw [List.flatMap_map]
    rw [List.nil_append] at h2
    refine h2.trans ?_
    rw [vecOf, List.getElem?_map, List.getElem?_range hi, Option.map_some]

/-- **C179, the part that does not hold.** For a test whose exact functions throw, the reported errors are zero, whatever the solution is. -/
theorem C179_unknown (hs : IsDfSetup ref mesh boundary info D count) (hsmall : ∀ c < mesh.num2D, ∑ h ∈ Finset.range 4, (cellList (D h) 2 c).length < 2 ^ 32)
    {spaces : Nat → Except Fault (BrinkmanPostSpace ℝ)}
    (hT : ∀ c < mesh.num2D, ∃ t, spaces c = .ok t ∧ BrinkmanTables t (Q c) (speedRefs D c).length (cellList (D 3) 2 c).length (nv c) (x c) (w c) (φ c) (ψ c) (ψv c))
    (hnv : ((List.range mesh.num2D).map nv).sum < 2 ^ 32)
    (diameters : Nat → ℝ) {g : List ℝ} (hg : g.length = count.totalStrong) {u : List ℝ} (hu : u.length = count.totalDOFs) :
    ∃ R, brinkmanPost Real.sqrt ((List.range 4).map D) count diameters nv spaces mesh none u g = .ok R ∧ R.errorPressure = 0 ∧ R.errorSpeed = 0 := by
  obtain ⟨R, hR, e1, -, e3, -⟩ := C179_report_partial hs hsmall hT hnv diameters none hg hu rfl
  refine ⟨R, hR, ?_, ?_⟩
  · rw [e1]
    simp [brokenSquare]
  · rw [e3]
    simp [brokenSquare]

-- C179: the reduced element on two triangles with a closed boundary; the tables are those of shear fields and of the constant pressure, which is also given at the three vertices
example : ∃ (ref : DfRef2D ℝ) (info : Nat → MeshInfo) (D : Nat → DOFsData) (count : CountData) (spaces : Nat → Except Fault (BrinkmanPostSpace ℝ)) (u : List ℝ),
    IsDfSetup ref patchMesh (fun _ => closedBoundary) info D count ∧ (∀ c < patchMesh.num2D, ∑ h ∈ Finset.range 4, (cellList (D h) 2 c).length < 2 ^ 32) ∧
    (∀ c < patchMesh.num2D, ∃ t, spaces c = .ok t ∧ BrinkmanTables t 1 (speedRefs D c).length (cellList (D 3) 2 c).length 3 (fun _ => (1, 2)) (fun _ => 1 / 2) shearFields (fun _ _ => 1)
      fun _ _ => 1) ∧
    ((List.range patchMesh.num2D).map fun _ => 3).sum < 2 ^ 32 ∧ (List.replicate 16 (1 : ℝ)).length = count.totalStrong ∧ u.length = count.totalDOFs := by
  obtain ⟨ref, info, D, count, href, hs, -, -, ht, hst⟩ := patch_closed
  refine ⟨ref, info, D, count, fun c => .ok ⟨⟨vecOf 4 fun d => ⟨1, (speedRefs D c).length, fun q J => (shearFields J).grad (d / 2) (d % 2) q⟩,
    ⟨1, (cellList (D 3) 2 c).length, fun _ _ => 1⟩, vecOf 1 fun _ => (1, 2), vecOf 1 fun _ => 1 / 2⟩, ⟨3, (cellList (D 3) 2 c).length, fun _ _ => 1⟩⟩, List.replicate 5 3, hs, closed_small href hs,
    fun c _ => ⟨_, rfl, ⟨rfl, rfl, rfl, rfl⟩, rfl⟩, ?_, ?_, by rw [ht]; rfl⟩
  · rw [show patchMesh.num2D = 2 from rfl]
    norm_num
  · rw [(setup_count hs).2.1, hst, List.length_replicate]

end PolyDiM
