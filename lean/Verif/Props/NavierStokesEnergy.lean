import Verif.Props.NavierStokesAssembly

/-!
# C177: the energy of the convective term
-/

namespace PolyDiM

open Spec

variable {info : Nat → MeshInfo} {D : Nat → DOFsData} {ref : DfRef2D ℝ} {mesh : PlaneMesh ℝ} {boundary : Nat → Nat → Option BInfo} {count : CountData}
variable {form : Nat} {Q : Nat → Nat} {w : Nat → Nat → ℝ} {φ : Nat → Nat → PointField ℝ}

/-- The rows tested with a vector that is zero where the values are given. -/
theorem unknowns_tested (hs : IsDfSetup ref mesh boundary info D count) (x : Nat → ℝ) (c j : Nat) :
    ∑ i ∈ Finset.range count.totalDOFs, x i * ((speedRefs D c)[j]?).elim 0 (isUnknown D i) = speedCoef D count.totalDOFs c (withStrong count.totalDOFs x fun _ => 0) j := by
  have H := df_quad hs
  unfold speedCoef
  have hmem : ∀ y, (speedRefs D c)[j]? = some y → y.1 < 4 := fun y hy => by
    have := List.mem_of_getElem? hy
    simp only [speedRefs, List.mem_flatMap, List.mem_map, List.mem_range] at this
    obtain ⟨h, hh, r, -, rfl⟩ := this
    dsimp only
    omega
  cases hy : (speedRefs D c)[j]? with
  | none => simp
  | some y =>
    simp only [Option.elim_some, isUnknown, globalValue]
    cases hl : lookup (D y.1) y.2 with
    | none => simp
    | some z =>
      obtain ⟨t, k⟩ := z
      cases t with
      | unknwon => simp
      | strong =>
        simp only [withStrong]
        rw [if_neg (by omega)]
        simp
      | dof =>
        have h1 := (H.field y.1 (hmem y hy)).free y.2 k hl
        have h2 := (offset_le D (hmem y hy)).1
        have h3 := (setup_count hs).1
        simp only [withStrong]
        rw [if_pos (by omega), Finset.sum_eq_single (fieldOffset D y.1 + k)]
        · rw [if_pos ⟨by omega, by rw [Nat.add_sub_cancel_left]⟩, mul_one]
        · intro i _ hi
          rw [if_neg, mul_zero]
          rintro ⟨g1, g2⟩
          simp only [Option.some.injEq, DOF.mk.injEq, true_and] at g2
          omega
        · intro h
          exact absurd (Finset.mem_range.2 (by omega)) h

theorem meshForm_tested (hs : IsDfSetup ref mesh boundary info D count) (n form : Nat) (Q : Nat → Nat) (w : Nat → Nat → ℝ) (φ : Nat → Nat → PointField ℝ) (v v' x : Nat → ℝ) :
    ∑ i ∈ Finset.range count.totalDOFs, x i * meshForm D count.totalDOFs φ (fun c => formOf form (Q c) (w c)) n v v' i
      = ∑ c ∈ Finset.range n, formOf form (Q c) (w c) (speedOn D count.totalDOFs (φ c) c v) (speedOn D count.totalDOFs (φ c) c v')
          (speedOn D count.totalDOFs (φ c) c (withStrong count.totalDOFs x fun _ => 0)) := by
  unfold meshForm
  simp only [Finset.mul_sum]
  rw [Finset.sum_comm]
  refine Finset.sum_congr rfl fun c _ => ?_
  rw [Finset.sum_comm, show formOf form (Q c) (w c) (speedOn D count.totalDOFs (φ c) c v) (speedOn D count.totalDOFs (φ c) c v')
      (speedOn D count.totalDOFs (φ c) c (withStrong count.totalDOFs x fun _ => 0)) = _ from (formOf_linear form (fun j => speedCoef D count.totalDOFs c (withStrong count.totalDOFs x fun _ => 0) j)
        (speedOn D count.totalDOFs (φ c) c v) (speedOn D count.totalDOFs (φ c) c v') (speedOn D count.totalDOFs (φ c) c v)).2.2]
  refine Finset.sum_congr rfl fun j _ => ?_
  rw [← unknowns_tested hs x c j, Finset.mul_sum]
  refine Finset.sum_congr rfl fun i _ => ?_
  ring

/-- **C177.** In the skew form the convective term does no work: with zero boundary values, the assembled right-hand side at `u` is orthogonal to `u`. -/
theorem C177_energy (hs : IsDfSetup ref mesh boundary info D count) (hsmall : ∀ c < mesh.num2D, ∑ h ∈ Finset.range 4, (cellList (D h) 2 c).length < 2 ^ 32)
    {spaces : Nat → Except Fault (SpeedSpace ℝ)}
    (hT : ∀ c < mesh.num2D, ∃ t, spaces c = .ok t ∧ SpeedTables t.values t.ders t.weights (Q c) (speedRefs D c).length (w c) (φ c)) {u : List ℝ} (hu : u.length = count.totalDOFs) :
    ∃ C, assembleConvection ((List.range 4).map D) count 1 spaces (List.replicate count.totalStrong 0) mesh.num2D u = .ok C ∧
      ∑ i ∈ Finset.range count.totalDOFs, u.getD i 0 * ventry C.rhs i = 0 := by
  obtain ⟨b, hb, h⟩ := C176_assembled hs hsmall (form := 1) (by norm_num) hT (g := List.replicate count.totalStrong 0) (List.length_replicate ..)
  obtain ⟨C, hC, -, hr⟩ := h u hu
  have e : (fun j => (List.replicate count.totalStrong (0 : ℝ)).getD j 0) = fun _ => 0 := by
    funext j
    rw [List.getD_eq_getElem?_getD, List.getElem?_replicate]
    split_ifs <;> rfl
  refine ⟨C, hC, ?_⟩
  simp only [hr, hb, e]
  rw [meshForm_tested hs mesh.num2D 1 Q w φ]
  exact Finset.sum_eq_zero fun c _ => by simp [formOf, skewForm]

/-- **C177, the solution.** In the skew form, with zero boundary values, a solution of the nonlinear problem has the energy of the linear one: `u · A u = u · f`. -/
theorem C177_solution (hs : IsDfSetup ref mesh boundary info D count) {b : (Nat → ℝ) →ₗ[ℝ] (Nat → ℝ) →ₗ[ℝ] (Nat → ℝ)}
    (hb : ∀ v v' i, b v v' i = meshForm D count.totalDOFs φ (fun c => formOf 1 (Q c) (w c)) mesh.num2D v v' i) {A : List (Nat × Nat × ℝ)} {f : List (Nat × ℝ)} {u : Nat → ℝ}
    (hu : ∀ i < count.totalDOFs, quadraticResidual A f b count.totalDOFs (fun _ => 0) u i = 0) :
    ∑ i ∈ Finset.range count.totalDOFs, u i * rowTimes A count.totalDOFs u i = ∑ i ∈ Finset.range count.totalDOFs, u i * ventry f i := by
  have h0 : ∑ i ∈ Finset.range count.totalDOFs, u i * b (withStrong count.totalDOFs u fun _ => 0) (withStrong count.totalDOFs u fun _ => 0) i = 0 := by
    simp only [hb]
    rw [meshForm_tested hs mesh.num2D 1 Q w φ]
    exact Finset.sum_eq_zero fun c _ => by simp [formOf, skewForm]
  rw [← add_zero (∑ i ∈ Finset.range count.totalDOFs, u i * rowTimes A count.totalDOFs u i), ← h0, ← Finset.sum_add_distrib]
  refine Finset.sum_congr rfl fun i hi => ?_
  have := hu i (Finset.mem_range.1 hi)
  unfold quadraticResidual at this
  rw [← mul_add]
  congr 1
  linarith

/-- **C177, the step.** In the skew form the part of the matrix with the known speed as transport does no work either: `x · b(u, x) = 0`, for all `u`. -/
theorem C177_transport (hs : IsDfSetup ref mesh boundary info D count) (n : Nat) (v x : Nat → ℝ) :
    ∑ i ∈ Finset.range count.totalDOFs, x i * meshForm D count.totalDOFs φ (fun c => formOf 1 (Q c) (w c)) n v (withStrong count.totalDOFs x fun _ => 0) i = 0 := by
  rw [meshForm_tested hs n 1 Q w φ]
  exact Finset.sum_eq_zero fun c _ => by simp [formOf, skewForm]

-- C177: the closed boundary of C176, where a field does work in the form Conv and none in the form Skew
example : ∃ (ref : DfRef2D ℝ) (info : Nat → MeshInfo) (D : Nat → DOFsData) (count : CountData) (u : List ℝ),
    IsDfSetup ref patchMesh (fun _ => closedBoundary) info D count ∧ (∀ c < patchMesh.num2D, ∑ h ∈ Finset.range 4, (cellList (D h) 2 c).length < 2 ^ 32) ∧
    (∀ c < patchMesh.num2D, ∃ t, Except.ok (shearSpace D c) = (.ok t : Except Fault _) ∧ SpeedTables t.values t.ders t.weights 1 (speedRefs D c).length (fun _ => 1) shearFields) ∧
    u.length = count.totalDOFs ∧ u.getD 0 0 = 1 ∧ formOf 0 1 (fun _ => (1 : ℝ)) (shearFields 1) (shearFields 1) (shearFields 1) = 1 ∧
    formOf 1 1 (fun _ => (1 : ℝ)) (shearFields 2) (shearFields 1) (shearFields 3) = 0 ∧ formOf 1 1 (fun _ => (1 : ℝ)) (shearFields 2) (shearFields 1) ⟨fun _ _ => 1, fun _ _ _ => 0⟩ = 1 := by
  obtain ⟨ref, info, D, count, href, hs, -, -, ht, -⟩ := patch_closed
  refine ⟨ref, info, D, count, List.replicate 5 1, hs, closed_small href hs, fun c _ => ⟨_, rfl, rfl, rfl, rfl⟩, by rw [ht]; rfl, rfl, ?_, ?_, ?_⟩ <;>
    norm_num [formOf, skewForm, convectiveForm, shearFields]

-- C177: a solution of the nonlinear problem on the same mesh
example : ∃ (ref : DfRef2D ℝ) (info : Nat → MeshInfo) (D : Nat → DOFsData) (count : CountData) (b : (Nat → ℝ) →ₗ[ℝ] (Nat → ℝ) →ₗ[ℝ] (Nat → ℝ)) (u : Nat → ℝ),
    IsDfSetup ref patchMesh (fun _ => closedBoundary) info D count ∧
    (∀ v v' i, b v v' i = meshForm D count.totalDOFs (fun _ => shearFields) (fun _ => formOf 1 1 fun _ => 1) patchMesh.num2D v v' i) ∧
    (∀ i < count.totalDOFs, quadraticResidual restParts.matrix restParts.rhs b count.totalDOFs (fun _ => 0) u i = 0) ∧ u 4 = 1 := by
  obtain ⟨ref, info, D, count, href, hs, ho, -, ht, -⟩ := patch_closed
  have hfo : fieldOffset D 4 = 4 := by
    have := (C118_unknowns df_tables href hs).1 ho
    omega
  obtain ⟨b, hb⟩ := meshForm_bilinear D count.totalDOFs patchMesh.num2D 1 (fun _ => 1) (fun _ _ => 1) (fun _ => shearFields)
  refine ⟨ref, info, D, count, b, fun i => ([0, 0, 0, 0, 1] : List ℝ).getD i 0, hs, hb, fun i hi => ?_, rfl⟩
  have hz := (meshForm_rest hs (u := [0, 0, 0, 0, 1]) (fun j hj => by
    have : j = 0 ∨ j = 1 ∨ j = 2 ∨ j = 3 := by omega
    rcases this with rfl | rfl | rfl | rfl <;> rfl) 0 patchMesh.num2D 1 (fun _ => 1) (fun _ _ => 1) (fun _ => shearFields)
    (withStrong count.totalDOFs (fun j => ([0, 0, 0, 0, 1] : List ℝ).getD j 0) fun _ => 0) i).1
  have e : (fun j => (List.replicate 0 (0 : ℝ)).getD j 0) = fun _ => 0 := by
    funext j
    simp
  rw [e, ← hb] at hz
  unfold quadraticResidual
  rw [hz]
  rw [ht] at hi ⊢
  rw [restParts_row _ hi]
  have : i = 0 ∨ i = 1 ∨ i = 2 ∨ i = 3 ∨ i = 4 := by omega
  rcases this with rfl | rfl | rfl | rfl | rfl <;> simp [restParts, ventry]

end PolyDiM
