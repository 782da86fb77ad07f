import Verif.Lemmas.BrinkmanGlobal
import Verif.Props.AssemblerMcc2D

/-!
# Lemmas: the Brinkman system in terms of velocities and pressures
-/

namespace PolyDiM

open Spec MvPolynomial MeasureTheory

variable {k : Nat} {mesh : PlaneMesh ℝ} {poly : Nat → VemPolygon ℝ} {n : Nat → Nat} {len : Nat → Nat → ℝ} {dir : Nat → Nat → Bool} {nrm : Nat → Nat → ℝ × ℝ}
  {triangle : Nat → Rule (ℝ × ℝ) ℝ} {edge : Nat → Rule ℝ ℝ} {ts ws ss vs : List ℝ} {w v₀ : ℝ} {ref : DfRef2D ℝ} {red : Bool} {sqrt : ℝ → ℝ} {lu llt : Solver ℝ}
  {boundary : Nat → Nat → Option BInfo} {info : Nat → MeshInfo} {D : Nat → DOFsData} {count : CountData} {gauss : Nat → Rule ℝ ℝ}

/-- A test vector is a vector of free values with zero strong values. -/
theorem fieldTest_eq (y : List ℝ) (m : Nat) (x : Nat × GDOF) : fieldTest D (fun i => y.getD i 0) x = fieldValue D y (List.replicate m 0) x := by
  unfold fieldTest fieldValue
  rw [List.drop_replicate, valueOf_zero]
  congr 1
  funext i
  show y.getD (fieldOffset D x.1 + i) 0 = _
  rw [List.getD_eq_getElem?_getD, List.getD_eq_getElem?_getD, List.getElem?_drop]

/-- The matrix of the local space, written with the values of a cell. -/
theorem flow_form (hM : IsDfMesh red k mesh poly n len dir nrm) (hT : IsDfTables k triangle edge ts ws w ss vs v₀) (href : dfRef2D red triangle edge k = .ok ref)
    {test : DfTest ℝ} {c : Nat} (hc : c < mesh.num2D) {s : DfSpace2D ℝ} {p : DfPressure2D ℝ} {S S0 A : DMat ℝ} {b mean : List ℝ} {μ κ : ℝ}
    (hsp : DfSpaceOk k (divDegree red k) (n c) (cellPoint mesh c) (len c) (dir c) ts ws w ss vs v₀ (poly c) s)
    (hC : BCell k (divDegree red k) (n c) ref (poly c) test s p S S0 A b mean μ κ) (x g y : List ℝ) :
    ∑ j ∈ Finset.range (numVelocityDofs k (divDegree red k) (n c) + (divDegree red k + 1) * (divDegree red k + 2) / 2),
        onRefs (quadList (dfNum ref) mesh.topo c) (fieldTest D fun i => y.getD i 0) j * apply A (Quad.values (dfNum ref) mesh.topo D x g c) j
      = flowForm k (divDegree red k) test (poly c) s (flowVelocity k mesh n D x g c) (flowVelocity k mesh n D y (List.replicate g.length 0) c)
          (flowPressure D x g c) (flowPressure D y (List.replicate g.length 0) c)
        + μ * (∑ i ∈ Finset.range (numVelocityDofs k (divDegree red k) (n c)), flowVelocity k mesh n D y (List.replicate g.length 0) c i *
            apply S (flowVelocity k mesh n D x g c) i)
        + κ * ∑ i ∈ Finset.range (numVelocityDofs k (divDegree red k) (n c)), flowVelocity k mesh n D y (List.replicate g.length 0) c i *
            apply S0 (flowVelocity k mesh n D x g c) i := by
  rw [hC.form, flowForm]
  have hcols := df_cols hT hsp
  have hx : ∀ j < numVelocityDofs k (divDegree red k) (n c), Quad.values (dfNum ref) mesh.topo D x g c j = flowVelocity k mesh n D x g c j := fun j hj => by
    rw [Quad.values, onRefs_velocity hM.plane hT href hc _ hj, flowVelocity_eq]
  have hy : ∀ j < numVelocityDofs k (divDegree red k) (n c), onRefs (quadList (dfNum ref) mesh.topo c) (fieldTest D fun i => y.getD i 0) j
      = flowVelocity k mesh n D y (List.replicate g.length 0) c j := fun j hj => by
    rw [onRefs_velocity hM.plane hT href hc _ hj, flowVelocity_eq, fieldTest_eq y g.length]
  have happ : ∀ (Q : DMat ℝ), Q.cols = numVelocityDofs k (divDegree red k) (n c) → apply Q (Quad.values (dfNum ref) mesh.topo D x g c) = apply Q (flowVelocity k mesh n D x g c)
      ∧ apply Q (onRefs (quadList (dfNum ref) mesh.topo c) (fieldTest D fun i => y.getD i 0)) = apply Q (flowVelocity k mesh n D y (List.replicate g.length 0) c) := by
    intro Q hQ
    constructor <;> funext i <;> refine Finset.sum_congr rfl fun j hj => ?_ <;> rw [hQ] at hj
    · rw [hx j (Finset.mem_range.1 hj)]
    · rw [hy j (Finset.mem_range.1 hj)]
  have hpx : ∀ q, polyOf (divDegree red k) (poly c).centroid (poly c).diameter
      (fun j => Quad.values (dfNum ref) mesh.topo D x g c (numVelocityDofs k (divDegree red k) (n c) + j)) q
      = polyOf (divDegree red k) (poly c).centroid (poly c).diameter (flowPressure D x g c) q := fun q => polyOf_congr _ _ (fun j hj => by
    rw [Quad.values, onRefs_pressure hM.plane hT href hc _ hj, flowPressure]) q
  have hpy : ∀ q, polyOf (divDegree red k) (poly c).centroid (poly c).diameter
      (fun j => onRefs (quadList (dfNum ref) mesh.topo c) (fieldTest D fun i => y.getD i 0) (numVelocityDofs k (divDegree red k) (n c) + j)) q
      = polyOf (divDegree red k) (poly c).centroid (poly c).diameter (flowPressure D y (List.replicate g.length 0) c) q := fun q => polyOf_congr _ _ (fun j hj => by
    rw [onRefs_pressure hM.plane hT href hc _ hj, flowPressure, fieldTest_eq y g.length]) q
  have n0 := happ s.piNabla.1 ((hsp.nabla 0).cols.trans hcols)
  have n1 := happ s.piNabla.2 ((hsp.nabla 1).cols.trans hcols)
  have p0 := happ s.pi0k.1 ((hsp.fullCols 0).trans hcols)
  have p1 := happ s.pi0k.2 ((hsp.fullCols 1).trans hcols)
  have v0 := happ s.V (hsp.v.cols.trans hcols)
  rw [n0.1, n0.2, n1.1, n1.2, p0.1, p0.2, p1.1, p1.2, v0.1, v0.2, (happ S hC.stabCols).1, (happ S0 hC.stab0Cols).1]
  simp only [hpx, hpy]
  rw [Finset.sum_congr rfl fun i hi => by rw [hy i (Finset.mem_range.1 hi)]]
  congr 2
  exact Finset.sum_congr rfl fun i hi => by rw [hy i (Finset.mem_range.1 hi)]

/-- The pressure of a cell holds no strong DOFs. -/
theorem pressure_test (hs : IsDfSetup ref mesh boundary info D count) (x g : List ℝ) (c j : Nat) :
    fieldTest D (fun i => x.getD i 0) (3, ⟨2, c, j⟩) = flowPressure D x g c j := by
  rw [fieldTest_eq x g.length]
  unfold flowPressure fieldValue valueOf
  dsimp only
  cases hl : lookup (D 3) ⟨2, c, j⟩ with
  | none => rfl
  | some y =>
    obtain ⟨t, i⟩ := y
    have H := (df_quad hs).field 3 (by norm_num)
    cases t with
    | strong =>
      obtain ⟨-, hc, -⟩ := H.range _ _ hl
      obtain ⟨d, b, hd, hb, -, -, ht⟩ := H.cell 2 le_rfl c hc
      rw [Handler.lookup_cell hd] at hl
      have := typeFor_strong (ht _ (List.mem_of_getElem? hl)).symm
      rw [(df_types hs (show 3 < 4 by norm_num) le_rfl).2.2.2 (by norm_num) b (List.mem_of_getElem? hb)] at this
      cases this
    | _ => rfl

/-- The rows of the system tested with a vector. -/
theorem flow_rows (hM : IsDfMesh red k mesh poly n len dir nrm) (hT : IsDfTables k triangle edge ts ws w ss vs v₀) (href : dfRef2D red triangle edge k = .ok ref)
    (hs : IsDfSetup ref mesh boundary info D count) {test : DfTest ℝ} {s : Nat → DfSpace2D ℝ} {p : Nat → DfPressure2D ℝ} {S S0 A : Nat → DMat ℝ} {b mean : Nat → List ℝ} {μ κ : Nat → ℝ}
    {P : BrinkmanProblem ℝ} (hB : BSystem red k mesh poly n len dir ts ws w ss vs v₀ sqrt lu llt ref info D count gauss test s p S S0 A b mean μ κ P)
    (x g y : List ℝ) (hx : x.length = count.totalDOFs) (hg : g.length = strongOffset D 4) :
    ∑ i ∈ Finset.range count.totalDOFs, y.getD i 0 *
        (∑ j ∈ Finset.range x.length, entry P.globalMatrix i j * x.getD j 0 + ∑ j ∈ Finset.range g.length, entry P.dirichletMatrix i j * g.getD j 0)
      = ((List.range mesh.num2D).map fun c =>
          flowForm k (divDegree red k) test (poly c) (s c) (flowVelocity k mesh n D x g c) (flowVelocity k mesh n D y (List.replicate g.length 0) c)
            (flowPressure D x g c) (flowPressure D y (List.replicate g.length 0) c)
          + μ c * (∑ i ∈ Finset.range (numVelocityDofs k (divDegree red k) (n c)), flowVelocity k mesh n D y (List.replicate g.length 0) c i *
              apply (S c) (flowVelocity k mesh n D x g c) i)
          + κ c * ∑ i ∈ Finset.range (numVelocityDofs k (divDegree red k) (n c)), flowVelocity k mesh n D y (List.replicate g.length 0) c i *
              apply (S0 c) (flowVelocity k mesh n D x g c) i).sum
        + if count.totalBoundary = 0 then
            ((List.range mesh.num2D).map fun c => quadSum (s c).internal.points (s c).internal.weights
              (polyOf (divDegree red k) (poly c).centroid (poly c).diameter (flowPressure D y (List.replicate g.length 0) c))).sum * x.getD (fieldOffset D 4) 0
            + y.getD (fieldOffset D 4) 0 * ((List.range mesh.num2D).map fun c => quadSum (s c).internal.points (s c).internal.weights
              (polyOf (divDegree red k) (poly c).centroid (poly c).diameter (flowPressure D x g c))).sum else 0 := by
  rw [hB.rows x g hx hg fun i => y.getD i 0]
  congr 1
  · congr 1
    exact List.map_congr_left fun c hc => flow_form hM hT href (List.mem_range.1 hc) (hB.space c (List.mem_range.1 hc)) (hB.cell c (List.mem_range.1 hc)) x g y
  · split_ifs
    · congr 1
      · congr 2
        refine List.map_congr_left fun c hc => ?_
        rw [← (hB.cell c (List.mem_range.1 hc)).meanValue]
        exact Finset.sum_congr rfl fun j _ => by rw [pressure_test hs y (List.replicate g.length 0)]
      · congr 2
        refine List.map_congr_left fun c hc => ?_
        rw [← (hB.cell c (List.mem_range.1 hc)).meanValue]
        exact Finset.sum_congr rfl fun j _ => by rw [pressure_test hs x g]
    · rfl

/-- The right-hand side tested with a vector. -/
theorem flow_rhs (hM : IsDfMesh red k mesh poly n len dir nrm) (hT : IsDfTables k triangle edge ts ws w ss vs v₀) (href : dfRef2D red triangle edge k = .ok ref)
    {test : DfTest ℝ} {s : Nat → DfSpace2D ℝ} {p : Nat → DfPressure2D ℝ} {S S0 A : Nat → DMat ℝ} {b mean : Nat → List ℝ} {μ κ : Nat → ℝ}
    {P : BrinkmanProblem ℝ} (hB : BSystem red k mesh poly n len dir ts ws w ss vs v₀ sqrt lu llt ref info D count gauss test s p S S0 A b mean μ κ P)
    (y : List ℝ) (m : Nat) (u : Nat → Nat → Polynomial ℝ) (hu : ∀ h < 2, IsTrace k mesh ts (fun r => fieldValue D y (List.replicate m 0) (h, r)) (u h)) :
    ∑ i ∈ Finset.range count.totalDOFs, y.getD i 0 *
        (ventry P.rightHandSide i + ∑ j ∈ Finset.range P.dirichlet.length, entry P.dirichletMatrix i j * P.dirichlet.getD j 0)
      = ((List.range mesh.num2D).map fun c => quadSum (s c).internal.points (s c).internal.weights fun q =>
          test.source q 0 * polyOf k (poly c).centroid (poly c).diameter (apply (s c).pi0k.1 (flowVelocity k mesh n D y (List.replicate m 0) c)) q
          + test.source q 1 * polyOf k (poly c).centroid (poly c).diameter (apply (s c).pi0k.2 (flowVelocity k mesh n D y (List.replicate m 0) c)) q
          + test.divergence q * polyOf (divDegree red k) (poly c).centroid (poly c).diameter (flowPressure D y (List.replicate m 0) c) q).sum
      - ((List.range mesh.num2D).map fun c => ∑ h ∈ Finset.range 2, ∑ e ∈ Finset.range (n c),
          weakValue (info h) mesh len (quadSum (gauss (2 * k)).points (gauss (2 * k)).weights) (fun m p => test.weak m p h) (u h) c e).sum := by
  rw [hB.rhs (fun i => y.getD i 0) u (fun h hh => by simpa only [fieldTest_eq y m] using hu h hh)]
  congr 2
  refine List.map_congr_left fun c hc => ?_
  have hc := List.mem_range.1 hc
  rw [(hB.cell c hc).rhs]
  have hsp := hB.space c hc
  have hcols := df_cols hT hsp
  have happ : ∀ (Q : DMat ℝ), Q.cols = numVelocityDofs k (divDegree red k) (n c) →
      apply Q (onRefs (quadList (dfNum ref) mesh.topo c) (fieldTest D fun i => y.getD i 0)) = apply Q (flowVelocity k mesh n D y (List.replicate m 0) c) := by
    intro Q hQ
    funext i
    refine Finset.sum_congr rfl fun j hj => ?_
    rw [hQ] at hj
    rw [onRefs_velocity hM.plane hT href hc _ (Finset.mem_range.1 hj), flowVelocity_eq, fieldTest_eq y m]
  rw [happ (s c).pi0k.1 ((hsp.fullCols 0).trans hcols), happ (s c).pi0k.2 ((hsp.fullCols 1).trans hcols)]
  refine quadSum_congr _ _ fun q _ => ?_
  rw [polyOf_congr (x := fun j => onRefs (quadList (dfNum ref) mesh.topo c) (fieldTest D fun i => y.getD i 0) (numVelocityDofs k (divDegree red k) (n c) + j))
    (y := flowPressure D y (List.replicate m 0) c) _ _ fun j hj => by rw [onRefs_pressure hM.plane hT href hc _ hj, flowPressure, fieldTest_eq y m]]

end PolyDiM
