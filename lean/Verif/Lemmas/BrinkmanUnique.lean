import Verif.Lemmas.BrinkmanPatch
import Verif.Lemmas.MixedUnique

/-!
# Lemmas: the kernel of the matrix of the Brinkman problem
-/

namespace PolyDiM

open Spec MvPolynomial MeasureTheory

/-- The velocity `a` everywhere. -/
noncomputable def constVel (a : ℝ × ℝ) : MvPolynomial (Fin 2) ℝ × MvPolynomial (Fin 2) ℝ := (C a.1, C a.2)

theorem constVel_div (a : ℝ × ℝ) : divPoly (constVel a) = 0 := by simp [constVel, divPoly]

theorem constVel_value (a p : ℝ × ℝ) : vectorPoly (constVel a) p = a := by simp [constVel, vectorPoly]

section
variable {k n : Nat} {V : Nat → ℝ × ℝ} {len : Nat → ℝ} {dir : Nat → Bool} {nrm : Nat → ℝ × ℝ} {poly : VemPolygon ℝ}
  {triangle : Nat → Rule (ℝ × ℝ) ℝ} {edge : Nat → Rule ℝ ℝ} {ts ws ss vs : List ℝ} {w v₀ : ℝ} {sqrt : ℝ → ℝ} {lu llt : Solver ℝ} {s : DfSpace2D ℝ} {ref : DfRef2D ℝ}

/-- The form of a cell is not negative on the diagonal; where it vanishes the velocity is constant, and zero if there is a drag. -/
theorem cell_dissipation (red : Bool) (hE : IsElement poly n V len dir nrm) (hT : IsDfTables k triangle edge ts ws w ss vs v₀) (hsq : ∀ x, 0 ≤ x → sqrt x * sqrt x = x)
    (hlu : SolvesRegular lu) (hllt : SolvesPosDef llt) (harea : red = true → poly.measure = ∫ _p in unionOf poly.tris, (1 : ℝ)) (hpos : 0 < poly.measure)
    (href : dfRef2D red triangle edge k = .ok ref) (hcr : dfCreate2D sqrt lu llt ref poly = .ok s)
    (hs : DfSpaceOk k (divDegree red k) n V len dir ts ws w ss vs v₀ poly s) {test : DfTest ℝ} {p : DfPressure2D ℝ} {S S0 A : DMat ℝ} {b mean : List ℝ} {μ κ : ℝ}
    (hC : BCell k (divDegree red k) n ref poly test s p S S0 A b mean μ κ) (hν : ∀ x, 0 < test.viscosity x) (hdrag : ∀ x u, 0 ≤ dragForm test x u) (z pr : Nat → ℝ) :
    0 ≤ flowForm k (divDegree red k) test poly s z z pr pr + μ * (∑ i ∈ Finset.range (numVelocityDofs k (divDegree red k) n), z i * apply S z i)
      + κ * ∑ i ∈ Finset.range (numVelocityDofs k (divDegree red k) n), z i * apply S0 z i ∧
    (flowForm k (divDegree red k) test poly s z z pr pr + μ * (∑ i ∈ Finset.range (numVelocityDofs k (divDegree red k) n), z i * apply S z i)
      + κ * ∑ i ∈ Finset.range (numVelocityDofs k (divDegree red k) n), z i * apply S0 z i = 0 →
      ∃ a : ℝ × ℝ, IsVelocityDofs k (divDegree red k) poly n V dir ts (vectorPoly (constVel a)) (divPoly (constVel a)) z ∧
        ((∀ x u, u ≠ 0 → 0 < dragForm test x u) → a = 0)) := by
  have hk := hT.two
  have hm := divDegree_le red hk
  obtain ⟨r1, s1, hr1, hc1, hst, -⟩ := C114_stabilization (sqrt := sqrt) red hE hT hsq hlu hllt harea hpos
  obtain rfl : r1 = ref := Except.ok.inj (hr1.symm.trans href)
  obtain rfl : s1 = s := Except.ok.inj (hc1.symm.trans hcr)
  obtain ⟨S1, hS1, e1, -, -, hx1⟩ := hst .piNabla s1.piNabla 1 (Or.inl ⟨rfl, rfl, rfl⟩)
  obtain rfl : S1 = S := Except.ok.inj (hS1.symm.trans hC.stab)
  obtain ⟨S2, hS2, e2, -, -, hx2⟩ := hst .pi0k s1.pi0k poly.measure (Or.inr ⟨rfl, rfl, rfl⟩)
  obtain rfl : S2 = S0 := Except.ok.inj (hS2.symm.trans hC.stab0)
  rw [e1] at hx1
  rw [e2] at hx2
  obtain ⟨p1, f1, -, -⟩ := hx1 z
  obtain ⟨p2, -, -, -⟩ := hx2 z
  have hμ : 0 < μ := by
    obtain ⟨x, -, hx⟩ := hC.greatMu.1
    rw [hx]
    exact abs_pos.2 (hν x).ne'
  have hκ : 0 ≤ κ := by
    obtain ⟨x, -, d, -, hx⟩ := hC.greatK.1
    rw [hx]
    exact abs_nonneg _
  set N := nablaPoly k poly s1 z with hN
  set Z := fullPoly k poly s1 z with hZ
  have gz0 : ∀ x, gradOf k poly.centroid poly.diameter (apply s1.piNabla.1 z) x = (ev2 (pderiv 0 (N 0)) x, ev2 (pderiv 1 (N 0)) x) := fun x => grad_combo k _ _ _ x
  have gz1 : ∀ x, gradOf k poly.centroid poly.diameter (apply s1.piNabla.2 z) x = (ev2 (pderiv 0 (N 1)) x, ev2 (pderiv 1 (N 1)) x) := fun x => grad_combo k _ _ _ x
  have pz0 : ∀ x, polyOf k poly.centroid poly.diameter (apply s1.pi0k.1 z) x = ev2 (Z 0) x := fun x => df_polyOf (k := k) le_rfl rfl _ x
  have pz1 : ∀ x, polyOf k poly.centroid poly.diameter (apply s1.pi0k.2 z) x = ev2 (Z 1) x := fun x => df_polyOf (k := k) le_rfl rfl _ x
  set F1 : ℝ × ℝ → ℝ := fun x => test.viscosity x * (ev2 (pderiv 0 (N 0)) x ^ 2 + ev2 (pderiv 1 (N 0)) x ^ 2 + (ev2 (pderiv 0 (N 1)) x ^ 2 + ev2 (pderiv 1 (N 1)) x ^ 2)) with hF1
  set F2 : ℝ × ℝ → ℝ := fun x => dragForm test x (ev2 (Z 0) x, ev2 (Z 1) x) with hF2
  have hform : flowForm k (divDegree red k) test poly s1 z z pr pr = quadSum s1.internal.points s1.internal.weights F1 + quadSum s1.internal.points s1.internal.weights F2 := by
    rw [← quadSum_add]
    refine quadSum_congr _ _ fun x _ => ?_
    rw [gz0, gz1, pz0, pz1]
    simp only [brinkmanIntegrand, hF1, hF2, dragForm, dot2]
    ring
  have n1 : ∀ x, 0 ≤ F1 x := fun x => mul_nonneg (hν x).le (by positivity)
  have n2 : ∀ x, 0 ≤ F2 x := fun x => hdrag x _
  have q1 := quadSum_pos s1.internal.points s1.internal.weights hs.wpos (fun x _ => n1 x)
  have q2 := quadSum_pos s1.internal.points s1.internal.weights hs.wpos (fun x _ => n2 x)
  have t1 := mul_nonneg hμ.le p1
  have t2 := mul_nonneg hκ p2
  rw [hform]
  refine ⟨by positivity, fun h0 => ?_⟩
  have z1 : quadSum s1.internal.points s1.internal.weights F1 = 0 := by linarith
  have z2 : quadSum s1.internal.points s1.internal.weights F2 = 0 := by linarith
  have z3 : ∑ i ∈ Finset.range (numVelocityDofs k (divDegree red k) n), z i * apply S1 z i = 0 := by
    have : μ * ∑ i ∈ Finset.range (numVelocityDofs k (divDegree red k) n), z i * apply S1 z i = 0 := by linarith
    exact (mul_eq_zero.1 this).resolve_left hμ.ne'
  have hdeg : ∀ d : Nat, (N d).totalDegree ≤ k := fun d => combo_degree _ le_rfl
  have hgrad : ∀ (d : Nat) (hd : d < 2) (a : Fin 2), pderiv a (N d) = 0 := by
    intro d hd a
    refine hs.discrete.definite _ ((totalDegree_pderiv a _).trans ((Nat.sub_le _ _).trans (hdeg d))) ?_
    refine quadSum_vanish _ _ hs.wpos (fun x _ => n1 x) (fun x _ hx => ?_) z1
    have hx' := (mul_eq_zero.1 hx).resolve_left (hν x).ne'
    have : ev2 (pderiv a (N d)) x = 0 := by
      rcases (show d = 0 ∨ d = 1 by omega) with rfl | rfl <;> revert a <;> refine Fin.forall_fin_two.2 ⟨?_, ?_⟩ <;> refine pow_eq_zero_iff (n := 2) (by norm_num) |>.1 ?_ <;>
        nlinarith [sq_nonneg (ev2 (pderiv 0 (N 0)) x), sq_nonneg (ev2 (pderiv 1 (N 0)) x), sq_nonneg (ev2 (pderiv 0 (N 1)) x), sq_nonneg (ev2 (pderiv 1 (N 1)) x)]
    simp only [ev2, map_mul] at this ⊢
    rw [this, zero_mul]
  obtain ⟨a0, h0⟩ := const_of_grad (N 0) (hgrad 0 (by norm_num) 0) (hgrad 0 (by norm_num) 1)
  obtain ⟨a1, h1⟩ := const_of_grad (N 1) (hgrad 1 (by norm_num) 0) (hgrad 1 (by norm_num) 1)
  have hy := dofs_apply hT hm hs ![apply s1.piNabla.1 z, apply s1.piNabla.2 z]
  have eq : (combo k poly.centroid poly.diameter (tri (k + 1)) (![apply s1.piNabla.1 z, apply s1.piNabla.2 z] 0),
      combo k poly.centroid poly.diameter (tri (k + 1)) (![apply s1.piNabla.1 z, apply s1.piNabla.2 z] 1)) = constVel (a0, a1) := Prod.ext h0 h1
  rw [eq] at hy
  set y : Nat → ℝ := fun r => apply s1.D.1 (![apply s1.piNabla.1 z, apply s1.piNabla.2 z] 0) r + apply s1.D.2 (![apply s1.piNabla.1 z, apply s1.piNabla.2 z] 1) r with hyd
  have hsum := f1 (constVel (a0, a1)) y (fun p => by
      rw [df_polyOf (k := k) le_rfl rfl]
      exact congrArg (fun q => ev2 q p) h0.symm) (fun p => by
      rw [df_polyOf (k := k) le_rfl rfl]
      exact congrArg (fun q => ev2 q p) h1.symm) hy
  rw [z3, one_mul] at hsum
  have hyz : ∀ r < numVelocityDofs k (divDegree red k) n, y r = z r := by
    intro r hr
    have := (Finset.sum_eq_zero_iff_of_nonneg (fun r _ => sq_nonneg (y r - z r))).1 hsum.symm r (Finset.mem_range.2 hr)
    have := pow_eq_zero_iff (n := 2) (by norm_num) |>.1 this
    linarith
  have hz := velDofs_congr hk hT.nodes hy hyz
  refine ⟨(a0, a1), hz, fun hp => ?_⟩
  obtain ⟨-, hfull, -⟩ := poly_real red hE hT hs (q := constVel (a0, a1)) (by simp [constVel]) (by simp [constVel]) (fun _ => by rw [constVel_div, totalDegree_zero]) hz
  have hzero : ∀ d : Fin 2, Z d = 0 := by
    intro d
    refine hs.discrete.definite _ (combo_degree _ le_rfl) ?_
    refine quadSum_vanish _ _ hs.wpos (fun x _ => n2 x) (fun x _ hx => ?_) z2
    have hv : ((ev2 (Z 0) x, ev2 (Z 1) x) : ℝ × ℝ) = 0 := by
      by_contra hne
      exact (hp x _ hne).ne' hx
    rw [Prod.mk_eq_zero] at hv
    have : ev2 (Z d) x = 0 := by
      revert d
      exact Fin.forall_fin_two.2 ⟨hv.1, hv.2⟩
    simp only [ev2, map_mul] at this ⊢
    rw [this, zero_mul]
  have c0 : (C a0 : MvPolynomial (Fin 2) ℝ) = 0 := (hfull 0).symm.trans (hzero 0)
  have c1 : (C a1 : MvPolynomial (Fin 2) ℝ) = 0 := (hfull 1).symm.trans (hzero 1)
  rw [C_eq_zero] at c0 c1
  rw [c0, c1]
  rfl

end

section
variable {k : Nat} {mesh : PlaneMesh ℝ} {poly : Nat → VemPolygon ℝ} {n : Nat → Nat} {len : Nat → Nat → ℝ} {dir : Nat → Nat → Bool} {nrm : Nat → Nat → ℝ × ℝ}
  {triangle : Nat → Rule (ℝ × ℝ) ℝ} {edge : Nat → Rule ℝ ℝ} {ts ws ss vs : List ℝ} {w v₀ : ℝ} {ref : DfRef2D ℝ} {red : Bool} {sqrt : ℝ → ℝ} {lu llt : Solver ℝ}
  {boundary : Nat → Nat → Option BInfo} {info : Nat → MeshInfo} {D : Nat → DOFsData} {count : CountData} {gauss : Nat → Rule ℝ ℝ}
  {test : DfTest ℝ} {s : Nat → DfSpace2D ℝ} {p : Nat → DfPressure2D ℝ} {S S0 A : Nat → DMat ℝ} {b mean : Nat → List ℝ} {μ κ : Nat → ℝ} {P : BrinkmanProblem ℝ} {x : List ℝ}

/-- A vector in the kernel against any other vector. -/
theorem kernel_row (hM : IsDfMesh red k mesh poly n len dir nrm) (hT : IsDfTables k triangle edge ts ws w ss vs v₀) (href : dfRef2D red triangle edge k = .ok ref)
    (hs : IsDfSetup ref mesh boundary info D count) (hB : BSystem red k mesh poly n len dir ts ws w ss vs v₀ sqrt lu llt ref info D count gauss test s p S S0 A b mean μ κ P)
    (hx : x.length = count.totalDOFs) (h0 : ∀ i < count.totalDOFs, ∑ j ∈ Finset.range count.totalDOFs, entry P.globalMatrix i j * x.getD j 0 = 0) {g : List ℝ}
    (hg : g = List.replicate (strongOffset D 4) 0) (y : List ℝ) :
    ((List.range mesh.num2D).map fun c =>
          flowForm k (divDegree red k) test (poly c) (s c) (flowVelocity k mesh n D x g c) (flowVelocity k mesh n D y g c) (flowPressure D x g c) (flowPressure D y g c)
          + μ c * (∑ i ∈ Finset.range (numVelocityDofs k (divDegree red k) (n c)), flowVelocity k mesh n D y g c i * apply (S c) (flowVelocity k mesh n D x g c) i)
          + κ c * ∑ i ∈ Finset.range (numVelocityDofs k (divDegree red k) (n c)), flowVelocity k mesh n D y g c i * apply (S0 c) (flowVelocity k mesh n D x g c) i).sum
        + (if count.totalBoundary = 0 then
            ((List.range mesh.num2D).map fun c => quadSum (s c).internal.points (s c).internal.weights
              (polyOf (divDegree red k) (poly c).centroid (poly c).diameter (flowPressure D y g c))).sum * x.getD (fieldOffset D 4) 0
            + y.getD (fieldOffset D 4) 0 * ((List.range mesh.num2D).map fun c => quadSum (s c).internal.points (s c).internal.weights
              (polyOf (divDegree red k) (poly c).centroid (poly c).diameter (flowPressure D x g c))).sum else 0) = 0 := by
  have hl : g.length = strongOffset D 4 := by rw [hg, List.length_replicate]
  have h := flow_rows hM hT href hs hB x g y hx hl
  rw [hl, ← hg] at h
  rw [← h]
  refine Finset.sum_eq_zero fun i hi => ?_
  rw [hx, h0 i (Finset.mem_range.1 hi), zero_add, Finset.sum_eq_zero fun j _ => ?_, mul_zero]
  rw [hg, replicate_getD, mul_zero]

theorem flowVelocity_zero {y g : List ℝ} (h : ∀ h < 3, ∀ a, fieldValue D y g (h, a) = 0) (c : Nat) : flowVelocity k mesh n D y g c = fun _ => 0 := by
  funext j
  unfold flowVelocity
  split_ifs
  exacts [h 0 (by omega) _, h 1 (by omega) _, h 2 (by omega) _]

theorem constVel_zero_dofs {m n : Nat} {V : Nat → ℝ × ℝ} {dir : Nat → Bool} {poly : VemPolygon ℝ} :
    IsVelocityDofs k m poly n V dir ts (vectorPoly (constVel 0)) (divPoly (constVel 0)) (fun _ => 0) := by
  have h : ∀ q, vectorPoly (constVel 0) q = 0 := fun q => constVel_value 0 q
  refine ⟨fun e _ => ?_, fun e _ i t _ => ?_, fun e _ => ?_, fun e _ i t _ => ?_, fun a b _ => ?_, fun a b _ _ => ?_⟩
  · rw [h]; rfl
  · rw [h]; rfl
  · rw [h]; rfl
  · rw [h]; rfl
  · simp [swirlMoment, h, dot2]
  · simp [constVel_div]

/-- The velocity of a vector in the kernel vanishes, and so do the multiplier and the mean of the pressure. -/
theorem kernel_velocity (hM : IsDfMesh red k mesh poly n len dir nrm) (hT : IsDfTables k triangle edge ts ws w ss vs v₀) (hsq : ∀ x, 0 ≤ x → sqrt x * sqrt x = x)
    (hlu : SolvesRegular lu) (hllt : SolvesPosDef llt) (href : dfRef2D red triangle edge k = .ok ref) (hF : IsFlowMesh test mesh n dir nrm info)
    (hs : IsDfSetup ref mesh boundary info D count) (hB : BSystem red k mesh poly n len dir ts ws w ss vs v₀ sqrt lu llt ref info D count gauss test s p S S0 A b mean μ κ P)
    (hx : x.length = count.totalDOFs) (h0 : ∀ i < count.totalDOFs, ∑ j ∈ Finset.range count.totalDOFs, entry P.globalMatrix i j * x.getD j 0 = 0) {g : List ℝ}
    (hg : g = List.replicate (strongOffset D 4) 0) :
    (∀ c < mesh.num2D, flowVelocity k mesh n D x g c = fun _ => 0) ∧ (count.totalBoundary = 0 → x.getD (fieldOffset D 4) 0 = 0 ∧
      ((List.range mesh.num2D).map fun c => quadSum (s c).internal.points (s c).internal.weights
        (polyOf (divDegree red k) (poly c).centroid (poly c).diameter (flowPressure D x g c))).sum = 0) := by
  have H := df_quad hs
  have hk := hT.two
  obtain ⟨bd, hcount, -⟩ := df_count hT href hs
  have hN : fieldOffset D 4 ≤ count.totalDOFs := by rw [hcount]; exact Nat.le_add_right _ _
  have hrow := kernel_row hM hT href hs hB hx h0 hg
  have hA : ∀ A : DMat ℝ, apply A (fun _ => 0) = fun _ => 0 := fun A => funext fun i => apply_zero A i
  -- the mean of the pressure
  have hmean : count.totalBoundary = 0 → ((List.range mesh.num2D).map fun c => quadSum (s c).internal.points (s c).internal.weights
        (polyOf (divDegree red k) (poly c).centroid (poly c).diameter (flowPressure D x g c))).sum = 0 := by
    intro hb
    obtain ⟨y, hyl, hyv, hy0⟩ := flow_free H (χ := fun _ => 0) 1 hN
    have hval : ∀ h < 4, ∀ a, fieldValue D y g (h, a) = 0 := by
      intro h hh a
      rw [hg]
      rcases flow_test_value (χ := fun _ => 0) H hyv (strongOffset D 4) hh a with h1 | h1 <;> exact h1
    have hy : y.getD (fieldOffset D 4) 0 = 1 := by
      refine hy0 _ le_rfl ?_
      rw [hcount] at hb ⊢
      dsimp only at hb ⊢
      rw [if_pos hb]
      omega
    have h := hrow y
    have hV := fun c => flowVelocity_zero (k := k) (mesh := mesh) (n := n) (fun h hh => hval h (by omega)) c
    have hp : ∀ c, flowPressure D y g c = fun _ => 0 := fun c => funext fun j => hval 3 (by omega) _
    rw [if_pos hb, hy] at h
    simp only [hV, hp, flowForm_pressure, polyOf_zero, mul_zero, zero_mul, Finset.sum_const_zero, add_zero, zero_add, quadSum_zero, one_mul, List.map_const', List.sum_replicate,
      smul_zero] at h
    rw [← h]
    refine (add_eq_right.2 ?_).symm
    rw [List.sum_eq_zero]
    · exact zero_mul _
    · intro a ha
      obtain ⟨c, -, rfl⟩ := List.mem_map.1 ha
      rw [quadSum_congr _ _ fun q _ => polyOf_zero _ _ _ q, quadSum_zero]
  -- the energy
  have hen := fun c (hc : c < mesh.num2D) => cell_dissipation red (hM.plane.element c hc) hT hsq hlu hllt (hM.area c hc) (hM.plane.measure c hc) href (hB.created c hc) (hB.space c hc)
    (hB.cell c hc) hF.viscosity hF.drag (flowVelocity k mesh n D x g c) (flowPressure D x g c)
  have hzero : ∀ c < mesh.num2D, flowForm k (divDegree red k) test (poly c) (s c) (flowVelocity k mesh n D x g c) (flowVelocity k mesh n D x g c) (flowPressure D x g c) (flowPressure D x g c)
          + μ c * (∑ i ∈ Finset.range (numVelocityDofs k (divDegree red k) (n c)), flowVelocity k mesh n D x g c i * apply (S c) (flowVelocity k mesh n D x g c) i)
          + κ c * ∑ i ∈ Finset.range (numVelocityDofs k (divDegree red k) (n c)), flowVelocity k mesh n D x g c i * apply (S0 c) (flowVelocity k mesh n D x g c) i = 0 := by
    intro c hc
    refine sum_zero_all (List.range mesh.num2D) (fun c => flowForm k (divDegree red k) test (poly c) (s c) (flowVelocity k mesh n D x g c) (flowVelocity k mesh n D x g c) (flowPressure D x g c)
          (flowPressure D x g c)
          + μ c * (∑ i ∈ Finset.range (numVelocityDofs k (divDegree red k) (n c)), flowVelocity k mesh n D x g c i * apply (S c) (flowVelocity k mesh n D x g c) i)
          + κ c * ∑ i ∈ Finset.range (numVelocityDofs k (divDegree red k) (n c)), flowVelocity k mesh n D x g c i * apply (S0 c) (flowVelocity k mesh n D x g c) i)
      (fun c hc => (hen c (List.mem_range.1 hc)).1) ?_ c (List.mem_range.2 hc)
    have h := hrow x
    split_ifs at h with hb
    · rw [hmean hb, zero_mul, mul_zero, add_zero, add_zero] at h
      exact h
    · rw [add_zero] at h
      exact h
  -- constants
  choose! a ha hdrag using fun c hc => (hen c hc).2 (hzero c hc)
  have hvert : ∀ c < mesh.num2D, ∀ v ∈ mesh.topo.cell2DVertices c, ∀ h < 2, fieldValue D x g (h, ⟨0, v, 0⟩) = component (a c) h := by
    intro c hc v hv h hh
    obtain ⟨e, he, hev⟩ := List.getElem_of_mem hv
    rw [hM.plane.vertices c hc] at he
    have hcv : cellVertex mesh c e = v := by
      rw [cellVertex, List.getD_eq_getElem?_getD, List.getElem?_eq_getElem (by rw [hM.plane.vertices c hc]; exact he), hev]
      rfl
    have h1 := flow_border (k := k) (mesh := mesh) (D := D) x g (c := c) (h := h) (j := e) hh (lt_of_lt_of_le he (Nat.le_add_right _ _))
    rw [border_vertex he, hcv] at h1
    rw [← h1]
    obtain rfl | rfl : h = 0 ∨ h = 1 := by omega
    · rw [zero_mul, zero_add, (ha c hc).vertexFirst e he, constVel_value]
      rfl
    · rw [one_mul, (ha c hc).vertexSecond e he, constVel_value]
      rfl
  have hlink : ∀ h < 2, ∀ v v', Relation.ReflTransGen (FlowLinked mesh) v v' → fieldValue D x g (h, ⟨0, v, 0⟩) = fieldValue D x g (h, ⟨0, v', 0⟩) := by
    intro h hh v v' hl
    induction hl with
    | refl => rfl
    | tail _ h2 ih =>
      obtain ⟨c, hc, m1, m2⟩ := h2
      rw [ih, hvert c hc _ m1 h hh, hvert c hc _ m2 h hh]
  have ha0 : ∀ c < mesh.num2D, a c = 0 := by
    intro c hc
    rcases hF.held with hd | hst
    · exact hdrag c hc hd
    · have hn : 0 < n c := by
        by_contra hcon
        obtain hn0 : n c = 0 := by omega
        refine perimeter_pos (hM.plane.element c hc) ?_
        rw [hn0]
        rfl
      have hmem := List.mem_of_getElem? (cell_vertex_mem hM.plane hc hn)
      have hcomp : ∀ h < 2, component (a c) h = 0 := by
        intro h hh
        rw [← hvert c hc _ hmem h hh]
        obtain ⟨v', h1, h2⟩ := hst h hh _ ((H.field h (by omega)).verts c hc _ hmem)
        rw [hlink h hh _ _ h1]
        cases hl : lookup (D h) ⟨0, v', 0⟩ with
        | none =>
          unfold fieldValue valueOf
          rw [hl]
        | some y =>
          obtain ⟨t, i⟩ := y
          obtain ⟨-, hr1, hr2⟩ := (H.field h (by omega)).range _ _ hl
          obtain ⟨b', y', e1, e2, e3, -⟩ := flow_lookup H (show h < 4 by omega) (d := 0) (by omega) hr1 hr2
          rw [hl] at e2
          obtain rfl := Option.some.inj e2
          rw [bTypeOf, e1] at h2
          simp only [Option.map_some, Option.some.injEq] at h2
          rw [h2] at e3
          dsimp only [typeFor] at e3
          subst e3
          rw [fieldValue_strong hl, hg, replicate_getD]
      exact Prod.ext (hcomp 0 (by omega)) (hcomp 1 (by omega))
  have hvel : ∀ c < mesh.num2D, flowVelocity k mesh n D x g c = fun _ => 0 := by
    intro c hc
    funext j
    have hz := ha c hc
    rw [ha0 c hc] at hz
    by_cases hj : j < numVelocityDofs k (divDegree red k) (n c)
    · exact velDofs_unique hk hT.nodes hz constVel_zero_dofs j hj
    · have hnum := (df_numbers hT href).2.1.2.2
      unfold numVelocityDofs at hj
      rw [flowVelocity, if_neg (by omega), if_neg (by omega)]
      unfold fieldValue valueOf
      cases hl : lookup (D 2) ⟨2, c, j - 2 * (n c + n c * (k - 1))⟩ with
      | none => rfl
      | some y =>
        obtain ⟨-, -, hr2⟩ := (H.field 2 (by omega)).range _ _ hl
        dsimp only at hr2
        omega
  refine ⟨hvel, fun hb => ⟨?_, hmean hb⟩⟩
  -- the multiplier
  obtain ⟨y, hyl, hy, hv, hV, hp0, hp1⟩ := pressure_vector (n := n) hT href hs (strongOffset D 4) hF.cells (fun j => if j = 0 then 1 else 0)
  rw [← hg] at hv hV hp0 hp1
  have h := hrow y
  rw [if_pos hb, hy, zero_mul, add_zero, List.sum_eq_zero, zero_add] at h
  · refine (mul_eq_zero.1 h).resolve_left ?_
    rw [list_sum_single hF.cells]
    · rw [quadSum_congr _ _ (g := fun q => ev2 (1 * 1) q) fun q _ => ?_]
      · intro hz
        have := (hB.space 0 hF.cells).discrete.definite 1 (by simp) hz
        exact one_ne_zero this
      · rw [polyOf_congr _ _ hp1 q, df_polyOf (k := k) ((Nat.le_succ _).trans (divDegree_le red hk)) rfl, mul_one]
        congr 1
        rw [combo, Finset.sum_eq_single 0]
        · simp [basisPoly_zero]
        · intro j _ hj
          simp [hj]
        · intro hn
          exact absurd (Finset.mem_range.2 (by rw [tri_succ]; omega)) hn
    · intro c _ hne
      rw [hp0 c hne, quadSum_congr _ _ fun q _ => polyOf_zero _ _ _ q, quadSum_zero]
  · intro r hr
    obtain ⟨c, hc, rfl⟩ := List.mem_map.1 hr
    have hc := List.mem_range.1 hc
    simp only [hV, hvel c hc, hA, flowForm_pressure, polyOf_zero, mul_zero, zero_mul, Finset.sum_const_zero, add_zero, quadSum_zero]

/-- The divergence of the discrete velocities against the pressure of a vector in the kernel. -/
theorem kernel_test (hM : IsDfMesh red k mesh poly n len dir nrm) (hT : IsDfTables k triangle edge ts ws w ss vs v₀) (hsq : ∀ x, 0 ≤ x → sqrt x * sqrt x = x)
    (hlu : SolvesRegular lu) (hllt : SolvesPosDef llt) (href : dfRef2D red triangle edge k = .ok ref) (hF : IsFlowMesh test mesh n dir nrm info)
    (hs : IsDfSetup ref mesh boundary info D count) (hB : BSystem red k mesh poly n len dir ts ws w ss vs v₀ sqrt lu llt ref info D count gauss test s p S S0 A b mean μ κ P)
    (hx : x.length = count.totalDOFs) (h0 : ∀ i < count.totalDOFs, ∑ j ∈ Finset.range count.totalDOFs, entry P.globalMatrix i j * x.getD j 0 = 0) {g : List ℝ}
    (hg : g = List.replicate (strongOffset D 4) 0) (y : List ℝ) :
    ∑ c ∈ Finset.range mesh.num2D, quadSum (s c).internal.points (s c).internal.weights (fun q =>
      polyOf (divDegree red k) (poly c).centroid (poly c).diameter (flowPressure D x g c) q *
        polyOf (divDegree red k) (poly c).centroid (poly c).diameter (apply (s c).V (flowVelocity k mesh n D y g c)) q) = 0 := by
  obtain ⟨hvel, hclosed⟩ := kernel_velocity hM hT hsq hlu hllt href hF hs hB hx h0 hg
  have hA : ∀ A : DMat ℝ, apply A (fun _ => 0) = fun _ => 0 := fun A => funext fun i => apply_zero A i
  have h := kernel_row hM hT href hs hB hx h0 hg y
  have hif : (if count.totalBoundary = 0 then
            ((List.range mesh.num2D).map fun c => quadSum (s c).internal.points (s c).internal.weights
              (polyOf (divDegree red k) (poly c).centroid (poly c).diameter (flowPressure D y g c))).sum * x.getD (fieldOffset D 4) 0
            + y.getD (fieldOffset D 4) 0 * ((List.range mesh.num2D).map fun c => quadSum (s c).internal.points (s c).internal.weights
              (polyOf (divDegree red k) (poly c).centroid (poly c).diameter (flowPressure D x g c))).sum else 0) = 0 := by
    split_ifs with hb
    · rw [(hclosed hb).1, (hclosed hb).2, mul_zero, mul_zero, add_zero]
    · rfl
  rw [hif, add_zero] at h
  rw [← neg_eq_zero, ← Finset.sum_neg_distrib]
  refine Eq.trans ?_ h
  refine Finset.sum_congr rfl fun c hc => ?_
  have hc := Finset.mem_range.1 hc
  rw [hvel c hc]
  simp only [hA, mul_zero, Finset.sum_const_zero, add_zero, flowForm, polyOf_zero, gradOf_zero]
  rw [← neg_one_mul, ← quadSum_const_mul]
  refine quadSum_congr _ _ fun q _ => ?_
  simp only [brinkmanIntegrand, dot2, component, Finset.sum_range_succ, Finset.sum_range_zero]
  simp

/-- The mean of the product of a pressure and the divergence of a velocity. -/
theorem pressure_div {m : Nat} (hm : m ≤ k) {poly : VemPolygon ℝ} {s : DfSpace2D ℝ} {n : Nat} {V : Nat → ℝ × ℝ} {len : Nat → ℝ} {dir : Nat → Bool} {nrm : Nat → ℝ × ℝ} {v : Nat → ℝ}
    {u : ℝ × ℝ → ℝ × ℝ} {Q : MvPolynomial (Fin 2) ℝ} (hr : FlowReal k m n V len dir nrm ts poly s v u Q) (r : Nat → ℝ) :
    (quadSum s.internal.points s.internal.weights fun q => polyOf m poly.centroid poly.diameter r q * polyOf m poly.centroid poly.diameter (apply s.V v) q)
      = ∑ j ∈ Finset.range (tri (m + 1)), r j * quadLin s.internal.points s.internal.weights (basisPoly k poly.centroid poly.diameter j * Q) := by
  have h1 : (quadSum s.internal.points s.internal.weights fun q => polyOf m poly.centroid poly.diameter r q * polyOf m poly.centroid poly.diameter (apply s.V v) q)
      = quadLin s.internal.points s.internal.weights (Q * combo k poly.centroid poly.diameter (tri (m + 1)) r) :=
    quadSum_congr _ _ fun q _ => by
      rw [hr.div, df_polyOf (k := k) hm rfl, mul_comm]
      exact (map_mul (eval ![q.1, q.2]) _ _).symm
  rw [h1, quadLin_combo]
  refine Finset.sum_congr rfl fun j _ => ?_
  rw [mul_comm Q]
  ring

/-- The pressure of a vector in the kernel is constant on every cell. -/
theorem kernel_inner (hM : IsDfMesh red k mesh poly n len dir nrm) (hT : IsDfTables k triangle edge ts ws w ss vs v₀) (hsq : ∀ x, 0 ≤ x → sqrt x * sqrt x = x)
    (hlu : SolvesRegular lu) (hllt : SolvesPosDef llt) (href : dfRef2D red triangle edge k = .ok ref) (hF : IsFlowMesh test mesh n dir nrm info)
    (hs : IsDfSetup ref mesh boundary info D count) (hB : BSystem red k mesh poly n len dir ts ws w ss vs v₀ sqrt lu llt ref info D count gauss test s p S S0 A b mean μ κ P)
    (hx : x.length = count.totalDOFs) (h0 : ∀ i < count.totalDOFs, ∑ j ∈ Finset.range count.totalDOFs, entry P.globalMatrix i j * x.getD j 0 = 0) {g : List ℝ}
    (hg : g = List.replicate (strongOffset D 4) 0) {c : Nat} (hc : c < mesh.num2D) {j : Nat} (hj0 : 0 < j) (hj : j < tri (divDegree red k + 1)) : flowPressure D x g c j = 0 := by
  have H := df_quad hs
  have hk := hT.two
  have hm : divDegree red k ≤ k := (Nat.le_succ _).trans (divDegree_le red hk)
  obtain ⟨bd, hcount, -⟩ := df_count hT href hs
  have hN : fieldOffset D 4 ≤ count.totalDOFs := by rw [hcount]; exact Nat.le_add_right _ _
  set T := (k - 2) * (k - 1) / 2 with hTd
  obtain ⟨y, hyl, hyv, -⟩ := flow_free H (χ := fun a => if a.1 = 2 ∧ a.2.cell = c ∧ T ≤ a.2.dof then flowPressure D x g c (a.2.dof - T + 1) else 0) 0 hN
  have hval := fun {h} (hh : h < 4) a => flow_test_value (χ := fun a => if a.1 = 2 ∧ a.2.cell = c ∧ T ≤ a.2.dof then flowPressure D x g c (a.2.dof - T + 1) else 0) H hyv (strongOffset D 4) hh a
  rw [← hg] at hval
  have hv2 : ∀ h < 2, ∀ a, fieldValue D y g (h, a) = 0 := by
    intro h hh a
    rcases hval (show h < 4 by omega) a with h1 | h1
    · rw [h1]
      dsimp only
      rw [if_neg (by omega)]
    · exact h1
  have hoff : ∀ c', c' ≠ c → flowVelocity k mesh n D y g c' = fun _ => 0 := by
    intro c' hne
    funext i
    unfold flowVelocity
    split_ifs
    · exact hv2 0 (by omega) _
    · exact hv2 1 (by omega) _
    · rcases hval (show 2 < 4 by omega) ⟨2, c', i - 2 * (n c' + n c' * (k - 1))⟩ with h1 | h1
      · rw [h1]
        dsimp only
        rw [if_neg (fun h => hne h.2.1)]
      · exact h1
  have hon : ∀ i, 0 < i → i < tri (divDegree red k + 1) → flowVelocity k mesh n D y g c (2 * (n c + n c * (k - 1)) + T + (i - 1)) = flowPressure D x g c i := by
    intro i hi0 hi
    obtain ⟨l, hl⟩ := flow_interior hs (show 2 ≤ 2 by omega) (by omega) hc (show T + (i - 1) < dfNum ref 2 2 by rw [(df_numbers hT href).2.1.2.2, tri_div]; omega)
    rw [flowVelocity, if_neg (by omega), if_neg (by omega), show 2 * (n c + n c * (k - 1)) + T + (i - 1) - 2 * (n c + n c * (k - 1)) = T + (i - 1) by omega,
      fieldValue_free hl, hyv 2 (by omega) _ _ hl]
    dsimp only
    rw [if_pos ⟨rfl, rfl, by omega⟩]
    congr 1
    omega
  have hA : ∀ A : DMat ℝ, apply A (fun _ => 0) = fun _ => 0 := fun A => funext fun i => apply_zero A i
  have h := kernel_test hM hT hsq hlu hllt href hF hs hB hx h0 hg y
  rw [Finset.sum_eq_single_of_mem c (Finset.mem_range.2 hc)] at h
  · obtain ⟨u, Q, hreal⟩ := exists_real red (hM.plane.element c hc) (hM.simple c hc) hT hsq hlu hllt (hM.area c hc) href (hB.created c hc) (hB.space c hc) (flowVelocity k mesh n D y g c)
    have hEdge : ∀ e < n c, cellEdge mesh c e < mesh.num1D := fun e he => (H.field 0 (by omega)).edges c hc _ (List.mem_of_getElem? (cell_edge_mem hM.plane hc he))
    have hU : ∀ h < 2, IsTrace k mesh ts (fun r => fieldValue D y g (h, r)) fun _ => 0 := by
      intro h hh E _
      refine ⟨by simp, ?_, ?_, fun j t _ => ?_⟩ <;> simp only [Polynomial.eval_zero] <;> exact (hv2 h hh _).symm
    have hflux : ∀ h < 2, ∀ F, edgeFlux (n c) (cellPoint mesh c) F (fun p => pick (u p) h) = 0 := by
      intro h hh F
      rw [cell_flux hM.plane hT hc hh hEdge (velocity_trace hreal.velocity h) hreal.dofs (hU h hh)]
      simp [edgeWork]
    have hq0 : quadLin (s c).internal.points (s c).internal.weights (basisPoly k (poly c).centroid (poly c).diameter 0 * Q) = 0 := by
      rw [basisPoly_zero, hreal.green 1 (by simp), hflux 0 (by omega), hflux 1 (by omega)]
      simp
    have hq1 : ∀ i, 0 < i → i < tri (divDegree red k + 1) →
        quadLin (s c).internal.points (s c).internal.weights (basisPoly k (poly c).centroid (poly c).diameter i * Q) = flowPressure D x g c i := by
      intro i hi0 hi
      obtain ⟨a, b, hab, rfl⟩ := exists_position hi
      have hab0 : 0 < a + b := by
        by_contra hcon
        have e1 : a = 0 := by omega
        have e2 : b = 0 := by omega
        subst e1 e2
        simp [position] at hi0
      rw [← hon _ hi0 hi, hreal.dofs.divergence a b hab0 hab, (hB.space c hc).rules.integral]
      · refine integral_congr_ae (Filter.Eventually.of_forall fun q => ?_)
        have := ev2_basis_position k (poly c).centroid (poly c).diameter (hab.trans hm) q
        dsimp only
        rw [← this]
        exact map_mul (eval ![q.1, q.2]) _ _
      · have d1 := basisPoly_degree k (poly c).centroid (poly c).diameter (j := position a b) (by rw [num2_eq]; exact position_lt.2 (hab.trans hm)) hi
        have d2 := hreal.velocity.degree
        have d3 := totalDegree_mul (basisPoly k (poly c).centroid (poly c).diameter (position a b)) Q
        omega
    rw [pressure_div hm hreal] at h
    have hterm : ∀ i ∈ Finset.range (tri (divDegree red k + 1)),
        flowPressure D x g c i * quadLin (s c).internal.points (s c).internal.weights (basisPoly k (poly c).centroid (poly c).diameter i * Q)
          = if i = 0 then 0 else flowPressure D x g c i ^ 2 := by
      intro i hi
      split_ifs with hi0
      · rw [hi0, hq0, mul_zero]
      · rw [hq1 i (by omega) (Finset.mem_range.1 hi), sq]
    rw [Finset.sum_congr rfl hterm] at h
    have := (Finset.sum_eq_zero_iff_of_nonneg (fun i _ => by split_ifs <;> positivity)).1 h j (Finset.mem_range.2 hj)
    rw [if_neg (by omega)] at this
    exact pow_eq_zero_iff (n := 2) (by norm_num) |>.1 this
  · intro c' hc' hne
    rw [hoff c' hne, hA]
    simp only [polyOf_zero, mul_zero, quadSum_zero]

/-- The pressures on both sides of a passable edge. -/
theorem kernel_edge (hM : IsDfMesh red k mesh poly n len dir nrm) (hT : IsDfTables k triangle edge ts ws w ss vs v₀) (hsq : ∀ x, 0 ≤ x → sqrt x * sqrt x = x)
    (hlu : SolvesRegular lu) (hllt : SolvesPosDef llt) (href : dfRef2D red triangle edge k = .ok ref) (hF : IsFlowMesh test mesh n dir nrm info)
    (hs : IsDfSetup ref mesh boundary info D count) (hB : BSystem red k mesh poly n len dir ts ws w ss vs v₀ sqrt lu llt ref info D count gauss test s p S S0 A b mean μ κ P)
    (hx : x.length = count.totalDOFs) (h0 : ∀ i < count.totalDOFs, ∑ j ∈ Finset.range count.totalDOFs, entry P.globalMatrix i j * x.getD j 0 = 0) {g : List ℝ}
    (hg : g = List.replicate (strongOffset D 4) 0) {c e : Nat} (hc : c < mesh.num2D) (he : e < n c) (hpass : IsPassable info mesh nrm c e) :
    ∑ c' ∈ Finset.range mesh.num2D, ∑ e' ∈ Finset.range (n c'), (if cellEdge mesh c' e' = cellEdge mesh c e then sgn (dir c') e' * flowPressure D x g c' 0 else 0) = 0 := by
  obtain ⟨h, hh, ⟨b, hb, hbs⟩, hcomp⟩ := hpass
  set E := cellEdge mesh c e with hE
  have H := df_quad hs
  have hk := hT.two
  have hm : divDegree red k ≤ k := (Nat.le_succ _).trans (divDegree_le red hk)
  obtain ⟨bd, hcount, -⟩ := df_count hT href hs
  have hN : fieldOffset D 4 ≤ count.totalDOFs := by rw [hcount]; exact Nat.le_add_right _ _
  have hEdge : ∀ c < mesh.num2D, ∀ e < n c, cellEdge mesh c e < mesh.num1D := fun c hc e he =>
    (H.field 0 (by omega)).edges c hc _ (List.mem_of_getElem? (cell_edge_mem hM.plane hc he))
  set χ : Nat × GDOF → ℝ := fun a => if a.1 = h ∧ a.2.dim = 1 ∧ a.2.cell = E then ts.getD a.2.dof 0 * (1 - ts.getD a.2.dof 0) else 0 with hχ
  obtain ⟨y, hyl, hyv, -⟩ := flow_free H χ 0 hN
  have hval := fun {h} (hh : h < 4) a => flow_test_value H hyv (strongOffset D 4) hh a
  rw [← hg] at hval
  have hoff : ∀ a : Nat × GDOF, a.1 < 4 → ¬(a.1 = h ∧ a.2.dim = 1 ∧ a.2.cell = E) → fieldValue D y g a = 0 := by
    rintro ⟨h', r⟩ hh' hne
    rcases hval hh' r with h1 | h1
    · rw [h1, hχ]
      dsimp only
      rw [if_neg hne]
    · exact h1
  have hon : ∀ j t, ts[j]? = some t → fieldValue D y g (h, ⟨1, E, j⟩) = t * (1 - t) := by
    intro j t hj
    have hjl := (List.getElem?_eq_some_iff.1 hj).1
    rw [hT.nodes] at hjl
    obtain ⟨b', y', e1, e2, e3, e4⟩ := flow_lookup H (show h < 4 by omega) (d := 1) (by omega) (hEdge c hc e he) (show j < dfNum ref h 1 by rw [((df_numbers hT href).1 h hh).2.1]; exact hjl)
    rw [hb] at e1
    obtain rfl := Option.some.inj e1
    obtain ⟨ty, i⟩ := y'
    have hty : ty = .dof := e4.resolve_right fun h => hbs (typeFor_strong (e3.symm.trans h))
    subst hty
    rw [fieldValue_free e2, hyv h (by omega) _ _ e2, hχ]
    dsimp only
    rw [if_pos ⟨rfl, rfl, rfl⟩, List.getD_eq_getElem?_getD, hj, Option.getD_some]
  set U : Nat → Nat → Polynomial ℝ := fun h' E' => if h' = h ∧ E' = E then Polynomial.X * (1 - Polynomial.X) else 0 with hUd
  have hU : ∀ h' < 2, IsTrace k mesh ts (fun r => fieldValue D y g (h', r)) (U h') := by
    intro h' hh' E' _
    dsimp only
    rw [hoff (h', ⟨0, (mesh.topo.cell1DVertices E').1, 0⟩) (by dsimp only; omega) (by simp), hoff (h', ⟨0, (mesh.topo.cell1DVertices E').2, 0⟩) (by dsimp only; omega) (by simp)]
    rw [hUd]
    dsimp only
    split_ifs with hcase
    · refine ⟨?_, by simp, by simp, fun j t hj => ?_⟩
      · refine (Polynomial.natDegree_mul_le).trans ?_
        have : (1 - Polynomial.X : Polynomial ℝ).natDegree ≤ 1 := (Polynomial.natDegree_sub_le _ _).trans (by simp)
        simp only [Polynomial.natDegree_X]
        omega
      · obtain ⟨rfl, rfl⟩ := hcase
        rw [hon j t hj]
        simp
    · refine ⟨by simp, by simp, by simp, fun j t _ => ?_⟩
      rw [hoff _ (by dsimp only; omega) (fun hcon => hcase ⟨hcon.1, hcon.2.2⟩)]
      simp
  have hint : ∫ t in (0 : ℝ)..1, t * (1 - t) = 1 / 6 := by
    have : (fun t : ℝ => t * (1 - t)) = fun t => t - t ^ 2 := by funext t; ring
    rw [this, intervalIntegral.integral_sub (by simp) (by simp), integral_id, integral_pow]
    norm_num
  have hwork : ∀ E', edgeWork mesh (1, 0) (U 0) E' + edgeWork mesh (0, 1) (U 1) E' = if E' = E then component (clockwise (edgeVector mesh E)) h * (1 / 6) else 0 := by
    intro E'
    rw [hUd]
    unfold edgeWork
    by_cases hEE : E' = E
    · subst hEE
      obtain rfl | rfl : h = 0 ∨ h = 1 := by omega
      · simp [ev2, component, hint]
      · simp [ev2, component, hint]
    · simp [ev2, hEE]
  have hsum := kernel_test hM hT hsq hlu hllt href hF hs hB hx h0 hg y
  have hterm : ∀ c' ∈ Finset.range mesh.num2D, quadSum (s c').internal.points (s c').internal.weights (fun q =>
      polyOf (divDegree red k) (poly c').centroid (poly c').diameter (flowPressure D x g c') q *
        polyOf (divDegree red k) (poly c').centroid (poly c').diameter (apply (s c').V (flowVelocity k mesh n D y g c')) q)
      = component (clockwise (edgeVector mesh E)) h * (1 / 6) *
        ∑ e' ∈ Finset.range (n c'), (if cellEdge mesh c' e' = E then sgn (dir c') e' * flowPressure D x g c' 0 else 0) := by
    intro c' hc'
    have hc' := Finset.mem_range.1 hc'
    obtain ⟨u, Q, hreal⟩ := exists_real red (hM.plane.element c' hc') (hM.simple c' hc') hT hsq hlu hllt (hM.area c' hc') href (hB.created c' hc') (hB.space c' hc')
      (flowVelocity k mesh n D y g c')
    rw [pressure_div hm hreal, Finset.sum_eq_single_of_mem 0 (Finset.mem_range.2 (by rw [tri_succ]; omega)), basisPoly_zero, hreal.green 1 (by simp),
      cell_flux hM.plane hT hc' (show 0 < 2 by omega) (hEdge c' hc') (velocity_trace hreal.velocity 0) hreal.dofs (hU 0 (by omega)),
      cell_flux hM.plane hT hc' (show 1 < 2 by omega) (hEdge c' hc') (velocity_trace hreal.velocity 1) hreal.dofs (hU 1 (by omega)), ← Finset.sum_add_distrib]
    · simp only [← add_mul, hwork, pderiv_one, zero_mul, map_zero, sub_zero]
      rw [Finset.mul_sum, Finset.mul_sum]
      refine Finset.sum_congr rfl fun e' _ => ?_
      split_ifs <;> ring
    · intro j hj hne
      rw [kernel_inner hM hT hsq hlu hllt href hF hs hB hx h0 hg hc' (Nat.pos_of_ne_zero hne) (Finset.mem_range.1 hj), zero_mul]
  rw [Finset.sum_congr rfl hterm, ← Finset.mul_sum] at hsum
  refine (mul_eq_zero.1 hsum).resolve_left (mul_ne_zero (fun hz => ?_) (by norm_num))
  have h1 := edge_turn hM.plane hc he
  rw [← (hM.plane.element c hc).normals e he, ← hE] at h1
  have hl : |len c e| ≠ 0 := abs_ne_zero.2 (hM.length c hc e he)
  have h2 : component (|len c e| • nrm c e) h = 0 := by
    rw [h1]
    unfold component at hz ⊢
    split_ifs at hz ⊢ <;> simp only [Prod.smul_fst, Prod.smul_snd, hz, smul_zero]
  refine hcomp ?_
  unfold component at h2 ⊢
  split_ifs at h2 ⊢ <;> simpa [hl] using h2

/-- The matrix of the Brinkman problem has no kernel. -/
theorem flow_kernel (hM : IsDfMesh red k mesh poly n len dir nrm) (hT : IsDfTables k triangle edge ts ws w ss vs v₀) (hsq : ∀ x, 0 ≤ x → sqrt x * sqrt x = x)
    (hlu : SolvesRegular lu) (hllt : SolvesPosDef llt) (href : dfRef2D red triangle edge k = .ok ref) (hF : IsFlowMesh test mesh n dir nrm info)
    (hs : IsDfSetup ref mesh boundary info D count) (hB : BSystem red k mesh poly n len dir ts ws w ss vs v₀ sqrt lu llt ref info D count gauss test s p S S0 A b mean μ κ P)
    (hx : x.length = count.totalDOFs) (h0 : ∀ i < count.totalDOFs, ∑ j ∈ Finset.range count.totalDOFs, entry P.globalMatrix i j * x.getD j 0 = 0) :
    ∀ i < count.totalDOFs, x.getD i 0 = 0 := by
  obtain ⟨g, hg⟩ : ∃ g : List ℝ, g = List.replicate (strongOffset D 4) 0 := ⟨_, rfl⟩
  have H := df_quad hs
  have hk := hT.two
  have hm : divDegree red k ≤ k := (Nat.le_succ _).trans (divDegree_le red hk)
  obtain ⟨bd, hcount, hopen⟩ := df_count hT href hs
  obtain ⟨hvel, hclosed⟩ := kernel_velocity hM hT hsq hlu hllt href hF hs hB hx h0 hg
  have hedge := fun {c e} (hc : c < mesh.num2D) (he : e < n c) hpass => kernel_edge hM hT hsq hlu hllt href hF hs hB hx h0 hg hc he hpass
  have hsne : ∀ c e, sgn (dir c) e ≠ 0 := fun c e h => by
    have := sgn_sq (dir c) e
    rw [h] at this
    simp at this
  have hout : ∀ c, FlowOutlet info mesh n nrm c → flowPressure D x g c 0 = 0 := by
    rintro c ⟨hc, e, he, hpass, honly⟩
    have h := hedge hc he hpass
    rw [Finset.sum_eq_single_of_mem c (Finset.mem_range.2 hc), Finset.sum_eq_single_of_mem e (Finset.mem_range.2 he), if_pos rfl] at h
    · exact (mul_eq_zero.1 h).resolve_left (hsne c e)
    · intro e' he' hne
      exact if_neg fun hEe => hne (honly c hc e' (Finset.mem_range.1 he') hEe).2
    · intro c' hc' hne
      refine Finset.sum_eq_zero fun e' he' => ?_
      exact if_neg fun hEe => hne (honly c' (Finset.mem_range.1 hc') e' (Finset.mem_range.1 he') hEe).1
  have hadj : ∀ c c', FlowAdjacent info mesh n dir nrm c c' → flowPressure D x g c 0 = flowPressure D x g c' 0 := by
    rintro c c' ⟨hc, hc', e, he, e', he', hEE, hdd, hpass, honly⟩
    by_cases hcc : c = c'
    · rw [hcc]
    have h := hedge hc he hpass
    have hsg : sgn (dir c') e' = -sgn (dir c) e := by
      unfold sgn
      revert hdd
      cases dir c e <;> cases dir c' e' <;> simp
    rw [Finset.sum_eq_add_of_mem c c' (Finset.mem_range.2 hc) (Finset.mem_range.2 hc') hcc, Finset.sum_eq_single_of_mem e (Finset.mem_range.2 he),
      Finset.sum_eq_single_of_mem e' (Finset.mem_range.2 he'), if_pos rfl, if_pos hEE.symm, hsg] at h
    · have := (mul_eq_zero.1 (show sgn (dir c) e * (flowPressure D x g c 0 - flowPressure D x g c' 0) = 0 by linarith)).resolve_left (hsne c e)
      linarith
    · intro e'' he'' hne
      refine if_neg fun hEe => ?_
      rcases honly c' hc' e'' (Finset.mem_range.1 he'') hEe with h | h
      · exact hcc h.1.symm
      · exact hne h.2
    · intro e'' he'' hne
      refine if_neg fun hEe => ?_
      rcases honly c hc e'' (Finset.mem_range.1 he'') hEe with h | h
      · exact hne h.2
      · exact hcc h.1
    · intro c'' hc'' hne
      refine Finset.sum_eq_zero fun e'' he'' => ?_
      refine if_neg fun hEe => ?_
      rcases honly c'' (Finset.mem_range.1 hc'') e'' (Finset.mem_range.1 he'') hEe with h | h
      · exact hne.1 h.1
      · exact hne.2 h.1
  have hgen : ∀ c c', Relation.ReflTransGen (FlowAdjacent info mesh n dir nrm) c c' → flowPressure D x g c 0 = flowPressure D x g c' 0 := by
    intro c c' h
    induction h with
    | refl => rfl
    | tail _ h2 ih => exact ih.trans (hadj _ _ h2)
  have hconst : ∀ c < mesh.num2D, ∀ q, polyOf (divDegree red k) (poly c).centroid (poly c).diameter (flowPressure D x g c) q = flowPressure D x g c 0 := by
    intro c hc q
    rw [df_polyOf (k := k) hm rfl, combo, Finset.sum_eq_single 0]
    · simp [basisPoly_zero, ev2]
    · intro j hj hne
      rw [kernel_inner hM hT hsq hlu hllt href hF hs hB hx h0 hg hc (Nat.pos_of_ne_zero hne) (Finset.mem_range.1 hj), C_0, zero_mul]
    · intro hn
      exact absurd (Finset.mem_range.2 (by rw [tri_succ]; omega)) hn
  have hpres : ∀ c < mesh.num2D, ∀ j < tri (divDegree red k + 1), flowPressure D x g c j = 0 := by
    intro c hc j hj
    rcases Nat.eq_zero_or_pos j with rfl | hj0
    · rcases hF.connected with ⟨hno, hall⟩ | hway
      · have hb : count.totalBoundary = 0 := by
          rw [hcount]
          exact hopen.2 hno
        have hmean := (hclosed hb).2
        have hterm : ∀ c' ∈ List.range mesh.num2D, quadSum (s c').internal.points (s c').internal.weights
            (polyOf (divDegree red k) (poly c').centroid (poly c').diameter (flowPressure D x g c'))
            = flowPressure D x g c 0 * quadLin (s c').internal.points (s c').internal.weights (1 * 1) := by
          intro c' hc'
          have hc' := List.mem_range.1 hc'
          rw [quadSum_congr _ _ fun q _ => (hconst c' hc' q).trans (hgen c' c (hall c' hc' c hc))]
          refine Eq.trans ?_ (quadSum_const_mul _ _ _ _)
          exact quadSum_congr _ _ fun q _ => by simp
        rw [List.map_congr_left hterm, List.sum_map_mul_left] at hmean
        refine (mul_eq_zero.1 hmean).resolve_right fun hz => ?_
        have := sum_zero_all (List.range mesh.num2D) (fun c' => quadLin (s c').internal.points (s c').internal.weights (1 * 1))
          (fun c' hc' => (hB.space c' (List.mem_range.1 hc')).discrete.nonneg 1 (by simp)) hz c (List.mem_range.2 hc)
        exact one_ne_zero ((hB.space c hc).discrete.definite 1 (by simp) this)
      · obtain ⟨c', h1, h2⟩ := hway c hc
        rw [hgen c c' h1]
        exact hout c' h2
    · exact kernel_inner hM hT hsq hlu hllt href hF hs hB hx h0 hg hc hj0 hj
  -- all values
  have hborder : ∀ h < 2, ∀ c < mesh.num2D, ∀ j < n c + n c * (k - 1), fieldValue D x g (h, borderRef k mesh n c j) = 0 := by
    intro h hh c hc j hj
    rw [← flow_border x g hh hj, hvel c hc]
  have hall : ∀ h < 4, ∀ r y, lookup (D h) r = some y → fieldValue D x g (h, r) = 0 := by
    intro h hh r y hl
    obtain ⟨hd, hrc, hrd⟩ := (H.field h hh).range _ _ hl
    obtain ⟨d, E, j⟩ := r
    dsimp only at hd hrc hrd
    obtain ⟨hn1, hn2, hn3⟩ := df_numbers hT href
    rcases (show h < 2 ∨ h = 2 ∨ h = 3 by omega) with h2 | rfl | rfl
    · obtain ⟨m0, m1, m2⟩ := hn1 h h2
      obtain rfl | rfl | rfl : d = 0 ∨ d = 1 ∨ d = 2 := by omega
      · rw [m0] at hrd
        obtain rfl : j = 0 := by omega
        obtain ⟨c, hc, hv⟩ := hF.vertices E hrc
        obtain ⟨e, he, hev⟩ := List.getElem_of_mem hv
        rw [hM.plane.vertices c hc] at he
        have hcv : cellVertex mesh c e = E := by
          rw [cellVertex, List.getD_eq_getElem?_getD, List.getElem?_eq_getElem (by rw [hM.plane.vertices c hc]; exact he), hev]
          rfl
        have := hborder h h2 c hc e (lt_of_lt_of_le he (Nat.le_add_right _ _))
        rwa [border_vertex he, hcv] at this
      · rw [m1] at hrd
        obtain ⟨c, hc, e, he, rfl⟩ := hF.edges E hrc
        have := hborder h h2 c hc _ (node_index he hrd)
        rwa [border_node hrd] at this
      · rw [m2] at hrd
        omega
    · obtain ⟨m0, m1, m2⟩ := hn2
      obtain rfl | rfl | rfl : d = 0 ∨ d = 1 ∨ d = 2 := by omega
      · rw [m0] at hrd
        omega
      · rw [m1] at hrd
        omega
      · have := congrFun (hvel E hrc) (2 * (n E + n E * (k - 1)) + j)
        rwa [flowVelocity, if_neg (by omega), if_neg (by omega), Nat.add_sub_cancel_left] at this
    · obtain ⟨m0, m1, m2⟩ := hn3
      obtain rfl | rfl | rfl : d = 0 ∨ d = 1 ∨ d = 2 := by omega
      · rw [m0] at hrd
        omega
      · rw [m1] at hrd
        omega
      · rw [m2, tri_div] at hrd
        exact hpres E hrc j hrd
  intro i hi
  by_cases hlt : i < fieldOffset D 4
  · have hfind : ∃ h < 4, fieldOffset D h ≤ i ∧ i - fieldOffset D h < (D h).counters.dofs := by
      have e0 : fieldOffset D 0 = 0 := rfl
      have e1 := fieldOffset_succ D 0
      have e2 := fieldOffset_succ D 1
      have e3 := fieldOffset_succ D 2
      have e4 := fieldOffset_succ D 3
      norm_num at e1 e2 e3 e4
      by_cases c1 : i < fieldOffset D 1
      · exact ⟨0, by omega, by omega, by omega⟩
      by_cases c2 : i < fieldOffset D 2
      · exact ⟨1, by omega, by omega, by omega⟩
      by_cases c3 : i < fieldOffset D 3
      · exact ⟨2, by omega, by omega, by omega⟩
      · exact ⟨3, by omega, by omega, by omega⟩
    obtain ⟨h, hh, hle, hlt'⟩ := hfind
    obtain ⟨r, hr⟩ := (H.field h hh).ontoFree _ hlt'
    have := hall h hh r _ hr
    rwa [fieldValue_free hr, Nat.add_sub_cancel' hle] at this
  · rw [hcount] at hi
    dsimp only at hi
    split_ifs at hi with hb
    · have hb' : count.totalBoundary = 0 := by rw [hcount]; exact hb
      obtain rfl : i = fieldOffset D 4 := by omega
      exact (hclosed hb').1
    · omega

end

end PolyDiM
