import Verif.Lemmas.BrinkmanExample
import Verif.Spec.DfFlow

/-!
# Lemmas: a flow on the mesh of two triangles
-/

namespace PolyDiM

open Spec MvPolynomial MeasureTheory

theorem flow_data (a : ℝ) : IsFlowData flowTest 1 squareQ (X 0 * X 1 - C a) := by
  have h01 : pderiv (0 : Fin 2) (X 1 : MvPolynomial (Fin 2) ℝ) = 0 := pderiv_X_of_ne (by decide)
  have h10 : pderiv (1 : Fin 2) (X 0 : MvPolynomial (Fin 2) ℝ) = 0 := pderiv_X_of_ne (by decide)
  constructor
  · intro x; rfl
  · intro x
    simp [flowTest, squareQ, vectorPoly, Derivation.leibniz, h01, h10]
    ring
  · intro x
    simp [flowTest, squareQ, vectorPoly, Derivation.leibniz, h01, h10]
  · intro x
    rw [squareQ_div]
    simp [flowTest]

theorem flow_boundary_open {info : Nat → MeshInfo} (hi : ∀ h < 2, (info h).bInfo 0 = [⟨.strong, 1⟩, ⟨.strong, 1⟩, ⟨.weak, 2⟩, ⟨.strong, 1⟩] ∧
      (info h).bInfo 1 = [⟨.strong, 1⟩, ⟨.weak, 2⟩, ⟨.none, 0⟩, ⟨.weak, 3⟩, ⟨.strong, 1⟩]) :
    IsFlowBoundary flowTest patchMesh (fun _ => 3) patchDir patchNrm info 1 squareQ (X 0 * X 1 - C 0) := by
  have h01 : pderiv (0 : Fin 2) (X 1 : MvPolynomial (Fin 2) ℝ) = 0 := pderiv_X_of_ne (by decide)
  have h10 : pderiv (1 : Fin 2) (X 0 : MvPolynomial (Fin 2) ℝ) = 0 := pderiv_X_of_ne (by decide)
  have hst : ∀ h < 2, ∀ m x, flowTest.strong m x h = component (vectorPoly squareQ x) h := by
    intro h hh m x
    interval_cases h <;> simp [flowTest, squareQ, vectorPoly, component]
    ring
  constructor
  · intro h hh v b _ _; exact hst h hh _ _
  · intro h hh E b t _ _; exact hst h hh _ _
  · intro c hc e he b hb hw t p hp
    rw [(hi 0 (by norm_num)).2] at hb
    have : c < 2 := hc
    have h1 : p.1 = (edgePoint patchMesh (cellEdge patchMesh c e) t).1 := by rw [hp]
    have h2 : p.2 = (edgePoint patchMesh (cellEdge patchMesh c e) t).2 := by rw [hp]
    interval_cases c <;> interval_cases e <;> simp [cellEdge, patchMesh, patchTopo] at hb <;> subst hb <;> simp at hw <;>
      simp [flowTest, squareQ, Derivation.leibniz, h10, patchNrm, patchLen, clockwise, cellPoint, cellVertex, patchMesh, patchTopo, squareV,
        edgePoint, segPoint, cellEdge] at h1 h2 ⊢
    simp [h1]
    ring
  · intro c hc e he b hb hw t p hp
    rw [(hi 1 (by norm_num)).2] at hb
    have : c < 2 := hc
    have h1 : p.1 = (edgePoint patchMesh (cellEdge patchMesh c e) t).1 := by rw [hp]
    have h2 : p.2 = (edgePoint patchMesh (cellEdge patchMesh c e) t).2 := by rw [hp]
    interval_cases c <;> interval_cases e <;> simp [cellEdge, patchMesh, patchTopo] at hb <;> subst hb <;> simp at hw <;>
      simp [flowTest, squareQ, Derivation.leibniz, h01, h10, patchNrm, patchLen, clockwise, cellPoint, cellVertex, patchMesh, patchTopo, squareV,
        edgePoint, segPoint, cellEdge] at h1 h2 ⊢
    simp [h2]
    ring
  · intro h hh E hE
    unfold bTypeOf at hE ⊢
    rw [(hi h hh).2] at hE
    rw [(hi h hh).1]
    match E with
    | 0 => exact ⟨rfl, rfl⟩
    | 1 => simp at hE
    | 2 => simp at hE
    | 3 => simp at hE
    | 4 => exact ⟨rfl, rfl⟩
    | E + 5 => simp at hE
  · intro h hh E b hb hw hs
    rw [(hi h hh).2] at hb
    match E with
    | 0 => simp at hb; subst hb; simp at hs
    | 1 => simp at hb; subst hb; simp at hw
    | 2 => rfl
    | 3 => simp at hb; subst hb; simp at hw
    | 4 => simp at hb; subst hb; simp at hs
    | E + 5 => simp at hb

theorem flow_boundary_closed {info : Nat → MeshInfo} (hi : ∀ h < 2, (info h).bInfo 0 = [⟨.strong, 1⟩, ⟨.strong, 1⟩, ⟨.strong, 2⟩, ⟨.strong, 1⟩] ∧
      (info h).bInfo 1 = [⟨.strong, 1⟩, ⟨.strong, 2⟩, ⟨.none, 0⟩, ⟨.strong, 3⟩, ⟨.strong, 1⟩]) (a : ℝ) :
    IsFlowBoundary flowTest patchMesh (fun _ => 3) patchDir patchNrm info 1 squareQ (X 0 * X 1 - C a) := by
  have hst : ∀ h < 2, ∀ m x, flowTest.strong m x h = component (vectorPoly squareQ x) h := by
    intro h hh m x
    interval_cases h <;> simp [flowTest, squareQ, vectorPoly, component]
    ring
  have hno : ∀ h < 2, ∀ (E : Nat) (b : BInfo), ((info h).bInfo 1)[E]? = some b → b.type ≠ .weak := by
    intro h hh E b hb
    rw [(hi h hh).2] at hb
    match E with
    | 0 => simp at hb; subst hb; simp
    | 1 => simp at hb; subst hb; simp
    | 2 => simp at hb; subst hb; simp
    | 3 => simp at hb; subst hb; simp
    | 4 => simp at hb; subst hb; simp
    | E + 5 => simp at hb
  constructor
  · intro h hh v b _ _; exact hst h hh _ _
  · intro h hh E b t _ _; exact hst h hh _ _
  · intro c hc e he b hb hw t p hp
    exact absurd hw (hno 0 (by norm_num) _ b hb)
  · intro c hc e he b hb hw t p hp
    exact absurd hw (hno 1 (by norm_num) _ b hb)
  · intro h hh E hE
    unfold bTypeOf at hE ⊢
    rw [(hi h hh).2] at hE
    rw [(hi h hh).1]
    match E with
    | 0 => exact ⟨rfl, rfl⟩
    | 1 => exact ⟨rfl, rfl⟩
    | 2 => simp at hE
    | 3 => exact ⟨rfl, rfl⟩
    | 4 => exact ⟨rfl, rfl⟩
    | E + 5 => simp at hE
  · intro h hh E b hb hw hs
    rw [(hi h hh).2] at hb
    match E with
    | 0 => simp at hb; subst hb; simp at hs
    | 1 => simp at hb; subst hb; simp at hs
    | 2 => rfl
    | 3 => simp at hb; subst hb; simp at hs
    | 4 => simp at hb; subst hb; simp at hs
    | E + 5 => simp at hb

/-- The mean of the pressure `xy - 1/4` is zero. -/
theorem flow_mean : ∑ c ∈ Finset.range patchMesh.num2D, ∫ p in unionOf (patchPoly c).tris, eval ![p.1, p.2] (X 0 * X 1 - C (1 / 4) : MvPolynomial (Fin 2) ℝ) = 0 := by
  have h01 : pderiv (0 : Fin 2) (X 1 : MvPolynomial (Fin 2) ℝ) = 0 := pderiv_X_of_ne (by decide)
  have key : ∀ c < patchMesh.num2D, ∫ p in unionOf (patchPoly c).tris, eval ![p.1, p.2] (X 0 * X 1 - C (1 / 4) : MvPolynomial (Fin 2) ℝ) = 0 := by
    intro c hc
    obtain ⟨internal, bnd, _, _, hR⟩ := rules_ok (patch_mesh.element c hc) square_tables
    have hD := discrete_ok (patch_mesh.element c hc) (by norm_num) hR
    have h1 := hR.integral (X 0 * X 1 - C (1 / 4)) ((totalDegree_sub _ _).trans (max_le ((totalDegree_mul _ _).trans (by simp)) (by rw [totalDegree_C]; norm_num)))
    have h2 := hD.gaussX (C (1 / 2) * X 0 * X 0 * X 1 - C (1 / 4) * X 0) ((totalDegree_sub _ _).trans (max_le
      ((totalDegree_mul _ _).trans (add_le_add ((totalDegree_mul _ _).trans (add_le_add ((totalDegree_mul _ _).trans (by simp)) (totalDegree_X _).le)) (totalDegree_X _).le))
      ((totalDegree_mul _ _).trans (by simp))))
    have e : pderiv (0 : Fin 2) (C (1 / 2) * X 0 * X 0 * X 1 - C (1 / 4) * X 0 : MvPolynomial (Fin 2) ℝ) = X 0 * X 1 - C (1 / 4) := by
      refine ev2_ext fun p => ?_
      simp [ev2, Derivation.leibniz, h01]
      ring
    rw [e, h1] at h2
    have h3 := hR.anyX (ev2 (C (1 / 2) * X 0 * X 0 * X 1 - C (1 / 4) * X 0))
    rw [show quadLin bnd.points bnd.nx (C (1 / 2) * X 0 * X 0 * X 1 - C (1 / 4) * X 0) = quadSum bnd.points bnd.nx (ev2 (C (1 / 2) * X 0 * X 0 * X 1 - C (1 / 4) * X 0)) from rfl, h3] at h2
    refine Eq.trans h2.symm ?_
    have : c < 2 := hc
    interval_cases c <;>
      simp [Finset.sum_range_succ, squareV, patchPoly, quadSum, polyEdge, segPoint, ev2, cellPoint, cellVertex, patchMesh, patchTopo, patchDir] <;> norm_num
  exact Finset.sum_eq_zero fun c hc => key c (Finset.mem_range.1 hc)

end PolyDiM
