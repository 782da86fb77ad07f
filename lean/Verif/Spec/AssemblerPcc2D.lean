import Verif.Model.AssemblerPcc2D

/-!
# Specification vocabulary: a pair of local spaces given by the values of their functions at the quadrature points
-/

namespace PolyDiM.Spec

/-- At the `Q` quadrature points `x q` of the trial space, with weights `w q`, the values of trial function `j < m` are `S q j`, its derivatives
`SD d q j`, those of test function `i < n` are `T q i` and `TD d q i`. -/
structure Tabulated {K : Type} (trial test : Space2D K) (Q n m : Nat) (x : Nat → K × K) (w : Nat → K) (S T : Nat → Nat → K) (SD TD : Nat → Nat → Nat → K) : Prop where
  trialSize : trial.size = m
  testSize : test.size = n
  points : trial.internal.points = (List.range Q).map x
  weights : trial.internal.weights = (List.range Q).map w
  trialValues : trial.valuesInt .pi0km1 = .ok ⟨Q, m, S⟩
  trialDers : trial.dersInt .pi0km1Der = .ok [⟨Q, m, SD 0⟩, ⟨Q, m, SD 1⟩]
  testValues : test.valuesAt .pi0km1 trial.internal.points = .ok ⟨Q, n, T⟩
  testDers : test.dersAt .pi0km1Der trial.internal.points = .ok [⟨Q, n, TD 0⟩, ⟨Q, n, TD 1⟩]

end PolyDiM.Spec
