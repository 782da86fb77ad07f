import Verif.Model.VemPerformance
import Mathlib.Data.Real.Basic

/-!
# Spec: the analysis of a local VEM space
-/

namespace PolyDiM.Spec

/-- A matrix of a given size. -/
def Sized (A : DMat ℝ) (r c : Nat) : Prop := A.rows = r ∧ A.cols = c

/-- Data of the sizes of a space with `L` basis functions, `N` polynomials of the full degree and `M` of one degree less, in the plane. -/
structure PerfSizes (N M L : Nat) (s : PerfInput ℝ) (der : List (DMat ℝ)) (TX TY X Y EX EY : DMat ℝ) : Prop where
  numProj : s.numProj = N
  nkm1 : s.nkm1 = M
  le : M ≤ N
  pos : 0 < M
  basis : 0 < L
  q : Sized s.q N N
  qInv : Sized s.qInv N N
  piNabla : Sized s.piNabla N L
  pi0km1 : Sized s.pi0km1 M L
  pi0k : Sized s.pi0k N L
  D : Sized s.D L N
  ders : s.ders = [X, Y]
  x : Sized X M L
  y : Sized Y M L
  H : Sized s.H N N
  C : Sized s.C N L
  G : Sized s.G N N
  B : Sized s.B N L
  Es : s.Es = [EX, EY]
  eX : Sized EX M L
  eY : Sized EY M L
  der : der = [TX, TY]
  tX : Sized TX N N
  tY : Sized TY N N

/-- Every error of the analysis is zero, except perhaps the last ones. -/
structure NoErrorsButHED (r : PerfData ℝ) : Prop where
  piNabla : r.errPiNabla = 0
  pi0km1 : r.errPi0km1 = 0
  pi0k : r.errPi0k = 0
  grad : r.errGrad = [0, 0]
  stab : r.errStab = 0
  hcd : r.errHCD = 0
  gbd : r.errGBD = 0

end PolyDiM.Spec
