import Verif.Lemmas.FemTriangleBasis
import Verif.Spec.Calculus2
import Mathlib.Analysis.Calculus.Deriv.Comp
import Mathlib.Tactic.IntervalCases

/-! Helper lemmas: second derivatives of the triangle. -/

namespace PolyDiM
open Spec

/-- A cubic polynomial in two variables. -/
structure Cubic where
  a : ℝ
  b : ℝ
  c : ℝ
  d : ℝ
  e : ℝ
  f : ℝ
  g : ℝ
  h : ℝ
  i : ℝ
  j : ℝ

def Cubic.eval (P : Cubic) (x y : ℝ) : ℝ :=
  P.a + P.b * x + P.c * y + P.d * x ^ 2 + P.e * (x * y) + P.f * y ^ 2 + P.g * x ^ 3 + P.h * (x ^ 2 * y) + P.i * (x * y ^ 2) + P.j * y ^ 3

def Cubic.dx (P : Cubic) : Cubic := ⟨P.b, 2 * P.d, P.e, 3 * P.g, 2 * P.h, P.i, 0, 0, 0, 0⟩
def Cubic.dy (P : Cubic) : Cubic := ⟨P.c, P.e, 2 * P.f, P.h, 2 * P.i, 3 * P.j, 0, 0, 0, 0⟩

/-- Derivative along a line. -/
theorem Cubic.line (P : Cubic) (x y α β s : ℝ) :
    HasDerivAt (fun s => P.eval (x + α * s) (y + β * s)) (α * P.dx.eval (x + α * s) (y + β * s) + β * P.dy.eval (x + α * s) (y + β * s)) s := by
  have hx : HasDerivAt (fun s => x + α * s) α s := by simpa using ((hasDerivAt_id s).const_mul α).const_add x
  have hy : HasDerivAt (fun s => y + β * s) β s := by simpa using ((hasDerivAt_id s).const_mul β).const_add y
  have h := (((((((((hasDerivAt_const s P.a).add (hx.const_mul P.b)).add (hy.const_mul P.c)).add ((hx.pow 2).const_mul P.d)).add
    ((hx.mul hy).const_mul P.e)).add ((hy.pow 2).const_mul P.f)).add ((hx.pow 3).const_mul P.g)).add
    (((hx.pow 2).mul hy).const_mul P.h)).add ((hx.mul (hy.pow 2)).const_mul P.i)).add ((hy.pow 3).const_mul P.j)
  refine (h.congr_deriv ?_).congr_of_eventuallyEq ?_
  · simp [Cubic.eval, Cubic.dx, Cubic.dy]
    ring
  · exact Filter.Eventually.of_forall fun s => by simp [Cubic.eval]

theorem Cubic.partials (P : Cubic) : HasPartials2 P.eval P.dx.eval P.dy.eval := by
  intro x y
  constructor
  · have := P.line 0 y 1 0 x
    simpa using this
  · have := P.line x 0 0 1 y
    simpa using this

theorem Cubic.second (P : Cubic) (x y : ℝ) :
    HasSecond2 P.eval x y (P.dx.dx.eval x y) (P.dx.dy.eval x y) (P.dy.dx.eval x y) (P.dy.dy.eval x y) :=
  ⟨_, _, P.partials, (P.dx.partials x y).1, (P.dx.partials x y).2, (P.dy.partials x y).1, (P.dy.partials x y).2⟩

/-- The basis functions of order 2. -/
def cub2 : List Cubic :=
  [⟨1, -3, -3, 2, 4, 2, 0, 0, 0, 0⟩, ⟨0, -1, 0, 2, 0, 0, 0, 0, 0, 0⟩, ⟨0, 0, -1, 0, 0, 2, 0, 0, 0, 0⟩, ⟨0, 4, 0, -4, -4, 0, 0, 0, 0, 0⟩,
   ⟨0, 0, 0, 0, 4, 0, 0, 0, 0, 0⟩, ⟨0, 0, 4, 0, -4, -4, 0, 0, 0, 0⟩]

/-- The basis functions of order 3. -/
noncomputable def cub3 : List Cubic :=
  [⟨1, -11/2, -11/2, 9, 18, 9, -9/2, -27/2, -27/2, -9/2⟩, ⟨0, 1, 0, -9/2, 0, 0, 9/2, 0, 0, 0⟩, ⟨0, 0, 1, 0, 0, -9/2, 0, 0, 0, 9/2⟩,
   ⟨0, 9, 0, -45/2, -45/2, 0, 27/2, 27, 27/2, 0⟩, ⟨0, -9/2, 0, 18, 9/2, 0, -27/2, -27/2, 0, 0⟩, ⟨0, 0, 0, 0, -9/2, 0, 0, 27/2, 0, 0⟩,
   ⟨0, 0, 0, 0, -9/2, 0, 0, 0, 27/2, 0⟩, ⟨0, 0, -9/2, 0, 9/2, 18, 0, 0, -27/2, -27/2⟩, ⟨0, 0, 9, 0, -45/2, -45/2, 0, 27/2, 27, 27/2⟩,
   ⟨0, 0, 0, 0, 27, 0, 0, -27, -27, 0⟩]

/-- Every basis function of order at most three is a cubic with the tabulated second derivatives. -/
theorem tri_cubic (k : Nat) (hk : k ≤ 3) (d : TriData ℝ) (hd : triCreate ℝ k = .ok d) (i : Nat) (hi : i < d.numBasis) :
    ∃ P : Cubic, (∀ x y, triValue d x y i = .ok (P.eval x y)) ∧ ∀ x y, P.dx.dx.eval x y = triSecond d x y i 0 ∧
      P.dx.dy.eval x y = triSecond d x y i 1 ∧ P.dy.dx.eval x y = triSecond d x y i 2 ∧ P.dy.dy.eval x y = triSecond d x y i 3 := by
  rcases k with _ | _ | _ | _ | k
  · simp only [triCreate, if_true, Except.ok.injEq] at hd
    subst hd
    refine ⟨⟨1, 0, 0, 0, 0, 0, 0, 0, 0, 0⟩, fun x y => ?_, fun x y => ?_⟩
    · simp [Cubic.eval]
      rfl
    · simp [Cubic.eval, Cubic.dx, Cubic.dy, triSecond]
  · rw [triCreate_ok] at hd
    injection hd with hd
    change triRef ℝ 0 = d at hd
    subst hd
    have hi : i < 3 := hi
    have ht : triTypes 0 = [(1, 0, 0), (0, 1, 0), (0, 0, 1)] := by decide
    interval_cases i
    · refine ⟨⟨1, -1, -1, 0, 0, 0, 0, 0, 0, 0⟩, fun x y => ?_, fun x y => ?_⟩
      · rw [triValue_ok (t := (1, 0, 0)) (by rw [ht]; rfl)]
        congr 1
        simp [triPhi, bq, Cubic.eval]
        ring
      · simp [Cubic.eval, Cubic.dx, Cubic.dy, triSecond, triSecond2, triSecond3, triRef]
    · refine ⟨⟨0, 1, 0, 0, 0, 0, 0, 0, 0, 0⟩, fun x y => ?_, fun x y => ?_⟩
      · rw [triValue_ok (t := (0, 1, 0)) (by rw [ht]; rfl)]
        congr 1
        simp [triPhi, bq, Cubic.eval]
      · simp [Cubic.eval, Cubic.dx, Cubic.dy, triSecond, triSecond2, triSecond3, triRef]
    · refine ⟨⟨0, 0, 1, 0, 0, 0, 0, 0, 0, 0⟩, fun x y => ?_, fun x y => ?_⟩
      · rw [triValue_ok (t := (0, 0, 1)) (by rw [ht]; rfl)]
        congr 1
        simp [triPhi, bq, Cubic.eval]
      · simp [Cubic.eval, Cubic.dx, Cubic.dy, triSecond, triSecond2, triSecond3, triRef]
  · rw [triCreate_ok] at hd
    injection hd with hd
    change triRef ℝ 1 = d at hd
    subst hd
    have hi : i < 6 := hi
    have ht : triTypes 1 = [(2, 0, 0), (0, 2, 0), (0, 0, 2), (1, 1, 0), (0, 1, 1), (1, 0, 1)] := by decide
    refine ⟨cub2.getD i ⟨0, 0, 0, 0, 0, 0, 0, 0, 0, 0⟩, fun x y => ?_, fun x y => ?_⟩
    · rw [triValue_ok (t := (triTypes 1).getD i (0, 0, 0)) (by rw [ht]; interval_cases i <;> rfl)]
      congr 1
      rw [ht]
      interval_cases i <;> simp [triPhi, bq, Cubic.eval, cub2, Finset.prod_range_succ] <;> ring
    · interval_cases i <;> norm_num [Cubic.eval, Cubic.dx, Cubic.dy, triSecond, triSecond2, triSecond3, triRef, cub2]
  · rw [triCreate_ok] at hd
    injection hd with hd
    change triRef ℝ 2 = d at hd
    subst hd
    have hi : i < 10 := hi
    have ht : triTypes 2 = [(3, 0, 0), (0, 3, 0), (0, 0, 3), (2, 1, 0), (1, 2, 0), (0, 2, 1), (0, 1, 2), (1, 0, 2), (2, 0, 1), (1, 1, 1)] := by
      decide
    refine ⟨cub3.getD i ⟨0, 0, 0, 0, 0, 0, 0, 0, 0, 0⟩, fun x y => ?_, fun x y => ?_⟩
    · rw [triValue_ok (t := (triTypes 2).getD i (0, 0, 0)) (by rw [ht]; interval_cases i <;> rfl)]
      congr 1
      rw [ht]
      interval_cases i <;> simp [triPhi, bq, Cubic.eval, cub3, Finset.prod_range_succ] <;> ring
    · interval_cases i <;> norm_num [Cubic.eval, Cubic.dx, Cubic.dy, triSecond, triSecond2, triSecond3, triRef, cub3] <;>
        (try constructor) <;> (try constructor) <;> (try constructor) <;> ring
  · omega

end PolyDiM
