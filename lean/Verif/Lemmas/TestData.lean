import Verif.Spec.TestData
import Verif.Model.TestDataElastic
import Verif.Props.Elliptic1D
import Mathlib.Analysis.Calculus.Deriv.Pow
import Mathlib.Analysis.Calculus.Deriv.Mul
import Mathlib.Analysis.Calculus.Deriv.Add
import Mathlib.Analysis.SpecialFunctions.Trigonometric.Deriv
import Mathlib.Analysis.SpecialFunctions.ExpDeriv
import Mathlib.Tactic.IntervalCases

/-!
# Lemmas for the data of the tests
-/

namespace PolyDiM

open Spec

theorem real_const (c x : ℝ) : HasDerivAt (fun _ : ℝ => c) 0 x := hasDerivAt_const x c

theorem real_id (x : ℝ) : HasDerivAt (fun t : ℝ => t) 1 x := hasDerivAt_id' x

theorem real_pow {f : ℝ → ℝ} {f' x : ℝ} (n : Nat) (h : HasDerivAt f f' x) : HasDerivAt (fun t => f t ^ n) (n * f x ^ (n - 1) * f') x := h.fun_pow n

theorem real_div {f : ℝ → ℝ} {f' x : ℝ} (c : ℝ) (h : HasDerivAt f f' x) : HasDerivAt (fun t => f t / c) (f' / c) x := h.div_const c

/-- Differentiates an expression in one variable. -/
macro "derive" : tactic => `(tactic| (repeat' (first
  | with_reducible exact real_const _ _
  | with_reducible exact real_id _
  | with_reducible apply HasDerivAt.fun_add
  | with_reducible apply HasDerivAt.fun_sub
  | with_reducible apply HasDerivAt.fun_neg
  | with_reducible apply HasDerivAt.fun_mul
  | with_reducible apply real_pow
  | with_reducible apply real_div
  | with_reducible apply HasDerivAt.sin
  | with_reducible apply HasDerivAt.cos
  | with_reducible apply HasDerivAt.exp)))

theorem has_partials {u gx gy : ℝ × ℝ → ℝ} (hx : ∀ x y, HasDerivAt (fun t => u (t, y)) (gx (x, y)) x) (hy : ∀ x y, HasDerivAt (fun t => u (x, t)) (gy (x, y)) y) :
    HasPartials u gx gy := fun x y => ⟨hx x y, hy x y⟩

theorem divergence_intro {f g : ℝ → ℝ} {x y a b c : ℝ} (ha : HasDerivAt f a x) (hb : HasDerivAt g b y) (hc : c = a + b) :
    ∃ a' b', HasDerivAt f a' x ∧ HasDerivAt g b' y ∧ c = a' + b' := ⟨a, b, ha, hb, hc⟩

theorem side0 {p : ℝ × ℝ} (h : OnSide 0 p) : p.2 = 0 := by
  obtain ⟨t, -, -, rfl⟩ := h
  simp [corner]

theorem side1 {p : ℝ × ℝ} (h : OnSide 1 p) : p.1 = 1 := by
  obtain ⟨t, -, -, rfl⟩ := h
  simp [corner]

theorem side2 {p : ℝ × ℝ} (h : OnSide 2 p) : p.2 = 1 := by
  obtain ⟨t, -, -, rfl⟩ := h
  simp [corner]

theorem side3 {p : ℝ × ℝ} (h : OnSide 3 p) : p.1 = 0 := by
  obtain ⟨t, -, -, rfl⟩ := h
  simp [corner]

/-- The derivative of a power with the truncated exponent. -/
theorem power_deriv {f : ℝ → ℝ} {f' x : ℝ} (h : HasDerivAt f f' x) (a : ℝ) (n : Nat) : HasDerivAt (fun t => powerLoop a (f t) n) (n * powerLoop a (f x) (n - 1) * f') x := by
  simp only [powerLoop_eq]
  refine ((hasDerivAt_const x a).fun_mul (h.fun_pow n)).congr_deriv ?_
  ring

end PolyDiM
